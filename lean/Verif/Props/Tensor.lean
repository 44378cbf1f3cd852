import Verif.Lemmas.Tensor

/-!
# C14, C15: the Tensor layer; C40 (first part): the mask and the duplicated kernel
-/

namespace E3x

open Spec
open Finset (range)

/-- **C40 (mask).** Inside its shape, the tensor product mask is one exactly where the parities of the two coupled
entries add up to the parity of the output entry, and zero elsewhere. With two parity channels the parity of an entry
is its channel, with one channel it is the parity of its degree. -/
theorem C40_mask (s : MaskShape) (h1 : s.S1 = 1 ∨ s.S1 = 2) (h2 : s.S2 = 1 ∨ s.S2 = 2) (h3 : s.S3 = 1 ∨ s.S3 = 2)
    (p1 l1 p2 l2 p3 l3 : ℕ) (hp1 : p1 < s.S1) (hp2 : p2 < s.S2) (hp3 : p3 < s.S3)
    (hl1 : l1 < s.L1) (hl2 : l2 < s.L2) (hl3 : l3 < s.L3) :
    makeTensorProductMask s p1 l1 p2 l2 p3 l3 =
      if ((if s.S1 = 2 then p1 else l1 % 2) + (if s.S2 = 2 then p2 else l2 % 2)) % 2 =
        (if s.S3 = 2 then p3 else l3 % 2) then 1 else 0 :=
  mask_eq s h1 h2 h3 p1 l1 p2 l2 p3 l3 hp1 hp2 hp3 hl1 hl2 hl3

example : makeTensorProductMask ⟨2, 3, 1, 2, 1, 3⟩ 1 2 0 1 0 2 = 1 := by
  rw [C40_mask] <;> simp

/-- **C40 (duplication).** The expanded kernel assigns to every component the weight of its degree. -/
theorem C40_duplication (L i : ℕ) (h : i < (L + 1) ^ 2) : dup L i = Nat.sqrt i := dup_eq h

/-- The documented type of the output of a tensor product: pseudotensors are present iff requested, unless they cannot
arise because neither input has pseudotensors and one of the three maximum degrees is zero. -/
theorem outPseudo_iff (cfg : TensorCfg) (x y : Feat) :
    outPseudo cfg x y = true ↔ cfg.includePseudo = true ∧
      ¬ (x.pseudo = false ∧ y.pseudo = false ∧ (x.L = 0 ∨ y.L = 0 ∨ cfg.maxDegree.getD (max x.L y.L) = 0)) := by
  unfold outPseudo outDegree
  cases hx : x.pseudo <;> cases hy : y.pseudo <;> simp [chan]
  tauto

theorem chan_cases (b : Bool) : chan b = 1 ∨ chan b = 2 := by cases b <;> simp [chan]

theorem slot_lt {b : Bool} {r : ℕ} (hr : r < 2) : slot b r < chan b := by
  cases b <;> simp [slot, chan, hr]

theorem entryParity_slot {b : Bool} {r l : ℕ} (h : b = true ∨ r = l % 2) :
    entryParity (chan b) (slot b r) l = r := by
  cases b
  · simp only [Bool.false_eq_true, false_or] at h
    simp [entryParity, chan, h]
  · simp [entryParity, chan, slot]

theorem comp_of_mem (x : Feat) {p i f : ℕ} (hp : p < 2) (hi : i < (x.L + 1) ^ 2)
    (h : x.pseudo = true ∨ p = deg i % 2) : comp x p i f = x.val (slot x.pseudo p) i f := by
  unfold comp slot
  rw [if_neg (by omega)]
  cases hx : x.pseudo
  · simp only [hx, Bool.false_eq_true, false_or] at h
    simp [h]
  · simp

/-- **C15 (meaning).** If the requested maximum degree is at most the sum of those of the inputs and the feature counts
agree, a Tensor layer returns an array with the requested maximum degree (default: the larger of the inputs) and the
documented type, whose component of parity `r` at position `n` is the sum over all pairs of input components with
parities `p + q ≡ r`, weighted by the kernel entry of their parities and degrees and the Clebsch-Gordan coefficient. -/
theorem C15_tensor (cfg : TensorCfg) (K : TensorKernel) (cg : ℕ → ℕ → ℕ → ℝ) (x y : Feat)
    (hL : cfg.maxDegree.getD (max x.L y.L) ≤ x.L + y.L) (hF : x.F = y.F) :
    ∃ z, tensor cfg K cg x y = .ok z ∧ z.L = cfg.maxDegree.getD (max x.L y.L) ∧ z.F = x.F ∧
      (z.pseudo = true ↔ cfg.includePseudo = true ∧ ¬ (x.pseudo = false ∧ y.pseudo = false ∧
        (x.L = 0 ∨ y.L = 0 ∨ cfg.maxDegree.getD (max x.L y.L) = 0))) ∧
      ∀ r n f, comp z r n f =
        if r < 2 ∧ n < (z.L + 1) ^ 2 ∧ (z.pseudo = true ∨ r = deg n % 2) then
          coupled (fun p l q m r n => K (slot x.pseudo p) l (slot y.pseudo q) m (slot z.pseudo r) n f) cg x y r n f
        else 0 := by
  have h1 : ¬ x.L + y.L < outDegree cfg x y := by unfold outDegree; omega
  unfold tensor
  rw [if_neg h1, if_neg (by simpa using hF)]
  refine ⟨_, rfl, rfl, rfl, outPseudo_iff cfg x y, ?_⟩
  intro r n f
  by_cases hc : r < 2 ∧ n < (outDegree cfg x y + 1) ^ 2 ∧ (outPseudo cfg x y = true ∨ r = deg n % 2)
  swap
  · rw [if_neg hc]
    unfold comp
    dsimp only
    split
    · rfl
    · rename_i ho
      rw [not_or, not_le, not_le] at ho
      have : ¬ (outPseudo cfg x y = true ∨ r = deg n % 2) := fun h => hc ⟨ho.2, ho.1, h⟩
      rw [not_or] at this
      rw [if_neg this.1, if_neg this.2]
  rw [if_pos hc]
  obtain ⟨hr, hn, hpar⟩ := hc
  rw [comp_of_mem _ hr hn hpar]
  dsimp only
  have hdn : deg n < outDegree cfg x y + 1 := Nat.lt_succ_of_le (deg_le_of_lt hn)
  by_cases hm : mixedPaths cfg x y
  swap
  · -- all arrays have pseudotensors
    rw [if_neg hm]
    have hm' := not_not.1 hm
    have hx : x.pseudo = true := by
      have := hm'.1.trans (hm'.2.1.trans hm'.2.2)
      cases h : x.pseudo <;> simp [chan, h] at this ⊢
    have hy : y.pseudo = true := by
      have := hm'.2.1.trans hm'.2.2
      cases h : y.pseudo <;> simp [chan, h] at this ⊢
    have ho : outPseudo cfg x y = true := by
      have := hm'.2.2
      cases h : outPseudo cfg x y <;> simp [chan, h] at this ⊢
    have key : ∀ i j k, i < 2 → j < 2 → coupleSlices (expandedKernel cfg K x y) cg x y i j k n f =
        ∑ l ∈ range ((x.L + 1) ^ 2), ∑ m ∈ range ((y.L + 1) ^ 2),
          comp x i l f * comp y j m f * K i (deg l) j (deg m) k (deg n) f * cg l m n := by
      intro i j k hi hj
      unfold coupleSlices
      apply Finset.sum_congr rfl
      intro l hl
      apply Finset.sum_congr rfl
      intro m hm'
      simp only [expandedKernel, if_neg hm]
      rw [comp_of_mem x hi (Finset.mem_range.1 hl) (Or.inl hx), comp_of_mem y hj (Finset.mem_range.1 hm') (Or.inl hy),
        dup_eq (Finset.mem_range.1 hl), dup_eq (Finset.mem_range.1 hm'), dup_eq hn]
      simp [slot, hx, hy]
    unfold coupled slicesEinsum
    simp only [Finset.sum_range_succ (n := 1), Finset.sum_range_succ (n := 0), Finset.range_zero, Finset.sum_empty,
      zero_add]
    have hr2 : r = 0 ∨ r = 1 := by omega
    rcases hr2 with rfl | rfl
    · simp only [slot, hx, hy, ho, if_true]
      rw [key 0 0 0 (by norm_num) (by norm_num), key 1 1 0 (by norm_num) (by norm_num)]
      norm_num
    · simp only [slot, hx, hy, ho, if_true]
      rw [key 0 1 1 (by norm_num) (by norm_num), key 1 0 1 (by norm_num) (by norm_num)]
      norm_num
  · rw [if_pos hm]
    unfold mixedEinsum
    -- reorder to have the positions outside
    have e1 : ∀ (G : ℕ → ℕ → ℕ → ℕ → ℝ),
        ∑ p ∈ range (chan x.pseudo), ∑ l ∈ range ((x.L + 1) ^ 2), ∑ q ∈ range (chan y.pseudo),
          ∑ m ∈ range ((y.L + 1) ^ 2), G p l q m =
        ∑ l ∈ range ((x.L + 1) ^ 2), ∑ m ∈ range ((y.L + 1) ^ 2), ∑ p ∈ range (chan x.pseudo),
          ∑ q ∈ range (chan y.pseudo), G p l q m := by
      intro G
      rw [Finset.sum_comm]
      apply Finset.sum_congr rfl
      intro l _
      rw [Finset.sum_congr rfl fun p _ => Finset.sum_comm (s := range (chan y.pseudo))]
      rw [Finset.sum_comm]
    rw [e1]
    have e2 : coupled (fun p l q m r n =>
          K (slot x.pseudo p) l (slot y.pseudo q) m (slot (outPseudo cfg x y) r) n f) cg x y r n f =
        ∑ l ∈ range ((x.L + 1) ^ 2), ∑ m ∈ range ((y.L + 1) ^ 2), ∑ p ∈ range 2, ∑ q ∈ range 2,
          if (p + q) % 2 = r then comp x p l f * comp y q m f *
            K (slot x.pseudo p) (deg l) (slot y.pseudo q) (deg m) (slot (outPseudo cfg x y) r) (deg n) f * cg l m n
          else 0 := by
      unfold coupled
      have : ∀ p q, (if (p + q) % 2 = r then ∑ l ∈ range ((x.L + 1) ^ 2), ∑ m ∈ range ((y.L + 1) ^ 2),
          comp x p l f * comp y q m f *
            K (slot x.pseudo p) (deg l) (slot y.pseudo q) (deg m) (slot (outPseudo cfg x y) r) (deg n) f * cg l m n
          else 0) = ∑ l ∈ range ((x.L + 1) ^ 2), ∑ m ∈ range ((y.L + 1) ^ 2),
            if (p + q) % 2 = r then comp x p l f * comp y q m f *
            K (slot x.pseudo p) (deg l) (slot y.pseudo q) (deg m) (slot (outPseudo cfg x y) r) (deg n) f * cg l m n
          else 0 := by
        intro p q; split <;> simp
      simp only [this]
      rw [Finset.sum_congr rfl fun p _ => Finset.sum_comm (s := range 2)]
      rw [Finset.sum_comm]
      apply Finset.sum_congr rfl
      intro l _
      rw [Finset.sum_congr rfl fun p _ => Finset.sum_comm (s := range 2)]
      rw [Finset.sum_comm]
    rw [e2]
    apply Finset.sum_congr rfl
    intro l hl
    apply Finset.sum_congr rfl
    intro m hm'
    have hl' := Finset.mem_range.1 hl
    have hm'' := Finset.mem_range.1 hm'
    have hmask : ∀ p ∈ range (chan x.pseudo), ∀ q ∈ range (chan y.pseudo),
        makeTensorProductMask ⟨chan x.pseudo, x.L + 1, chan y.pseudo, y.L + 1, chan (outPseudo cfg x y),
          outDegree cfg x y + 1⟩ p (deg l) q (deg m) (slot (outPseudo cfg x y) r) (deg n) =
          if (entryParity (chan x.pseudo) p (deg l) + entryParity (chan y.pseudo) q (deg m)) % 2 = r
            then 1 else 0 := by
      intro p hp q hq
      rw [mask_eq _ (chan_cases _) (chan_cases _) (chan_cases _) _ _ _ _ _ _ (Finset.mem_range.1 hp)
        (Finset.mem_range.1 hq) (slot_lt hr) (Nat.lt_succ_of_le (deg_le_of_lt hl'))
        (Nat.lt_succ_of_le (deg_le_of_lt hm'')) hdn]
      simp only [entryParity_slot hpar]
    have step : ∀ p ∈ range (chan x.pseudo), ∀ q ∈ range (chan y.pseudo),
        x.val p l f * y.val q m f * expandedKernel cfg K x y p l q m (slot (outPseudo cfg x y) r) n f * cg l m n =
        x.val p l f * (y.val q m f * ((K p (deg l) q (deg m) (slot (outPseudo cfg x y) r) (deg n) f *
          if (entryParity (chan x.pseudo) p (deg l) + entryParity (chan y.pseudo) q (deg m)) % 2 = r
            then 1 else 0) * cg l m n)) := by
      intro p hp q hq
      simp only [expandedKernel, if_pos hm]
      rw [dup_eq hl', dup_eq hm'', dup_eq hn, hmask p hp q hq]
      ring
    rw [Finset.sum_congr rfl fun p hp => Finset.sum_congr rfl fun q hq => step p hp q hq]
    simp only [← Finset.mul_sum]
    have s2 : ∀ p par, ∑ q ∈ range (chan y.pseudo), y.val q m f *
          ((K p (deg l) q (deg m) (slot (outPseudo cfg x y) r) (deg n) f *
          if (par + entryParity (chan y.pseudo) q (deg m)) % 2 = r then 1 else 0) * cg l m n) =
        ∑ q ∈ range 2, comp y q m f *
          ((K p (deg l) (slot y.pseudo q) (deg m) (slot (outPseudo cfg x y) r) (deg n) f *
          if (par + q) % 2 = r then 1 else 0) * cg l m n) := fun p par =>
      sum_chan y m f hm'' (fun q qpar => (K p (deg l) q (deg m) (slot (outPseudo cfg x y) r) (deg n) f *
          if (par + qpar) % 2 = r then 1 else 0) * cg l m n)
    simp only [s2]
    rw [sum_chan x l f hl' (fun p par => ∑ q ∈ range 2, comp y q m f *
          ((K p (deg l) (slot y.pseudo q) (deg m) (slot (outPseudo cfg x y) r) (deg n) f *
          if (par + q) % 2 = r then 1 else 0) * cg l m n))]
    apply Finset.sum_congr rfl
    intro p _
    rw [Finset.mul_sum]
    apply Finset.sum_congr rfl
    intro q _
    split <;> ring

/-- **C15 (errors).** A request above the sum of the maximum degrees, or with different numbers of features, raises
ValueError; nothing else does. -/
theorem C15_tensor_error (cfg : TensorCfg) (K : TensorKernel) (cg : ℕ → ℕ → ℕ → ℝ) (x y : Feat) (e : Err) :
    tensor cfg K cg x y = .error e ↔
      e = .valueError ∧ (x.L + y.L < cfg.maxDegree.getD (max x.L y.L) ∨ x.F ≠ y.F) := by
  constructor
  · intro h
    by_cases hok : cfg.maxDegree.getD (max x.L y.L) ≤ x.L + y.L ∧ x.F = y.F
    · obtain ⟨z, hz, _⟩ := C15_tensor cfg K cg x y hok.1 hok.2
      rw [hz] at h; cases h
    · refine ⟨?_, by by_contra hc; push Not at hc; exact hok hc⟩
      unfold tensor at h
      simp only at h
      split at h
      · injection h with h; exact h.symm
      · split at h
        · injection h with h; exact h.symm
        · cases h
  · rintro ⟨rfl, h⟩
    unfold tensor
    rcases h with h | h
    · rw [if_pos (by unfold outDegree; exact h)]
    · split
      · rfl
      · rfl

/-! ## Equivariance of the coupling -/

theorem coupled_reflect (W : ℕ → ℕ → ℕ → ℕ → ℕ → ℕ → ℝ) (cg : ℕ → ℕ → ℕ → ℝ) (x y : Feat) (r n f : ℕ) :
    coupled W cg (reflect x) (reflect y) r n f = (-1) ^ r * coupled W cg x y r n f := by
  have hr := fun y => (C10_reflect y 0 0 0).2
  unfold coupled
  rw [Finset.mul_sum]
  apply Finset.sum_congr rfl
  intro p _
  rw [Finset.mul_sum]
  apply Finset.sum_congr rfl
  intro q _
  split
  · rename_i hpq
    rw [(hr x).2.1, (hr y).2.1, Finset.mul_sum]
    apply Finset.sum_congr rfl
    intro l _
    rw [Finset.mul_sum]
    apply Finset.sum_congr rfl
    intro m _
    rw [(C10_reflect _ _ _ _).1, (C10_reflect _ _ _ _).1]
    have : (-1 : ℝ) ^ p * (-1) ^ q = (-1) ^ r := by
      rw [← pow_add, ← hpq, ← neg_one_pow_eq_pow_mod_two]
    rw [← this]; ring
  · simp

theorem coupled_rotate (W : ℕ → ℕ → ℕ → ℕ → ℕ → ℕ → ℝ) {cg : ℕ → ℕ → ℕ → ℝ} {D : ℕ → ℕ → ℝ}
    (hD : BlockDiag D) (hI : Intertwines cg D) (x y : Feat) (r : ℕ) {n L : ℕ} (hn : deg n ≤ L) (f : ℕ) :
    coupled W cg (rotate x D) (rotate y D) r n f = ∑ k ∈ range ((L + 1) ^ 2), coupled W cg x y r k f * D k n := by
  unfold coupled
  simp only [Finset.sum_mul]
  rw [Finset.sum_comm (s := range ((L + 1) ^ 2))]
  apply Finset.sum_congr rfl
  intro p _
  rw [Finset.sum_comm (s := range ((L + 1) ^ 2))]
  apply Finset.sum_congr rfl
  intro q _
  split
  · have e := bilinear_rotate hD hI (fun l => comp x p l f) (fun m => comp y q m f)
      (fun a b c => W p a q b r c) (L1 := x.L) (L2 := y.L) hn
    rw [← e]
    apply Finset.sum_congr rfl
    intro l hl
    apply Finset.sum_congr rfl
    intro m hm
    rw [C10_rotate x D hD p l f (Finset.mem_range.1 hl), C10_rotate y D hD q m f (Finset.mem_range.1 hm)]
  · simp

/-- **C15 (reflections).** -/
theorem C15_tensor_reflect (cfg : TensorCfg) (K : TensorKernel) (cg : ℕ → ℕ → ℕ → ℝ) (x y z : Feat)
    (hz : tensor cfg K cg x y = .ok z) :
    ∃ z', tensor cfg K cg (reflect x) (reflect y) = .ok z' ∧ z'.Same (reflect z) := by
  have hr := fun y => (C10_reflect y 0 0 0).2
  have hok : cfg.maxDegree.getD (max x.L y.L) ≤ x.L + y.L ∧ x.F = y.F := by
    by_contra hc
    have : tensor cfg K cg x y = .error .valueError :=
      (C15_tensor_error _ _ _ _ _ _).2 ⟨rfl, by by_contra h; push Not at h; exact hc h⟩
    rw [hz] at this; cases this
  obtain ⟨z0, h0, h1, h2, h3, h4⟩ := C15_tensor cfg K cg x y hok.1 hok.2
  rw [hz] at h0; injection h0 with h0; subst h0
  obtain ⟨z', g0, g1, g2, g3, g4⟩ := C15_tensor cfg K cg (reflect x) (reflect y)
    (by rw [(hr x).2.1, (hr y).2.1]; exact hok.1) (by rw [(hr x).2.2, (hr y).2.2]; exact hok.2)
  refine ⟨z', g0, ?_⟩
  rw [(hr x).2.1, (hr y).2.1] at g1 g3
  rw [(hr x).1, (hr y).1] at g3
  have hps : z'.pseudo = z.pseudo := by rw [Bool.eq_iff_iff, g3, h3]
  refine same_of_comp _ _ (by rw [hps, (hr z).1]) (by rw [g1, (hr z).2.1, h1])
    (by rw [g2, (hr x).2.2, (hr z).2.2, h2]) ?_
  intro r n f _
  rw [g4, (C10_reflect _ _ _ _).1, h4, hps, g1, h1, (hr x).1, (hr y).1]
  split
  · rw [coupled_reflect]
  · simp

/-- **C14 (rotations).** For every weight kernel, every table and every matrix which is block diagonal in the degrees
and intertwines the table, the Tensor layer of rotated inputs is the rotated output, in every combination of types. -/
theorem C14_tensor_rotate (cfg : TensorCfg) (K : TensorKernel) (cg : ℕ → ℕ → ℕ → ℝ) (D : ℕ → ℕ → ℝ)
    (hD : BlockDiag D) (hI : Intertwines cg D) (x y z : Feat) (hz : tensor cfg K cg x y = .ok z) :
    ∃ z', tensor cfg K cg (rotate x D) (rotate y D) = .ok z' ∧ z'.Same (rotate z D) := by
  have hok : cfg.maxDegree.getD (max x.L y.L) ≤ x.L + y.L ∧ x.F = y.F := by
    by_contra hc
    have : tensor cfg K cg x y = .error .valueError :=
      (C15_tensor_error _ _ _ _ _ _).2 ⟨rfl, by by_contra h; push Not at h; exact hc h⟩
    rw [hz] at this; cases this
  obtain ⟨z0, h0, h1, h2, h3, h4⟩ := C15_tensor cfg K cg x y hok.1 hok.2
  rw [hz] at h0; injection h0 with h0; subst h0
  obtain ⟨z', g0, g1, g2, g3, g4⟩ := C15_tensor cfg K cg (rotate x D) (rotate y D) hok.1 hok.2
  refine ⟨z', g0, ?_⟩
  have hps : z'.pseudo = z.pseudo := by rw [Bool.eq_iff_iff, h3]; exact g3
  have hL : z'.L = z.L := g1.trans h1.symm
  refine same_of_comp _ (rotate z D) hps hL (g2.trans h2.symm) ?_
  intro r n f _
  by_cases hn : n < (z.L + 1) ^ 2
  · rw [g4, C10_rotate z D hD r n f hn, hps, hL]
    simp only [h4]
    by_cases hc : r < 2 ∧ (z.pseudo = true ∨ r = deg n % 2)
    · rw [if_pos ⟨hc.1, hn, hc.2⟩]
      have e := coupled_rotate (fun p l q m r n =>
        K (slot x.pseudo p) l (slot y.pseudo q) m (slot z.pseudo r) n f) hD hI x y r (deg_le_of_lt hn) f
      refine e.trans ?_
      apply Finset.sum_congr rfl
      intro k hk
      by_cases hkn : deg k = deg n
      · rw [if_pos ⟨hc.1, Finset.mem_range.1 hk, by rw [hkn]; exact hc.2⟩]
      · rw [hD k n hkn]; simp
    · rw [if_neg (fun h => hc ⟨h.1, h.2.2⟩)]
      symm
      apply Finset.sum_eq_zero
      intro k hk
      by_cases hkn : deg k = deg n
      · rw [if_neg (fun h => hc ⟨h.1, by rw [← hkn]; exact h.2.2⟩), zero_mul]
      · rw [hD k n hkn, mul_zero]
  · rw [comp_out _ _ _ _ (by rw [hL]; omega), comp_out _ _ _ _ (by change (z.L + 1) ^ 2 ≤ n; omega)]

/-- The layer only reads entries inside the extents. -/
theorem coupled_same (W : ℕ → ℕ → ℕ → ℕ → ℕ → ℕ → ℝ) (cg : ℕ → ℕ → ℕ → ℝ) {x x' y y' : Feat} (hx : x.Same x')
    (hy : y.Same y') (r n f : ℕ) (hfx : f < x.F) (hfy : f < y.F) :
    coupled W cg x y r n f = coupled W cg x' y' r n f := by
  unfold coupled
  rw [← hx.2.1, ← hy.2.1]
  simp only [comp_of_same hx hfx, comp_of_same hy hfy]

theorem tensor_same (cfg : TensorCfg) (K : TensorKernel) (cg : ℕ → ℕ → ℕ → ℝ) {x x' y y' z : Feat} (hx : x.Same x')
    (hy : y.Same y') (hz : tensor cfg K cg x y = .ok z) : ∃ z', tensor cfg K cg x' y' = .ok z' ∧ z.Same z' := by
  have hok : cfg.maxDegree.getD (max x.L y.L) ≤ x.L + y.L ∧ x.F = y.F := by
    by_contra hc
    have : tensor cfg K cg x y = .error .valueError :=
      (C15_tensor_error _ _ _ _ _ _).2 ⟨rfl, by by_contra h; push Not at h; exact hc h⟩
    rw [hz] at this; cases this
  obtain ⟨z0, h0, h1, h2, h3, h4⟩ := C15_tensor cfg K cg x y hok.1 hok.2
  rw [hz] at h0; injection h0 with h0; subst h0
  obtain ⟨z', g0, g1, g2, g3, g4⟩ := C15_tensor cfg K cg x' y'
    (by rw [← hx.2.1, ← hy.2.1]; exact hok.1) (by rw [← hx.2.2.1, ← hy.2.2.1]; exact hok.2)
  refine ⟨z', g0, ?_⟩
  rw [← hx.2.1, ← hy.2.1] at g1 g3
  rw [← hx.1, ← hy.1] at g3
  have hps : z.pseudo = z'.pseudo := by rw [Bool.eq_iff_iff, g3, h3]
  refine same_of_comp _ _ hps (by rw [g1, h1]) (by rw [g2, h2, hx.2.2.1]) ?_
  intro r n f hf
  rw [h2] at hf
  rw [g4, h4, ← hps, g1, h1, ← hx.1, ← hy.1]
  split
  · rw [coupled_same _ _ hx hy _ _ _ hf (by rw [← hok.2]; exact hf)]
  · rfl

-- Non-vacuity: a request of every kind is accepted, and the identity matrix satisfies the hypotheses of C14 (that all
-- Wigner-D matrices do is shown in Props/WignerD.lean).
example (K : TensorKernel) (cg : ℕ → ℕ → ℕ → ℝ) (v w : ℕ → ℕ → ℕ → ℝ) :
    ∃ z, tensor ⟨some 3, true⟩ K cg ⟨true, 1, 4, v⟩ ⟨false, 2, 4, w⟩ = .ok z ∧ z.L = 3 ∧ z.pseudo = true := by
  obtain ⟨z, h1, h2, _, h3, _⟩ := C15_tensor ⟨some 3, true⟩ K cg ⟨true, 1, 4, v⟩ ⟨false, 2, 4, w⟩ (by simp) rfl
  exact ⟨z, h1, h2, h3.2 (by simp)⟩

example (cg : ℕ → ℕ → ℕ → ℝ) : BlockDiag Spec.one ∧ Intertwines cg Spec.one := by
  constructor
  · intro i j h; unfold Spec.one; rw [if_neg]; rintro rfl; exact h rfl
  · intro a b n
    have ha := (deg_le_iff a (deg a)).1 le_rfl
    have hb := (deg_le_iff b (deg b)).1 le_rfl
    have hn := (deg_le_iff n (deg n)).1 le_rfl
    simp only [Spec.one, mul_ite, mul_one, mul_zero, ite_mul, one_mul, zero_mul, Finset.sum_ite_eq, Finset.sum_ite_eq',
      Finset.mem_range, ha, hb, hn, if_true]

end E3x
