import Verif.Spec.Truncation
import Verif.Props.Exchange
import Verif.Props.Fused

/-!
# C95: the maximum degree only cuts off
-/

namespace E3x

noncomputable section

open Finset Spec

theorem withDegree_spec (K : ℕ) (x : Feat) : (withDegree K x).L = K ∧ (withDegree K x).pseudo = x.pseudo ∧
    (withDegree K x).F = x.F ∧ ∀ p i f, comp (withDegree K x) p i f = if i < (K + 1) ^ 2 then comp x p i f else 0 := by
  have h := C08_change x (some K) none
  simp only [Option.getD_some, Option.getD_none] at h
  obtain ⟨h1, h2, h3, h4⟩ := h
  refine ⟨h1, h2, h3, fun p i f => ?_⟩
  refine (h4 p i f).trans ?_
  by_cases hi : i < (K + 1) ^ 2
  · by_cases hp : x.pseudo = true ∨ p = deg i % 2
    · rw [if_pos ⟨hi, hp⟩, if_pos hi]
    · rw [if_neg (fun h => hp h.2), if_pos hi]
      push Not at hp
      unfold comp
      rw [if_neg hp.1, if_neg hp.2, ite_self]
  · rw [if_neg (fun h => hi h.1), if_neg hi]

/-- Components that do not exist are zero. -/
theorem comp_of_le (x : Feat) (p i f : ℕ) (h : (x.L + 1) ^ 2 ≤ i) : comp x p i f = 0 := by
  unfold comp
  rw [if_pos (Or.inl h)]

/-- **C95 (Dense).** -/
theorem C95_dense (K features : ℕ) (useBias : Bool) (P : DenseParams) (x : Feat) :
    (dense features useBias P (withDegree K x)).Same (withDegree K (dense features useBias P x)) := by
  obtain ⟨a1, a2, a3, a4⟩ := C12_dense features useBias P (withDegree K x)
  obtain ⟨b1, b2, b3, b4⟩ := C12_dense features useBias P x
  obtain ⟨c1, c2, c3, c4⟩ := withDegree_spec K x
  obtain ⟨d1, d2, d3, d4⟩ := withDegree_spec K (dense features useBias P x)
  refine same_of_comp _ _ (by rw [a1, c2, d2, b1]) (by rw [a2, c1, d1]) (by rw [a3, d3, b3]) ?_
  intro p i f _
  rw [a4, d4, b4, c3]
  simp only [c4]
  by_cases hi : i < (K + 1) ^ 2
  · simp only [if_pos hi]
  · have : i ≠ 0 := by rintro rfl; exact hi (by positivity)
    simp [hi, this]

/-- **C95 (activation functions).** -/
theorem C95_gated (K : ℕ) (g : ℝ → ℝ) (x : Feat) :
    (gatedLinear g (withDegree K x)).Same (withDegree K (gatedLinear g x)) := by
  obtain ⟨c1, c2, c3, c4⟩ := withDegree_spec K x
  obtain ⟨d1, d2, d3, d4⟩ := withDegree_spec K (gatedLinear g x)
  refine same_of_comp _ _ (c2.trans d2.symm) (c1.trans d1.symm) (c3.trans d3.symm) ?_
  intro p i f _
  rw [C13_gated, d4, C13_gated, c4, c4, if_pos (by positivity)]
  split_ifs <;> simp

/-- **C95 (reflections).** -/
theorem C95_reflect (K : ℕ) (x : Feat) : (reflect (withDegree K x)).Same (withDegree K (reflect x)) := by
  have hr := fun y => (C10_reflect y 0 0 0).2
  obtain ⟨c1, c2, c3, c4⟩ := withDegree_spec K x
  obtain ⟨d1, d2, d3, d4⟩ := withDegree_spec K (reflect x)
  refine same_of_comp _ _ (by rw [(hr _).1, c2, d2, (hr _).1]) (by rw [(hr _).2.1, c1, d1])
    (by rw [(hr _).2.2, c3, d3, (hr _).2.2]) ?_
  intro p i f _
  rw [(C10_reflect _ _ _ _).1, d4, (C10_reflect _ _ _ _).1, c4]
  split_ifs <;> simp

/-- **C95 (rotations).** -/
theorem C95_rotate (K : ℕ) (D : ℕ → ℕ → ℝ) (hD : BlockDiag D) (x : Feat) :
    (rotate (withDegree K x) D).Same (withDegree K (rotate x D)) := by
  obtain ⟨c1, c2, c3, c4⟩ := withDegree_spec K x
  obtain ⟨d1, d2, d3, d4⟩ := withDegree_spec K (rotate x D)
  refine same_of_comp (rotate (withDegree K x) D) _ (c2.trans d2.symm) (c1.trans d1.symm) (c3.trans d3.symm) ?_
  intro p i f _
  rw [d4]
  by_cases hi : i < (K + 1) ^ 2
  swap
  · rw [if_neg hi]
    exact comp_of_le _ _ _ _ (by show ((withDegree K x).L + 1) ^ 2 ≤ i; rw [c1]; omega)
  rw [if_pos hi, C10_rotate (withDegree K x) D hD p i f (by rw [c1]; exact hi), c1]
  by_cases hx : i < (x.L + 1) ^ 2
  · rw [C10_rotate x D hD p i f hx]
    -- only terms of the degree of `i` contribute
    have key : ∀ N, i < (N + 1) ^ 2 → ∀ g : ℕ → ℝ, (∑ l ∈ range ((N + 1) ^ 2), g l * D l i) =
        ∑ l ∈ Ico (deg i ^ 2) ((deg i + 1) ^ 2), g l * D l i := by
      intro N hN g
      symm
      apply sum_subset
      · intro l hl
        rw [mem_Ico] at hl
        rw [mem_range]
        have : (deg i + 1) ^ 2 ≤ (N + 1) ^ 2 := Nat.pow_le_pow_left (by have := deg_le_of_lt hN; omega) 2
        omega
      · intro l _ hl
        rw [hD l i, mul_zero]
        intro h
        apply hl
        rw [mem_Ico]
        exact (deg_eq_iff l (deg i)).1 h
    rw [key K hi, key x.L hx]
    refine sum_congr rfl fun l hl => ?_
    rw [mem_Ico] at hl
    have : (deg i + 1) ^ 2 ≤ (K + 1) ^ 2 := Nat.pow_le_pow_left (by have := deg_le_of_lt hi; omega) 2
    rw [c4, if_pos (by omega)]
  · rw [comp_of_le (rotate x D) p i f (by show (x.L + 1) ^ 2 ≤ i; omega)]
    refine sum_eq_zero fun l _ => ?_
    rw [c4]
    by_cases hl : l < (x.L + 1) ^ 2
    · rw [hD l i, mul_zero]
      intro h
      have h1 := deg_le_of_lt hl
      rw [h, deg_le_iff] at h1
      exact hx h1
    · rw [comp_of_le x p l f (by omega)]
      simp

theorem tensor_ok {cfg : TensorCfg} {W : TensorKernel} {cg : ℕ → ℕ → ℕ → ℝ} {x y z : Feat}
    (hz : tensor cfg W cg x y = .ok z) : cfg.maxDegree.getD (max x.L y.L) ≤ x.L + y.L ∧ x.F = y.F := by
  by_contra hc
  have : tensor cfg W cg x y = .error .valueError :=
    (C15_tensor_error _ _ _ _ _ _).2 ⟨rfl, by by_contra h; push Not at h; exact hc h⟩
  rw [hz] at this
  cases this

/-- **C95 (Tensor: maximum degree).** With a smaller maximum degree and the same parameters, `Tensor` gives the lower degrees
of the result (and no pseudotensors, if there is nothing but scalars). -/
theorem C95_tensor (K L : ℕ) (hK : K ≤ L) (incl : Bool) (W : TensorKernel) (cg : ℕ → ℕ → ℕ → ℝ) (x y z : Feat)
    (hz : tensor ⟨some L, incl⟩ W cg x y = .ok z) :
    ∃ z', tensor ⟨some K, incl⟩ W cg x y = .ok z' ∧ z'.Same (changeMaxDegreeOrType z (some K) (some z'.pseudo)) ∧
      (0 < K → z'.pseudo = z.pseudo) := by
  have hok := tensor_ok hz
  simp only [Option.getD_some] at hok
  obtain ⟨z0, h0, h1, h2, h3, h4⟩ := C15_tensor ⟨some L, incl⟩ W cg x y hok.1 hok.2
  rw [hz] at h0; injection h0 with h0; subst h0
  obtain ⟨z', g0, g1, g2, g3, g4⟩ := C15_tensor ⟨some K, incl⟩ W cg x y (hK.trans hok.1) hok.2
  simp only [Option.getD_some] at h1 h3 g1 g3
  have hps : z'.pseudo = true → z.pseudo = true := by
    rw [g3, h3]
    rintro ⟨a, b⟩
    refine ⟨a, fun h => b ⟨h.1, h.2.1, ?_⟩⟩
    rcases h.2.2 with h | h | h
    · exact Or.inl h
    · exact Or.inr (Or.inl h)
    · right; right; omega
  have hps' : 0 < K → z'.pseudo = z.pseudo := by
    intro hpos
    rw [Bool.eq_iff_iff, g3, h3]
    have e1 : K ≠ 0 := by omega
    have e2 : L ≠ 0 := by omega
    simp only [e1, e2]
  refine ⟨z', g0, ?_, hps'⟩
  have hc := C08_change z (some K) (some z'.pseudo)
  simp only [Option.getD_some] at hc
  obtain ⟨c1, c2, c3, c4⟩ := hc
  refine same_of_comp _ _ c2.symm (g1.trans c1.symm) (g2.trans (h2.symm.trans c3.symm)) ?_
  intro r n f hr
  rw [c4, g4, h4, g1, h1]
  have hKL : (K + 1) ^ 2 ≤ (L + 1) ^ 2 := Nat.pow_le_pow_left (by omega) 2
  by_cases hn : n < (K + 1) ^ 2 ∧ (z'.pseudo = true ∨ r = deg n % 2)
  · by_cases hr2 : r < 2
    · have hz2 : z.pseudo = true ∨ r = deg n % 2 := hn.2.imp_left hps
      rw [if_pos ⟨hr2, hn.1, hn.2⟩, if_pos hn, if_pos ⟨hr2, by omega, hz2⟩]
      -- the slots agree: otherwise only the scalar is left
      have hslot : slot z'.pseudo r = slot z.pseudo r := by
        rcases Nat.eq_zero_or_pos K with hk | hk
        · have hn0 : n = 0 := by
            have := hn.1
            rw [hk] at this
            omega
          rcases hb : z'.pseudo with _ | _
          · rw [hb] at hn
            have : r = 0 := by
              rcases hn.2 with h | h
              · exact absurd h (by decide)
              · rw [hn0] at h; simpa using h
            subst this
            unfold slot
            simp
          · rw [hps hb]
        · rw [hps' hk]
      simp only [coupled, hslot]
    · rw [if_neg (fun h => hr2 h.1), if_pos hn, if_neg (fun h => hr2 h.1)]
  · rw [if_neg (fun h => hn ⟨h.2.1, h.2.2⟩), if_neg hn]

/-- Coupling does not depend on the extents of the arrays. -/
theorem coupled_withDegree (M N : ℕ) (W : ℕ → ℕ → ℕ → ℕ → ℕ → ℕ → ℝ) (cg : ℕ → ℕ → ℕ → ℝ) (x y : Feat) (hM : x.L ≤ M)
    (hN : y.L ≤ N) (r n f : ℕ) : coupled W cg (withDegree M x) (withDegree N y) r n f = coupled W cg x y r n f := by
  obtain ⟨a1, -, -, a4⟩ := withDegree_spec M x
  obtain ⟨b1, -, -, b4⟩ := withDegree_spec N y
  have hx : (x.L + 1) ^ 2 ≤ (M + 1) ^ 2 := Nat.pow_le_pow_left (by omega) 2
  have hy : (y.L + 1) ^ 2 ≤ (N + 1) ^ 2 := Nat.pow_le_pow_left (by omega) 2
  have ex : ∀ p i f, comp (withDegree M x) p i f = comp x p i f := by
    intro p i f
    rw [a4]
    split_ifs with h
    · rfl
    · rw [comp_of_le x p i f (by omega)]
  have ey : ∀ p i f, comp (withDegree N y) p i f = comp y p i f := by
    intro p i f
    rw [b4]
    split_ifs with h
    · rfl
    · rw [comp_of_le y p i f (by omega)]
  unfold coupled
  refine sum_congr rfl fun p _ => sum_congr rfl fun q _ => ?_
  rw [a1, b1]
  simp only [ex, ey]
  split_ifs
  · symm
    rw [← sum_subset (range_subset_range.2 hx)]
    · refine sum_congr rfl fun l _ => ?_
      apply sum_subset (range_subset_range.2 hy)
      intro m _ hm
      rw [comp_of_le y q m f (by simpa using hm)]
      ring
    · intro l _ hl
      refine sum_eq_zero fun m _ => ?_
      rw [comp_of_le x p l f (by simpa using hl)]
      ring
  · rfl

/-- **C95 (Tensor: inputs).** If the inputs are given zeros for higher degrees, the result is the same, unless scalars without
pseudotensors are involved. -/
theorem C95_tensor_inputs (M N K : ℕ) (incl : Bool) (W : TensorKernel) (cg : ℕ → ℕ → ℕ → ℝ) (x y z : Feat) (hM : x.L ≤ M)
    (hN : y.L ≤ N) (hs : x.pseudo = true ∨ y.pseudo = true ∨ (0 < x.L ∧ 0 < y.L))
    (hz : tensor ⟨some K, incl⟩ W cg x y = .ok z) :
    ∃ z', tensor ⟨some K, incl⟩ W cg (withDegree M x) (withDegree N y) = .ok z' ∧ z'.Same z := by
  have hok := tensor_ok hz
  simp only [Option.getD_some] at hok
  obtain ⟨a1, a2, a3, a4⟩ := withDegree_spec M x
  obtain ⟨b1, b2, b3, b4⟩ := withDegree_spec N y
  obtain ⟨z0, h0, h1, h2, h3, h4⟩ := C15_tensor ⟨some K, incl⟩ W cg x y hok.1 hok.2
  rw [hz] at h0; injection h0 with h0; subst h0
  obtain ⟨z', g0, g1, g2, g3, g4⟩ := C15_tensor ⟨some K, incl⟩ W cg (withDegree M x) (withDegree N y)
    (by rw [a1, b1]; simp only [Option.getD_some]; omega) (by rw [a3, b3]; exact hok.2)
  simp only [Option.getD_some] at h1 h3 g1 g3
  rw [a1, a2, b1, b2] at g3
  have hps : z'.pseudo = z.pseudo := by
    rw [Bool.eq_iff_iff, g3, h3]
    rcases hs with h | h | ⟨h, h'⟩
    · simp [h]
    · simp [h]
    · have e1 : M ≠ 0 := by omega
      have e2 : N ≠ 0 := by omega
      have e3 : x.L ≠ 0 := by omega
      have e4 : y.L ≠ 0 := by omega
      simp [e1, e2, e3, e4]
  refine ⟨z', g0, same_of_comp _ _ hps (g1.trans h1.symm) (g2.trans (a3.trans h2.symm)) ?_⟩
  intro r n f _
  rw [g4, h4, hps, g1, h1, a2, b2, coupled_withDegree M N _ cg x y hM hN]

/-- **C95 (Tensor: scalars).** The exception: scalars times vectors have no pseudotensors, but they get them if the scalars
are given zeros for vectors. -/
theorem C95_tensor_scalars (W : TensorKernel) (cg : ℕ → ℕ → ℕ → ℝ) (x y : Feat) (hx : x.L = 0 ∧ x.pseudo = false)
    (hy : y.L = 1 ∧ y.pseudo = false) (hF : x.F = y.F) :
    ∃ z z', tensor ⟨some 1, true⟩ W cg x y = .ok z ∧ tensor ⟨some 1, true⟩ W cg (withDegree 1 x) y = .ok z' ∧
      z.pseudo = false ∧ z'.pseudo = true := by
  obtain ⟨a1, a2, a3, -⟩ := withDegree_spec 1 x
  obtain ⟨z, h0, -, -, h3, -⟩ := C15_tensor ⟨some 1, true⟩ W cg x y (by simp [hx.1, hy.1]) hF
  obtain ⟨z', g0, -, -, g3, -⟩ := C15_tensor ⟨some 1, true⟩ W cg (withDegree 1 x) y (by simp [a1, hy.1]) (by rw [a3, hF])
  refine ⟨z, z', h0, g0, ?_, ?_⟩
  · rw [← Bool.not_eq_true, h3]
    simp [hx.1, hx.2, hy.2]
  · rw [g3]
    simp [a1, a2, hx.2, hy.1, hy.2]

/-- **C95 (FusedTensor: maximum degree).** The same is true for `FusedTensor`, as long as the maximum degree is not larger
than those of the inputs. -/
theorem C95_fused (K L : ℕ) (hK : K ≤ L) (incl : Bool) (W : FusedKernels) (cg : ℕ → ℕ → ℕ → ℝ) (x y z : Feat)
    (hL : L ≤ max x.L y.L) (hz : fusedTensor ⟨some L, incl⟩ W cg x y = .ok z) :
    ∃ z', fusedTensor ⟨some K, incl⟩ W cg x y = .ok z' ∧ z'.Same (changeMaxDegreeOrType z (some K) (some z'.pseudo)) := by
  have hok := fused_ok hz
  simp only [Option.getD_some] at hok
  obtain ⟨z0, h0, h1, h2, h3, h4⟩ := C16_fused ⟨some L, incl⟩ W cg x y hok.1 hok.2
  rw [hz] at h0; injection h0 with h0; subst h0
  obtain ⟨z', g0, g1, g2, g3, g4⟩ := C16_fused ⟨some K, incl⟩ W cg x y (hK.trans hok.1) hok.2
  simp only [Option.getD_some] at h1 h3 g1 g3
  have hps : z'.pseudo = true → z.pseudo = true := by
    rw [g3, h3]
    rintro ⟨a, b⟩
    refine ⟨a, fun h => b ⟨h.1, h.2.1, ?_⟩⟩
    rcases h.2.2 with h | h | h
    · exact Or.inl h
    · exact Or.inr (Or.inl h)
    · right; right; omega
  refine ⟨z', g0, ?_⟩
  have hc := C08_change z (some K) (some z'.pseudo)
  simp only [Option.getD_some] at hc
  obtain ⟨c1, c2, c3, c4⟩ := hc
  refine same_of_comp _ _ c2.symm (g1.trans c1.symm) (g2.trans (h2.symm.trans c3.symm)) ?_
  intro r n f hr
  rw [c4, g4, h4, g1, h1, max_eq_left hL, max_eq_left (hK.trans hL)]
  have hKL : (K + 1) ^ 2 ≤ (L + 1) ^ 2 := Nat.pow_le_pow_left (by omega) 2
  by_cases hn : n < (K + 1) ^ 2 ∧ (z'.pseudo = true ∨ r = deg n % 2)
  · by_cases hr2 : r < 2
    · have hz2 : z.pseudo = true ∨ r = deg n % 2 := hn.2.imp_left hps
      rw [if_pos ⟨hr2, hn.1, hn.2⟩, if_pos hn, if_pos ⟨hr2, by omega, hz2⟩]
    · rw [if_neg (fun h => hr2 h.1), if_pos hn, if_neg (fun h => hr2 h.1)]
  · rw [if_neg (fun h => hn ⟨h.2.1, h.2.2⟩), if_neg hn]

theorem toMatrix_withDegree (M : ℕ) (w : ℕ → ℝ) (cg : ℕ → ℕ → ℕ → ℝ) (lam : ℕ) (x : Feat) (hM : x.L ≤ M) (p f a b : ℕ) :
    toMatrix w cg lam (withDegree M x) p f a b = toMatrix w cg lam x p f a b := by
  obtain ⟨a1, -, -, a4⟩ := withDegree_spec M x
  have hx : (x.L + 1) ^ 2 ≤ (M + 1) ^ 2 := Nat.pow_le_pow_left (by omega) 2
  unfold toMatrix
  rw [a1, ← sum_subset (range_subset_range.2 hx)]
  · refine sum_congr rfl fun n hn => ?_
    rw [mem_range] at hn
    rw [a4, if_pos (by omega)]
  · intro n _ hn
    rw [a4, comp_of_le x p n f (by simpa using hn), ite_self]
    ring

/-- **C95 (FusedTensor: inputs).** Zeros for higher degrees change nothing as long as these degrees are not larger than the
largest of the degrees of inputs and output. -/
theorem C95_fused_inputs (M N K : ℕ) (incl : Bool) (W : FusedKernels) (cg : ℕ → ℕ → ℕ → ℝ) (x y z : Feat) (hM : x.L ≤ M)
    (hN : y.L ≤ N) (hs : x.pseudo = true ∨ y.pseudo = true ∨ (0 < x.L ∧ 0 < y.L))
    (hmax : max M N ≤ max (max x.L y.L) K) (hz : fusedTensor ⟨some K, incl⟩ W cg x y = .ok z) :
    ∃ z', fusedTensor ⟨some K, incl⟩ W cg (withDegree M x) (withDegree N y) = .ok z' ∧ z'.Same z := by
  have hok := fused_ok hz
  simp only [Option.getD_some] at hok
  obtain ⟨a1, a2, a3, a4⟩ := withDegree_spec M x
  obtain ⟨b1, b2, b3, b4⟩ := withDegree_spec N y
  obtain ⟨z0, h0, h1, h2, h3, h4⟩ := C16_fused ⟨some K, incl⟩ W cg x y hok.1 hok.2
  rw [hz] at h0; injection h0 with h0; subst h0
  obtain ⟨z', g0, g1, g2, g3, g4⟩ := C16_fused ⟨some K, incl⟩ W cg (withDegree M x) (withDegree N y)
    (by rw [a1, b1]; simp only [Option.getD_some]; omega) (by rw [a3, b3]; exact hok.2)
  simp only [Option.getD_some] at h1 h3 g1 g3
  rw [a1, a2, b1, b2] at g3
  have hps : z'.pseudo = z.pseudo := by
    rw [Bool.eq_iff_iff, g3, h3]
    rcases hs with h | h | ⟨h, h'⟩
    · simp [h]
    · simp [h]
    · have e1 : M ≠ 0 := by omega
      have e2 : N ≠ 0 := by omega
      have e3 : x.L ≠ 0 := by omega
      have e4 : y.L ≠ 0 := by omega
      simp [e1, e2, e3, e4]
  refine ⟨z', g0, same_of_comp _ _ hps (g1.trans h1.symm) (g2.trans (a3.trans h2.symm)) ?_⟩
  intro r n f _
  have hlam : max (max M N) K = max (max x.L y.L) K := by omega
  rw [g4, h4, hps, g1, h1, a1, b1, hlam]
  simp only [fusedCoupled, toMatrix_withDegree M _ _ _ x hM, toMatrix_withDegree N _ _ _ y hN]

/-- The Clebsch-Gordan coefficients of two vectors and the scalar. -/
theorem cg_vectors_scalar (i j : Fin 3) : cgTensor true (1 + i) (1 + j) 0 = if i = j then 1 / Real.sqrt 3 else 0 := by
  obtain ⟨CG, h1, h2⟩ := C68_vectors (noFiles _) (noFiles_valid _ _) .success
  have h3 := clebschGordan_eq (noFiles _) (noFiles_valid _ _) .success 1 1 1 true
  push_cast at h3
  rw [h3] at h1
  injection h1 with h1
  have h4 := (h2 (Pi.single i 1) (Pi.single j 1)).1
  rw [← h1] at h4
  fin_cases i <;> fin_cases j <;> simpa [Fin.sum_univ_three, Pi.single_apply] using h4

/-- two arrays of scalars -/
def scalarOne : Feat := ⟨false, 0, 1, fun _ _ _ => 1⟩

/-- parameters of `FusedTensor` that are all one -/
def kernelsOne : FusedKernels :=
  ⟨fun _ _ => 1, fun _ _ => 1, fun _ _ => 1, fun _ _ => 1, fun _ _ => 1, fun _ _ => 1, fun _ _ => 1, fun _ _ => 1⟩

/-- **C95 fails for FusedTensor in general.** The size of the matrices depends on the largest of the three degrees. The
product of scalars with value one is one, but it is `1 / sqrt(3)` after the inputs are given zeros for vectors. -/
theorem C95_fused_changes : ∃ z z',
    fusedTensor ⟨some 0, false⟩ kernelsOne (cgTensor true) scalarOne scalarOne = .ok z ∧
    fusedTensor ⟨some 0, false⟩ kernelsOne (cgTensor true) (withDegree 1 scalarOne) (withDegree 1 scalarOne) = .ok z' ∧
    comp z 0 0 0 = 1 ∧ comp z' 0 0 0 = 1 / Real.sqrt 3 := by
  obtain ⟨a1, a2, a3, a4⟩ := withDegree_spec 1 scalarOne
  obtain ⟨z, h0, h1, h2, h3, h4⟩ := C16_fused ⟨some 0, false⟩ kernelsOne (cgTensor true) scalarOne scalarOne (by simp) rfl
  obtain ⟨z', g0, g1, g2, g3, g4⟩ := C16_fused ⟨some 0, false⟩ kernelsOne (cgTensor true) (withDegree 1 scalarOne)
    (withDegree 1 scalarOne) (by simp) rfl
  have hc : ∀ p n, comp scalarOne p n 0 = if p = 0 ∧ n = 0 then 1 else 0 := by
    intro p n
    unfold comp scalarOne
    rcases Nat.eq_zero_or_pos n with h | h
    · subst h
      rcases Nat.eq_zero_or_pos p with h | h
      · subst h; simp
      · have : p ≠ 0 := by omega
        simp [this]
    · have : n ≠ 0 := by omega
      rw [if_pos (Or.inl (by simp; omega)), if_neg (by tauto)]
  have hc' : ∀ p n, comp (withDegree 1 scalarOne) p n 0 = if p = 0 ∧ n = 0 then 1 else 0 := by
    intro p n
    rw [a4, hc]
    by_cases h : p = 0 ∧ n = 0
    · rw [if_pos h, if_pos (by rw [h.2]; norm_num)]
    · rw [if_neg h, ite_self]
  have w1 : ∀ p n : ℕ, (if p = 0 then kernelsOne.e1 n 0 else kernelsOne.o1 n 0) = 1 := by intro p n; simp [kernelsOne]
  have w2 : ∀ p n : ℕ, (if p = 0 then kernelsOne.e2 n 0 else kernelsOne.o2 n 0) = 1 := by intro p n; simp [kernelsOne]
  have w3 : ∀ p q n : ℕ, (if p = 0 then (if q = 0 then kernelsOne.eee n 0 else kernelsOne.eoo n 0)
      else (if q = 0 then kernelsOne.oeo n 0 else kernelsOne.ooe n 0)) = 1 := by intro p q n; simp [kernelsOne]
  refine ⟨z, z', h0, g0, ?_, ?_⟩
  · rw [h4, if_pos ⟨by norm_num, by positivity, Or.inr (by simp)⟩, h1]
    simp only [fusedCoupled, toMatrix, w1, w2, w3, hc]
    simp [scalarOne, sum_range_succ, cgTensor_zero]
  · rw [g4, if_pos ⟨by norm_num, by positivity, Or.inr (by simp)⟩, g1, a1]
    have e : ∀ a < 3, ∀ b < 3, cgTensor true (1 + a) (1 + b) 0 = if a = b then 1 / Real.sqrt 3 else 0 := by
      intro a ha b hb
      have := cg_vectors_scalar ⟨a, ha⟩ ⟨b, hb⟩
      simpa [Fin.ext_iff] using this
    have m : ∀ p a b, a < 3 → b < 3 → toMatrix (fun _ => (1 : ℝ)) (cgTensor true) 1 (withDegree 1 scalarOne) p 0 a b =
        if p = 0 ∧ a = b then 1 / Real.sqrt 3 else 0 := by
      intro p a b ha hb
      unfold toMatrix
      rw [a1, sum_eq_single 0]
      · rw [hc', one_pow, e a ha b hb]
        by_cases hp : p = 0 <;> by_cases hab : a = b <;> simp [hp, hab]
      · intro n _ hn
        rw [hc', if_neg (by tauto)]
        ring
      · intro h
        exact absurd (mem_range.2 (by norm_num)) h
    have h3 : Real.sqrt 3 * Real.sqrt 3 = 3 := Real.mul_self_sqrt (by norm_num)
    have h3' : Real.sqrt 3 ≠ 0 := by positivity
    have key : ∀ p q, ∑ a ∈ range 3, ∑ b ∈ range 3, (1 : ℝ) *
        (∑ c ∈ range 3, toMatrix (fun _ => (1 : ℝ)) (cgTensor true) 1 (withDegree 1 scalarOne) p 0 a c *
          toMatrix (fun _ => (1 : ℝ)) (cgTensor true) 1 (withDegree 1 scalarOne) q 0 c b) *
        cgTensor true (1 ^ 2 + a) (1 ^ 2 + b) 0 = if p = 0 ∧ q = 0 then 1 / Real.sqrt 3 else 0 := by
      intro p q
      have : ∀ a ∈ range 3, ∀ b ∈ range 3, (1 : ℝ) *
          (∑ c ∈ range 3, toMatrix (fun _ => (1 : ℝ)) (cgTensor true) 1 (withDegree 1 scalarOne) p 0 a c *
            toMatrix (fun _ => (1 : ℝ)) (cgTensor true) 1 (withDegree 1 scalarOne) q 0 c b) *
          cgTensor true (1 ^ 2 + a) (1 ^ 2 + b) 0 =
          (∑ c ∈ range 3, (if p = 0 ∧ a = c then 1 / Real.sqrt 3 else 0) * (if q = 0 ∧ c = b then 1 / Real.sqrt 3 else 0)) *
            if a = b then 1 / Real.sqrt 3 else 0 := by
        intro a ha b hb
        rw [mem_range] at ha hb
        rw [one_mul, one_pow, e a ha b hb]
        congr 1
        refine sum_congr rfl fun c hc => ?_
        rw [mem_range] at hc
        rw [m p a c ha hc, m q c b hc hb]
      rw [sum_congr rfl fun a ha => sum_congr rfl (this a ha)]
      by_cases hp : p = 0 <;> by_cases hq : q = 0 <;> simp [hp, hq, sum_range_succ]
      field_simp
      nlinarith
    have hlam : (max (max 1 1) ((some 0).getD (max (withDegree 1 scalarOne).L (withDegree 1 scalarOne).L)) + 1) / 2 = 1 := by
      simp
    rw [a1] at hlam
    rw [hlam]
    simp only [fusedCoupled, w1, w2, w3, show 2 * 1 + 1 = 3 from rfl]
    simp only [key]
    simp [sum_range_succ]

/-- **C95 (solid harmonics).** -/
theorem C95_harmonics (tiny : ℝ) (disk disk' : Disk SHCompressed) (hd : ValidDisk (shKind sphTerms) (shTable sphTerms) disk)
    (hd' : ValidDisk (shKind sphTerms) (shTable sphTerms) disk') (o o' : SaveOutcome) {ι : Type} [Fintype ι]
    (r : ι → Fin 3 → ℝ) (K L : ℕ) (hK : K ≤ L) (cart : Bool) :
    ∃ Y Y', solidHarmonics tiny disk o r L cart = .ok Y ∧ solidHarmonics tiny disk' o' r K cart = .ok Y' ∧
      ∀ b, ∀ j < (K + 1) ^ 2, Y' b j = Y b j := by
  refine ⟨_, _, solidHarmonics_eq tiny disk hd o r L cart, solidHarmonics_eq tiny disk' hd' o' r K cart, fun b j hj => ?_⟩
  have hKL : (K + 1) ^ 2 ≤ (L + 1) ^ 2 := Nat.pow_le_pow_left (by omega) 2
  rw [if_pos hj, if_pos (by omega)]

/-- **C95 (normalised spherical harmonics).** -/
theorem C95_spherical (tiny : ℝ) (disk disk' : Disk SHCompressed) (hd : ValidDisk (shKind sphTerms) (shTable sphTerms) disk)
    (hd' : ValidDisk (shKind sphTerms) (shTable sphTerms) disk') (o o' : SaveOutcome) {ι : Type} [Fintype ι]
    (r : ι → Fin 3 → ℝ) (K L : ℕ) (hK : K ≤ L) (isNorm cart : Bool) (s : String) (Y : ι → ℕ → ℝ)
    (hY : sphericalHarmonics tiny disk o r L isNorm cart s = .ok Y) :
    ∃ Y', sphericalHarmonics tiny disk' o' r K isNorm cart s = .ok Y' ∧ ∀ b, ∀ j < (K + 1) ^ 2, Y' b j = Y b j := by
  rw [sphericalHarmonics_eq tiny disk hd] at hY
  rw [sphericalHarmonics_eq tiny disk' hd']
  have hKL : (K + 1) ^ 2 ≤ (L + 1) ^ 2 := Nat.pow_le_pow_left (by omega) 2
  by_cases hs : s ∈ normNames
  swap
  · rw [if_neg hs] at hY
    cases hY
  rw [if_pos hs] at hY ⊢
  generalize (if isNorm then Except.ok r else normalize tiny r) = u at hY ⊢
  cases u with
  | error e => cases hY
  | ok u =>
    injection hY with hY
    refine ⟨_, rfl, fun b j hj => ?_⟩
    rw [← hY]
    unfold harmonics
    dsimp only
    rw [if_pos hj, if_pos (by omega)]

/-- **C95 (Wigner-D).** -/
theorem C95_wigner_d (disk disk' : Disk WDCompressed) (hd : ValidDisk (wdKind wigTerms) (wdTable wigTerms) disk)
    (hd' : ValidDisk (wdKind wigTerms) (wdTable wigTerms) disk') (o o' : SaveOutcome) (R : Fin 3 → Fin 3 → ℝ) (K L : ℕ)
    (hK : K ≤ L) (cart : Bool) :
    ∃ D D', wignerD disk o R L cart = .ok D ∧ wignerD disk' o' R K cart = .ok D' ∧
      ∀ i < (K + 1) ^ 2, ∀ j < (K + 1) ^ 2, D' i j = D i j := by
  refine ⟨_, _, wignerD_eq disk hd o R L cart, wignerD_eq disk' hd' o' R K cart, fun i hi j hj => ?_⟩
  have hKL : (K + 1) ^ 2 ≤ (L + 1) ^ 2 := Nat.pow_le_pow_left (by omega) 2
  rw [if_pos ⟨hi, hj⟩, if_pos ⟨by omega, by omega⟩]

/-- Non-vacuity: features of degree two with pseudotensors, maximum degrees 1 and 2, inputs extended to degree three. -/
example (W : TensorKernel) (cg : ℕ → ℕ → ℕ → ℝ) (x : Feat) (hx : x.L = 2 ∧ x.pseudo = true) :
    ∃ z, tensor ⟨some 2, true⟩ W cg x x = .ok z ∧ (1 : ℕ) ≤ 2 ∧ x.L ≤ 3 ∧ x.pseudo = true := by
  obtain ⟨z, h, -⟩ := C15_tensor ⟨some 2, true⟩ W cg x x (by simp [hx.1]) rfl
  exact ⟨z, h, by omega, by omega, hx.2⟩

end

end E3x
