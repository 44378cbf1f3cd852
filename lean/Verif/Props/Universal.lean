import Verif.Props.Irreducible
import Verif.Props.Dense
import Verif.Props.Tensor
import Verif.Lemmas.CGOrthogonality
import Verif.Props.Energy

/-!
# C72: Dense layers are all affine, Tensor layers all bilinear maps which respect the symmetries
-/

namespace E3x

noncomputable section

open Finset Spec

/-- the parity of the entry in slot `q` at position `i` -/
def parOf (ps : Bool) (q i : ℕ) : ℕ := if ps then q else deg i % 2

theorem parOf_lt {ps : Bool} {q : ℕ} (hq : q < chan ps) (i : ℕ) : parOf ps q i < 2 := by
  unfold parOf
  unfold chan at hq
  cases ps <;> simp at hq ⊢ <;> omega

theorem slot_parOf {ps : Bool} {q : ℕ} (hq : q < chan ps) (i : ℕ) : slot ps (parOf ps q i) = q := by
  unfold parOf slot
  unfold chan at hq
  cases ps <;> simp at hq ⊢
  exact hq.symm

theorem val_comp (x : Feat) {q i : ℕ} (f : ℕ) (hq : q < chan x.pseudo) (hi : i < (x.L + 1) ^ 2) :
    x.val q i f = comp x (parOf x.pseudo q i) i f := by
  have h2 := parOf_lt hq i
  unfold comp
  rw [if_neg (by omega)]
  unfold parOf
  unfold chan at hq
  cases h : x.pseudo <;> simp [h] at hq ⊢
  rw [hq]

theorem sum_comp (x : Feat) {i : ℕ} (f : ℕ) (hi : i < (x.L + 1) ^ 2) (g : ℕ → ℝ) :
    ∑ p ∈ range 2, comp x p i f * g p = ∑ q ∈ range (chan x.pseudo), x.val q i f * g (parOf x.pseudo q i) := by
  have h2 : deg i % 2 < 2 := Nat.mod_lt _ (by omega)
  unfold comp chan parOf
  cases h : x.pseudo
  · simp only [Bool.false_eq_true, if_false]
    rw [sum_range_one, sum_eq_single (deg i % 2)]
    · rw [if_neg (by omega), if_pos rfl]
    · intro p hp hne
      rw [mem_range] at hp
      rw [if_neg (by omega), if_neg hne, zero_mul]
    · intro hn
      exact absurd (mem_range.2 h2) hn
  · simp only [if_true]
    refine sum_congr rfl fun p hp => ?_
    rw [mem_range] at hp
    rw [if_neg (by omega)]

theorem reflect_eq (x : Feat) : reflect x = ⟨x.pseudo, x.L, x.F, (reflect x).val⟩ := by
  have h := (C10_reflect x 0 0 0).2
  have : reflect x = ⟨(reflect x).pseudo, (reflect x).L, (reflect x).F, (reflect x).val⟩ := rfl
  rw [h.1, h.2.1, h.2.2] at this
  exact this

theorem rotate_eq (x : Feat) (D : ℕ → ℕ → ℝ) : rotate x D = ⟨x.pseudo, x.L, x.F, (rotate x D).val⟩ := rfl

theorem reflect_entry (x : Feat) {q i : ℕ} (f : ℕ) (hq : q < chan x.pseudo) (hi : i < (x.L + 1) ^ 2) :
    (reflect x).val q i f = (-1) ^ parOf x.pseudo q i * x.val q i f := by
  have h := C10_reflect x (parOf x.pseudo q i) i f
  rw [val_comp x f hq hi, ← h.1, val_comp (reflect x) f (by rw [h.2.1]; exact hq) (by rw [h.2.2.1]; exact hi), h.2.1]

theorem pow_par {a b : ℕ} (ha : a < 2) (hb : b < 2) (w : ℝ) (h : (-1) ^ a * w = (-1) ^ b * w) : a = b ∨ w = 0 := by
  have h1 : a = 0 ∨ a = 1 := by omega
  have h2 : b = 0 ∨ b = 1 := by omega
  rcases h1 with rfl | rfl <;> rcases h2 with rfl | rfl <;> simp at h ⊢ <;> linarith

/-- a sum with one entry -/
theorem sum_single3 {A B C : ℕ} {q i f : ℕ} (hq : q < A) (hi : i < B) (hf : f < C) (g : ℕ → ℕ → ℕ → ℝ) :
    ∑ q' ∈ range A, ∑ i' ∈ range B, ∑ f' ∈ range C, (if q' = q ∧ i' = i ∧ f' = f then 1 else 0) * g q' i' f' = g q i f := by
  rw [sum_eq_single q, sum_eq_single i, sum_eq_single f]
  · simp
  · intro b _ hb
    simp [hb]
  · intro h
    exact absurd (mem_range.2 hf) h
  · intro b _ hb
    exact sum_eq_zero fun c _ => by simp [hb]
  · intro h
    exact absurd (mem_range.2 hi) h
  · intro b _ hb
    exact sum_eq_zero fun c _ => sum_eq_zero fun d _ => by simp [hb]
  · intro h
    exact absurd (mem_range.2 hq) h

/-- **C72 (Dense layers are all affine equivariant maps).** Every affine map between feature arrays which respects
rotations and the reflection is a Dense layer, followed by a change of the maximum degree and of the type. -/
theorem C72_affine (cart : Bool) (Φ : Feat → Feat) (ps : Bool) (L F : ℕ) (ps' : Bool) (L' G : ℕ)
    (hA : IsAffine Φ ps L F ps' L' G) (hE : IsEquivariant cart Φ ps L F L') :
    ∃ P : DenseParams, ∀ v, (Φ ⟨ps, L, F, v⟩).Same
      (changeMaxDegreeOrType (dense G true P ⟨ps, L, F, v⟩) (some L') (some ps')) := by
  obtain ⟨W, b, hW⟩ := hA
  have hrot : ∀ R, IsSpatialRotation R → ∀ v : ℕ → ℕ → ℕ → ℝ, ∀ r < chan ps', ∀ n < (L' + 1) ^ 2, ∀ g < G,
      b r n g + ∑ q ∈ range (chan ps), ∑ i ∈ range ((L + 1) ^ 2), ∑ f ∈ range F,
          (∑ i' ∈ range ((L + 1) ^ 2), v q i' f * dMatrix cart R i' i) * W q i f r n g =
        ∑ n' ∈ range ((L' + 1) ^ 2), (b r n' g +
          ∑ q ∈ range (chan ps), ∑ i ∈ range ((L + 1) ^ 2), ∑ f ∈ range F, v q i f * W q i f r n' g) * dMatrix cart R n' n := by
    intro R hR v r hr n hn g hg
    obtain ⟨-, hL, -, hval⟩ := hW v
    obtain ⟨k1, k2, k3, kval⟩ := hW (rotate ⟨ps, L, F, v⟩
      (fun i j => if i < (L + 1) ^ 2 ∧ j < (L + 1) ^ 2 then dMatrix cart R i j else 0)).val
    have h0 := (hE v).1 R hR _ _ (isWignerD cart R L) (isWignerD cart R L')
    rw [rotate_eq ⟨ps, L, F, v⟩] at h0
    have h := h0.2.2.2 r n g (by rw [k1]; exact hr) (by rw [k2]; exact hn) (by rw [k3]; exact hg)
    rw [kval r hr n hn g hg] at h
    unfold rotate at h
    dsimp only at h
    rw [hL] at h
    refine Eq.trans ?_ (h.trans ?_)
    · congr 1
      refine sum_congr rfl fun q _ => sum_congr rfl fun i hi => sum_congr rfl fun f _ => ?_
      congr 1
      refine sum_congr rfl fun i' hi' => ?_
      rw [if_pos ⟨mem_range.1 hi', mem_range.1 hi⟩]
    · refine sum_congr rfl fun n' hn' => ?_
      rw [hval r hr n' (mem_range.1 hn') g hg, if_pos ⟨mem_range.1 hn', hn⟩]
  have hrefl : ∀ v : ℕ → ℕ → ℕ → ℝ, ∀ r < chan ps', ∀ n < (L' + 1) ^ 2, ∀ g < G,
      b r n g + ∑ q ∈ range (chan ps), ∑ i ∈ range ((L + 1) ^ 2), ∑ f ∈ range F,
          ((-1) ^ parOf ps q i * v q i f) * W q i f r n g =
        (-1) ^ parOf ps' r n * (b r n g +
          ∑ q ∈ range (chan ps), ∑ i ∈ range ((L + 1) ^ 2), ∑ f ∈ range F, v q i f * W q i f r n g) := by
    intro v r hr n hn g hg
    obtain ⟨hP, hL, -, hval⟩ := hW v
    obtain ⟨k1, k2, k3, kval⟩ := hW (reflect ⟨ps, L, F, v⟩).val
    have h0 := (hE v).2
    rw [reflect_eq ⟨ps, L, F, v⟩] at h0
    have h := h0.2.2.2 r n g (by rw [k1]; exact hr) (by rw [k2]; exact hn) (by rw [k3]; exact hg)
    rw [reflect_entry _ g (by rw [hP]; exact hr) (by rw [hL]; exact hn), hP, kval r hr n hn g hg, hval r hr n hn g hg] at h
    rw [← h]
    congr 1
    refine sum_congr rfl fun q hq => sum_congr rfl fun i hi => sum_congr rfl fun f _ => ?_
    rw [reflect_entry ⟨ps, L, F, v⟩ f (mem_range.1 hq) (mem_range.1 hi)]
  -- the constants
  have hb1 : ∀ R, IsSpatialRotation R → ∀ r < chan ps', ∀ n < (L' + 1) ^ 2, ∀ g < G,
      b r n g = ∑ n' ∈ range ((L' + 1) ^ 2), b r n' g * dMatrix cart R n' n := by
    intro R hR r hr n hn g hg
    have h := hrot R hR (fun _ _ _ => 0) r hr n hn g hg
    simpa using h
  have hb2 : ∀ r < chan ps', ∀ n < (L' + 1) ^ 2, ∀ g < G, b r n g = (-1) ^ parOf ps' r n * b r n g := by
    intro r hr n hn g hg
    have h := hrefl (fun _ _ _ => 0) r hr n hn g hg
    simpa using h
  have hb3 : ∀ r < chan ps', ∀ n < (L' + 1) ^ 2, ∀ g < G, ¬ (n = 0 ∧ parOf ps' r n = 0) → b r n g = 0 := by
    intro r hr n hn g hg hne
    by_cases h0 : n = 0
    · have hp : parOf ps' r n = 1 := by
        have := parOf_lt hr n
        have : parOf ps' r n ≠ 0 := fun h => hne ⟨h0, h⟩
        omega
      have h := hb2 r hr n hn g hg
      rw [hp] at h
      linarith
    · obtain ⟨c, hc⟩ := schur cart 0 L' (fun _ j => b r j g) (by
        intro R hR hdet i hi j hj
        rw [← hb1 R ⟨hR, hdet⟩ r hr j hj g hg]
        have hi0 : i = 0 := by simpa using hi
        subst hi0
        simp [(dMatrix_isRotation cart hR hdet).scalar])
      have h := hc 0 (by simp) n hn
      rw [if_neg (Ne.symm h0)] at h
      exact h
  -- the coefficients
  have hw1 : ∀ R, IsSpatialRotation R → ∀ q < chan ps, ∀ i < (L + 1) ^ 2, ∀ f < F, ∀ r < chan ps', ∀ n < (L' + 1) ^ 2, ∀ g < G,
      ∑ i' ∈ range ((L + 1) ^ 2), dMatrix cart R i i' * W q i' f r n g =
        ∑ n' ∈ range ((L' + 1) ^ 2), W q i f r n' g * dMatrix cart R n' n := by
    intro R hR q hq i hi f hf r hr n hn g hg
    have h := hrot R hR (fun q' i' f' => if q' = q ∧ i' = i ∧ f' = f then 1 else 0) r hr n hn g hg
    simp only [sum_single3 hq hi hf, add_mul, sum_add_distrib] at h
    rw [← hb1 R hR r hr n hn g hg, add_left_cancel_iff] at h
    rw [← h]
    have e : ∀ q' i', ∀ f', ∑ i'' ∈ range ((L + 1) ^ 2), (if q' = q ∧ i'' = i ∧ f' = f then (1 : ℝ) else 0) * dMatrix cart R i'' i' =
        if q' = q ∧ f' = f then dMatrix cart R i i' else 0 := by
      intro q' i' f'
      rw [sum_eq_single i]
      · simp
      · intro c _ hc
        simp [hc]
      · intro hn
        exact absurd (mem_range.2 hi) hn
    simp only [e]
    symm
    rw [sum_eq_single q]
    · refine sum_congr rfl fun i' _ => ?_
      rw [sum_eq_single f]
      · simp
      · intro c _ hc
        simp [hc]
      · intro hn
        exact absurd (mem_range.2 hf) hn
    · intro c _ hc
      exact sum_eq_zero fun _ _ => sum_eq_zero fun _ _ => by simp [hc]
    · intro hn
      exact absurd (mem_range.2 hq) hn
  have hw2 : ∀ q < chan ps, ∀ i < (L + 1) ^ 2, ∀ f < F, ∀ r < chan ps', ∀ n < (L' + 1) ^ 2, ∀ g < G,
      (-1) ^ parOf ps q i * W q i f r n g = (-1) ^ parOf ps' r n * W q i f r n g := by
    intro q hq i hi f hf r hr n hn g hg
    have h := hrefl (fun q' i' f' => if q' = q ∧ i' = i ∧ f' = f then 1 else 0) r hr n hn g hg
    rw [sum_single3 hq hi hf, mul_add, ← hb2 r hr n hn g hg, add_left_cancel_iff] at h
    rw [← h, ← sum_single3 hq hi hf (fun q i f => (-1) ^ parOf ps q i * W q i f r n g)]
    exact sum_congr rfl fun _ _ => sum_congr rfl fun _ _ => sum_congr rfl fun _ _ => by ring
  have hw3 : ∀ q f r g, ∃ c : ℕ → ℝ, q < chan ps → f < F → r < chan ps' → g < G →
      ∀ i < (L + 1) ^ 2, ∀ n < (L' + 1) ^ 2, W q i f r n g = if i = n then c (degreeOf n) else 0 := by
    intro q f r g
    by_cases h : q < chan ps ∧ f < F ∧ r < chan ps' ∧ g < G
    · obtain ⟨hq, hf, hr, hg⟩ := h
      obtain ⟨c, hc⟩ := schur cart L L' (fun i n => W q i f r n g) (fun R hR hdet i hi n hn =>
        hw1 R ⟨hR, hdet⟩ q hq i hi f hf r hr n hn g hg)
      exact ⟨c, fun _ _ _ _ => hc⟩
    · exact ⟨0, fun h1 h2 h3 h4 => absurd ⟨h1, h2, h3, h4⟩ h⟩
  choose c hc using hw3
  refine ⟨⟨fun P l f g => c (slot ps P) f (slot ps' P) g l, fun g => b 0 0 g⟩, fun v => ?_⟩
  obtain ⟨h1, h2, h3, hval⟩ := hW v
  set P : DenseParams := ⟨fun P l f g => c (slot ps P) f (slot ps' P) g l, fun g => b 0 0 g⟩ with hP
  obtain ⟨a1, a2, a3, a4⟩ := C12_dense G true P ⟨ps, L, F, v⟩
  obtain ⟨b1, b2, b3, b4⟩ := C08_change (dense G true P ⟨ps, L, F, v⟩) (some L') (some ps')
  simp only [Option.getD_some] at b1 b2 b4
  refine ⟨by rw [h1, b2], by rw [h2, b1], by rw [h3, b3, a3], fun r n g hr hn hg => ?_⟩
  rw [h1] at hr
  rw [h2] at hn
  rw [h3] at hg
  rw [hval r hr n hn g hg, val_comp _ g (by rw [b2]; exact hr) (by rw [b1]; exact hn), b4, b2, if_pos ⟨hn, by
    unfold parOf
    cases ps' <;> simp⟩, a4, add_comm]
  congr 1
  · by_cases hnL : n < (L + 1) ^ 2
    · have e1 : ∀ q ∈ range (chan ps), ∑ i ∈ range ((L + 1) ^ 2), ∑ f ∈ range F, v q i f * W q i f r n g =
          ∑ f ∈ range F, v q n f * (if parOf ps q n = parOf ps' r n then c q f r g (degreeOf n) else 0) := by
        intro q hq
        rw [mem_range] at hq
        rw [sum_eq_single n]
        · refine sum_congr rfl fun f hf => ?_
          rw [mem_range] at hf
          rw [hc q f r g hq hf hr hg n hnL n hn, if_pos rfl]
          by_cases he : parOf ps q n = parOf ps' r n
          · rw [if_pos he]
          · have h := hw2 q hq n hnL f hf r hr n hn g hg
            rcases pow_par (parOf_lt hq n) (parOf_lt hr n) _ h with h | h
            · exact absurd h he
            · rw [hc q f r g hq hf hr hg n hnL n hn, if_pos rfl] at h
              rw [h, if_neg he]
        · intro i hi hne
          rw [mem_range] at hi
          refine sum_eq_zero fun f hf => ?_
          rw [hc q f r g hq (mem_range.1 hf) hr hg i hi n hn, if_neg hne, mul_zero]
        · intro hn'
          exact absurd (mem_range.2 hnL) hn'
      rw [sum_congr rfl e1, sum_comm]
      refine sum_congr rfl fun f hf => ?_
      have e2 := sum_comp ⟨ps, L, F, v⟩ f hnL (fun p => if p = parOf ps' r n then c (slot ps p) f r g (degreeOf n) else 0)
      dsimp only at e2
      have e3 : ∀ q ∈ range (chan ps), v q n f * (if parOf ps q n = parOf ps' r n then c q f r g (degreeOf n) else 0) =
          v q n f * (if parOf ps q n = parOf ps' r n then c (slot ps (parOf ps q n)) f r g (degreeOf n) else 0) := by
        intro q hq
        rw [slot_parOf (mem_range.1 hq)]
      rw [sum_congr rfl e3, ← e2, sum_eq_single (parOf ps' r n)]
      · rw [if_pos rfl, hP]
        dsimp only
        rw [slot_parOf hr]
        rfl
      · intro p _ hp
        rw [if_neg hp, mul_zero]
      · intro hn'
        exact absurd (mem_range.2 (parOf_lt hr n)) hn'
    · rw [sum_eq_zero, sum_eq_zero]
      · intro f _
        rw [comp_out _ _ _ _ (by dsimp only; omega), zero_mul]
      · intro q hq
        refine sum_eq_zero fun i hi => sum_eq_zero fun f hf => ?_
        rw [mem_range] at hi
        rw [hc q f r g (mem_range.1 hq) (mem_range.1 hf) hr hg i hi n hn, if_neg (by omega), mul_zero]
  · by_cases h0 : n = 0 ∧ parOf ps' r n = 0
    · rw [if_pos ⟨rfl, h0.2, h0.1⟩, hP]
      have hr0 := slot_parOf hr n
      rw [h0.2] at hr0
      have : r = 0 := by rw [← hr0]; unfold slot; simp
      rw [this, h0.1]
    · rw [if_neg (fun h => h0 ⟨h.2.2, h.2.1⟩), hb3 r hr n hn g hg h0]

theorem cgTensor_triangle (cart : Bool) {i j k : ℕ} (h : cgTensor cart i j k ≠ 0) :
    Triangle (degreeOf i) (degreeOf j) (degreeOf k) := by
  by_contra hn
  apply h
  unfold cgTensor
  rw [symCG_of_not_tri _ _ _ _ _ _ (fun h' => hn ⟨by rw [abs_le]; omega, by omega⟩)]

/-- coefficients which respect all rotations, for fixed degrees of the arguments -/
theorem coefficients_fixed (cart : Bool) (L M L' a b : ℕ) (U : ℕ → ℕ → ℕ → ℝ)
    (h0 : ∀ l m n, ¬ (degreeOf l = a ∧ degreeOf m = b) → U l m n = 0)
    (hU : ∀ R, IsOrthogonal R → det3x3 R = 1 → ∀ l < (L + 1) ^ 2, ∀ m < (M + 1) ^ 2, ∀ n < (L' + 1) ^ 2,
      ∑ l' ∈ range ((L + 1) ^ 2), ∑ m' ∈ range ((M + 1) ^ 2), dMatrix cart R l l' * dMatrix cart R m m' * U l' m' n =
        ∑ n' ∈ range ((L' + 1) ^ 2), U l m n' * dMatrix cart R n' n) :
    ∃ w : ℕ → ℝ, ∀ l < (L + 1) ^ 2, ∀ m < (M + 1) ^ 2, ∀ n < (L' + 1) ^ 2, U l m n = w (degreeOf n) * cgTensor cart l m n ∨
      ¬ (degreeOf l = a ∧ degreeOf m = b) := by
  set T : ℕ → ℕ → ℝ := fun k n => ∑ l ∈ range ((L + 1) ^ 2), ∑ m ∈ range ((M + 1) ^ 2), cgTensor cart l m k * U l m n with hT
  obtain ⟨c, hc⟩ := schur cart (a + b) L' T (by
    intro R hR hdet k hk n hn
    have hk' : degreeOf k ≤ a + b := by
      have := degreeOf_lt hk
      omega
    have e1 : ∀ l ∈ range ((L + 1) ^ 2), ∀ m ∈ range ((M + 1) ^ 2),
        ∑ k' ∈ range ((a + b + 1) ^ 2), dMatrix cart R k k' * cgTensor cart l m k' =
        ∑ l' ∈ range ((L + 1) ^ 2), ∑ m' ∈ range ((M + 1) ^ 2),
          cgTensor cart l' m' k * dMatrix cart R l' l * dMatrix cart R m' m := by
      intro l hl m hm
      have hl' := degreeOf_lt (mem_range.1 hl)
      have hm' := degreeOf_lt (mem_range.1 hm)
      rw [dMatrix_couples cart hR (L1 := L) (L2 := M) (L3 := a + b) (by omega) (by omega) hk', ← det3x3_eq, hdet, one_pow,
        one_mul]
      exact sum_congr rfl fun _ _ => mul_comm _ _
    calc ∑ k' ∈ range ((a + b + 1) ^ 2), dMatrix cart R k k' * T k' n
        = ∑ l ∈ range ((L + 1) ^ 2), ∑ m ∈ range ((M + 1) ^ 2),
            (∑ k' ∈ range ((a + b + 1) ^ 2), dMatrix cart R k k' * cgTensor cart l m k') * U l m n := by
          simp only [hT, mul_sum, sum_mul]
          rw [sum_comm]
          refine sum_congr rfl fun l _ => ?_
          rw [sum_comm]
          exact sum_congr rfl fun m _ => sum_congr rfl fun k' _ => by ring
      _ = ∑ l ∈ range ((L + 1) ^ 2), ∑ m ∈ range ((M + 1) ^ 2),
            (∑ l' ∈ range ((L + 1) ^ 2), ∑ m' ∈ range ((M + 1) ^ 2),
              cgTensor cart l' m' k * dMatrix cart R l' l * dMatrix cart R m' m) * U l m n :=
          sum_congr rfl fun l hl => sum_congr rfl fun m hm => by rw [e1 l hl m hm]
      _ = ∑ l' ∈ range ((L + 1) ^ 2), ∑ m' ∈ range ((M + 1) ^ 2), cgTensor cart l' m' k *
            ∑ l ∈ range ((L + 1) ^ 2), ∑ m ∈ range ((M + 1) ^ 2), dMatrix cart R l' l * dMatrix cart R m' m * U l m n := by
          simp only [mul_sum, sum_mul]
          have e2 : ∀ l ∈ range ((L + 1) ^ 2), ∑ m ∈ range ((M + 1) ^ 2), ∑ l' ∈ range ((L + 1) ^ 2), ∑ m' ∈ range ((M + 1) ^ 2),
              cgTensor cart l' m' k * dMatrix cart R l' l * dMatrix cart R m' m * U l m n =
              ∑ l' ∈ range ((L + 1) ^ 2), ∑ m' ∈ range ((M + 1) ^ 2), ∑ m ∈ range ((M + 1) ^ 2),
                cgTensor cart l' m' k * (dMatrix cart R l' l * dMatrix cart R m' m * U l m n) := by
            intro l _
            rw [sum_comm]
            refine sum_congr rfl fun l' _ => ?_
            rw [sum_comm]
            exact sum_congr rfl fun m' _ => sum_congr rfl fun m _ => by ring
          rw [sum_congr rfl e2, sum_comm]
          exact sum_congr rfl fun l' _ => sum_comm
      _ = ∑ l' ∈ range ((L + 1) ^ 2), ∑ m' ∈ range ((M + 1) ^ 2), cgTensor cart l' m' k *
            ∑ n' ∈ range ((L' + 1) ^ 2), U l' m' n' * dMatrix cart R n' n :=
          sum_congr rfl fun l' hl' => sum_congr rfl fun m' hm' => by
            rw [hU R hR hdet l' (mem_range.1 hl') m' (mem_range.1 hm') n hn]
      _ = ∑ n' ∈ range ((L' + 1) ^ 2), T k n' * dMatrix cart R n' n := by
          simp only [hT, mul_sum, sum_mul]
          symm
          rw [sum_comm]
          refine sum_congr rfl fun l _ => ?_
          rw [sum_comm]
          exact sum_congr rfl fun m _ => sum_congr rfl fun n' _ => by ring)
  refine ⟨c, fun l hl m hm n hn => ?_⟩
  by_cases hd : degreeOf l = a ∧ degreeOf m = b
  swap
  · exact Or.inr hd
  left
  have key : ∑ k ∈ range ((a + b + 1) ^ 2), cgTensor cart l m k * T k n = U l m n := by
    simp only [hT, mul_sum]
    have e : ∀ l' ∈ range ((L + 1) ^ 2), ∑ k ∈ range ((a + b + 1) ^ 2), ∑ m' ∈ range ((M + 1) ^ 2),
        cgTensor cart l m k * (cgTensor cart l' m' k * U l' m' n) =
        ∑ m' ∈ range ((M + 1) ^ 2), if l = l' ∧ m = m' then U l' m' n else 0 := by
      intro l' _
      rw [sum_comm]
      refine sum_congr rfl fun m' _ => ?_
      by_cases hd' : degreeOf l' = a ∧ degreeOf m' = b
      · have h := cgTensor_complete cart (a + b) l l' m m' (hd.1.trans hd'.1.symm) (hd.2.trans hd'.2.symm)
          (by rw [hd.1, hd.2])
        simp only [← mul_assoc]
        rw [← sum_mul, h]
        split_ifs <;> simp
      · rw [h0 _ _ _ hd', ite_self]
        simp
    rw [sum_comm, sum_congr rfl e, sum_eq_single l, sum_eq_single m]
    · simp
    · intro c _ hc
      rw [if_neg (fun h => hc h.2.symm)]
    · intro h
      exact absurd (mem_range.2 hm) h
    · intro c _ hc
      exact sum_eq_zero fun _ _ => by rw [if_neg (fun h => hc h.1.symm)]
    · intro h
      exact absurd (mem_range.2 hl) h
  rw [← key]
  by_cases hn' : n < (a + b + 1) ^ 2
  · rw [sum_eq_single n]
    · rw [hc n hn' n hn, if_pos rfl, mul_comm]
    · intro k hk hne
      rw [hc k (mem_range.1 hk) n hn, if_neg hne, mul_zero]
    · intro h
      exact absurd (mem_range.2 hn') h
  · rw [sum_eq_zero]
    · by_cases hz : cgTensor cart l m n = 0
      · rw [hz, mul_zero]
      · have ht := (cgTensor_triangle cart hz).2
        rw [hd.1, hd.2] at ht
        exact absurd ((deg_le_iff n (a + b)).1 ht) hn'
    · intro k hk
      rw [hc k (mem_range.1 hk) n hn, if_neg (by have := mem_range.1 hk; omega), mul_zero]

/-- coefficients which respect all rotations are multiples of the Clebsch-Gordan coefficients -/
theorem coefficients (cart : Bool) (L M L' : ℕ) (U : ℕ → ℕ → ℕ → ℝ)
    (hU : ∀ R, IsOrthogonal R → det3x3 R = 1 → ∀ l < (L + 1) ^ 2, ∀ m < (M + 1) ^ 2, ∀ n < (L' + 1) ^ 2,
      ∑ l' ∈ range ((L + 1) ^ 2), ∑ m' ∈ range ((M + 1) ^ 2), dMatrix cart R l l' * dMatrix cart R m m' * U l' m' n =
        ∑ n' ∈ range ((L' + 1) ^ 2), U l m n' * dMatrix cart R n' n) :
    ∃ w : ℕ → ℕ → ℕ → ℝ, ∀ l < (L + 1) ^ 2, ∀ m < (M + 1) ^ 2, ∀ n < (L' + 1) ^ 2,
      U l m n = w (degreeOf l) (degreeOf m) (degreeOf n) * cgTensor cart l m n := by
  have h : ∀ a b, ∃ w : ℕ → ℝ, ∀ l < (L + 1) ^ 2, ∀ m < (M + 1) ^ 2, ∀ n < (L' + 1) ^ 2,
      (if degreeOf l = a ∧ degreeOf m = b then U l m n else 0) = w (degreeOf n) * cgTensor cart l m n ∨
        ¬ (degreeOf l = a ∧ degreeOf m = b) := by
    intro a b
    refine coefficients_fixed cart L M L' a b (fun l m n => if degreeOf l = a ∧ degreeOf m = b then U l m n else 0)
      (fun l m n h => if_neg h) ?_
    intro R hR hdet l hl m hm n hn
    by_cases hd : degreeOf l = a ∧ degreeOf m = b
    · simp only [if_pos hd]
      rw [← hU R hR hdet l hl m hm n hn]
      refine sum_congr rfl fun l' _ => sum_congr rfl fun m' _ => ?_
      by_cases hd' : degreeOf l' = a ∧ degreeOf m' = b
      · rw [if_pos hd']
      · rw [if_neg hd']
        by_cases h1 : degreeOf l' = a
        · rw [dMatrix_block' cart (a := m) (b := m') (by rw [hd.2]; exact fun h => hd' ⟨h1, h.symm⟩)]
          ring
        · rw [dMatrix_block' cart (a := l) (b := l') (by rw [hd.1]; exact fun h => h1 h.symm)]
          ring
    · simp only [if_neg hd, zero_mul, sum_const_zero]
      refine sum_eq_zero fun l' _ => sum_eq_zero fun m' _ => ?_
      by_cases hd' : degreeOf l' = a ∧ degreeOf m' = b
      · by_cases h1 : degreeOf l = a
        · rw [dMatrix_block' cart (a := m) (b := m') (by rw [hd'.2]; exact fun h => hd ⟨h1, h⟩)]
          ring
        · rw [dMatrix_block' cart (a := l) (b := l') (by rw [hd'.1]; exact h1)]
          ring
      · rw [if_neg hd', mul_zero]
  choose w hw using h
  refine ⟨w, fun l hl m hm n hn => ?_⟩
  rcases hw (degreeOf l) (degreeOf m) l hl m hm n hn with h | h
  · rw [if_pos ⟨rfl, rfl⟩] at h
    exact h
  · exact absurd ⟨rfl, rfl⟩ h

/-- a sum with one entry -/
theorem sum_single2 {A B p l : ℕ} (hp : p < A) (hl : l < B) (g : ℕ → ℕ → ℝ) :
    ∑ p' ∈ range A, ∑ l' ∈ range B, (if p' = p ∧ l' = l then 1 else 0) * g p' l' = g p l := by
  rw [sum_eq_single p, sum_eq_single l]
  · simp
  · intro b _ hb
    simp [hb]
  · intro h
    exact absurd (mem_range.2 hl) h
  · intro b _ hb
    exact sum_eq_zero fun c _ => by simp [hb]
  · intro h
    exact absurd (mem_range.2 hp) h

/-- **C72 (Tensor layers are all bilinear equivariant maps).** Every bilinear map of two feature arrays which treats all
features separately and respects rotations and the reflection is a Tensor layer (with a kernel that depends on parities,
degrees and features only), followed by a change of the maximum degree and of the type. -/
theorem C72_bilinear (cart : Bool) (cg : ℕ → ℕ → ℕ → ℝ) (hcg : LibraryCG cart cg) (B : Feat → Feat → Feat) (ps : Bool) (L : ℕ)
    (qs : Bool) (M F : ℕ) (ps' : Bool) (L' : ℕ) (hB : IsBilinear B ps L qs M F ps' L')
    (hE : IsEquivariant₂ cart B ps L qs M F L') :
    ∃ K : TensorKernel, ∀ v w, ∃ z, tensor ⟨some (min L' (L + M)), true⟩ K cg ⟨ps, L, F, v⟩ ⟨qs, M, F, w⟩ = .ok z ∧
      (B ⟨ps, L, F, v⟩ ⟨qs, M, F, w⟩).Same (changeMaxDegreeOrType z (some L') (some ps')) := by
  have hcg' := libraryCG_eq hcg
  subst hcg'
  obtain ⟨U, hU⟩ := hB
  -- rotations
  have hrot : ∀ p < chan ps, ∀ q < chan qs, ∀ r < chan ps', ∀ f < F, ∀ R, IsOrthogonal R → det3x3 R = 1 →
      ∀ l < (L + 1) ^ 2, ∀ m < (M + 1) ^ 2, ∀ n < (L' + 1) ^ 2,
      ∑ l' ∈ range ((L + 1) ^ 2), ∑ m' ∈ range ((M + 1) ^ 2), dMatrix cart R l l' * dMatrix cart R m m' * U p l' q m' r n f =
        ∑ n' ∈ range ((L' + 1) ^ 2), U p l q m r n' f * dMatrix cart R n' n := by
    intro p hp q hq r hr f hf R hR hdet l hl m hm n hn
    set v : ℕ → ℕ → ℕ → ℝ := fun p' l' _ => if p' = p ∧ l' = l then 1 else 0 with hv
    set w : ℕ → ℕ → ℕ → ℝ := fun q' m' _ => if q' = q ∧ m' = m then 1 else 0 with hw
    obtain ⟨-, hL, -, hval⟩ := hU v w
    obtain ⟨k1, k2, k3, kval⟩ := hU (rotate ⟨ps, L, F, v⟩
      (fun i j => if i < (L + 1) ^ 2 ∧ j < (L + 1) ^ 2 then dMatrix cart R i j else 0)).val (rotate ⟨qs, M, F, w⟩
      (fun i j => if i < (M + 1) ^ 2 ∧ j < (M + 1) ^ 2 then dMatrix cart R i j else 0)).val
    have h0 := (hE v w).1 R ⟨hR, hdet⟩ _ _ _ (isWignerD cart R L) (isWignerD cart R M) (isWignerD cart R L')
    rw [rotate_eq ⟨ps, L, F, v⟩, rotate_eq ⟨qs, M, F, w⟩] at h0
    have h := h0.2.2.2 r n f (by rw [k1]; exact hr) (by rw [k2]; exact hn) (by rw [k3]; exact hf)
    rw [kval r hr n hn f hf] at h
    unfold rotate at h
    dsimp only at h
    rw [hL] at h
    have e1 : ∀ p' l', l' < (L + 1) ^ 2 → ∑ l'' ∈ range ((L + 1) ^ 2), v p' l'' f *
        (if l'' < (L + 1) ^ 2 ∧ l' < (L + 1) ^ 2 then dMatrix cart R l'' l' else 0) =
        if p' = p then dMatrix cart R l l' else 0 := by
      intro p' l' hl'
      rw [sum_eq_single l]
      · simp [hv, hl, hl']
      · intro c _ hc
        simp [hv, hc]
      · intro h
        exact absurd (mem_range.2 hl) h
    have e2 : ∀ q' m', m' < (M + 1) ^ 2 → ∑ m'' ∈ range ((M + 1) ^ 2), w q' m'' f *
        (if m'' < (M + 1) ^ 2 ∧ m' < (M + 1) ^ 2 then dMatrix cart R m'' m' else 0) =
        if q' = q then dMatrix cart R m m' else 0 := by
      intro q' m' hm'
      rw [sum_eq_single m]
      · simp [hw, hm, hm']
      · intro c _ hc
        simp [hw, hc]
      · intro h
        exact absurd (mem_range.2 hm) h
    refine Eq.trans ?_ (h.trans ?_)
    · symm
      rw [sum_eq_single p]
      · refine sum_congr rfl fun l' hl' => ?_
        rw [sum_eq_single q]
        · refine sum_congr rfl fun m' hm' => ?_
          rw [e1 _ _ (mem_range.1 hl'), e2 _ _ (mem_range.1 hm'), if_pos rfl, if_pos rfl]
        · intro c _ hc
          refine sum_eq_zero fun m' hm' => ?_
          rw [e2 _ _ (mem_range.1 hm'), if_neg hc, mul_zero, zero_mul]
        · intro h
          exact absurd (mem_range.2 hq) h
      · intro c _ hc
        refine sum_eq_zero fun l' hl' => sum_eq_zero fun _ _ => sum_eq_zero fun _ _ => ?_
        rw [e1 _ _ (mem_range.1 hl'), if_neg hc, zero_mul, zero_mul]
      · intro h
        exact absurd (mem_range.2 hp) h
    · refine sum_congr rfl fun n' hn' => ?_
      rw [hval r hr n' (mem_range.1 hn') f hf, if_pos ⟨mem_range.1 hn', hn⟩]
      congr 1
      rw [← sum_single2 hp hl (fun p l => U p l q m r n' f)]
      refine sum_congr rfl fun p' _ => sum_congr rfl fun l' _ => ?_
      rw [← sum_single2 hq hm (fun q m => U p' l' q m r n' f), mul_sum]
      refine sum_congr rfl fun q' _ => ?_
      rw [mul_sum]
      exact sum_congr rfl fun m' _ => by rw [hv, hw]; ring
  -- the reflection
  have hrefl : ∀ p < chan ps, ∀ q < chan qs, ∀ r < chan ps', ∀ f < F, ∀ l < (L + 1) ^ 2, ∀ m < (M + 1) ^ 2,
      ∀ n < (L' + 1) ^ 2, (parOf ps p l + parOf qs q m) % 2 ≠ parOf ps' r n → U p l q m r n f = 0 := by
    intro p hp q hq r hr f hf l hl m hm n hn hne
    set v : ℕ → ℕ → ℕ → ℝ := fun p' l' _ => if p' = p ∧ l' = l then 1 else 0 with hv
    set w : ℕ → ℕ → ℕ → ℝ := fun q' m' _ => if q' = q ∧ m' = m then 1 else 0 with hw
    obtain ⟨hP, hL, -, hval⟩ := hU v w
    obtain ⟨k1, k2, k3, kval⟩ := hU (reflect ⟨ps, L, F, v⟩).val (reflect ⟨qs, M, F, w⟩).val
    have h0 := (hE v w).2
    rw [reflect_eq ⟨ps, L, F, v⟩, reflect_eq ⟨qs, M, F, w⟩] at h0
    have h := h0.2.2.2 r n f (by rw [k1]; exact hr) (by rw [k2]; exact hn) (by rw [k3]; exact hf)
    rw [reflect_entry _ f (by rw [hP]; exact hr) (by rw [hL]; exact hn), hP, kval r hr n hn f hf, hval r hr n hn f hf] at h
    have e1 : ∑ p' ∈ range (chan ps), ∑ l' ∈ range ((L + 1) ^ 2), ∑ q' ∈ range (chan qs), ∑ m' ∈ range ((M + 1) ^ 2),
        v p' l' f * w q' m' f * U p' l' q' m' r n f = U p l q m r n f := by
      rw [← sum_single2 hp hl (fun p l => U p l q m r n f)]
      refine sum_congr rfl fun p' _ => sum_congr rfl fun l' _ => ?_
      rw [← sum_single2 hq hm (fun q m => U p' l' q m r n f), mul_sum]
      refine sum_congr rfl fun q' _ => ?_
      rw [mul_sum]
      exact sum_congr rfl fun m' _ => by rw [hv, hw]; ring
    have e2 : ∑ p' ∈ range (chan ps), ∑ l' ∈ range ((L + 1) ^ 2), ∑ q' ∈ range (chan qs), ∑ m' ∈ range ((M + 1) ^ 2),
        (reflect ⟨ps, L, F, v⟩).val p' l' f * (reflect ⟨qs, M, F, w⟩).val q' m' f * U p' l' q' m' r n f =
        (-1) ^ parOf ps p l * ((-1) ^ parOf qs q m * U p l q m r n f) := by
      rw [← sum_single2 hp hl (fun p l => (-1) ^ parOf ps p l * ((-1) ^ parOf qs q m * U p l q m r n f))]
      refine sum_congr rfl fun p' hp' => sum_congr rfl fun l' hl' => ?_
      rw [← sum_single2 hq hm (fun q m => (-1) ^ parOf qs q m * U p' l' q m r n f), mul_sum, mul_sum]
      refine sum_congr rfl fun q' hq' => ?_
      rw [mul_sum, mul_sum]
      refine sum_congr rfl fun m' hm' => ?_
      rw [reflect_entry ⟨ps, L, F, v⟩ f (mem_range.1 hp') (mem_range.1 hl'),
        reflect_entry ⟨qs, M, F, w⟩ f (mem_range.1 hq') (mem_range.1 hm'), hv, hw]
      ring
    rw [e1, e2] at h
    have a1 := parOf_lt hp l
    have a2 := parOf_lt hq m
    have h' : (-1) ^ ((parOf ps p l + parOf qs q m) % 2) * U p l q m r n f = (-1) ^ parOf ps' r n * U p l q m r n f := by
      rw [← h, ← mul_assoc, ← pow_add]
      congr 1
      rcases Nat.even_or_odd (parOf ps p l + parOf qs q m) with he | ho
      · rw [he.neg_one_pow, Nat.even_iff.1 he, pow_zero]
      · rw [ho.neg_one_pow, Nat.odd_iff.1 ho, pow_one]
    rcases pow_par (Nat.mod_lt _ (by omega)) (parOf_lt hr n) _ h' with h | h
    · exact absurd h hne
    · exact h
  have hw : ∀ p q r f, ∃ w : ℕ → ℕ → ℕ → ℝ, p < chan ps → q < chan qs → r < chan ps' → f < F →
      ∀ l < (L + 1) ^ 2, ∀ m < (M + 1) ^ 2, ∀ n < (L' + 1) ^ 2,
        U p l q m r n f = w (degreeOf l) (degreeOf m) (degreeOf n) * cgTensor cart l m n := by
    intro p q r f
    by_cases h : p < chan ps ∧ q < chan qs ∧ r < chan ps' ∧ f < F
    · obtain ⟨hp, hq, hr, hf⟩ := h
      obtain ⟨w, hw⟩ := coefficients cart L M L' (fun l m n => U p l q m r n f) (hrot p hp q hq r hr f hf)
      exact ⟨w, fun _ _ _ _ => hw⟩
    · exact ⟨0, fun h1 h2 h3 h4 => absurd ⟨h1, h2, h3, h4⟩ h⟩
  choose ω hω using hw
  set par : Bool → ℕ → ℕ → ℕ := fun s p d => if s then p else d % 2 with hpar
  set K : TensorKernel := fun p a q b _ c f => ω p q (slot ps' ((par ps p a + par qs q b) % 2)) f a b c with hK
  refine ⟨K, fun v w => ?_⟩
  obtain ⟨z, hz, zL, zF, zP, zc⟩ := C15_tensor ⟨some (min L' (L + M)), true⟩ K (cgTensor cart) ⟨ps, L, F, v⟩ ⟨qs, M, F, w⟩
    (by simp) rfl
  refine ⟨z, hz, ?_⟩
  simp only [Option.getD_some, true_and] at zL zF zP zc
  obtain ⟨b1, b2, b3, b4⟩ := C08_change z (some L') (some ps')
  simp only [Option.getD_some] at b1 b2 b4
  obtain ⟨h1, h2, h3, hval⟩ := hU v w
  refine ⟨by rw [h1, b2], by rw [h2, b1], by rw [h3, b3, zF], fun r n f hr hn hf => ?_⟩
  rw [h1] at hr
  rw [h2] at hn
  rw [h3] at hf
  rw [hval r hr n hn f hf, val_comp _ f (by rw [b2]; exact hr) (by rw [b1]; exact hn), b4, b2, if_pos ⟨hn, by
    unfold parOf
    cases ps' <;> simp⟩, zc]
  have hterm : ∀ p < chan ps, ∀ q < chan qs, ∀ l < (L + 1) ^ 2, ∀ m < (M + 1) ^ 2, U p l q m r n f =
      if (parOf ps p l + parOf qs q m) % 2 = parOf ps' r n then
        K p (deg l) q (deg m) 0 (deg n) f * cgTensor cart l m n else 0 := by
    intro p hp q hq l hl m hm
    by_cases he : (parOf ps p l + parOf qs q m) % 2 = parOf ps' r n
    · rw [if_pos he, hω p q r f hp hq hr hf l hl m hm n hn, hK]
      dsimp only
      have e : slot ps' ((par ps p (deg l) + par qs q (deg m)) % 2) = r := by
        change slot ps' ((parOf ps p l + parOf qs q m) % 2) = r
        rw [he, slot_parOf hr]
      rw [e]
      rfl
    · rw [if_neg he, hrefl p hp q hq r hr f hf l hl m hm n hn he]
  by_cases hc : parOf ps' r n < 2 ∧ n < (z.L + 1) ^ 2 ∧ (z.pseudo = true ∨ parOf ps' r n = deg n % 2)
  · rw [if_pos hc]
    unfold coupled
    set R := parOf ps' r n with hR
    set G : ℕ → ℕ → ℕ → ℕ → ℝ := fun P l Q m => if (P + Q) % 2 = R then
      K (slot ps P) (deg l) (slot qs Q) (deg m) 0 (deg n) f * cgTensor cart l m n else 0 with hG
    have e1 : ∀ P ∈ range 2, ∀ Q ∈ range 2, (if (P + Q) % 2 = R then
        ∑ l ∈ range ((L + 1) ^ 2), ∑ m ∈ range ((M + 1) ^ 2), comp ⟨ps, L, F, v⟩ P l f * comp ⟨qs, M, F, w⟩ Q m f *
          K (slot ps P) (deg l) (slot qs Q) (deg m) (slot z.pseudo R) (deg n) f * cgTensor cart l m n else 0) =
        ∑ l ∈ range ((L + 1) ^ 2), ∑ m ∈ range ((M + 1) ^ 2), comp ⟨ps, L, F, v⟩ P l f * (comp ⟨qs, M, F, w⟩ Q m f *
          G P l Q m) := by
      intro P _ Q _
      by_cases h : (P + Q) % 2 = R
      · rw [if_pos h]
        refine sum_congr rfl fun l _ => sum_congr rfl fun m _ => ?_
        simp only [hG, if_pos h, hK]
        ring
      · rw [if_neg h]
        symm
        refine sum_eq_zero fun l _ => sum_eq_zero fun m _ => ?_
        simp only [hG, if_neg h, mul_zero]
    rw [sum_congr rfl fun P hP => sum_congr rfl fun Q hQ => e1 P hP Q hQ]
    have e2 : ∀ P ∈ range 2, ∑ Q ∈ range 2, ∑ l ∈ range ((L + 1) ^ 2), ∑ m ∈ range ((M + 1) ^ 2),
        comp ⟨ps, L, F, v⟩ P l f * (comp ⟨qs, M, F, w⟩ Q m f * G P l Q m) =
        ∑ l ∈ range ((L + 1) ^ 2), comp ⟨ps, L, F, v⟩ P l f * ∑ q ∈ range (chan qs), ∑ m ∈ range ((M + 1) ^ 2),
          w q m f * G P l (parOf qs q m) m := by
      intro P _
      rw [sum_comm]
      refine sum_congr rfl fun l _ => ?_
      rw [sum_comm, sum_comm (s := range (chan qs)), mul_sum]
      refine sum_congr rfl fun m hm => ?_
      rw [← mul_sum, sum_comp ⟨qs, M, F, w⟩ f (mem_range.1 hm) (fun Q => G P l Q m)]
    rw [sum_congr rfl e2, sum_comm, sum_comm (s := range 2)]
    refine sum_congr rfl fun l hl => ?_
    rw [sum_comp ⟨ps, L, F, v⟩ f (mem_range.1 hl) (fun P => ∑ q ∈ range (chan qs), ∑ m ∈ range ((M + 1) ^ 2),
          w q m f * G P l (parOf qs q m) m)]
    refine sum_congr rfl fun p hp => ?_
    rw [mul_sum]
    refine sum_congr rfl fun q hq => ?_
    rw [mul_sum]
    refine sum_congr rfl fun m hm => ?_
    rw [hterm p (mem_range.1 hp) q (mem_range.1 hq) l (mem_range.1 hl) m (mem_range.1 hm)]
    simp only [hG]
    rw [slot_parOf (mem_range.1 hp), slot_parOf (mem_range.1 hq)]
    ring
  · rw [if_neg hc]
    refine sum_eq_zero fun p hp => sum_eq_zero fun l hl => sum_eq_zero fun q hq => sum_eq_zero fun m hm => ?_
    rw [mem_range] at hp hl hq hm
    rw [hterm p hp q hq l hl m hm]
    by_cases he : (parOf ps p l + parOf qs q m) % 2 = parOf ps' r n
    swap
    · rw [if_neg he, mul_zero]
    rw [if_pos he]
    by_cases hz0 : cgTensor cart l m n = 0
    · rw [hz0, mul_zero, mul_zero]
    exfalso
    have ht := cgTensor_triangle cart hz0
    have hdl : degreeOf l < L + 1 := degreeOf_lt hl
    have hdm : degreeOf m < M + 1 := degreeOf_lt hm
    have hdn : degreeOf n < L' + 1 := degreeOf_lt hn
    have ht1 := ht.1
    have ht2 := ht.2
    rw [abs_le] at ht1
    apply hc
    have hnz : n < (z.L + 1) ^ 2 := by
      rw [← deg_le_iff, zL]
      change degreeOf n ≤ _
      omega
    refine ⟨parOf_lt hr n, hnz, ?_⟩
    by_cases hzp : z.pseudo = true
    · exact Or.inl hzp
    right
    have hcond : ps = false ∧ qs = false ∧ (L = 0 ∨ M = 0 ∨ min L' (L + M) = 0) := by
      by_contra h
      exact hzp (zP.2 h)
    obtain ⟨rfl, rfl, hcond⟩ := hcond
    rw [← he]
    unfold parOf
    simp only [Bool.false_eq_true, if_false]
    have e1 : deg l = degreeOf l := rfl
    have e2 : deg m = degreeOf m := rfl
    have e3 : deg n = degreeOf n := rfl
    rw [e1, e2, e3]
    rw [← deg_le_iff, zL, e3] at hnz
    omega

/-- **C72 (converse).** Every Dense layer followed by such a change is an affine map which respects rotations and the
reflection. (For Tensor layers see C15.) -/
theorem C72_affine_converse (cart : Bool) (P : DenseParams) (ps : Bool) (L F : ℕ) (ps' : Bool) (L' G : ℕ) :
    IsAffine (fun x => changeMaxDegreeOrType (dense G true P x) (some L') (some ps')) ps L F ps' L' G ∧
      IsEquivariant cart (fun x => changeMaxDegreeOrType (dense G true P x) (some L') (some ps')) ps L F L' := by
  constructor
  · refine ⟨fun q i f r n g => if i = n ∧ parOf ps q i = parOf ps' r n then P.kernel (parOf ps' r n) (deg n) f g else 0,
      fun r n g => if parOf ps' r n = 0 ∧ n = 0 then P.bias g else 0, fun v => ?_⟩
    obtain ⟨a1, a2, a3, a4⟩ := C12_dense G true P ⟨ps, L, F, v⟩
    obtain ⟨b1, b2, b3, b4⟩ := C08_change (dense G true P ⟨ps, L, F, v⟩) (some L') (some ps')
    simp only [Option.getD_some] at b1 b2 b4
    refine ⟨b2, b1, by rw [b3, a3], fun r hr n hn g hg => ?_⟩
    dsimp only
    rw [val_comp _ g (by rw [b2]; exact hr) (by rw [b1]; exact hn), b4, b2, if_pos ⟨hn, by
      unfold parOf
      cases ps' <;> simp⟩, a4, add_comm]
    congr 1
    · simp
    · dsimp only
      by_cases hnL : n < (L + 1) ^ 2
      · have e : ∀ f ∈ range F, comp ⟨ps, L, F, v⟩ (parOf ps' r n) n f * P.kernel (parOf ps' r n) (deg n) f g =
            ∑ q ∈ range (chan ps), v q n f * (if parOf ps q n = parOf ps' r n then P.kernel (parOf ps' r n) (deg n) f g else 0) := by
          intro f _
          have h := sum_comp ⟨ps, L, F, v⟩ f hnL (fun p => if p = parOf ps' r n then P.kernel (parOf ps' r n) (deg n) f g else 0)
          rw [sum_eq_single (parOf ps' r n)] at h
          · rw [if_pos rfl] at h
            exact h
          · intro p _ hp
            rw [if_neg hp, mul_zero]
          · intro hn'
            exact absurd (mem_range.2 (parOf_lt hr n)) hn'
        rw [sum_congr rfl e, sum_comm]
        refine sum_congr rfl fun q _ => ?_
        symm
        rw [sum_eq_single n]
        · simp
        · intro i _ hne
          exact sum_eq_zero fun f _ => by rw [if_neg (fun h => hne h.1), mul_zero]
        · intro h
          exact absurd (mem_range.2 hnL) h
      · rw [sum_eq_zero, sum_eq_zero]
        · intro q _
          refine sum_eq_zero fun i hi => sum_eq_zero fun f _ => ?_
          rw [mem_range] at hi
          rw [if_neg (fun h => by omega), mul_zero]
        · intro f _
          rw [comp_out _ _ _ _ (by dsimp only; omega), zero_mul]
  · intro v
    constructor
    · intro R hR D D' hD hD'
      rw [isWignerD_unique hD (isWignerD cart R L), isWignerD_unique hD' (isWignerD cart R L')]
      have hrot := dMatrix_isRotation (cart := cart) hR.1 hR.2
      have hb := hrot.blockDiag
      have hcut : ∀ (x : Feat) (K : ℕ), x.L = K →
          (rotate x fun i j => if i < (K + 1) ^ 2 ∧ j < (K + 1) ^ 2 then dMatrix cart R i j else 0).Same
            (rotate x (dMatrix cart R)) := by
        rintro x K rfl
        refine ⟨rfl, rfl, rfl, fun p i f _ hi _ => ?_⟩
        unfold rotate
        dsimp only
        exact sum_congr rfl fun j hj => by rw [if_pos ⟨mem_range.1 hj, hi⟩]
      have h1 := dense_same (hcut ⟨ps, L, F, v⟩ L rfl) G true P
      have h2 := C12_dense_rotate G true P ⟨ps, L, F, v⟩ (dMatrix cart R) hb hrot.scalar
      have h3 := change_same (h1.trans h2) (some L') (some ps')
      have h4 := C08_rotate (dense G true P ⟨ps, L, F, v⟩) (some L') (some ps') (dMatrix cart R) hb
      exact (h3.trans h4).trans (hcut _ L' (by
        rw [(C08_change _ _ _).1]
        rfl)).symm
    · have h2 := C12_dense_reflect G true P ⟨ps, L, F, v⟩
      exact (change_same h2 (some L') (some ps')).trans (C08_reflect _ _ _)

/-- The hypotheses of `C72_affine` are met by Dense layers with a bias that change the maximum degree and the type. -/
example : ∃ P : DenseParams, ∀ v, (changeMaxDegreeOrType (dense 4 true ⟨fun p l f g => p + l + f + g, fun g => g⟩ ⟨true, 2, 3, v⟩)
    (some 3) (some false)).Same (changeMaxDegreeOrType (dense 4 true P ⟨true, 2, 3, v⟩) (some 3) (some false)) :=
  have h := C72_affine_converse true ⟨fun p l f g => p + l + f + g, fun g => g⟩ true 2 3 false 3 4
  C72_affine true _ true 2 3 false 3 4 h.1 h.2

/-- The hypotheses of `C72_bilinear` are met by the product of scalars. -/
example : ∃ K : TensorKernel, ∀ v w, ∃ z, tensor ⟨some 0, true⟩ K (cgTensor true) ⟨false, 0, 2, v⟩ ⟨false, 0, 2, w⟩ = .ok z ∧
    (⟨false, 0, 2, fun p i f => v p i f * w p i f⟩ : Feat).Same (changeMaxDegreeOrType z (some 0) (some false)) := by
  refine C72_bilinear true (cgTensor true) (libraryCG_cgTensor true)
    (fun x y => ⟨false, 0, 2, fun p i f => x.val p i f * y.val p i f⟩) false 0 false 0 2 false 0 ?_ ?_
  · refine ⟨fun _ _ _ _ _ _ _ => 1, fun v w => ⟨rfl, rfl, rfl, fun r hr n hn f _ => ?_⟩⟩
    have hr0 : r = 0 := by
      change r < 1 at hr
      omega
    have hn0 : n = 0 := by simpa using hn
    subst hr0 hn0
    simp [chan]
  · intro v w
    constructor
    · intro R hR D E D' hD hE hD'
      have e : ∀ D, IsWignerD true R 0 D → D 0 0 = 1 := by
        intro D hD
        rw [isWignerD_unique hD (isWignerD true R 0)]
        dsimp only
        rw [if_pos (by simp), (dMatrix_isRotation true hR.1 hR.2).scalar]
      refine ⟨rfl, rfl, rfl, fun r n f _ hn _ => ?_⟩
      have hn0 : n = 0 := by simpa using hn
      subst hn0
      unfold rotate
      simp [e D hD, e E hE, e D' hD']
    · refine same_of_comp _ _ rfl rfl rfl fun p i f _ => ?_
      rw [(C10_reflect _ p i f).1]
      have hr : ∀ (x : ℕ → ℕ → ℕ → ℝ), (reflect ⟨false, 0, 2, x⟩) = ⟨false, 0, 2, x⟩ := by
        intro x
        unfold reflect oddDegrees
        simp
      simp only [hr]
      unfold comp
      dsimp only
      by_cases h : (0 + 1) ^ 2 ≤ i ∨ 2 ≤ p
      · rw [if_pos h, mul_zero]
      · rw [if_neg h]
        have hi : i = 0 := by omega
        subst hi
        simp only [Bool.false_eq_true, if_false]
        have : deg 0 = 0 := rfl
        rw [this]
        by_cases hp : p = 0
        · simp [hp]
        · simp [hp]

end

end E3x
