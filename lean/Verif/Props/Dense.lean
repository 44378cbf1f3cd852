import Verif.Model.Dense
import Verif.Props.Features

/-!
# C12: Dense layers; C13 (first part): gated activations
-/

namespace E3x

open Spec

/-- **C12 (meaning).** A Dense layer maps the component `(p, i)` of the input, for every parity and position
separately, by the matrix of its parity and degree; the bias reaches only the proper scalar. -/
theorem C12_dense (features : ℕ) (useBias : Bool) (P : DenseParams) (x : Feat) :
    (dense features useBias P x).pseudo = x.pseudo ∧ (dense features useBias P x).L = x.L ∧
    (dense features useBias P x).F = features ∧
    ∀ p i o, comp (dense features useBias P x) p i o =
      (∑ f ∈ Finset.range x.F, comp x p i f * P.kernel p (deg i) f o) +
        (if useBias = true ∧ p = 0 ∧ i = 0 then P.bias o else 0) := by
  have key : (dense features useBias P x).pseudo = x.pseudo ∧ (dense features useBias P x).L = x.L ∧
    (dense features useBias P x).F = features := by
    unfold dense
    split <;> simp_all
  refine ⟨key.1, key.2.1, key.2.2, ?_⟩
  intro p i o
  by_cases hout : (x.L + 1) ^ 2 ≤ i ∨ 2 ≤ p
  · have h0 : ∀ f, comp x p i f = 0 := fun f => by unfold comp; rw [if_pos hout]
    unfold comp
    rw [key.2.1, if_pos hout]
    have : ¬ (p = 0 ∧ i = 0) := by
      rintro ⟨rfl, rfl⟩
      rcases hout with h | h
      · have : 0 < (x.L + 1) ^ 2 := by positivity
        omega
      · omega
    simp only [if_pos hout, zero_mul, Finset.sum_const_zero]
    rw [if_neg (by tauto)]; simp
  · unfold comp
    rw [key.2.1, key.1]
    simp only [hout, if_false]
    by_cases hps : x.pseudo
    · simp only [hps, if_true]
      have hp : p = 0 ∨ p = 1 := by omega
      rcases hp with rfl | rfl
      · simp only [dense, hps, if_true, concatDegrees, denseSub, nnDense, deg_eq_zero, Bool.and_eq_true, beq_iff_eq,
          true_and]
        congr 1
        cases useBias <;> by_cases h0 : i = 0 <;> simp [h0]
      · simp [dense, hps, concatDegrees, denseSub, nnDense]
    · simp only [hps, Bool.false_eq_true, if_false]
      split
      · rename_i hpd
        simp only [dense, hps, concatDegrees, denseSub, nnDense, ← hpd, if_false,
          Bool.false_eq_true]
        congr 1
        by_cases h0 : i = 0
        · subst h0
          have : p = 0 := by simpa using hpd
          cases useBias <;> simp [this]
        · cases useBias <;> simp [h0, deg_eq_zero]
      · rename_i hpd
        have : ¬ (useBias = true ∧ p = 0 ∧ i = 0) := by
          rintro ⟨_, rfl, rfl⟩; exact hpd (by simp)
        simp [this]

/-- **C12 (reflections).** -/
theorem C12_dense_reflect (features : ℕ) (useBias : Bool) (P : DenseParams) (x : Feat) :
    (dense features useBias P (reflect x)).Same (reflect (dense features useBias P x)) := by
  have hr := fun y => (C10_reflect y 0 0 0).2
  obtain ⟨a1, a2, a3, a4⟩ := C12_dense features useBias P (reflect x)
  obtain ⟨b1, b2, b3, b4⟩ := C12_dense features useBias P x
  refine same_of_comp _ _ (by rw [a1, (hr _).1, (hr _).1, b1]) (by rw [a2, (hr _).2.1, (hr _).2.1, b2])
    (by rw [a3, (hr _).2.2, b3]) ?_
  intro p i o _
  rw [a4, (C10_reflect _ _ _ _).1, b4, (hr x).2.2, mul_add, Finset.mul_sum]
  congr 1
  · apply Finset.sum_congr rfl
    intro f _
    rw [(C10_reflect _ _ _ _).1]; ring
  · split
    · rename_i h; simp [h.2.1]
    · simp

/-- A matrix acting trivially on scalars. -/
theorem sum_scalar (D : ℕ → ℕ → ℝ) (hD : BlockDiag D) (h00 : D 0 0 = 1) (b : ℝ) (c : Prop) [Decidable c] (n i : ℕ)
    (hi : i < (n + 1) ^ 2) :
    ∑ j ∈ Finset.range ((n + 1) ^ 2), (if c ∧ j = 0 then b else 0) * D j i = if c ∧ i = 0 then b else 0 := by
  rw [Finset.sum_eq_single 0]
  · by_cases hi0 : i = 0
    · subst hi0; simp [h00]
    · rw [hD 0 i (by rw [deg_zero]; intro h; exact hi0 (deg_eq_zero.1 h.symm))]
      simp [hi0]
  · intro j _ hj; simp [hj]
  · intro h; exact absurd (Finset.mem_range.2 (by positivity)) h

/-- **C12 (rotations).** A Dense layer commutes with every rotation matrix that is block diagonal in the degrees and
acts trivially on scalars (as Wigner-D matrices do). -/
theorem C12_dense_rotate (features : ℕ) (useBias : Bool) (P : DenseParams) (x : Feat)
    (D : ℕ → ℕ → ℝ) (hD : BlockDiag D) (h00 : D 0 0 = 1) :
    (dense features useBias P (rotate x D)).Same (rotate (dense features useBias P x) D) := by
  obtain ⟨a1, a2, a3, a4⟩ := C12_dense features useBias P (rotate x D)
  obtain ⟨b1, b2, b3, b4⟩ := C12_dense features useBias P x
  refine same_of_comp _ (rotate _ D) (a1.trans b1.symm) (a2.trans b2.symm) (a3.trans b3.symm) ?_
  intro p i o _
  by_cases hi : i < (x.L + 1) ^ 2
  · rw [a4, C10_rotate (dense features useBias P x) D hD p i o (by rw [b2]; exact hi), b2]
    change (∑ f ∈ Finset.range x.F, comp (rotate x D) p i f * P.kernel p (deg i) f o) + _ = _
    simp only [b4, add_mul, Finset.sum_add_distrib]
    congr 1
    · simp only [C10_rotate x D hD p i _ hi, Finset.sum_mul]
      rw [Finset.sum_comm]
      apply Finset.sum_congr rfl
      intro j _
      apply Finset.sum_congr rfl
      intro f _
      by_cases hji : deg j = deg i
      · rw [hji]; ring
      · rw [hD j i hji]; simp
    · have := sum_scalar D hD h00 (P.bias o) (useBias = true ∧ p = 0) x.L i hi
      simp only [and_assoc] at this
      rw [this]
  · rw [comp_out _ _ _ _ (by rw [a2]; change (x.L + 1) ^ 2 ≤ i; omega), comp_out _ _ _ _ (by
      change ((dense features useBias P x).L + 1) ^ 2 ≤ i; rw [b2]; omega)]

theorem dense_same {x y : Feat} (h : x.Same y) (features : ℕ) (useBias : Bool) (P : DenseParams) :
    (dense features useBias P x).Same (dense features useBias P y) := by
  obtain ⟨a1, a2, a3, a4⟩ := C12_dense features useBias P x
  obtain ⟨b1, b2, b3, b4⟩ := C12_dense features useBias P y
  refine same_of_comp _ _ (by rw [a1, b1, h.1]) (by rw [a2, b2, h.2.1]) (by rw [a3, b3]) ?_
  intro p i o _
  rw [a4, b4, ← h.2.2.1]
  congr 1
  apply Finset.sum_congr rfl
  intro f hf
  rw [comp_of_same h (Finset.mem_range.1 hf)]

/-- **C12 (linearity without bias).** Without bias, a Dense layer is linear. -/
theorem C12_dense_linear (features : ℕ) (P : DenseParams) (x y : Feat) (a b : ℝ) (hp : x.pseudo = y.pseudo)
    (hL : x.L = y.L) (hF : x.F = y.F) (p i o : ℕ) :
    comp (dense features false P { x with val := fun p i f => a * x.val p i f + b * y.val p i f }) p i o =
      a * comp (dense features false P x) p i o + b * comp (dense features false P y) p i o := by
  have hc : ∀ f, comp { x with val := fun p i f => a * x.val p i f + b * y.val p i f } p i f =
      a * comp x p i f + b * comp y p i f := by
    intro f
    unfold comp
    rw [← hL, ← hp]
    simp only
    split
    · simp
    · split
      · rfl
      · split <;> simp
  rw [(C12_dense _ _ _ _).2.2.2, (C12_dense _ _ _ _).2.2.2, (C12_dense _ _ _ _).2.2.2, ← hF]
  simp only [hc, Bool.false_eq_true, false_and, if_false, add_zero, Finset.mul_sum, ← Finset.sum_add_distrib]
  apply Finset.sum_congr rfl
  intro f _
  ring

/-! ## Gated activations -/

/-- **C13 (meaning).** A gated activation multiplies all components of feature `f` by one number: the gate of the
proper scalar of that feature. -/
theorem C13_gated (g : ℝ → ℝ) (x : Feat) (p i f : ℕ) :
    comp (gatedLinear g x) p i f = g (comp x 0 0 f) * comp x p i f := by
  have h0 : comp x 0 0 f = x.val 0 0 f := by
    unfold comp
    have : 0 < (x.L + 1) ^ 2 := by positivity
    rw [if_neg (by omega)]
    simp
  rw [h0]
  unfold comp gatedLinear
  simp only
  split
  · simp
  · split
    · rfl
    · split <;> simp

/-- **C13 (reflections).** -/
theorem C13_gated_reflect (g : ℝ → ℝ) (x : Feat) :
    (gatedLinear g (reflect x)).Same (reflect (gatedLinear g x)) := by
  have hr := fun y => (C10_reflect y 0 0 0).2
  refine same_of_comp _ _ ?_ ?_ ?_ ?_
  · rw [(hr (gatedLinear g x)).1]; exact (hr x).1
  · rw [(hr (gatedLinear g x)).2.1]; exact (hr x).2.1
  · rw [(hr (gatedLinear g x)).2.2]; exact (hr x).2.2
  · intro p i f _
    rw [C13_gated, (C10_reflect _ _ _ _).1, (C10_reflect _ _ _ _).1, (C10_reflect _ _ _ _).1, C13_gated]
    simp; ring

/-- **C13 (rotations).** -/
theorem C13_gated_rotate (g : ℝ → ℝ) (x : Feat) (D : ℕ → ℕ → ℝ) (hD : BlockDiag D) (h00 : D 0 0 = 1) :
    (gatedLinear g (rotate x D)).Same (rotate (gatedLinear g x) D) := by
  refine same_of_comp _ (rotate _ D) rfl rfl rfl ?_
  intro p i f _
  by_cases hi : i < (x.L + 1) ^ 2
  · have h0 : comp (rotate x D) 0 0 f = comp x 0 0 f := by
      rw [C10_rotate x D hD 0 0 f (by positivity), Finset.sum_eq_single 0]
      · rw [h00, mul_one]
      · intro j _ hj
        rw [hD j 0 (by rw [deg_zero]; intro h; exact hj (deg_eq_zero.1 h)), mul_zero]
      · intro h; exact absurd (Finset.mem_range.2 (by positivity)) h
    rw [C13_gated, h0, C10_rotate x D hD p i f hi, C10_rotate (gatedLinear g x) D hD p i f hi, Finset.mul_sum]
    apply Finset.sum_congr rfl
    intro j _
    rw [C13_gated]; ring
  · rw [comp_out _ _ _ _ (by change (x.L + 1) ^ 2 ≤ i; omega), comp_out _ _ _ _ (by change (x.L + 1) ^ 2 ≤ i; omega)]

theorem gatedLinear_same {x y : Feat} (h : x.Same y) (g : ℝ → ℝ) : (gatedLinear g x).Same (gatedLinear g y) := by
  refine same_of_comp _ _ h.1 h.2.1 h.2.2.1 ?_
  intro p i f hf
  rw [C13_gated, C13_gated, comp_of_same h hf, comp_of_same h hf]

/-- **C13 (zero).** The zero array is mapped to the zero array. -/
theorem C13_gated_zero (g : ℝ → ℝ) (x : Feat) (hx : ∀ p i f, x.val p i f = 0) (p i f : ℕ) :
    (gatedLinear g x).val p i f = 0 := by
  simp [gatedLinear, hx]

-- Non-vacuity: the identity matrix is admissible, and so is a non-trivial rotation by a quarter turn about z in degree 1
-- (positions 1, 2, 3 hold y, z, x).
example : BlockDiag Spec.one ∧ Spec.one 0 0 = 1 := by
  constructor
  · intro i j h; unfold Spec.one; rw [if_neg]; rintro rfl; exact h rfl
  · simp [Spec.one]

end E3x
