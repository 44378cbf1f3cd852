import Mathlib.MeasureTheory.Integral.Bochner.Basic
import Verif.Props.RandomRotation
import Verif.Props.Irreducible

/-!
# Averages over random rotations
-/

namespace E3x

open MeasureTheory Finset Spec

/-- the entries of a random rotation -/
noncomputable def rotationEntries (p : ℝ) (u : ℝ × ℝ × ℝ) : Fin 3 → Fin 3 → ℝ := fun a b => randomRotation u.1 u.2.1 u.2.2 p a b

theorem measurable_rotationEntries (p : ℝ) : Measurable (rotationEntries p) := measurable_randomRotation p

theorem proper_isOrthogonal {Q : Mat3} (hQ : IsProper Q) : IsOrthogonal fun a b => Q a b := by
  have h1 : Q.transpose * Q = 1 := mul_eq_one_comm.mp hQ.1
  intro i j
  have := congrFun (congrFun h1 i) j
  simp only [Matrix.mul_apply, Matrix.transpose_apply, Matrix.one_apply] at this
  exact this

theorem isOrthogonal_proper {R : Fin 3 → Fin 3 → ℝ} (h : IsOrthogonal R) (hd : det3x3 R = 1) : IsProper (Matrix.of R) := by
  constructor
  · refine mul_eq_one_comm.mp ?_
    ext i j
    simp only [Matrix.mul_apply, Matrix.transpose_apply, Matrix.one_apply, Matrix.of_apply]
    exact h i j
  · rw [Matrix.det_fin_three]
    unfold det3x3 at hd
    simp only [Matrix.of_apply]
    linarith

theorem rotationEntries_isOrthogonal {p : ℝ} (hp : 1 ≤ p) : ∀ᵐ u ∂uniformDraws, IsOrthogonal (rotationEntries p u) := by
  filter_upwards [uniformDraws_ae] with u hu
  exact proper_isOrthogonal ((C25_extremes u.1 u.2.1 u.2.2 p hu.1 hu.2).2 hp).2

theorem continuous_dMatrix (cart : Bool) (i j : ℕ) : Continuous fun R : Fin 3 → Fin 3 → ℝ => dMatrix cart R i j := by
  unfold dMatrix
  split_ifs
  · unfold wigR
    refine (MvPolynomial.continuous_eval _).comp (continuous_pi fun k => ?_)
    unfold rotEntries
    fun_prop
  · exact continuous_const

theorem abs_dMatrix_le (cart : Bool) {R : Fin 3 → Fin 3 → ℝ} (hR : IsOrthogonal R) (i j : ℕ) : |dMatrix cart R i j| ≤ 1 := by
  by_cases h : degreeOf i = degreeOf j
  · have e := dMatrix_orth cart hR (L := degreeOf i) (i := i) (j := i) le_rfl
    rw [if_pos rfl] at e
    have hj : j ∈ range ((degreeOf i + 1) ^ 2) := by
      rw [mem_range, h]
      exact Nat.lt_succ_sqrt' j
    have := single_le_sum (f := fun k => dMatrix cart R i k * dMatrix cart R i k) (fun k _ => mul_self_nonneg _) hj
    rw [e] at this
    exact (abs_le_one_iff_mul_self_le_one).2 this
  · rw [dMatrix_block' cart h]
    simp

/-- left multiplication does not change the mean of any function of a random rotation -/
theorem integral_left {p : ℝ} (hp : 1 ≤ p) {Q : Fin 3 → Fin 3 → ℝ} (hQ : IsOrthogonal Q) (hd : det3x3 Q = 1)
    {g : (Fin 3 → Fin 3 → ℝ) → ℝ} (hg : Measurable g) :
    ∫ u, g (matMul Q (rotationEntries p u)) ∂uniformDraws = ∫ u, g (rotationEntries p u) ∂uniformDraws := by
  have h := (C87_uniform p hp (Matrix.of Q) (isOrthogonal_proper hQ hd)).1
  have m1 := measurable_rotationEntries p
  have m2 : Measurable fun u => matMul Q (rotationEntries p u) := by
    unfold matMul
    refine measurable_pi_lambda _ fun a => measurable_pi_lambda _ fun b => Finset.measurable_sum _ fun k _ => ?_
    exact ((measurable_pi_apply b).comp ((measurable_pi_apply k).comp m1)).const_mul _
  have e : uniformDraws.map (fun u => matMul Q (rotationEntries p u)) = uniformDraws.map (rotationEntries p) := by
    ext S hS
    rw [Measure.map_apply m1 hS, Measure.map_apply m2 hS]
    exact h S hS
  have h1 := integral_map (μ := uniformDraws) m1.aemeasurable (f := g) hg.aestronglyMeasurable
  have h2 := integral_map (μ := uniformDraws) m2.aemeasurable (f := g) hg.aestronglyMeasurable
  rw [e] at h2
  exact h2.symm.trans h1

theorem integral_right {p : ℝ} (hp : 1 ≤ p) {Q : Fin 3 → Fin 3 → ℝ} (hQ : IsOrthogonal Q) (hd : det3x3 Q = 1)
    {g : (Fin 3 → Fin 3 → ℝ) → ℝ} (hg : Measurable g) :
    ∫ u, g (matMul (rotationEntries p u) Q) ∂uniformDraws = ∫ u, g (rotationEntries p u) ∂uniformDraws := by
  have h := (C87_uniform p hp (Matrix.of Q) (isOrthogonal_proper hQ hd)).2
  have m1 := measurable_rotationEntries p
  have m2 : Measurable fun u => matMul (rotationEntries p u) Q := by
    unfold matMul
    refine measurable_pi_lambda _ fun a => measurable_pi_lambda _ fun b => Finset.measurable_sum _ fun k _ => ?_
    exact ((measurable_pi_apply k).comp ((measurable_pi_apply a).comp m1)).mul_const _
  have e : uniformDraws.map (fun u => matMul (rotationEntries p u) Q) = uniformDraws.map (rotationEntries p) := by
    ext S hS
    rw [Measure.map_apply m1 hS, Measure.map_apply m2 hS]
    exact h S hS
  have h1 := integral_map (μ := uniformDraws) m1.aemeasurable (f := g) hg.aestronglyMeasurable
  have h2 := integral_map (μ := uniformDraws) m2.aemeasurable (f := g) hg.aestronglyMeasurable
  rw [e] at h2
  exact h2.symm.trans h1

/-- the mean of a product of two entries -/
noncomputable def moment (cart : Bool) (p : ℝ) (i j k m : ℕ) : ℝ :=
  ∫ u, dMatrix cart (rotationEntries p u) i j * dMatrix cart (rotationEntries p u) k m ∂uniformDraws

theorem integrable_moment (cart : Bool) {p : ℝ} (hp : 1 ≤ p) (i j k m : ℕ) :
    Integrable (fun u => dMatrix cart (rotationEntries p u) i j * dMatrix cart (rotationEntries p u) k m) uniformDraws := by
  have hc : Continuous fun R : Fin 3 → Fin 3 → ℝ => dMatrix cart R i j * dMatrix cart R k m :=
    (continuous_dMatrix cart i j).mul (continuous_dMatrix cart k m)
  refine Integrable.of_bound (hc.measurable.comp (measurable_rotationEntries p)).aestronglyMeasurable 1 ?_
  filter_upwards [rotationEntries_isOrthogonal hp] with u hu
  rw [Real.norm_eq_abs, abs_mul]
  exact mul_le_one₀ (abs_dMatrix_le cart hu i j) (abs_nonneg _) (abs_dMatrix_le cart hu k m)

theorem measurable_moment (cart : Bool) (i j k m : ℕ) : Measurable fun R : Fin 3 → Fin 3 → ℝ => dMatrix cart R i j * dMatrix cart R k m :=
  ((continuous_dMatrix cart i j).mul (continuous_dMatrix cart k m)).measurable

theorem moment_left (cart : Bool) {p : ℝ} (hp : 1 ≤ p) {L : ℕ} {Q : Fin 3 → Fin 3 → ℝ} (hQ : IsOrthogonal Q) (hd : det3x3 Q = 1)
    {i k : ℕ} (hi : degreeOf i ≤ L) (hk : degreeOf k ≤ L) (j m : ℕ) :
    moment cart p i j k m = ∑ a ∈ range ((L + 1) ^ 2), ∑ b ∈ range ((L + 1) ^ 2), dMatrix cart Q i a * dMatrix cart Q k b * moment cart p a j b m := by
  have h := integral_left hp hQ hd (measurable_moment cart i j k m)
  unfold moment
  rw [← h]
  have e : ∀ u, dMatrix cart (matMul Q (rotationEntries p u)) i j * dMatrix cart (matMul Q (rotationEntries p u)) k m =
      ∑ a ∈ range ((L + 1) ^ 2), ∑ b ∈ range ((L + 1) ^ 2), dMatrix cart Q i a * dMatrix cart Q k b *
        (dMatrix cart (rotationEntries p u) a j * dMatrix cart (rotationEntries p u) b m) := by
    intro u
    rw [← dMatrix_mul cart hQ _ hi, ← dMatrix_mul cart hQ _ hk, sum_mul_sum]
    exact sum_congr rfl fun a _ => sum_congr rfl fun b _ => by ring
  simp only [e]
  rw [integral_finsetSum]
  · refine sum_congr rfl fun a _ => ?_
    rw [integral_finsetSum]
    · refine sum_congr rfl fun b _ => ?_
      rw [integral_const_mul]
    · exact fun b _ => (integrable_moment cart hp a j b m).const_mul _
  · exact fun a _ => integrable_finsetSum _ fun b _ => (integrable_moment cart hp a j b m).const_mul _

theorem moment_right (cart : Bool) {p : ℝ} (hp : 1 ≤ p) {L : ℕ} {Q : Fin 3 → Fin 3 → ℝ} (hQ : IsOrthogonal Q) (hd : det3x3 Q = 1)
    {i k : ℕ} (hi : degreeOf i ≤ L) (hk : degreeOf k ≤ L) (j m : ℕ) :
    moment cart p i j k m = ∑ a ∈ range ((L + 1) ^ 2), ∑ b ∈ range ((L + 1) ^ 2), moment cart p i a k b * dMatrix cart Q a j * dMatrix cart Q b m := by
  have h := integral_right hp hQ hd (measurable_moment cart i j k m)
  unfold moment
  rw [← h]
  have e : ∀ᵐ u ∂uniformDraws, dMatrix cart (matMul (rotationEntries p u) Q) i j * dMatrix cart (matMul (rotationEntries p u) Q) k m =
      ∑ a ∈ range ((L + 1) ^ 2), ∑ b ∈ range ((L + 1) ^ 2),
        (dMatrix cart (rotationEntries p u) i a * dMatrix cart (rotationEntries p u) k b) * (dMatrix cart Q a j * dMatrix cart Q b m) := by
    filter_upwards [rotationEntries_isOrthogonal hp] with u hu
    rw [← dMatrix_mul cart hu _ hi, ← dMatrix_mul cart hu _ hk, sum_mul_sum]
    exact sum_congr rfl fun a _ => sum_congr rfl fun b _ => by ring
  rw [integral_congr_ae e, integral_finsetSum]
  · refine sum_congr rfl fun a _ => ?_
    rw [integral_finsetSum]
    · refine sum_congr rfl fun b _ => ?_
      rw [integral_mul_const, mul_assoc]
    · exact fun b _ => (integrable_moment cart hp i a k b).mul_const _
  · exact fun a _ => integrable_finsetSum _ fun b _ => (integrable_moment cart hp i a k b).mul_const _

theorem degree_le {i L : ℕ} (h : i < (L + 1) ^ 2) : degreeOf i ≤ L := by
  unfold degreeOf
  exact Nat.lt_succ_iff.1 (Nat.sqrt_lt'.2 h)

/-- orthogonality of the rows of the matrices -/
theorem dMatrix_orth_col (cart : Bool) {R : Fin 3 → Fin 3 → ℝ} (hR : IsOrthogonal R) {L i j : ℕ} (hi : degreeOf i ≤ L) :
    ∑ k ∈ range ((L + 1) ^ 2), dMatrix cart R k i * dMatrix cart R k j = if i = j then 1 else 0 := by
  rw [← dMatrix_orth cart hR.transpose (L := L) hi]
  exact sum_congr rfl fun k _ => by rw [dMatrix_transpose cart hR, dMatrix_transpose cart hR]

theorem moment_schur_left (cart : Bool) {p : ℝ} (hp : 1 ≤ p) (L j m : ℕ) :
    ∃ c : ℕ → ℝ, ∀ i < (L + 1) ^ 2, ∀ k < (L + 1) ^ 2, moment cart p i j k m = if i = k then c (degreeOf k) else 0 := by
  refine schur cart L L (fun i k => moment cart p i j k m) fun Q hQ hd i hi k hk => ?_
  have e : ∑ b ∈ range ((L + 1) ^ 2), moment cart p i j b m * dMatrix cart Q b k =
      ∑ b ∈ range ((L + 1) ^ 2), (∑ a ∈ range ((L + 1) ^ 2), ∑ b' ∈ range ((L + 1) ^ 2),
        dMatrix cart Q i a * dMatrix cart Q b b' * moment cart p a j b' m) * dMatrix cart Q b k :=
    sum_congr rfl fun b hb => by
      rw [moment_left cart hp hQ hd (degree_le hi) (degree_le (mem_range.1 hb))]
  rw [e]
  have e2 : ∑ b ∈ range ((L + 1) ^ 2), (∑ a ∈ range ((L + 1) ^ 2), ∑ b' ∈ range ((L + 1) ^ 2),
        dMatrix cart Q i a * dMatrix cart Q b b' * moment cart p a j b' m) * dMatrix cart Q b k =
      ∑ a ∈ range ((L + 1) ^ 2), ∑ b' ∈ range ((L + 1) ^ 2), dMatrix cart Q i a * moment cart p a j b' m *
        ∑ b ∈ range ((L + 1) ^ 2), dMatrix cart Q b k * dMatrix cart Q b b' := by
    simp only [sum_mul, mul_sum]
    rw [sum_comm]
    refine sum_congr rfl fun a _ => ?_
    rw [sum_comm]
    exact sum_congr rfl fun b' _ => sum_congr rfl fun b _ => by ring
  rw [e2]
  refine sum_congr rfl fun a _ => ?_
  simp only [dMatrix_orth_col cart hQ (degree_le hk), mul_ite, mul_one, mul_zero]
  rw [sum_ite_eq, if_pos (mem_range.2 hk)]

theorem moment_schur_right (cart : Bool) {p : ℝ} (hp : 1 ≤ p) (L : ℕ) {i k : ℕ} (hi : degreeOf i ≤ L) (hk : degreeOf k ≤ L) :
    ∃ c : ℕ → ℝ, ∀ j < (L + 1) ^ 2, ∀ m < (L + 1) ^ 2, moment cart p i j k m = if j = m then c (degreeOf m) else 0 := by
  refine schur cart L L (fun j m => moment cart p i j k m) fun Q hQ hd j hj m hm => ?_
  have e : ∑ b ∈ range ((L + 1) ^ 2), dMatrix cart Q j b * moment cart p i b k m =
      ∑ b ∈ range ((L + 1) ^ 2), dMatrix cart Q j b * (∑ a ∈ range ((L + 1) ^ 2), ∑ b' ∈ range ((L + 1) ^ 2),
        moment cart p i a k b' * dMatrix cart Q a b * dMatrix cart Q b' m) :=
    sum_congr rfl fun b hb => by
      rw [moment_right cart hp hQ hd hi hk b m]
  rw [e]
  have e2 : ∑ b ∈ range ((L + 1) ^ 2), dMatrix cart Q j b * (∑ a ∈ range ((L + 1) ^ 2), ∑ b' ∈ range ((L + 1) ^ 2),
        moment cart p i a k b' * dMatrix cart Q a b * dMatrix cart Q b' m) =
      ∑ a ∈ range ((L + 1) ^ 2), ∑ b' ∈ range ((L + 1) ^ 2), moment cart p i a k b' * dMatrix cart Q b' m *
        ∑ b ∈ range ((L + 1) ^ 2), dMatrix cart Q j b * dMatrix cart Q a b := by
    simp only [mul_sum]
    rw [sum_comm]
    refine sum_congr rfl fun a _ => ?_
    rw [sum_comm]
    exact sum_congr rfl fun b' _ => sum_congr rfl fun b _ => by ring
  rw [e2]
  simp only [dMatrix_orth cart hQ (degree_le hj), mul_ite, mul_one, mul_zero]
  rw [sum_comm]
  refine sum_congr rfl fun b' _ => ?_
  rw [sum_ite_eq, if_pos (mem_range.2 hj)]

theorem card_degree {l L : ℕ} (h : l ≤ L) (c : ℝ) : ∑ i ∈ range ((L + 1) ^ 2), (if degreeOf i = l then c else 0) = (2 * l + 1) * c := by
  rw [sum_components true h _ (fun _ => c) (fun i hi => if_pos hi) (fun i hi => if_neg hi)]
  simp
  left
  have : ((l : ℤ) + 1 + l).toNat = 2 * l + 1 := by omega
  rw [this]
  push_cast
  ring

/-- **orthogonality of the entries of the Wigner-D matrices of random rotations** -/
theorem moment_eq (cart : Bool) {p : ℝ} (hp : 1 ≤ p) (i j k m : ℕ) :
    moment cart p i j k m = if i = k ∧ j = m ∧ degreeOf i = degreeOf j then 1 / (2 * (degreeOf i : ℝ) + 1) else 0 := by
  obtain ⟨L, hi, hj, hk, hm⟩ : ∃ L, i < (L + 1) ^ 2 ∧ j < (L + 1) ^ 2 ∧ k < (L + 1) ^ 2 ∧ m < (L + 1) ^ 2 := by
    refine ⟨i + j + k + m, ?_, ?_, ?_, ?_⟩ <;>
      exact lt_of_lt_of_le (by omega) (Nat.le_self_pow two_ne_zero (i + j + k + m + 1))
  obtain ⟨c, hc⟩ := moment_schur_left cart hp L j m
  by_cases hik : i = k
  swap
  · rw [if_neg (fun h => hik h.1), hc i hi k hk, if_neg hik]
  subst hik
  obtain ⟨c', hc'⟩ := moment_schur_right cart hp L (degree_le hi) (degree_le hi)
  by_cases hjm : j = m
  swap
  · rw [if_neg (fun h => hjm h.2.1), hc' j hj m hm, if_neg hjm]
  subst hjm
  by_cases hd : degreeOf i = degreeOf j
  swap
  · rw [if_neg (fun h => hd h.2.2)]
    unfold moment
    simp [dMatrix_block' cart hd]
  rw [if_pos ⟨rfl, rfl, hd⟩]
  have hsum : ∑ a ∈ range ((L + 1) ^ 2), moment cart p a j a j = 1 := by
    unfold moment
    rw [← integral_finsetSum _ fun a _ => integrable_moment cart hp a j a j]
    have e : ∀ᵐ u ∂uniformDraws, ∑ a ∈ range ((L + 1) ^ 2), dMatrix cart (rotationEntries p u) a j * dMatrix cart (rotationEntries p u) a j = 1 := by
      filter_upwards [rotationEntries_isOrthogonal hp] with u hu
      rw [dMatrix_orth_col cart hu (degree_le hj), if_pos rfl]
    rw [integral_congr_ae e]
    simp
  have hall : ∀ a ∈ range ((L + 1) ^ 2), moment cart p a j a j = if degreeOf a = degreeOf j then c (degreeOf j) else 0 := by
    intro a ha
    split_ifs with h
    · rw [hc a (mem_range.1 ha) a (mem_range.1 ha), if_pos rfl, h]
    · unfold moment
      simp [dMatrix_block' cart h]
  rw [sum_congr rfl hall, card_degree (degree_le hj)] at hsum
  rw [hc i hi i hi, if_pos rfl, hd]
  have : (2 * (degreeOf j : ℝ) + 1) ≠ 0 := by positivity
  rw [eq_div_iff this]
  linarith

end E3x
