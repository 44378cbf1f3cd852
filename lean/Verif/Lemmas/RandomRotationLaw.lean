import Mathlib.MeasureTheory.Constructions.BorelSpace.Real
import Mathlib.MeasureTheory.Function.SpecialFunctions.Basic
import Mathlib.MeasureTheory.Function.SpecialFunctions.Inner
import Verif.Lemmas.RandomRotationMatrix

/-!
# The distribution of the random rotations
-/

namespace E3x

open MeasureTheory Set Real
open scoped ENNReal

/-- the sign flip of `random_rotation` -/
noncomputable def flipSign (r : ℝ) : ℝ := if r < 0 then -1 else 1

/-- the weight of the identity in the slerp -/
noncomputable def slerpSelf (p r : ℝ) : ℝ :=
  if |sin (arccos r)| < 1e-9 then 1 - p else sin ((1 - p) * arccos r) / sin (arccos r)

/-- the weight of the drawn quaternion in the slerp -/
noncomputable def slerpOther (p r : ℝ) : ℝ :=
  if |sin (arccos r)| < 1e-9 then p else sin (p * arccos r) / sin (arccos r)

/-- the quaternion that `random_rotation` uses for a point of the sphere -/
noncomputable def sphereQuaternion (p : ℝ) (x : Pairs) : ℝ × ℝ × ℝ × ℝ :=
  (slerpSelf p |x (.inl 0)| + slerpOther p |x (.inl 0)| * |x (.inl 0)|,
    slerpOther p |x (.inl 0)| * flipSign (x (.inl 0)) * x (.inl 1), slerpOther p |x (.inl 0)| * flipSign (x (.inl 0)) * x (.inr 0),
    slerpOther p |x (.inl 0)| * flipSign (x (.inl 0)) * x (.inr 1))

/-- the rotation of a point of the sphere -/
noncomputable def sphereRotation (p : ℝ) (x : Pairs) : Mat3 := quaternionMatrix (sphereQuaternion p x)

theorem randomQuaternion_eq (u : ℝ × ℝ × ℝ) :
    randomQuaternion u.1 u.2.1 u.2.2 = (|spherePoint u (.inl 0)|, flipSign (spherePoint u (.inl 0)) * spherePoint u (.inl 1),
      flipSign (spherePoint u (.inl 0)) * spherePoint u (.inr 0), flipSign (spherePoint u (.inl 0)) * spherePoint u (.inr 1)) := by
  have e0 : spherePoint u (.inl 0) = √(1 - u.1) * sin (2 * π * u.2.1) := rfl
  have e1 : spherePoint u (.inl 1) = √(1 - u.1) * cos (2 * π * u.2.1) := rfl
  have e2 : spherePoint u (.inr 0) = √u.1 * sin (2 * π * u.2.2) := rfl
  have e3 : spherePoint u (.inr 1) = √u.1 * cos (2 * π * u.2.2) := rfl
  unfold randomQuaternion flipSign
  simp only [← e0, ← e1, ← e2, ← e3]
  by_cases h : spherePoint u (.inl 0) < 0
  · simp only [h, if_true, abs_of_neg h, neg_one_mul]
  · simp only [h, if_false, abs_of_nonneg (not_lt.1 h), one_mul]

theorem randomRotation_eq (p : ℝ) (u : ℝ × ℝ × ℝ) :
    randomRotation u.1 u.2.1 u.2.2 p = sphereRotation (max 0 (min p 1)) (spherePoint u) := by
  unfold randomRotation
  simp only [randomQuaternion_eq, slerpFromIdentity, sphereRotation, sphereQuaternion, slerpSelf, slerpOther, mul_assoc]

theorem quaternionMatrix_neg (r i j k : ℝ) : quaternionMatrix (-r, -i, -j, -k) = quaternionMatrix (r, i, j, k) := by
  simp only [quaternionMatrix, neg_mul_neg]

theorem spherePoint_unit {u : ℝ × ℝ × ℝ} (h0 : 0 ≤ u.1) (h1 : u.1 ≤ 1) : PairsUnit (spherePoint u) := by
  have e0 : spherePoint u (.inl 0) = √(1 - u.1) * sin (2 * π * u.2.1) := rfl
  have e1 : spherePoint u (.inl 1) = √(1 - u.1) * cos (2 * π * u.2.1) := rfl
  have e2 : spherePoint u (.inr 0) = √u.1 * sin (2 * π * u.2.2) := rfl
  have e3 : spherePoint u (.inr 1) = √u.1 * cos (2 * π * u.2.2) := rfl
  unfold PairsUnit
  rw [e0, e1, e2, e3]
  have s1 := Real.sq_sqrt (by linarith : 0 ≤ 1 - u.1)
  have s2 := Real.sq_sqrt h0
  have t1 := Real.sin_sq_add_cos_sq (2 * π * u.2.1)
  have t2 := Real.sin_sq_add_cos_sq (2 * π * u.2.2)
  linear_combination √(1 - u.1) ^ 2 * t1 + √u.1 ^ 2 * t2 + s1 + s2

theorem randomRotation_full {p : ℝ} (hp : 1 ≤ p) {u : ℝ × ℝ × ℝ} (h0 : 0 ≤ u.1) (h1 : u.1 ≤ 1) :
    randomRotation u.1 u.2.1 u.2.2 p = quaternionMatrix (pairsQuaternion (spherePoint u)) := by
  rw [((C25_extremes u.1 u.2.1 u.2.2 p h0 h1).2 hp).1, randomQuaternion_eq]
  unfold flipSign pairsQuaternion
  by_cases h : spherePoint u (.inl 0) < 0
  · simp only [h, if_true, abs_of_neg h, neg_one_mul]
    exact quaternionMatrix_neg _ _ _ _
  · simp only [h, if_false, abs_of_nonneg (not_lt.1 h), one_mul]

theorem measurable_flipSign : Measurable flipSign :=
  Measurable.ite (measurableSet_lt measurable_id measurable_const) measurable_const measurable_const

theorem measurable_sin_arccos : Measurable fun r : ℝ => sin (arccos r) := Real.measurable_sin.comp Real.measurable_arccos

theorem measurable_slerpSelf (p : ℝ) : Measurable (slerpSelf p) := by
  refine Measurable.ite (measurableSet_lt (continuous_abs.measurable.comp measurable_sin_arccos) measurable_const) measurable_const ?_
  exact (Real.measurable_sin.comp (Real.measurable_arccos.const_mul _)).div measurable_sin_arccos

theorem measurable_slerpOther (p : ℝ) : Measurable (slerpOther p) := by
  refine Measurable.ite (measurableSet_lt (continuous_abs.measurable.comp measurable_sin_arccos) measurable_const) measurable_const ?_
  exact (Real.measurable_sin.comp (Real.measurable_arccos.const_mul _)).div measurable_sin_arccos

theorem measurable_quaternionMatrix : Measurable fun (q : ℝ × ℝ × ℝ × ℝ) (a b : Fin 3) => quaternionMatrix q a b := by
  refine measurable_pi_lambda _ fun a => measurable_pi_lambda _ fun b => ?_
  fin_cases a <;> fin_cases b <;> simp [quaternionMatrix, stackLast] <;> fun_prop

theorem measurable_pairsQuaternion : Measurable pairsQuaternion := by
  unfold pairsQuaternion
  fun_prop

theorem measurable_sphereQuaternion (p : ℝ) : Measurable (sphereQuaternion p) := by
  have h0 : Measurable fun x : Pairs => x (.inl 0) := measurable_pi_apply _
  have ha : Measurable fun x : Pairs => |x (.inl 0)| := continuous_abs.measurable.comp h0
  have h1 : Measurable fun x : Pairs => slerpSelf p |x (.inl 0)| := (measurable_slerpSelf p).comp ha
  have h2 : Measurable fun x : Pairs => slerpOther p |x (.inl 0)| := (measurable_slerpOther p).comp ha
  have h3 : Measurable fun x : Pairs => flipSign (x (.inl 0)) := measurable_flipSign.comp h0
  unfold sphereQuaternion
  exact (h1.add (h2.mul ha)).prodMk (((h2.mul h3).mul (measurable_pi_apply _)).prodMk
    (((h2.mul h3).mul (measurable_pi_apply _)).prodMk ((h2.mul h3).mul (measurable_pi_apply _))))

theorem measurable_sphereRotation (p : ℝ) : Measurable fun (x : Pairs) (a b : Fin 3) => sphereRotation p x a b :=
  Measurable.comp (g := fun (q : ℝ × ℝ × ℝ × ℝ) (a b : Fin 3) => quaternionMatrix q a b) (f := sphereQuaternion p)
    measurable_quaternionMatrix (measurable_sphereQuaternion p)

theorem uniformDraws_ae : ∀ᵐ u ∂Spec.uniformDraws, 0 ≤ u.1 ∧ u.1 ≤ 1 := by
  have h : ∀ᵐ a ∂Spec.uniformDraw, 0 ≤ a ∧ a ≤ 1 := by
    unfold Spec.uniformDraw
    rw [ae_restrict_iff' measurableSet_Ico]
    exact Filter.Eventually.of_forall fun a ha => ⟨ha.1, ha.2.le⟩
  exact Measure.quasiMeasurePreserving_fst.ae h

/-- a random matrix that depends on the rotated point has the same distribution as the one that depends on the point -/
theorem sameDistribution_of_orthogonal {Φ : Pairs → Mat3} (hΦ : Measurable fun (x : Pairs) (a b : Fin 3) => Φ x a b)
    {O : Matrix (Fin 2 ⊕ Fin 2) (Fin 2 ⊕ Fin 2) ℝ} (hO : O.transpose * O = 1) {A B : ℝ × ℝ × ℝ → Mat3}
    (hA : ∀ᵐ u ∂Spec.uniformDraws, A u = Φ (O.mulVec (spherePoint u))) (hB : ∀ᵐ u ∂Spec.uniformDraws, B u = Φ (spherePoint u)) :
    Spec.SameDistribution A B := by
  intro S hS
  have hT : MeasurableSet {x : Pairs | (fun a b => Φ x a b) ∈ S} := hΦ hS
  have e1 : Spec.uniformDraws {u | (fun a b => A u a b) ∈ S} =
      Spec.uniformDraws {u | O.mulVec (spherePoint u) ∈ {x : Pairs | (fun a b => Φ x a b) ∈ S}} := by
    refine measure_congr ?_
    filter_upwards [hA] with u hu
    simp only [eq_iff_iff]
    show (fun a b => A u a b) ∈ S ↔ (fun a b => Φ (O.mulVec (spherePoint u)) a b) ∈ S
    rw [hu]
  have e2 : Spec.uniformDraws {u | (fun a b => B u a b) ∈ S} =
      Spec.uniformDraws {u | spherePoint u ∈ {x : Pairs | (fun a b => Φ x a b) ∈ S}} := by
    refine measure_congr ?_
    filter_upwards [hB] with u hu
    simp only [eq_iff_iff]
    show (fun a b => B u a b) ∈ S ↔ (fun a b => Φ (spherePoint u) a b) ∈ S
    rw [hu]
  have h := spherePoint_invariant hO (f := {x : Pairs | (fun a b => Φ x a b) ∈ S}.indicator 1) (measurable_one.indicator hT)
  have m1 : Measurable fun u => O.mulVec (spherePoint u) := (measurable_mulVec O).comp measurable_spherePoint
  rw [e1, e2]
  have g1 := lintegral_indicator_one (μ := Spec.uniformDraws) (m1 hT)
  have g2 := lintegral_indicator_one (μ := Spec.uniformDraws) (measurable_spherePoint hT)
  exact (g1.symm.trans h).trans g2

theorem sphereRotation_mulAxis {Q : Mat3} (hQ : Spec.IsProper Q) (p : ℝ) (x : Pairs) :
    Q * sphereRotation p x * Q.transpose = sphereRotation p ((mulAxis Q).mulVec x) := by
  have e : (mulAxis Q).mulVec x = pairsOf (x (.inl 0)) (Q.mulVec ![x (.inl 1), x (.inr 0), x (.inr 1)] 0)
      (Q.mulVec ![x (.inl 1), x (.inr 0), x (.inr 1)] 1) (Q.mulVec ![x (.inl 1), x (.inr 0), x (.inr 1)] 2) := by
    rw [mulAxis, pairsMatrix_mulVec]
    simp only [pairs_dot]
    congr 1 <;> simp [Matrix.mulVec, dotProduct, Fin.sum_univ_three]
  unfold sphereRotation sphereQuaternion
  rw [e]
  simp only [pairsOf_r, pairsOf_i, pairsOf_j, pairsOf_k]
  generalize slerpSelf p |x (.inl 0)| + slerpOther p |x (.inl 0)| * |x (.inl 0)| = r
  generalize slerpOther p |x (.inl 0)| * flipSign (x (.inl 0)) = f
  have h := mulAxis_matrix hQ r (f • ![x (.inl 1), x (.inr 0), x (.inr 1)])
  rw [Matrix.mulVec_smul] at h
  exact h

end E3x
