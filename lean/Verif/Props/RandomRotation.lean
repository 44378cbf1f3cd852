import Verif.Lemmas.RandomRotationHalf

/-!
# C87: the distribution of random rotations

`random_rotation(key, perturbation)` turns three uniform numbers into a rotation.  For `perturbation ≥ 1` the rotation is
uniformly distributed: multiplying it by any fixed rotation, from either side, does not change the probability of any event
(this characterises the uniform distribution on SO(3)), so that every point of the sphere is mapped to every part of the
sphere with a probability proportional to the size of the part.  For every strength the distribution does not prefer a
direction.  The documented behaviour for `perturbation = 0.5` is not met: points stay in their hemisphere, but they are not
uniformly distributed there.
-/

namespace E3x

open MeasureTheory Set Real
open scoped ENNReal

theorem measurable_leftMul (Q : Mat3) : Measurable fun (m : Fin 3 → Fin 3 → ℝ) (a b : Fin 3) => (Q * Matrix.of m) a b := by
  refine measurable_pi_lambda _ fun a => measurable_pi_lambda _ fun b => ?_
  simp only [Matrix.mul_apply, Matrix.of_apply]
  fun_prop

theorem measurable_rightMul (Q : Mat3) : Measurable fun (m : Fin 3 → Fin 3 → ℝ) (a b : Fin 3) => (Matrix.of m * Q) a b := by
  refine measurable_pi_lambda _ fun a => measurable_pi_lambda _ fun b => ?_
  simp only [Matrix.mul_apply, Matrix.of_apply]
  fun_prop

theorem measurable_randomRotation (p : ℝ) :
    Measurable fun (u : ℝ × ℝ × ℝ) (a b : Fin 3) => randomRotation u.1 u.2.1 u.2.2 p a b := by
  simp only [randomRotation_eq]
  exact Measurable.comp (g := fun (x : Pairs) (a b : Fin 3) => sphereRotation (max 0 (min p 1)) x a b) (f := spherePoint)
    (measurable_sphereRotation _) measurable_spherePoint

/-- **C87** (uniformity). Random rotations of full strength are uniformly distributed: for every fixed rotation `Q` the
products `Q R` and `R Q` have the same distribution as the random rotation `R` itself. -/
theorem C87_uniform (p : ℝ) (hp : 1 ≤ p) (Q : Matrix (Fin 3) (Fin 3) ℝ) (hQ : Spec.IsProper Q) :
    Spec.SameDistribution (fun u => Q * randomRotation u.1 u.2.1 u.2.2 p) (fun u => randomRotation u.1 u.2.1 u.2.2 p) ∧
    Spec.SameDistribution (fun u => randomRotation u.1 u.2.1 u.2.2 p * Q) (fun u => randomRotation u.1 u.2.1 u.2.2 p) := by
  obtain ⟨r, i, j, k, h, rfl⟩ := exists_quaternion hQ
  have hm : Measurable fun (x : Pairs) (a b : Fin 3) => quaternionMatrix (pairsQuaternion x) a b :=
    Measurable.comp (g := fun (q : ℝ × ℝ × ℝ × ℝ) (a b : Fin 3) => quaternionMatrix q a b) (f := pairsQuaternion)
      measurable_quaternionMatrix measurable_pairsQuaternion
  have hB : ∀ᵐ u ∂Spec.uniformDraws, randomRotation u.1 u.2.1 u.2.2 p = quaternionMatrix (pairsQuaternion (spherePoint u)) := by
    filter_upwards [uniformDraws_ae] with u hu
    exact randomRotation_full hp hu.1 hu.2
  constructor
  · refine sameDistribution_of_orthogonal (Φ := fun x => quaternionMatrix (pairsQuaternion x)) hm (mulLeft_orthogonal h) ?_ hB
    filter_upwards [uniformDraws_ae] with u hu
    rw [randomRotation_full hp hu.1 hu.2, mulLeft_matrix h (spherePoint_unit hu.1 hu.2)]
  · refine sameDistribution_of_orthogonal (Φ := fun x => quaternionMatrix (pairsQuaternion x)) hm (mulRight_orthogonal h) ?_ hB
    filter_upwards [uniformDraws_ae] with u hu
    rw [randomRotation_full hp hu.1 hu.2, mulRight_matrix h (spherePoint_unit hu.1 hu.2)]

/-- **C87** (no preferred direction). For every strength, turning the coordinate system does not change the distribution of the
random rotation. -/
theorem C87_isotropic (p : ℝ) (Q : Matrix (Fin 3) (Fin 3) ℝ) (hQ : Spec.IsProper Q) :
    Spec.SameDistribution (fun u => Q * randomRotation u.1 u.2.1 u.2.2 p * Q.transpose)
      (fun u => randomRotation u.1 u.2.1 u.2.2 p) := by
  refine sameDistribution_of_orthogonal (Φ := sphereRotation (max 0 (min p 1))) (measurable_sphereRotation _) (mulAxis_orthogonal hQ)
    (Filter.Eventually.of_forall fun u => ?_) (Filter.Eventually.of_forall fun u => randomRotation_eq p u)
  show Q * randomRotation u.1 u.2.1 u.2.2 p * Q.transpose = _
  rw [randomRotation_eq, sphereRotation_mulAxis hQ]

theorem entry_form (A Q R : Mat3) : (Q * A * R.transpose) 0 0 = Matrix.vecMul (Q 0) A ⬝ᵥ R 0 := by
  simp [Matrix.mul_apply, Matrix.vecMul, dotProduct, Fin.sum_univ_three]

/-- **C87** (points). For full strength any point of the sphere is rotated to any other with equal probability: the height of
the image of a point `v` above the plane perpendicular to any axis `n` is uniformly distributed on `[-1, 1]` (the part of the
sphere below height `t` has the fraction `(1 + t)/2` of the area). -/
theorem C87_points (p : ℝ) (hp : 1 ≤ p) (v n : Fin 3 → ℝ) (hv : v ⬝ᵥ v = 1) (hn : n ⬝ᵥ n = 1) (t : ℝ) (h0 : -1 ≤ t) (h1 : t ≤ 1) :
    Spec.uniformDraws {u | Matrix.vecMul v (randomRotation u.1 u.2.1 u.2.2 p) ⬝ᵥ n ≤ t} = ENNReal.ofReal ((1 + t) / 2) := by
  obtain ⟨Q, hQ, rfl⟩ := exists_first_row hv
  obtain ⟨P, hP, rfl⟩ := exists_first_row hn
  have hPt : Spec.IsProper P.transpose := ⟨by
    rw [Matrix.transpose_transpose]
    exact mul_eq_one_comm.mp hP.1, by rw [Matrix.det_transpose, hP.2]⟩
  have mS : MeasurableSet {m : Fin 3 → Fin 3 → ℝ | m 0 0 ≤ t} := measurableSet_le (by fun_prop) measurable_const
  have mT : MeasurableSet {m : Fin 3 → Fin 3 → ℝ | (Matrix.of m * P.transpose) 0 0 ≤ t} := measurable_rightMul P.transpose mS
  have s1 := (C87_uniform p hp Q hQ).1 _ mT
  have s2 := (C87_uniform p hp P.transpose hPt).2 _ mS
  have e1 : {u : ℝ × ℝ × ℝ | Matrix.vecMul (Q 0) (randomRotation u.1 u.2.1 u.2.2 p) ⬝ᵥ P 0 ≤ t} =
      {u | (fun a b => (Q * randomRotation u.1 u.2.1 u.2.2 p) a b) ∈ {m : Fin 3 → Fin 3 → ℝ | (Matrix.of m * P.transpose) 0 0 ≤ t}} := by
    ext u
    simp only [mem_setOf_eq]
    rw [← entry_form]
    rfl
  rw [e1, s1]
  refine Eq.trans s2 ?_
  have e2 : Spec.uniformDraws {u | (fun a b => randomRotation u.1 u.2.1 u.2.2 p a b) ∈ {m : Fin 3 → Fin 3 → ℝ | m 0 0 ≤ t}} =
      Spec.uniformDraws ({a : ℝ | 1 - 2 * a ≤ t} ×ˢ univ) := by
    refine measure_congr ?_
    filter_upwards [uniformDraws_ae] with u hu
    simp only [eq_iff_iff]
    show randomRotation u.1 u.2.1 u.2.2 p 0 0 ≤ t ↔ u ∈ ({a : ℝ | 1 - 2 * a ≤ t} ×ˢ univ)
    have e : randomRotation u.1 u.2.1 u.2.2 p 0 0 = 1 - 2 * u.1 := by
      rw [randomRotation_full hp hu.1 hu.2]
      have q2 : spherePoint u (.inr 0) = √u.1 * sin (2 * π * u.2.2) := rfl
      have q3 : spherePoint u (.inr 1) = √u.1 * cos (2 * π * u.2.2) := rfl
      have s2 := Real.sq_sqrt hu.1
      have t2 := Real.sin_sq_add_cos_sq (2 * π * u.2.2)
      simp [quaternionMatrix, pairsQuaternion, stackLast, q2, q3]
      linear_combination √u.1 ^ 2 * t2 + s2
    rw [e]
    simp
  rw [e2]
  unfold Spec.uniformDraws
  rw [Measure.prod_prod, measure_univ, mul_one]
  unfold Spec.uniformDraw
  have e3 : {a : ℝ | 1 - 2 * a ≤ t} = Ici ((1 - t) / 2) := by
    ext a
    simp only [mem_setOf_eq, mem_Ici]
    constructor <;> intro h <;> linarith
  rw [e3, Measure.restrict_apply measurableSet_Ici]
  have e4 : Ici ((1 - t) / 2) ∩ Ico 0 1 = Ico ((1 - t) / 2) 1 := by
    ext a
    simp only [mem_inter_iff, mem_Ici, mem_Ico]
    constructor
    · intro h
      exact ⟨h.1, h.2.2⟩
    · intro h
      exact ⟨h.1, by linarith [h.1], h.2⟩
  rw [e4, Real.volume_Ico]
  congr 1
  ring

theorem half_rotation_eq (u : ℝ × ℝ × ℝ) : randomRotation u.1 u.2.1 u.2.2 (1 / 2) = sphereRotation (1 / 2) (spherePoint u) := by
  rw [randomRotation_eq]
  norm_num

theorem measurable_form (p : ℝ) (n : Fin 3 → ℝ) :
    Measurable fun u : ℝ × ℝ × ℝ => Matrix.vecMul n (randomRotation u.1 u.2.1 u.2.2 p) ⬝ᵥ n := by
  have h : Measurable fun m : Fin 3 → Fin 3 → ℝ => Matrix.vecMul n (Matrix.of m) ⬝ᵥ n := by
    simp only [Matrix.vecMul, dotProduct, Matrix.of_apply]
    fun_prop
  exact Measurable.comp (g := fun m : Fin 3 → Fin 3 → ℝ => Matrix.vecMul n (Matrix.of m) ⬝ᵥ n)
    (f := fun (u : ℝ × ℝ × ℝ) (a b : Fin 3) => randomRotation u.1 u.2.1 u.2.2 p a b) h (measurable_randomRotation p)

theorem half_bounds {n : Fin 3 → ℝ} (hn : n ⬝ᵥ n = 1) : ∀ᵐ u ∂Spec.uniformDraws,
    0 ≤ Matrix.vecMul n (randomRotation u.1 u.2.1 u.2.2 (1 / 2)) ⬝ᵥ n ∧
      Matrix.vecMul n (randomRotation u.1 u.2.1 u.2.2 (1 / 2)) ⬝ᵥ n ≤ 1 := by
  filter_upwards [uniformDraws_ae] with u hu
  rw [half_rotation_eq]
  exact ⟨le_trans (abs_nonneg _) (sphereRotation_half_ge (spherePoint_unit hu.1 hu.2) hn), form_le_one _ _ _ _ hn⟩

theorem half_integrable {n : Fin 3 → ℝ} (hn : n ⬝ᵥ n = 1) :
    Integrable (fun u : ℝ × ℝ × ℝ => Matrix.vecMul n (randomRotation u.1 u.2.1 u.2.2 (1 / 2)) ⬝ᵥ n) Spec.uniformDraws := by
  refine Integrable.of_bound (measurable_form _ n).aestronglyMeasurable 1 ?_
  filter_upwards [half_bounds hn] with u hu
  rw [Real.norm_eq_abs, abs_of_nonneg hu.1]
  exact hu.2

theorem half_mean_eq {n : Fin 3 → ℝ} (hn : n ⬝ᵥ n = 1) :
    ∫ u, Matrix.vecMul n (randomRotation u.1 u.2.1 u.2.2 (1 / 2)) ⬝ᵥ n ∂Spec.uniformDraws =
      ∫ u, randomRotation u.1 u.2.1 u.2.2 (1 / 2) 0 0 ∂Spec.uniformDraws := by
  obtain ⟨Q, hQ, rfl⟩ := exists_first_row hn
  have h := integral_sameDistribution (A := fun u => Q * randomRotation u.1 u.2.1 u.2.2 (1 / 2) * Q.transpose) ?_
    (measurable_randomRotation (1 / 2)) (C87_isotropic (1 / 2) Q hQ)
  · simp only [entry_form] at h
    exact h
  · exact (measurable_rightMul Q.transpose).comp ((measurable_leftMul Q).comp (measurable_randomRotation (1 / 2)))

/-- **C87** (strength one half). A rotation of strength `0.5` keeps every point in its hemisphere, but on average it moves it
less than the documentation says: the mean height of the image of `n` above the plane perpendicular to `n` is at least
`1/3 + 8/(9π) > 0.616`, while the mean height of a uniformly distributed point of the hemisphere is `1/2`. -/
theorem C87_half (n : Fin 3 → ℝ) (hn : n ⬝ᵥ n = 1) :
    (∀ u0 u1 u2, 0 ≤ u0 → u0 ≤ 1 → 0 ≤ Matrix.vecMul n (randomRotation u0 u1 u2 (1 / 2)) ⬝ᵥ n) ∧
    1 / 3 + 8 / (9 * π) ≤ ∫ u, Matrix.vecMul n (randomRotation u.1 u.2.1 u.2.2 (1 / 2)) ⬝ᵥ n ∂Spec.uniformDraws := by
  refine ⟨fun u0 u1 u2 h0 h1 => ?_, ?_⟩
  · have e := half_rotation_eq (u0, u1, u2)
    dsimp only at e
    rw [e]
    exact le_trans (abs_nonneg _) (sphereRotation_half_ge (spherePoint_unit (u := (u0, u1, u2)) h0 h1) hn)
  · have unit : ∀ a : Fin 3, (Pi.single a 1 : Fin 3 → ℝ) ⬝ᵥ Pi.single a 1 = 1 := fun a => by simp
    have entry : ∀ (a : Fin 3) (u : ℝ × ℝ × ℝ), Matrix.vecMul (Pi.single a 1) (randomRotation u.1 u.2.1 u.2.2 (1 / 2)) ⬝ᵥ Pi.single a 1 =
        randomRotation u.1 u.2.1 u.2.2 (1 / 2) a a := fun a u => by simp
    have hi : ∀ a : Fin 3, Integrable (fun u : ℝ × ℝ × ℝ => randomRotation u.1 u.2.1 u.2.2 (1 / 2) a a) Spec.uniformDraws := fun a => by
      have := half_integrable (unit a)
      simpa only [entry] using this
    have hm : ∀ a : Fin 3, ∫ u, randomRotation u.1 u.2.1 u.2.2 (1 / 2) a a ∂Spec.uniformDraws =
        ∫ u, randomRotation u.1 u.2.1 u.2.2 (1 / 2) 0 0 ∂Spec.uniformDraws := fun a => by
      have := half_mean_eq (unit a)
      simpa only [entry] using this
    have hsum : ∫ u, (randomRotation u.1 u.2.1 u.2.2 (1 / 2) 0 0 + randomRotation u.1 u.2.1 u.2.2 (1 / 2) 1 1 +
        randomRotation u.1 u.2.1 u.2.2 (1 / 2) 2 2) ∂Spec.uniformDraws =
        3 * ∫ u, randomRotation u.1 u.2.1 u.2.2 (1 / 2) 0 0 ∂Spec.uniformDraws := by
      have h01 : Integrable (fun u : ℝ × ℝ × ℝ => randomRotation u.1 u.2.1 u.2.2 (1 / 2) 0 0 + randomRotation u.1 u.2.1 u.2.2 (1 / 2) 1 1)
        Spec.uniformDraws := (hi 0).add (hi 1)
      rw [integral_add h01 (hi 2), integral_add (hi 0) (hi 1), hm 1, hm 2]
      ring
    have hr : Integrable (fun u : ℝ × ℝ × ℝ => |spherePoint u (.inl 0)|) Spec.uniformDraws := by
      have m0 : Measurable fun u : ℝ × ℝ × ℝ => |spherePoint u (.inl 0)| :=
        continuous_abs.measurable.comp ((measurable_pi_apply _).comp measurable_spherePoint)
      refine Integrable.of_bound m0.aestronglyMeasurable 1 ?_
      filter_upwards [uniformDraws_ae] with u hu
      have := spherePoint_unit hu.1 hu.2
      unfold PairsUnit at this
      rw [Real.norm_eq_abs, abs_abs, abs_le_one_iff_mul_self_le_one]
      nlinarith [mul_self_nonneg (spherePoint u (.inl 1)), mul_self_nonneg (spherePoint u (.inr 0)), mul_self_nonneg (spherePoint u (.inr 1))]
    have hle : ∫ u, (1 + 2 * |spherePoint u (.inl 0)|) ∂Spec.uniformDraws ≤
        ∫ u, (randomRotation u.1 u.2.1 u.2.2 (1 / 2) 0 0 + randomRotation u.1 u.2.1 u.2.2 (1 / 2) 1 1 +
        randomRotation u.1 u.2.1 u.2.2 (1 / 2) 2 2) ∂Spec.uniformDraws := by
      refine integral_mono_ae ((integrable_const _).add (hr.const_mul 2)) (((hi 0).add (hi 1)).add (hi 2)) ?_
      filter_upwards [uniformDraws_ae] with u hu
      rw [half_rotation_eq]
      exact sphereRotation_trace _ (spherePoint_unit hu.1 hu.2)
    rw [integral_add (integrable_const _) (hr.const_mul 2), integral_const_mul, integral_real_part, hsum] at hle
    simp only [integral_const, probReal_univ, smul_eq_mul, mul_one] at hle
    rw [half_mean_eq hn]
    have e : 8 / (9 * π) = (2 * (4 / (3 * π))) / 3 := by
      have := pi_pos
      field_simp
      norm_num
    rw [e]
    linarith

/-- **C87** (strength one half, negation of the documentation). For `perturbation = 0.5` a point is *not* rotated to all points
of its hemisphere with equal probability: otherwise its height would be uniformly distributed on `[0, 1]`, which it is not. -/
theorem C87_hemisphere (n : Fin 3 → ℝ) (hn : n ⬝ᵥ n = 1) : ∃ t, 0 < t ∧ t < 1 ∧
    Spec.uniformDraws {u | Matrix.vecMul n (randomRotation u.1 u.2.1 u.2.2 (1 / 2)) ⬝ᵥ n ≤ t} ≠ ENNReal.ofReal t := by
  by_contra hcon
  push Not at hcon
  have hm := measurable_form (1 / 2) n
  have hb := half_bounds hn
  have hlaw : Spec.uniformDraws.map (fun u => Matrix.vecMul n (randomRotation u.1 u.2.1 u.2.2 (1 / 2)) ⬝ᵥ n) = Spec.uniformDraw := by
    have : IsProbabilityMeasure (Spec.uniformDraws.map (fun u => Matrix.vecMul n (randomRotation u.1 u.2.1 u.2.2 (1 / 2)) ⬝ᵥ n)) :=
      Measure.isProbabilityMeasure_map hm.aemeasurable
    refine Measure.ext_of_Iic _ _ fun t => ?_
    rw [Measure.map_apply hm measurableSet_Iic]
    have e : Spec.uniformDraw (Iic t) = ENNReal.ofReal (max 0 (min t 1)) := by
      rw [uniformDraw_eq, Measure.restrict_apply measurableSet_Iic]
      rcases le_total t 0 with h | h
      · have : Iic t ∩ Ioo 0 1 = ∅ := by
          ext a
          simp only [mem_inter_iff, mem_Iic, mem_Ioo, mem_empty_iff_false, iff_false, not_and]
          intro h1 h2
          linarith
        rw [this, measure_empty, max_eq_left (by exact le_trans (min_le_left _ _) h)]
        simp
      · rcases lt_or_ge t 1 with h1 | h1
        · have : Iic t ∩ Ioo 0 1 = Ioc 0 t := by
            ext a
            simp only [mem_inter_iff, mem_Iic, mem_Ioo, mem_Ioc]
            constructor
            · rintro ⟨h2, h3, h4⟩; exact ⟨h3, h2⟩
            · rintro ⟨h2, h3⟩; exact ⟨h3, h2, by linarith⟩
          rw [this, Real.volume_Ioc, min_eq_left h1.le, max_eq_right h, sub_zero]
        · have : Iic t ∩ Ioo 0 1 = Ioo 0 1 := by
            rw [inter_eq_right]
            intro a ha
            exact le_trans ha.2.le h1
          rw [this, Real.volume_Ioo, min_eq_right h1]
          simp
    rw [e]
    show Spec.uniformDraws {u | Matrix.vecMul n (randomRotation u.1 u.2.1 u.2.2 (1 / 2)) ⬝ᵥ n ≤ t} = _
    rcases le_or_gt t 0 with h | h
    · rw [max_eq_left (le_trans (min_le_left _ _) h), ENNReal.ofReal_zero]
      refine le_antisymm ?_ zero_le
      refine ENNReal.le_of_forall_pos_le_add fun ε hε _ => ?_
      rw [zero_add]
      have hs : 0 < min (ε : ℝ) (1 / 2) := lt_min hε (by norm_num)
      refine le_trans (measure_mono (t := {u | Matrix.vecMul n (randomRotation u.1 u.2.1 u.2.2 (1 / 2)) ⬝ᵥ n ≤ min (ε : ℝ) (1 / 2)}) ?_) ?_
      · intro u hu
        exact le_trans (le_trans hu h) hs.le
      · rw [hcon _ hs (lt_of_le_of_lt (min_le_right _ _) (by norm_num))]
        refine le_trans (ENNReal.ofReal_le_ofReal (min_le_left _ _)) ?_
        simp
    · rcases lt_or_ge t 1 with h1 | h1
      · rw [hcon t h h1, min_eq_left h1.le, max_eq_right h.le]
      · rw [min_eq_right h1, max_eq_right zero_le_one, ENNReal.ofReal_one]
        rw [← measure_univ (μ := Spec.uniformDraws)]
        refine measure_congr ?_
        filter_upwards [hb] with u hu
        simp only [eq_iff_iff]
        exact ⟨fun _ => trivial, fun _ => le_trans hu.2 h1⟩
  have h1 := (C87_half n hn).2
  have h2 := integral_map (μ := Spec.uniformDraws) hm.aemeasurable (f := fun a : ℝ => a) (by fun_prop)
  rw [hlaw, integral_uniformDraw] at h2
  rw [← h2, integral_id] at h1
  have h3 : (1 : ℝ) / 3 + 8 / (9 * π) > 1 / 2 := by
    have h4 := Real.pi_le_four
    have hp := pi_pos
    have : 8 / (9 * 4) ≤ 8 / (9 * π) := by
      apply div_le_div_of_nonneg_left <;> linarith
    linarith
  norm_num at h1
  linarith

/-- the rotation by a right angle about the third axis -/
example : Spec.IsProper !![0, 1, 0; -1, 0, 0; 0, 0, 1] := by
  constructor
  · ext i j
    fin_cases i <;> fin_cases j <;> simp [Matrix.mul_apply, Fin.sum_univ_three]
  · rw [Matrix.det_fin_three]
    simp

/-- the image of the first axis is in the upper half of the sphere with probability one half, whatever "up" means -/
example (n : Fin 3 → ℝ) (hn : n ⬝ᵥ n = 1) :
    Spec.uniformDraws {u | Matrix.vecMul ![1, 0, 0] (randomRotation u.1 u.2.1 u.2.2 1) ⬝ᵥ n ≤ 0} = ENNReal.ofReal (1 / 2) := by
  have h := C87_points 1 le_rfl ![1, 0, 0] n (by simp [dotProduct, Fin.sum_univ_three]) hn 0 (by norm_num) (by norm_num)
  rwa [add_zero] at h

/-- without a perturbation the distribution is not uniform -/
example : ¬ Spec.SameDistribution (fun u => !![0, 1, 0; -1, 0, 0; 0, 0, 1] * randomRotation u.1 u.2.1 u.2.2 0)
    (fun u => randomRotation u.1 u.2.1 u.2.2 0) := by
  intro h
  have mS : MeasurableSet {m : Fin 3 → Fin 3 → ℝ | m 0 0 = 1} := measurableSet_eq_fun (by fun_prop) measurable_const
  have h1 := h _ mS
  have e : ∀ᵐ u ∂Spec.uniformDraws, randomRotation u.1 u.2.1 u.2.2 0 = 1 := by
    filter_upwards [uniformDraws_ae] with u hu
    exact (C25_extremes u.1 u.2.1 u.2.2 0 hu.1 hu.2).1 le_rfl
  have a1 : Spec.uniformDraws {u | (fun a b => ((!![0, 1, 0; -1, 0, 0; 0, 0, 1] : Mat3) * randomRotation u.1 u.2.1 u.2.2 0) a b) ∈
      {m : Fin 3 → Fin 3 → ℝ | m 0 0 = 1}} = Spec.uniformDraws ∅ := by
    refine measure_congr ?_
    filter_upwards [e] with u hu
    simp only [eq_iff_iff]
    show (((!![0, 1, 0; -1, 0, 0; 0, 0, 1] : Mat3) * randomRotation u.1 u.2.1 u.2.2 0) 0 0 = 1) ↔ False
    rw [hu]
    simp
  have a2 : Spec.uniformDraws {u | (fun a b => randomRotation u.1 u.2.1 u.2.2 0 a b) ∈ {m : Fin 3 → Fin 3 → ℝ | m 0 0 = 1}} =
      Spec.uniformDraws univ := by
    refine measure_congr ?_
    filter_upwards [e] with u hu
    simp only [eq_iff_iff]
    show (randomRotation u.1 u.2.1 u.2.2 0 0 0 = 1) ↔ True
    rw [hu]
    simp
  rw [a1, a2, measure_empty, measure_univ] at h1
  exact zero_ne_one h1

end E3x
