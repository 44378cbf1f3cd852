import Mathlib.MeasureTheory.Measure.Lebesgue.EqHaar
import Verif.Lemmas.Shoemake
import Verif.Lemmas.Rotations
import Verif.Spec.RandomRotation

/-!
# Invariance of the random quaternions
-/

namespace E3x

open MeasureTheory Set Real
open scoped ENNReal

/-- the point of the sphere that belongs to three draws -/
noncomputable def spherePoint (u : ℝ × ℝ × ℝ) : Pairs := joinPairs (circlePoint √(1 - u.1) u.2.1) (circlePoint √u.1 u.2.2)

theorem measurable_spherePoint : Measurable spherePoint := measurable_point

theorem uniformDraw_eq : Spec.uniformDraw = volume.restrict (Ioo 0 1) := by
  unfold Spec.uniformDraw
  exact (Measure.restrict_congr_set Ioo_ae_eq_Ico).symm

instance : IsProbabilityMeasure Spec.uniformDraw := ⟨by unfold Spec.uniformDraw; simp⟩

instance : IsProbabilityMeasure Spec.uniformDraws := by
  unfold Spec.uniformDraws
  infer_instance

theorem lintegral_spherePoint {f : Pairs → ℝ≥0∞} (hf : Measurable f) :
    ∫⁻ u, f (spherePoint u) ∂Spec.uniformDraws = ∫⁻ u in Ioo 0 1, angleMean f u := by
  have hm : Measurable fun u : ℝ × ℝ × ℝ => f (spherePoint u) := hf.comp measurable_spherePoint
  unfold Spec.uniformDraws
  rw [uniformDraw_eq, lintegral_prod _ hm.aemeasurable]
  refine lintegral_congr fun u => ?_
  unfold angleMean
  rw [lintegral_prod _ (Measurable.aemeasurable ?_)]
  · rfl
  · exact hm.comp (measurable_const.prodMk measurable_id)

theorem radius_mass_ne_zero : (∫⁻ a in Ioo (0 : ℝ) 1, ENNReal.ofReal a) ≠ 0 := by
  rw [Ne, lintegral_eq_zero_iff (by fun_prop)]
  intro h
  rw [Filter.EventuallyEq, ae_restrict_iff' measurableSet_Ioo] at h
  have h2 : volume (Ioo (0 : ℝ) 1) = 0 := by
    refine measure_mono_null ?_ h
    intro x hx
    simp only [mem_compl_iff, mem_setOf_eq, Pi.zero_apply, ENNReal.ofReal_eq_zero, Classical.not_imp]
    exact ⟨hx, not_le.2 hx.1⟩
  simp at h2

theorem radius_mass_ne_top : (∫⁻ a in Ioo (0 : ℝ) 1, ENNReal.ofReal a) ≠ ∞ := by
  have h : (∫⁻ a in Ioo (0 : ℝ) 1, ENNReal.ofReal a) ≤ ∫⁻ a in Ioo (0 : ℝ) 1, 1 := by
    refine setLIntegral_mono measurable_const fun x hx => ?_
    exact ENNReal.ofReal_le_one.2 hx.2.le
  refine ne_top_of_le_ne_top ?_ h
  simp

/-- the sum of the squares does not change under an orthogonal matrix -/
theorem pairsLength_mulVec {O : Matrix (Fin 2 ⊕ Fin 2) (Fin 2 ⊕ Fin 2) ℝ} (hO : O.transpose * O = 1) (x : Pairs) :
    pairsLength (O.mulVec x) = pairsLength x := by
  have e : ∀ y : Pairs, ∑ i, y i ^ 2 = y ⬝ᵥ y := fun y => by simp [dotProduct, sq]
  unfold pairsLength
  rw [e, e, Matrix.dotProduct_mulVec, Matrix.vecMul_mulVec, hO]
  simp

theorem radial_mulVec {O : Matrix (Fin 2 ⊕ Fin 2) (Fin 2 ⊕ Fin 2) ℝ} (hO : O.transpose * O = 1) (f : Pairs → ℝ≥0∞) (x : Pairs) :
    radial (fun y => f (O.mulVec y)) x = radial f (O.mulVec x) := by
  unfold radial
  rw [pairsLength_mulVec hO]
  refine if_congr Iff.rfl (congrArg f (funext fun i => ?_)) rfl
  simp only [Matrix.mulVec, dotProduct, Finset.sum_div, mul_div_assoc]

theorem lintegral_orthogonal {O : Matrix (Fin 2 ⊕ Fin 2) (Fin 2 ⊕ Fin 2) ℝ} (hO : O.transpose * O = 1) {f : Pairs → ℝ≥0∞}
    (hf : Measurable f) : ∫⁻ x, f (O.mulVec x) = ∫⁻ x, f x := by
  have hd : O.det * O.det = 1 := by
    have := congrArg Matrix.det hO
    rwa [Matrix.det_mul, Matrix.det_transpose, Matrix.det_one] at this
  have hd0 : O.det ≠ 0 := fun h => by rw [h] at hd; norm_num at hd
  have habs : |O.det⁻¹| = 1 := by
    rw [abs_inv]
    rcases mul_self_eq_one_iff.1 hd with h | h <;> rw [h] <;> simp
  have h := Real.map_matrix_volume_pi_eq_smul_volume_pi hd0
  rw [habs, ENNReal.ofReal_one, one_smul] at h
  have hm : Measurable (Matrix.toLin' O) := (LinearMap.continuous_of_finiteDimensional _).measurable
  have h2 := lintegral_map hf hm (μ := volume)
  rw [h] at h2
  rw [h2]
  rfl

theorem measurable_mulVec (O : Matrix (Fin 2 ⊕ Fin 2) (Fin 2 ⊕ Fin 2) ℝ) : Measurable fun x : Pairs => O.mulVec x := by
  have hm : Measurable (Matrix.toLin' O) := (LinearMap.continuous_of_finiteDimensional _).measurable
  exact hm

/-- **the drawn points are uniformly distributed on the sphere** -/
theorem spherePoint_invariant {O : Matrix (Fin 2 ⊕ Fin 2) (Fin 2 ⊕ Fin 2) ℝ} (hO : O.transpose * O = 1) {f : Pairs → ℝ≥0∞}
    (hf : Measurable f) : ∫⁻ u, f (O.mulVec (spherePoint u)) ∂Spec.uniformDraws = ∫⁻ u, f (spherePoint u) ∂Spec.uniformDraws := by
  have hg : Measurable fun y => f (O.mulVec y) := hf.comp (measurable_mulVec O)
  have h1 := lintegral_spherePoint hg
  have h2 := lintegral_spherePoint hf
  have h3 := lintegral_radial hg
  have h4 := lintegral_radial hf
  have h5 : ∫⁻ x, radial (fun y => f (O.mulVec y)) x = ∫⁻ x, radial f x := by
    rw [← lintegral_orthogonal hO (measurable_radial hf)]
    exact lintegral_congr fun x => radial_mulVec hO f x
  rw [h3, h4, ← h1, ← h2] at h5
  have hpi0 : ENNReal.ofReal π ≠ 0 := by simpa using pi_pos
  rw [ENNReal.mul_right_inj hpi0 ENNReal.ofReal_ne_top, ENNReal.mul_right_inj hpi0 ENNReal.ofReal_ne_top,
    ENNReal.mul_right_inj radius_mass_ne_zero radius_mass_ne_top] at h5
  exact h5

end E3x
