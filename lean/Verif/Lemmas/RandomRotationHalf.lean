import Mathlib.Analysis.SpecialFunctions.Integrals.Basic
import Mathlib.MeasureTheory.Integral.Prod
import Verif.Lemmas.RandomRotationLaw

/-!
# Random rotations of strength one half
-/

namespace E3x

open MeasureTheory Set Real
open scoped ENNReal

theorem slerpOther_half {r : ℝ} (h0 : 0 ≤ r) (h1 : r ≤ 1) :
    slerpOther (1 / 2) r ^ 2 * (1 - r ^ 2) ≤ (1 - r) / 2 := by
  unfold slerpOther
  have hc : cos (arccos r) = r := Real.cos_arccos (by linarith) h1
  have hs : sin (arccos r) ^ 2 = 1 - r ^ 2 := by
    have := Real.sin_sq_add_cos_sq (arccos r)
    rw [hc] at this
    linarith
  split_ifs with h
  · nlinarith
  · have hne : sin (arccos r) ≠ 0 := by intro h'; rw [h'] at h; norm_num at h
    have hh : sin (1 / 2 * arccos r) ^ 2 = (1 - r) / 2 := by
      have e := Real.cos_two_mul (1 / 2 * arccos r)
      have e' := Real.sin_sq_add_cos_sq (1 / 2 * arccos r)
      rw [show 2 * (1 / 2 * arccos r) = arccos r by ring, hc] at e
      linarith
    rw [div_pow, hs, hh, div_mul_cancel₀]
    rw [← hs]
    exact pow_ne_zero 2 hne

theorem quaternionMatrix_form (r i j k : ℝ) (n : Fin 3 → ℝ) (hn : n ⬝ᵥ n = 1) :
    Matrix.vecMul n (quaternionMatrix (r, i, j, k)) ⬝ᵥ n =
      1 - 2 * (i ^ 2 + j ^ 2 + k ^ 2) + 2 * (n 0 * i + n 1 * j + n 2 * k) ^ 2 := by
  have h : n 0 * n 0 + n 1 * n 1 + n 2 * n 2 = 1 := by simpa [dotProduct, Fin.sum_univ_three] using hn
  simp [Matrix.vecMul, dotProduct, Fin.sum_univ_three, quaternionMatrix, stackLast]
  linear_combination (1 - 2 * (i ^ 2 + j ^ 2 + k ^ 2)) * h

theorem flipSign_sq (r : ℝ) : flipSign r ^ 2 = 1 := by
  unfold flipSign
  split_ifs <;> norm_num

theorem axis_half {x : Pairs} (hx : PairsUnit x) :
    (slerpOther (1 / 2) |x (.inl 0)| * flipSign (x (.inl 0)) * x (.inl 1)) ^ 2 +
      (slerpOther (1 / 2) |x (.inl 0)| * flipSign (x (.inl 0)) * x (.inr 0)) ^ 2 +
      (slerpOther (1 / 2) |x (.inl 0)| * flipSign (x (.inl 0)) * x (.inr 1)) ^ 2 ≤ (1 - |x (.inl 0)|) / 2 := by
  unfold PairsUnit at hx
  have hle : |x (.inl 0)| ≤ 1 := by
    rw [abs_le_one_iff_mul_self_le_one]
    nlinarith [mul_self_nonneg (x (.inl 1)), mul_self_nonneg (x (.inr 0)), mul_self_nonneg (x (.inr 1))]
  refine le_trans (le_of_eq ?_) (slerpOther_half (abs_nonneg _) hle)
  rw [sq_abs]
  linear_combination slerpOther (1 / 2) |x (.inl 0)| ^ 2 * (x (.inl 1) ^ 2 + x (.inr 0) ^ 2 + x (.inr 1) ^ 2) * flipSign_sq (x (.inl 0)) +
    slerpOther (1 / 2) |x (.inl 0)| ^ 2 * hx

theorem sphereRotation_half_ge {x : Pairs} (hx : PairsUnit x) {n : Fin 3 → ℝ} (hn : n ⬝ᵥ n = 1) :
    |x (.inl 0)| ≤ Matrix.vecMul n (sphereRotation (1 / 2) x) ⬝ᵥ n := by
  rw [sphereRotation, sphereQuaternion, quaternionMatrix_form _ _ _ _ n hn]
  have h := axis_half hx
  generalize n 0 * _ + n 1 * _ + n 2 * _ = y
  nlinarith [sq_nonneg y]

theorem sphereRotation_trace (x : Pairs) (hx : PairsUnit x) :
    1 + 2 * |x (.inl 0)| ≤ sphereRotation (1 / 2) x 0 0 + sphereRotation (1 / 2) x 1 1 + sphereRotation (1 / 2) x 2 2 := by
  have h := axis_half hx
  have e : ∀ r i j k : ℝ, quaternionMatrix (r, i, j, k) 0 0 + quaternionMatrix (r, i, j, k) 1 1 + quaternionMatrix (r, i, j, k) 2 2 =
      3 - 4 * (i ^ 2 + j ^ 2 + k ^ 2) := by
    intro r i j k
    simp [quaternionMatrix, stackLast]
    ring
  rw [sphereRotation, sphereQuaternion, e]
  linarith

theorem form_le_one (r i j k : ℝ) {n : Fin 3 → ℝ} (hn : n ⬝ᵥ n = 1) :
    Matrix.vecMul n (quaternionMatrix (r, i, j, k)) ⬝ᵥ n ≤ 1 := by
  rw [quaternionMatrix_form _ _ _ _ n hn]
  have h : n 0 * n 0 + n 1 * n 1 + n 2 * n 2 = 1 := by simpa [dotProduct, Fin.sum_univ_three] using hn
  have e : (i ^ 2 + j ^ 2 + k ^ 2) - (n 0 * i + n 1 * j + n 2 * k) ^ 2 =
      (n 0 * j - n 1 * i) ^ 2 + (n 0 * k - n 2 * i) ^ 2 + (n 1 * k - n 2 * j) ^ 2 := by
    linear_combination -(i ^ 2 + j ^ 2 + k ^ 2) * h
  nlinarith [sq_nonneg (n 0 * j - n 1 * i), sq_nonneg (n 0 * k - n 2 * i), sq_nonneg (n 1 * k - n 2 * j)]

/-- matrices with the same distribution have the same means -/
theorem integral_sameDistribution {A B : ℝ × ℝ × ℝ → Mat3} (hA : Measurable fun (u : ℝ × ℝ × ℝ) (a b : Fin 3) => A u a b)
    (hB : Measurable fun (u : ℝ × ℝ × ℝ) (a b : Fin 3) => B u a b) (h : Spec.SameDistribution A B) :
    ∫ u, A u 0 0 ∂Spec.uniformDraws = ∫ u, B u 0 0 ∂Spec.uniformDraws := by
  have e : Spec.uniformDraws.map (fun (u : ℝ × ℝ × ℝ) (a b : Fin 3) => A u a b) =
      Spec.uniformDraws.map (fun (u : ℝ × ℝ × ℝ) (a b : Fin 3) => B u a b) := by
    ext S hS
    rw [Measure.map_apply hA hS, Measure.map_apply hB hS]
    exact h S hS
  have m : Measurable fun z : Fin 3 → Fin 3 → ℝ => z 0 0 := by fun_prop
  have h1 := integral_map (μ := Spec.uniformDraws) hA.aemeasurable (f := fun z : Fin 3 → Fin 3 → ℝ => z 0 0) m.aestronglyMeasurable
  have h2 := integral_map (μ := Spec.uniformDraws) hB.aemeasurable (f := fun z : Fin 3 → Fin 3 → ℝ => z 0 0) m.aestronglyMeasurable
  rw [e] at h1
  exact h1.symm.trans h2

theorem integral_uniformDraw (f : ℝ → ℝ) : ∫ a, f a ∂Spec.uniformDraw = ∫ a in (0 : ℝ)..1, f a := by
  unfold Spec.uniformDraw
  rw [intervalIntegral.integral_of_le zero_le_one, integral_Ico_eq_integral_Ioo, integral_Ioc_eq_integral_Ioo]

theorem integral_sqrt : ∫ a, √(1 - a) ∂Spec.uniformDraw = 2 / 3 := by
  rw [integral_uniformDraw, intervalIntegral.integral_comp_sub_left (fun a => √a) 1]
  simp only [sub_self, sub_zero, Real.sqrt_eq_rpow]
  rw [integral_rpow (Or.inl (by norm_num))]
  norm_num

theorem integral_abs_sin_draw : ∫ a, |sin (2 * π * a)| ∂Spec.uniformDraw = 2 / π := by
  have hpi := pi_pos
  rw [integral_uniformDraw, intervalIntegral.integral_comp_mul_left (fun a => |sin a|) (by positivity)]
  have c : Continuous fun a : ℝ => |sin a| := by fun_prop
  have e1 : ∫ a in (0 : ℝ)..π, |sin a| = 2 := by
    rw [intervalIntegral.integral_congr (g := sin), integral_sin]
    · simp; norm_num
    · intro a ha
      rw [uIcc_of_le hpi.le] at ha
      exact abs_of_nonneg (Real.sin_nonneg_of_nonneg_of_le_pi ha.1 ha.2)
  have e2 : ∫ a in π..2 * π, |sin a| = 2 := by
    rw [intervalIntegral.integral_congr (g := fun a => -sin a), intervalIntegral.integral_neg, integral_sin]
    · simp; norm_num
    · intro a ha
      rw [uIcc_of_le (by linarith)] at ha
      have : sin a ≤ 0 := by
        have := Real.sin_nonneg_of_nonneg_of_le_pi (x := a - π) (by linarith [ha.1]) (by linarith [ha.2])
        rw [Real.sin_sub_pi] at this
        linarith
      exact abs_of_nonpos this
  rw [mul_zero, mul_one, ← intervalIntegral.integral_add_adjacent_intervals (c.intervalIntegrable 0 π) (c.intervalIntegrable π (2 * π)), e1, e2]
  rw [smul_eq_mul]
  field_simp
  norm_num

theorem integral_real_part : ∫ u, |spherePoint u (.inl 0)| ∂Spec.uniformDraws = 4 / (3 * π) := by
  have e : ∀ u : ℝ × ℝ × ℝ, |spherePoint u (.inl 0)| = √(1 - u.1) * |sin (2 * π * u.2.1)| := by
    intro u
    have e0 : spherePoint u (.inl 0) = √(1 - u.1) * sin (2 * π * u.2.1) := rfl
    rw [e0, abs_mul, abs_of_nonneg (Real.sqrt_nonneg _)]
  simp only [e]
  unfold Spec.uniformDraws
  rw [integral_prod_mul (fun a : ℝ => √(1 - a)) (fun z : ℝ × ℝ => |sin (2 * π * z.1)|)]
  rw [integral_fun_fst (fun a : ℝ => |sin (2 * π * a)|), integral_sqrt, integral_abs_sin_draw]
  simp
  field_simp
  norm_num

end E3x
