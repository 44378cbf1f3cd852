import Verif.Spec.ComplexInit
import Verif.Props.Distributions

/-!
# C94: random complex parameters
-/

namespace E3x

noncomputable section

open MeasureTheory ProbabilityTheory Spec

/-- the value of an entry: a real factor times a complex number -/
theorem randomComplexEntry_uniform (d : ComplexDraw) (variance : ℝ) :
    randomComplexEntry "uniform" d variance = .ok (Real.sqrt variance * complexUniform d) := by
  unfold randomComplexEntry
  rw [if_neg (by decide), if_neg (by decide), if_pos rfl]

theorem integral_phase (k : ℤ) (hk : k ≠ 0) (c : ℂ) :
    ∫ v in (0 : ℝ)..1, c * Complex.exp (2 * Real.pi * v * Complex.I) ^ k = 0 := by
  rw [intervalIntegral.integral_const_mul]
  have h : ∀ v : ℝ, Complex.exp (2 * Real.pi * v * Complex.I) ^ k = Complex.exp ((k * (2 * Real.pi * Complex.I)) * v) := by
    intro v
    rw [← Complex.exp_int_mul]
    congr 1
    ring
  simp only [h]
  have hne : (k : ℂ) * (2 * Real.pi * Complex.I) ≠ 0 := by
    refine mul_ne_zero (by exact_mod_cast hk) (mul_ne_zero (mul_ne_zero two_ne_zero ?_) Complex.I_ne_zero)
    exact_mod_cast Real.pi_ne_zero
  rw [integral_exp_mul_complex hne]
  simp [Complex.exp_int_mul_two_pi_mul_I]

theorem norm_phase (v : ℝ) : ‖Complex.exp (2 * Real.pi * v * Complex.I)‖ = 1 := by
  have : (2 * Real.pi * v * Complex.I : ℂ) = ((2 * Real.pi * v : ℝ) : ℂ) * Complex.I := by push_cast; ring
  rw [this, Complex.norm_exp_ofReal_mul_I]

/-- Averages for a number with random radius and uniform angle. -/
theorem average_polar (r : ℝ → ℝ) (c : ℝ) :
    averageUniform (fun d => (c : ℂ) * ((r d.u : ℂ) * Complex.exp (2 * Real.pi * d.v * Complex.I))) = 0 ∧
    averageUniform (fun d => ((c : ℂ) * ((r d.u : ℂ) * Complex.exp (2 * Real.pi * d.v * Complex.I))) ^ 2) = 0 ∧
    averageUniform (fun d => ‖(c : ℂ) * ((r d.u : ℂ) * Complex.exp (2 * Real.pi * d.v * Complex.I))‖ ^ 2) =
      c ^ 2 * ∫ u in (0 : ℝ)..1, r u ^ 2 := by
  unfold averageUniform
  dsimp only
  refine ⟨?_, ?_, ?_⟩
  · have h : ∀ u : ℝ, ∫ v in (0 : ℝ)..1, (c : ℂ) * ((r u : ℂ) * Complex.exp (2 * Real.pi * v * Complex.I)) = 0 := by
      intro u
      have := integral_phase 1 one_ne_zero ((c : ℂ) * r u)
      simpa only [zpow_one, mul_assoc] using this
    simp [h]
  · have h : ∀ u : ℝ, ∫ v in (0 : ℝ)..1, ((c : ℂ) * ((r u : ℂ) * Complex.exp (2 * Real.pi * v * Complex.I))) ^ 2 = 0 := by
      intro u
      have := integral_phase 2 two_ne_zero (((c : ℂ) * r u) ^ 2)
      rw [← this]
      congr 1
      funext v
      rw [show (2 : ℤ) = ((2 : ℕ) : ℤ) from rfl, zpow_natCast]
      ring
    simp [h]
  · simp only [norm_mul, norm_phase, Complex.norm_real, mul_one, mul_pow, Real.norm_eq_abs, sq_abs]
    simp

/-- **C94 (uniform).** Complex parameters with the uniform distribution have mean zero, are circular, and have the requested
variance; none is larger than `sqrt(2 * variance)`. -/
theorem C94_uniform (variance : ℝ) (hv : 0 ≤ variance) :
    ∃ z : ComplexDraw → ℂ, (∀ d, randomComplexEntry "uniform" d variance = .ok (z d)) ∧
      averageUniform z = 0 ∧ averageUniform (fun d => z d ^ 2) = 0 ∧ averageUniform (fun d => ‖z d‖ ^ 2) = variance ∧
      ∀ d, 0 ≤ d.u → d.u < 1 → ‖z d‖ ^ 2 ≤ 2 * variance := by
  refine ⟨fun d => Real.sqrt variance * complexUniform d, fun d => randomComplexEntry_uniform d variance, ?_⟩
  obtain ⟨h1, h2, h3⟩ := average_polar (fun u => Real.sqrt (2 * u)) (Real.sqrt variance)
  refine ⟨h1, h2, h3.trans ?_, fun d h0 h1 => ?_⟩
  · have : ∫ u in (0 : ℝ)..1, Real.sqrt (2 * u) ^ 2 = ∫ u in (0 : ℝ)..1, 2 * u := by
      apply intervalIntegral.integral_congr
      intro u hu
      rw [Set.uIcc_of_le zero_le_one] at hu
      exact Real.sq_sqrt (by linarith [hu.1])
    rw [this, intervalIntegral.integral_const_mul, integral_id, Real.sq_sqrt hv]
    ring
  · simp only [complexUniform, norm_mul, norm_phase, Complex.norm_real, mul_one, mul_pow, Real.norm_eq_abs, sq_abs]
    rw [Real.sq_sqrt hv, Real.sq_sqrt (by linarith)]
    nlinarith

theorem gaussian_sq : ∫ a : ℝ, a ^ 2 ∂(gaussianReal 0 1) = 1 := by
  have h := variance_id_gaussianReal (μ := 0) (v := 1)
  rw [variance_eq_integral (by fun_prop)] at h
  simpa using h

theorem gaussian_sq_integrable : Integrable (fun a : ℝ => a ^ 2) (gaussianReal 0 1) := by
  have := (memLp_id_gaussianReal (μ := 0) (v := 1) 2).integrable_sq
  simpa using this

/-- **C94 (normal).** Complex parameters with the normal distribution have the requested variance. -/
theorem C94_normal (variance : ℝ) (hv : 0 ≤ variance) :
    ∃ z : ComplexDraw → ℂ, (∀ d, randomComplexEntry "normal" d variance = .ok (z d)) ∧
      averageNormal (fun d => (z d).re) = 0 ∧ averageNormal (fun d => (z d).im) = 0 ∧
      averageNormal (fun d => ‖z d‖ ^ 2) = variance := by
  refine ⟨fun d => Real.sqrt variance * complexNormal d, fun d => ?_, ?_⟩
  · unfold randomComplexEntry
    rw [if_neg (by decide), if_pos rfl]
  have hz : ∀ a b : ℝ, (Real.sqrt variance : ℂ) * complexNormal ⟨0, 0, a, b⟩ =
      ⟨Real.sqrt variance / Real.sqrt 2 * a, Real.sqrt variance / Real.sqrt 2 * b⟩ := by
    intro a b
    have h2 : (Real.sqrt 2 : ℂ) ≠ 0 := by exact_mod_cast (by positivity : Real.sqrt 2 ≠ 0)
    unfold complexNormal
    rw [Complex.mk_eq_add_mul_I]
    push_cast
    field_simp
  unfold averageNormal
  simp only [hz]
  refine ⟨?_, ?_, ?_⟩
  · have h : ∫ a : ℝ, Real.sqrt variance / Real.sqrt 2 * a ∂(gaussianReal 0 1) = 0 := by
      rw [integral_const_mul, integral_id_gaussianReal, mul_zero]
    simpa using h
  · have h : ∫ a : ℝ, Real.sqrt variance / Real.sqrt 2 * a ∂(gaussianReal 0 1) = 0 := by
      rw [integral_const_mul, integral_id_gaussianReal, mul_zero]
    simpa using h
  · have hn : ∀ a b : ℝ, ‖(⟨Real.sqrt variance / Real.sqrt 2 * a, Real.sqrt variance / Real.sqrt 2 * b⟩ : ℂ)‖ ^ 2 =
        variance / 2 * a ^ 2 + variance / 2 * b ^ 2 := by
      intro a b
      rw [Complex.sq_norm, Complex.normSq_mk]
      have e1 := Real.mul_self_sqrt hv
      have e2 := Real.mul_self_sqrt (by norm_num : (0 : ℝ) ≤ 2)
      have h2 : Real.sqrt 2 ≠ 0 := by positivity
      have : Real.sqrt variance / Real.sqrt 2 * (Real.sqrt variance / Real.sqrt 2) = variance / 2 := by
        rw [div_mul_div_comm, e1, e2]
      linear_combination (a ^ 2 + b ^ 2) * this
    simp only [hn]
    have h1 : ∀ a : ℝ, ∫ b, (variance / 2 * a ^ 2 + variance / 2 * b ^ 2) ∂(gaussianReal 0 1) =
        variance / 2 * a ^ 2 + variance / 2 := by
      intro a
      rw [integral_add (integrable_const _) (gaussian_sq_integrable.const_mul _), integral_const_mul (variance / 2) fun b : ℝ => b ^ 2,
        gaussian_sq]
      simp
    simp only [h1]
    rw [integral_add (gaussian_sq_integrable.const_mul _) (integrable_const _), integral_const_mul, gaussian_sq]
    simp

theorem exp_neg_four : 0.0183156388887341802 < Real.exp (-4) ∧ Real.exp (-4) < 0.0183156388887341804 := by
  have e1 := exp_neg_taylor 46 4 (by norm_num)
  have e2 := exp_neg_taylor 45 4 (by norm_num)
  simp only [Finset.sum_range_succ, Finset.sum_range_zero, Nat.factorial] at e1 e2
  norm_num at e1 e2
  constructor <;> linarith

/-- The average of the squared radius of the truncated normal distribution. -/
theorem truncated_radius :
    ∫ u in (0 : ℝ)..1, Real.sqrt (-Real.log (1 - (1 - Real.exp (-2 ^ 2)) * u)) ^ 2 =
      (1 - 5 * Real.exp (-4)) / (1 - Real.exp (-4)) := by
  have e4 : Real.exp (-2 ^ 2) = Real.exp (-4) := by norm_num
  rw [e4]
  obtain ⟨b1, b2⟩ := exp_neg_four
  set q := Real.exp (-4) with hq
  have hpos : ∀ u ∈ Set.uIcc (0 : ℝ) 1, 0 < 1 - (1 - q) * u ∧ 1 - (1 - q) * u ≤ 1 := by
    intro u hu
    rw [Set.uIcc_of_le zero_le_one] at hu
    constructor <;> nlinarith [hu.1, hu.2]
  have h1 : ∫ u in (0 : ℝ)..1, Real.sqrt (-Real.log (1 - (1 - q) * u)) ^ 2 =
      ∫ u in (0 : ℝ)..1, -Real.log (1 - (1 - q) * u) := by
    apply intervalIntegral.integral_congr
    intro u hu
    exact Real.sq_sqrt (neg_nonneg.2 (Real.log_nonpos (hpos u hu).1.le (hpos u hu).2))
  rw [h1]
  have hq1 : (1 : ℝ) - q ≠ 0 := by linarith
  have hd : ∀ u ∈ Set.uIcc (0 : ℝ) 1, HasDerivAt
      (fun u => (1 - (1 - q) * u) * Real.log (1 - (1 - q) * u) / (1 - q) + u) (-Real.log (1 - (1 - q) * u)) u := by
    intro u hu
    have hp := (hpos u hu).1.ne'
    have h2 : HasDerivAt (fun u : ℝ => 1 - (1 - q) * u) (-(1 - q)) u := by
      refine (((hasDerivAt_id u).const_mul (1 - q)).const_sub 1).congr_deriv ?_
      simp
    refine (((h2.mul (h2.log hp)).div_const (1 - q)).add (hasDerivAt_id u)).congr_deriv ?_
    field_simp
    ring
  rw [intervalIntegral.integral_eq_sub_of_hasDerivAt hd]
  · have hlog : Real.log q = -4 := by rw [hq, Real.log_exp]
    simp only [mul_one, mul_zero, sub_zero, Real.log_one, zero_div, sub_sub_cancel, hlog]
    field_simp
    ring
  · apply ContinuousOn.intervalIntegrable
    apply ContinuousOn.neg
    apply ContinuousOn.log (by fun_prop)
    intro u hu
    exact (hpos u hu).1.ne'

/-- The factor by which the variance of complex parameters with truncated normal distribution is wrong. -/
def excess : ℝ := (1 - 5 * Real.exp (-4)) / (1 - Real.exp (-4)) / 0.95311164380491208 ^ 2

/-- **C94 fails for the truncated normal distribution.** Complex parameters have mean zero and are circular, but their
variance is larger than the requested one by a factor of 1.01866: the constant of the code is not the standard deviation of
the truncated distribution, because the density was not normalised after the truncation. -/
theorem C94_truncated_normal (variance : ℝ) (hv : 0 ≤ variance) :
    ∃ z : ComplexDraw → ℂ, (∀ d, randomComplexEntry "truncated_normal" d variance = .ok (z d)) ∧
      averageUniform z = 0 ∧ averageUniform (fun d => z d ^ 2) = 0 ∧
      averageUniform (fun d => ‖z d‖ ^ 2) = variance * excess ∧ |excess - 1.018657| < 1e-6 := by
  refine ⟨fun d => (Real.sqrt variance / 0.95311164380491208 : ℝ) * complexTruncatedNormal 2 d, fun d => ?_, ?_⟩
  · unfold randomComplexEntry
    rw [if_pos rfl]
  obtain ⟨h1, h2, h3⟩ := average_polar (fun u => Real.sqrt (-Real.log (1 - (1 - Real.exp (-2 ^ 2)) * u)))
    (Real.sqrt variance / 0.95311164380491208)
  refine ⟨h1, h2, h3.trans ?_, ?_⟩
  · rw [truncated_radius, div_pow, Real.sq_sqrt hv]
    unfold excess
    ring
  · obtain ⟨b1, b2⟩ := exp_neg_four
    unfold excess
    have hp : (0 : ℝ) < 1 - Real.exp (-4) := by linarith
    rw [div_div, abs_lt]
    constructor
    · rw [lt_sub_iff_add_lt, lt_div_iff₀ (by positivity)]
      norm_num
      nlinarith
    · rw [sub_lt_iff_lt_add, div_lt_iff₀ (by positivity)]
      norm_num
      nlinarith

/-- **C94 (the constant).** The constant of the code is the square root of the second moment without normalisation; divided
by the square root of the probability `1 - exp(-4)` of the disk it is the standard deviation, for which the variance is as
requested. -/
theorem C94_constant : |0.95311164380491208 ^ 2 - (1 - 5 * Real.exp (-4))| < 1e-12 ∧
    |(0.95311164380491208 / Real.sqrt (1 - Real.exp (-4))) ^ 2 - (1 - 5 * Real.exp (-4)) / (1 - Real.exp (-4))| < 2e-12 := by
  obtain ⟨b1, b2⟩ := exp_neg_four
  have hp : (0 : ℝ) < 1 - Real.exp (-4) := by linarith
  have h1 : |0.95311164380491208 ^ 2 - (1 - 5 * Real.exp (-4))| < 1e-12 := by
    rw [abs_lt]
    constructor <;> norm_num <;> linarith
  refine ⟨h1, ?_⟩
  rw [div_pow, Real.sq_sqrt hp.le, ← sub_div, abs_div, abs_of_pos hp, div_lt_iff₀ hp]
  refine h1.trans ?_
  norm_num
  linarith

/-- the number drawn from the distribution, with the factor of the code -/
def complexUnit (distribution : String) (d : ComplexDraw) : ℂ :=
  if distribution = "truncated_normal" then (1 / 0.95311164380491208 : ℝ) * complexTruncatedNormal 2 d
  else if distribution = "normal" then complexNormal d else complexUniform d

theorem randomComplexEntry_eq (distribution : String) (d : ComplexDraw) (variance : ℝ)
    (hd : distribution ∈ ["truncated_normal", "normal", "uniform"]) :
    randomComplexEntry distribution d variance = .ok (Real.sqrt variance * complexUnit distribution d) := by
  simp only [List.mem_cons, List.not_mem_nil, or_false] at hd
  unfold randomComplexEntry complexUnit
  rcases hd with rfl | rfl | rfl
  · rw [if_pos rfl, if_pos rfl]
    congr 1
    push_cast
    ring
  · simp
  · simp

/-- **C94 (kernels).** Complex kernels of tensor products are zero for forbidden couplings; for allowed ones they are random
numbers with variance `scale / fan`, with the documented fan. -/
theorem C94_kernels (S1 N1 S2 N2 S3 N3 F : ℕ) (h1 : S1 = 1 ∨ S1 = 2) (h2 : S2 = 1 ∨ S2 = 2)
    (h3 : S3 = 1 ∨ S3 = 2) (scale : ℝ) (mode distribution : String) (hm : mode ∈ ["fan_in", "fan_out", "fan_avg"])
    (hd : distribution ∈ ["truncated_normal", "normal", "uniform"])
    (draws : ℕ → ℕ → ℕ → ℕ → ℕ → ℕ → ℕ → ComplexDraw) :
    ∃ W, complexTensorVarianceScaling scale mode distribution draws [S1, N1, S2, N2, S3, N3, F] = .ok W ∧
      ∀ p1 < S1, ∀ l1 < N1, ∀ p2 < S2, ∀ l2 < N2, ∀ p3 < S3, ∀ l3 < N3, ∀ f,
        (¬ AllowedCoupling S1 S2 S3 p1 l1 p2 l2 p3 l3 → W p1 l1 p2 l2 p3 l3 f = 0) ∧
        (AllowedCoupling S1 S2 S3 p1 l1 p2 l2 p3 l3 →
          0 < fanOf mode (inputPaths S1 N1 S2 N2 S3 p3 l3) (outputPaths S1 S2 S3 N3 p1 l1 p2 l2) ∧
          randomComplexEntry distribution (draws p1 l1 p2 l2 p3 l3 f)
            (scale / fanOf mode (inputPaths S1 N1 S2 N2 S3 p3 l3) (outputPaths S1 S2 S3 N3 p1 l1 p2 l2)) =
            .ok (W p1 l1 p2 l2 p3 l3 f)) := by
  obtain ⟨s, hs, hfans⟩ := C40_fans S1 N1 S2 N2 S3 N3 F h1 h2 h3
  unfold complexTensorVarianceScaling
  rw [hs]
  dsimp only
  have hm' : ¬ (mode ≠ "fan_in" ∧ mode ≠ "fan_out" ∧ mode ≠ "fan_avg") := by
    simp only [List.mem_cons, List.not_mem_nil, or_false] at hm
    tauto
  rw [if_neg hm', randomComplexEntry_eq distribution _ _ hd]
  refine ⟨_, rfl, fun p1 hp1 l1 hl1 p2 hp2 l2 hl2 p3 hp3 l3 hl3 f => ?_⟩
  obtain ⟨e1, e2, e3⟩ := hfans p1 hp1 l1 hl1 p2 hp2 l2 hl2 p3 hp3 l3 hl3
  refine ⟨fun hn => ?_, fun ha => ?_⟩
  · rw [if_neg (fun h => hn (e3.1 h))]
  · obtain ⟨W', -, hW⟩ := C40_variance_scaling S1 N1 S2 N2 S3 N3 F h1 h2 h3 scale mode distribution hm hd
      (fun _ _ _ _ _ _ _ _ => 0)
    have hpos := ((hW p1 hp1 l1 hl1 p2 hp2 l2 hl2 p3 hp3 l3 hl3 f).2 ha).1
    refine ⟨hpos, ?_⟩
    rw [if_pos (e3.2 ha)]
    simp only [e1, e2]
    rw [randomComplexEntry_eq distribution _ _ hd, randomComplexEntry_eq distribution _ _ hd]
    unfold fanOf at hpos ⊢
    rw [if_pos hpos]

/-- **C94 (validation).** Other distributions raise `ValueError`. -/
theorem C94_validation (distribution : String) (d : ComplexDraw) (variance : ℝ)
    (hd : distribution ∉ ["truncated_normal", "normal", "uniform"]) :
    randomComplexEntry distribution d variance = .error .valueError := by
  simp only [List.mem_cons, List.not_mem_nil, or_false, not_or] at hd
  unfold randomComplexEntry
  rw [if_neg hd.1, if_neg hd.2.1, if_neg hd.2.2]

/-- Non-vacuity: for vectors times vectors to vectors with pseudotensors, coupling `1- ⊗ 1- → 1+` is allowed. -/
example : AllowedCoupling 1 1 2 0 1 0 1 0 1 ∧ "fan_in" ∈ ["fan_in", "fan_out", "fan_avg"] ∧ (0 : ℝ) ≤ 1 / 2 := by
  refine ⟨?_, by decide, by norm_num⟩
  unfold AllowedCoupling
  decide

end

end E3x
