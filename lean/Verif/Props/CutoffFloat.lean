import Verif.Lemmas.CutoffFloat
import Verif.Props.SoftmaxFloat

/-!
# C78: the cutoff function in floating-point arithmetic

`smooth_cutoff` with every operation rounded (`Model/CutoffFloat.lean`).
-/

namespace E3x

open FloatFormat

variable {F : FloatFormat} {exp : FloatVal → FloatVal}

/-- C78: for all distances the computed value is finite, not negative and differs from the documented function by at most 32
unit roundoffs, although the formula divides by a difference which cancels near the cutoff. -/
theorem C78_smooth_cutoff (hF : F.Accurate) (hexp : AccurateExp F exp) {x c : ℝ} (hx : 0 ≤ x) (hc : 0 < c)
    (hnum : F.IsNumber x) : ∃ y, smoothCutoffFloat F exp (.num x) c = .ok (.num y) ∧ 0 ≤ y ∧
      |y - exactSmoothCutoff x c| ≤ 32 * F.unit := by
  have u0 := unit_pos (F := F)
  have u1 := hF.unit_le
  have t0 := tiny_pos (F := F)
  have t1 : F.tiny ≤ F.unit / 8 := hF.tiny_le.trans (by nlinarith)
  -- the rescaled distance
  have hz : ((if c ≠ 1 then F.div (.num x) (.num c) else .num x) = .posInf ∧ 1 ≤ x / c) ∨
      ∃ z, (if c ≠ 1 then F.div (.num x) (.num c) else .num x) = .num z ∧ 0 ≤ z ∧ |z - x / c| ≤ F.unit * (x / c) + F.tiny ∧
        (z < 1 → z ≤ 1 - F.unit) ∧ (1 ≤ x / c → 1 ≤ z) := by
    by_cases h1 : c = 1
    · subst h1
      simp only [ne_eq, not_true, if_false, div_one]
      rcases round_one hF hx with ⟨h, -⟩ | ⟨z, h, h2⟩
      · rw [hnum] at h
        cases h
      · rw [hnum] at h
        cases h
        exact .inr ⟨x, rfl, h2⟩
    · simp only [ne_eq, h1, not_false_iff, if_true, FloatFormat.div, if_neg hc.ne']
      exact round_one hF (div_nonneg hx hc.le)
  have hexact : exactSmoothCutoff x c = if x / c < 1 then bump (1 - (x / c) ^ 2) else 0 := by
    unfold exactSmoothCutoff bump
    simp only [div_lt_one hc]
  unfold smoothCutoffFloat
  rw [if_neg (not_le.2 hc)]
  simp only
  rcases hz with ⟨hz, h1⟩ | ⟨z, hz, z0, ez, zu, zt⟩
  · rw [hz, if_neg (by simp [FloatVal.gt]), hexact, if_neg (not_lt.2 h1)]
    exact ⟨0, rfl, le_rfl, by simp [u0.le]⟩
  · rw [hz, hexact]
    set t := x / c with ht
    have t2 : 0 ≤ t := div_nonneg hx hc.le
    by_cases hz1 : z < 1
    · have ht1 : t < 1 := by
        by_contra h
        exact absurd (zt (not_lt.1 h)) (not_le.2 hz1)
      have hgt : FloatVal.gt (.num 1) (.num z) := hz1
      rw [if_pos hgt, if_pos hgt, if_pos ht1]
      obtain ⟨r, hr, r0, er⟩ := inside_spec hF hexp z0 (zu hz1)
      refine ⟨r, by rw [hr], r0, ?_⟩
      have hzu := zu hz1
      have h1 : 0 < 1 - z ^ 2 := by nlinarith
      have h2 : 0 < 1 - t ^ 2 := by nlinarith
      have h3 := bump_lipschitz h1 h2
      have h4 : |1 - z ^ 2 - (1 - t ^ 2)| ≤ 9 / 4 * F.unit := by
        rw [show 1 - z ^ 2 - (1 - t ^ 2) = -((z - t) * (z + t)) by ring, abs_neg, abs_mul, abs_of_nonneg (add_nonneg z0 t2)]
        have h5 : |z - t| ≤ 9 / 8 * F.unit := by
          have : F.unit * t ≤ F.unit * 1 := mul_le_mul_of_nonneg_left ht1.le u0.le
          linarith
        calc |z - t| * (z + t) ≤ 9 / 8 * F.unit * 2 := mul_le_mul h5 (by linarith) (add_nonneg z0 t2) (by linarith)
          _ = _ := by ring
      have := abs_sub_le r (bump (1 - z ^ 2)) (bump (1 - t ^ 2))
      linarith
    · have hgt : ¬ FloatVal.gt (.num 1) (.num z) := hz1
      rw [if_neg hgt]
      refine ⟨0, rfl, le_rfl, ?_⟩
      rw [zero_sub, abs_neg]
      split_ifs with ht1
      · have h2 : 0 < 1 - t ^ 2 := by nlinarith
        have h3 := bump_le h2
        have h4 : 0 < bump (1 - t ^ 2) := Real.exp_pos _
        rw [abs_of_pos h4]
        have h5 := (abs_le.1 ez).2
        have h6 : F.unit * t ≤ F.unit * 1 := mul_le_mul_of_nonneg_left ht1.le u0.le
        have h7 : 1 - t ^ 2 ≤ 2 * (1 - t) := by nlinarith
        push Not at hz1
        linarith
      · simp [u0.le]

/-- C78: beyond the cutoff the computed value is exactly zero. -/
theorem C78_beyond (hF : F.Accurate) {x c : ℝ} (hc : 0 < c) (h : c ≤ x) :
    smoothCutoffFloat F exp (.num x) c = .ok (.num 0) := by
  unfold smoothCutoffFloat
  rw [if_neg (not_le.2 hc)]
  have h1 : 1 ≤ x / c := (one_le_div hc).2 h
  have hgt : ¬ FloatVal.gt (.num 1) (if c ≠ 1 then F.div (.num x) (.num c) else .num x) := by
    by_cases hc1 : c = 1
    · subst hc1
      simp only [ne_eq, not_true, if_false, FloatVal.gt, not_lt]
      exact h
    · simp only [ne_eq, hc1, not_false_iff, if_true, FloatFormat.div, if_neg hc.ne']
      rcases round_one hF (y := x / c) (by linarith) with ⟨h2, -⟩ | ⟨z, h2, -, -, -, h3⟩
      · rw [h2]; simp [FloatVal.gt]
      · rw [h2]; simp only [FloatVal.gt, not_lt]; exact h3 h1
  simp only [if_neg hgt]

/-- C78: so it is at infinite distance, and also where the distance is not a number: such errors are not visible in the result. -/
theorem C78_special {c : ℝ} (hc : 0 < c) :
    smoothCutoffFloat F exp .posInf c = .ok (.num 0) ∧ smoothCutoffFloat F exp .nan c = .ok (.num 0) := by
  unfold smoothCutoffFloat
  rw [if_neg (not_le.2 hc), if_neg (not_le.2 hc)]
  by_cases hc1 : c = 1 <;> simp [hc1, FloatFormat.div, FloatVal.gt, not_lt.2 hc.le]

/-- C78: a cutoff which is not positive is rejected. -/
theorem C78_invalid (x : FloatVal) {c : ℝ} (hc : c ≤ 0) : smoothCutoffFloat F exp x c = .error .valueError := by
  unfold smoothCutoffFloat
  rw [if_pos hc]

/-- The hypotheses for distance 2 and cutoff 5 in float32: the exact value is `exp (1 - 25 / 21)`. -/
example (flush : Bool) : ∃ y, smoothCutoffFloat { float32 with flush := flush }
    (FloatFormat.exp { float32 with flush := flush }) (.num 2) 5 = .ok (.num y) ∧ 0 ≤ y ∧
      |y - Real.exp (1 - 25 / 21)| ≤ 32 / 2 ^ 24 := by
  have hF : FloatFormat.Accurate { float32 with flush := flush } := by
    refine ⟨?_, ?_, ?_⟩ <;> simp [float32]
  have hu : FloatFormat.unit { float32 with flush := flush } = 1 / 2 ^ 24 := by
    norm_num [FloatFormat.unit, float32, zpow_neg, zpow_natCast]
  have h2 : FloatFormat.IsNumber { float32 with flush := flush } 2 := by
    have := isNumber_two_pow hF.proper (e := 1) (by simp [float32]) (by simp [float32])
    simpa using this
  obtain ⟨y, h, h0, e⟩ := C78_smooth_cutoff hF (accurateExp_exp hF) (x := 2) (c := 5) (by norm_num) (by norm_num) h2
  refine ⟨y, h, h0, ?_⟩
  rw [hu] at e
  unfold exactSmoothCutoff at e
  norm_num at e ⊢
  exact e

end E3x
