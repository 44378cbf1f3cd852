import Mathlib.Analysis.Complex.Exponential
import Mathlib.Analysis.SpecialFunctions.Trigonometric.DerivHyp
import Mathlib.Analysis.SpecialFunctions.Trigonometric.Series
import Verif.Model.Activations
import Verif.Props.Dense

/-!
# C13 (second part): the activation functions on scalars

`comp x 0 0 f` is the proper scalar of feature `f`.  Where the code has a Taylor branch for `|x| ≤ eps`, the theorem
gives the exact value outside that branch and an error bound inside it.
-/

namespace E3x

open Spec Real

theorem scalar_gated (g : ℝ → ℝ) (x : Feat) (f : ℕ) :
    comp (gatedLinear g x) 0 0 f = g (comp x 0 0 f) * comp x 0 0 f := C13_gated g x 0 0 f

/-- **C13 (relu).** -/
theorem C13_relu (x : Feat) (f : ℕ) : comp (relu x) 0 0 f = max (comp x 0 0 f) 0 := by
  rw [relu, scalar_gated]
  generalize comp x 0 0 f = s
  unfold reluGate sgn
  rcases lt_trichotomy s 0 with h | h | h
  · rw [if_neg (by linarith), if_pos h, max_eq_right (by norm_num), max_eq_right h.le, zero_mul]
  · simp [h]
  · rw [if_pos h, max_eq_left (by norm_num), max_eq_left h.le, one_mul]

/-- **C13 (leaky_relu).** -/
theorem C13_leaky_relu (slope : ℝ) (x : Feat) (f : ℕ) :
    comp (leakyRelu slope x) 0 0 f =
      if 0 ≤ comp x 0 0 f then comp x 0 0 f else slope * comp x 0 0 f := by
  rw [leakyRelu, scalar_gated]
  unfold leakyReluGate
  split <;> simp

theorem exp_taylor4 (y : ℝ) (hy : |y| ≤ 1) : |exp y - (1 + y + y ^ 2 / 2 + y ^ 3 / 6)| ≤ |y| ^ 4 := by
  have := Real.exp_bound hy (n := 4) (by norm_num)
  simp only [Finset.sum_range_succ, Finset.sum_range_zero, Nat.factorial] at this
  norm_num at this
  have h4 : |y| ^ 4 * (5 / 96) ≤ |y| ^ 4 := by nlinarith [pow_nonneg (abs_nonneg y) 4]
  exact this.trans h4

/-- The documented function of `elu`. -/
noncomputable def eluDoc (alpha s : ℝ) : ℝ := if 0 < s then s else alpha * (exp s - 1)

theorem elu_gate_exact (eps alpha s : ℝ) (heps : 0 ≤ eps) (h : 0 < s ∨ eps < |s|) :
    eluGate eps alpha s * s = eluDoc alpha s := by
  unfold eluGate eluDoc
  by_cases hs : 0 < s
  · simp [hs]
  · have h' : eps < |s| := h.resolve_left hs
    have h0 : s ≠ 0 := by rintro rfl; simp at h'; linarith
    simp only [hs, h', if_false, if_true]
    field_simp

theorem elu_gate_taylor (eps alpha s : ℝ) (h : ¬ (0 < s ∨ eps < |s|)) (h1 : eps ≤ 1) :
    |eluGate eps alpha s * s - eluDoc alpha s| ≤ |alpha| * |s| ^ 4 := by
  push Not at h
  unfold eluGate eluDoc
  simp only [not_lt.2 h.1, not_lt.2 h.2, if_false]
  have := exp_taylor4 s (h.2.trans h1)
  have e : alpha * (s * s / 6 + s / 2 + 1) * s - alpha * (exp s - 1) =
      -(alpha * (exp s - (1 + s + s ^ 2 / 2 + s ^ 3 / 6))) := by ring
  rw [e, abs_neg, abs_mul]
  exact mul_le_mul_of_nonneg_left this (abs_nonneg _)

/-- **C13 (elu).** -/
theorem C13_elu (eps alpha : ℝ) (heps : 0 ≤ eps) (h1 : eps ≤ 1) (x : Feat) (f : ℕ) :
    (0 < comp x 0 0 f ∨ eps < |comp x 0 0 f| → comp (elu eps alpha x) 0 0 f =
      if 0 < comp x 0 0 f then comp x 0 0 f else alpha * (exp (comp x 0 0 f) - 1)) ∧
    |comp (elu eps alpha x) 0 0 f -
      (if 0 < comp x 0 0 f then comp x 0 0 f else alpha * (exp (comp x 0 0 f) - 1))| ≤ |alpha| * eps ^ 4 := by
  rw [elu, scalar_gated]
  refine ⟨elu_gate_exact eps alpha _ heps, ?_⟩
  by_cases h : 0 < comp x 0 0 f ∨ eps < |comp x 0 0 f|
  · have := elu_gate_exact eps alpha _ heps h
    unfold eluDoc at this
    rw [this, sub_self, abs_zero]; positivity
  · refine (elu_gate_taylor eps alpha _ h h1).trans ?_
    push Not at h
    gcongr
    exact h.2

/-- **C13 (selu).** -/
theorem C13_selu (eps : ℝ) (heps : 0 ≤ eps) (x : Feat) (f : ℕ)
    (h : 0 < comp x 0 0 f ∨ eps < |comp x 0 0 f|) :
    comp (selu eps x) 0 0 f = 1.0507009873554804934193349852946 *
      if 0 < comp x 0 0 f then comp x 0 0 f
      else 1.6732632423543772848170429916717 * (exp (comp x 0 0 f) - 1) := by
  have e : comp (selu eps x) 0 0 f =
      1.0507009873554804934193349852946 * comp (elu eps 1.6732632423543772848170429916717 x) 0 0 f := by
    unfold comp selu elu gatedLinear
    simp only
    split
    · simp
    · split
      · rfl
      · split <;> simp
  rw [e, elu, scalar_gated, elu_gate_exact eps _ _ heps h, eluDoc]

/-- **C13 (celu).** -/
theorem C13_celu (eps alpha : ℝ) (heps : 0 ≤ eps) (ha : 0 < alpha) (h1 : eps ≤ alpha) (x : Feat) (f : ℕ) :
    (0 < comp x 0 0 f ∨ eps < |comp x 0 0 f| → comp (celu eps alpha x) 0 0 f =
      if 0 < comp x 0 0 f then comp x 0 0 f else alpha * (exp (comp x 0 0 f / alpha) - 1)) ∧
    |comp (celu eps alpha x) 0 0 f -
      (if 0 < comp x 0 0 f then comp x 0 0 f else alpha * (exp (comp x 0 0 f / alpha) - 1))| ≤
        alpha * (eps / alpha) ^ 4 := by
  rw [celu, scalar_gated]
  generalize comp x 0 0 f = s
  have ex : (0 < s ∨ eps < |s| → celuGate eps alpha s * s =
      if 0 < s then s else alpha * (exp (s / alpha) - 1)) := by
    intro h
    unfold celuGate
    by_cases hs : 0 < s
    · simp [hs]
    · have h' : eps < |s| := h.resolve_left hs
      have h0 : s ≠ 0 := by rintro rfl; simp at h'; linarith
      simp only [hs, h', if_false, if_true]
      field_simp
  refine ⟨ex, ?_⟩
  by_cases h : 0 < s ∨ eps < |s|
  · rw [ex h, sub_self, abs_zero]; positivity
  · push Not at h
    unfold celuGate
    simp only [not_lt.2 h.1, not_lt.2 h.2, if_false]
    have hsa : |s / alpha| ≤ eps / alpha := by
      rw [abs_div, abs_of_pos ha]; gcongr; exact h.2
    have hle : eps / alpha ≤ 1 := by rw [div_le_one ha]; exact h1
    have := exp_taylor4 (s / alpha) (hsa.trans hle)
    have e : (s * s / (6 * alpha * alpha) + s / (2 * alpha) + 1) * s - alpha * (exp (s / alpha) - 1) =
        -(alpha * (exp (s / alpha) - (1 + s / alpha + (s / alpha) ^ 2 / 2 + (s / alpha) ^ 3 / 6))) := by
      field_simp
      ring
    rw [e, abs_neg, abs_mul, abs_of_pos ha]
    refine mul_le_mul_of_nonneg_left (this.trans ?_) ha.le
    gcongr

/-- **C13 (silu).** -/
theorem C13_silu (x : Feat) (f : ℕ) : comp (silu x) 0 0 f = comp x 0 0 f / (1 + exp (-comp x 0 0 f)) := by
  rw [silu, scalar_gated, siluGate]; ring

/-- **C13 (gelu).** -/
theorem C13_gelu (x : Feat) (f : ℕ) :
    comp (gelu false x) 0 0 f = comp x 0 0 f / 2 *
      (1 + 2 / √π * ∫ t in (0 : ℝ)..(comp x 0 0 f / √2), exp (-t ^ 2)) ∧
    comp (gelu true x) 0 0 f = comp x 0 0 f / 2 *
      (1 + tanh (√(2 / π) * (comp x 0 0 f + 0.044715 * comp x 0 0 f ^ 3))) := by
  constructor
  · rw [gelu, scalar_gated]
    simp only [geluGate, Bool.false_eq_true, if_false, erf]
    ring
  · rw [gelu, scalar_gated]
    simp only [geluGate, if_true]
    rw [show (1.0 : ℝ) = 1 by norm_num, show (0.5 : ℝ) = 1 / 2 by norm_num]
    generalize tanh _ = t
    ring

theorem mish_gates_agree (s : ℝ) : mishGate true s = mishGate false s := by
  simp only [mishGate, if_true, Bool.false_eq_true, if_false, softplus, logaddexp, exp_zero]
  have hy : exp (-s) * exp s = 1 := by rw [← exp_add]; simp
  have hpos : 0 < exp s + 1 := by positivity
  rw [tanh_eq_sinh_div_cosh, sinh_eq, cosh_eq, exp_neg (log _), exp_log hpos]
  have hs := exp_pos s
  rw [exp_neg]
  field_simp
  ring

/-- **C13 (mish).** Both formulations are `x · tanh(softplus x)`. -/
theorem C13_mish (fast : Bool) (x : Feat) (f : ℕ) :
    comp (mish fast x) 0 0 f = comp x 0 0 f * tanh (log (1 + exp (comp x 0 0 f))) := by
  rw [mish, scalar_gated]
  have : mishGate fast (comp x 0 0 f) = mishGate false (comp x 0 0 f) := by
    cases fast
    · rfl
    · exact mish_gates_agree _
  rw [this]
  simp only [mishGate, Bool.false_eq_true, if_false, softplus, logaddexp, exp_zero]
  rw [add_comm, mul_comm]

/-- **C13 (serf).** -/
theorem C13_serf (x : Feat) (f : ℕ) :
    comp (serf x) 0 0 f = comp x 0 0 f *
      (2 / √π * ∫ t in (0 : ℝ)..log (1 + exp (comp x 0 0 f)), exp (-t ^ 2)) := by
  rw [serf, scalar_gated]
  simp only [serfGate, erf, softplus, logaddexp, exp_zero]
  rw [add_comm (exp _) 1, mul_comm]

/-- **C13 (shifted_softplus).** -/
theorem C13_shifted_softplus (eps : ℝ) (heps : 0 ≤ eps) (x : Feat) (f : ℕ) :
    (eps < |comp x 0 0 f| →
      comp (shiftedSoftplus eps x) 0 0 f = log (1 / 2 * (1 + exp (comp x 0 0 f)))) ∧
    |comp (shiftedSoftplus eps x) 0 0 f - log (1 / 2 * (1 + exp (comp x 0 0 f)))| ≤ eps ^ 2 / 8 := by
  rw [shiftedSoftplus, scalar_gated]
  generalize comp x 0 0 f = s
  have ex : eps < |s| → shiftedSoftplusGate eps s * s = log (1 / 2 * (1 + exp s)) := by
    intro h
    have h0 : s ≠ 0 := by rintro rfl; simp at h; linarith
    unfold shiftedSoftplusGate logaddexp
    simp only [h, if_true, exp_zero]
    rw [log_mul (by norm_num) (by positivity), one_div, log_inv, add_comm (exp s)]
    field_simp
    ring
  refine ⟨ex, ?_⟩
  by_cases h : eps < |s|
  · rw [ex h, sub_self, abs_zero]; positivity
  · have h' := not_lt.1 h
    unfold shiftedSoftplusGate
    simp only [h, if_false]
    have e : 1 / 2 * (1 + exp s) = exp (s / 2) * cosh (s / 2) := by
      rw [cosh_eq]
      have h2 : exp (s / 2) * exp (s / 2) = exp s := by rw [← exp_add]; congr 1; ring
      have h3 : exp (s / 2) * exp (-(s / 2)) = 1 := by rw [← exp_add]; simp
      linear_combination (-1 / 2) * h2 + (-1 / 2) * h3
    have hc : 1 ≤ cosh (s / 2) := one_le_cosh _
    rw [e, log_mul (exp_pos _).ne' (by positivity), log_exp]
    have hu : log (cosh (s / 2)) ≤ s ^ 2 / 8 := by
      have := Real.cosh_le_exp_half_sq (s / 2)
      calc log (cosh (s / 2)) ≤ log (exp ((s / 2) ^ 2 / 2)) := log_le_log (by positivity) this
        _ = s ^ 2 / 8 := by rw [log_exp]; ring
    have hl : 0 ≤ log (cosh (s / 2)) := log_nonneg hc
    have hs2 : s ^ 2 ≤ eps ^ 2 := by
      rw [← sq_abs s]; exact pow_le_pow_left₀ (abs_nonneg _) h' 2
    rw [abs_le]
    constructor <;> nlinarith

/-- **C13 (hard_tanh).** -/
theorem C13_hard_tanh (x : Feat) (f : ℕ) :
    comp (hardTanh x) 0 0 f =
      if comp x 0 0 f < -1 then -1 else if comp x 0 0 f ≤ 1 then comp x 0 0 f else 1 := by
  rw [hardTanh, scalar_gated]
  generalize comp x 0 0 f = s
  unfold hardTanhGate
  rcases lt_or_ge 1 s with h | h
  · have : (0.1 : ℝ) < |s| := by rw [abs_of_pos (by linarith)]; linarith
    have h0 : s ≠ 0 := by linarith
    simp only [h, this, if_true, show ¬ s < -1 by linarith, show ¬ s ≤ 1 by linarith, if_false]
    field_simp
  · rcases lt_or_ge s (-1) with h' | h'
    · have : (0.1 : ℝ) < |s| := by rw [abs_of_neg (by linarith)]; linarith
      have h0 : s ≠ 0 := by linarith
      simp only [h', this, if_true, not_lt.2 h, if_false]
      field_simp
    · simp [not_lt.2 h, not_lt.2 h', h]

/-- **C13 (soft_sign).** -/
theorem C13_soft_sign (x : Feat) (f : ℕ) : comp (softSign x) 0 0 f = comp x 0 0 f / (|comp x 0 0 f| + 1) := by
  rw [softSign, scalar_gated, softSignGate]; ring

/-- **C13 (relu6).** -/
theorem C13_relu6 (x : Feat) (f : ℕ) : comp (relu6 x) 0 0 f = min (max (comp x 0 0 f) 0) 6 := by
  rw [relu6, scalar_gated]
  generalize comp x 0 0 f = s
  unfold relu6Gate sgn
  rcases lt_trichotomy s 0 with h | h | h
  · have : ¬ 1 < s := by linarith
    simp only [this, if_false, not_lt.2 h.le, h, if_true]
    rw [max_eq_right (by norm_num), max_eq_right h.le, min_eq_left (by norm_num), min_eq_left (by norm_num), zero_mul]
  · simp [h]
  · rw [if_pos h, max_eq_left h.le, max_eq_left (by norm_num : (0 : ℝ) ≤ 1)]
    by_cases h1 : 1 < s
    · simp only [h1, if_true]
      rcases le_total s 6 with h6 | h6
      · rw [min_eq_left h6, min_eq_left, one_mul]
        rw [le_div_iff₀ h]; linarith
      · rw [min_eq_right h6, min_eq_right]
        · field_simp; norm_num
        · rw [div_le_iff₀ h]; linarith
    · simp only [h1, if_false]
      rw [min_eq_left (by norm_num), min_eq_left (by linarith), one_mul]

/-- **C13 (hard_silu).** `x · hard_sigmoid(x)` with `hard_sigmoid(x) = clip(x / 6 + 1 / 2, 0, 1)`. -/
theorem C13_hard_silu (x : Feat) (f : ℕ) :
    comp (hardSilu x) 0 0 f = comp x 0 0 f * min (max (comp x 0 0 f / 6 + 1 / 2) 0) 1 := by
  rw [hardSilu, scalar_gated, hardSigmoid, mul_comm]
  generalize comp x 0 0 f = s
  congr 1
  rcases le_total (s + 3) 0 with h | h
  · rw [max_eq_right h, max_eq_right (by linarith), min_eq_left (by norm_num), min_eq_left (by norm_num), zero_div]
  · rw [max_eq_left h, max_eq_left (by linarith)]
    rcases le_total (s + 3) 6 with h6 | h6
    · rw [min_eq_left h6, min_eq_left (by linarith)]; ring
    · rw [min_eq_right h6, min_eq_right (by linarith)]; norm_num

/-- **C13 (bent_identity).** -/
theorem C13_bent_identity (eps : ℝ) (heps : 0 ≤ eps) (x : Feat) (f : ℕ) :
    (eps < |comp x 0 0 f| →
      comp (bentIdentity eps x) 0 0 f = (√(comp x 0 0 f ^ 2 + 1) - 1) / 2 + comp x 0 0 f) ∧
    |comp (bentIdentity eps x) 0 0 f - ((√(comp x 0 0 f ^ 2 + 1) - 1) / 2 + comp x 0 0 f)| ≤ eps ^ 2 / 4 := by
  rw [bentIdentity, scalar_gated]
  generalize comp x 0 0 f = s
  have ex : eps < |s| → bentIdentityGate eps s * s = (√(s ^ 2 + 1) - 1) / 2 + s := by
    intro h
    have h0 : s ≠ 0 := by rintro rfl; simp at h; linarith
    unfold bentIdentityGate
    simp only [h, if_true]
    rw [← sq]
    field_simp
  refine ⟨ex, ?_⟩
  by_cases h : eps < |s|
  · rw [ex h, sub_self, abs_zero]; positivity
  · have h' := not_lt.1 h
    unfold bentIdentityGate
    simp only [h, if_false]
    have hs2 : s ^ 2 ≤ eps ^ 2 := by
      rw [← sq_abs s]; exact pow_le_pow_left₀ (abs_nonneg _) h' 2
    have hl : 1 ≤ √(s ^ 2 + 1) := by rw [Real.one_le_sqrt]; nlinarith [sq_nonneg s]
    have hu : √(s ^ 2 + 1) ≤ 1 + s ^ 2 / 2 := by
      rw [Real.sqrt_le_left (by positivity)]; nlinarith [sq_nonneg (s ^ 2)]
    rw [abs_le]
    constructor <;> nlinarith

-- Non-vacuity: float32's machine epsilon satisfies the hypotheses on `eps`, and both branches are reachable.
example : (0 : ℝ) ≤ 2 ^ (-23 : ℤ) ∧ (2 : ℝ) ^ (-23 : ℤ) ≤ 1 ∧ (2 : ℝ) ^ (-23 : ℤ) < |(-1 : ℝ)| := by
  norm_num

end E3x
