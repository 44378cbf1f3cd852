import Mathlib.Analysis.SpecialFunctions.ExpDeriv
import Mathlib.Algebra.BigOperators.Group.Finset.Basic
import Mathlib.Algebra.BigOperators.Intervals
import Mathlib.Algebra.Order.Floor.Semiring
import Mathlib.Algebra.Order.BigOperators.Group.Finset
import Verif.Model.Functions

/-!
# C44: switch and window functions
-/

namespace E3x

open Real Set

/-! ## smooth_switch -/

theorem switchRescale_eq (x x0 x1 : ℝ) : switchRescale x x0 x1 = (x - x0) / (x1 - x0) := by
  unfold switchRescale
  split_ifs with h
  · rfl
  · push Not at h
    rw [h.1, h.2]; simp

theorem switchSlope_pos : 0 < switchSlope := by
  unfold switchSlope; positivity

theorem switchValue_mid {eps x : ℝ} (h0 : eps ≤ x) (h1 : x ≤ 1 - eps) :
    switchValue eps x = 1 / (1 + exp (√3 / 2 * (1 / x - 1 / (1 - x)))) := by
  simp [switchValue, not_lt.mpr h0, not_lt.mpr h1, switchExp, switchSlope]

theorem switchValue_mem (eps x : ℝ) : 0 ≤ switchValue eps x ∧ switchValue eps x ≤ 1 := by
  unfold switchValue
  dsimp only
  split_ifs <;> (try norm_num)
  all_goals
    unfold switchExp
    refine ⟨by positivity, inv_le_one_of_one_le₀ ?_⟩
    exact le_add_of_nonneg_right (exp_pos _).le

theorem switchValue_mono {eps : ℝ} (h0 : 0 < eps) (h1 : eps < 1 / 2) : Monotone (switchValue eps) := by
  intro x y hxy
  by_cases hx : x < eps
  · have : switchValue eps x = 0 := by simp [switchValue, hx]
    rw [this]; exact (switchValue_mem eps y).1
  by_cases hy : 1 - eps < y
  · have hy' : ¬ y < eps := by linarith
    have : switchValue eps y = 1 := by simp [switchValue, hy, hy']
    rw [this]; exact (switchValue_mem eps x).2
  push Not at hx hy
  rw [switchValue_mid hx (hxy.trans hy), switchValue_mid (hx.trans hxy) hy]
  have h3 : (0 : ℝ) < √3 / 2 := by positivity
  have hyx : 1 / y - 1 / (1 - y) ≤ 1 / x - 1 / (1 - x) := by
    have a1 : 1 / y ≤ 1 / x := one_div_le_one_div_of_le (by linarith) hxy
    have a2 : 1 / (1 - x) ≤ 1 / (1 - y) := one_div_le_one_div_of_le (by linarith) (by linarith)
    linarith
  apply one_div_le_one_div_of_le
  · positivity
  · have := exp_le_exp.mpr (mul_le_mul_of_nonneg_left hyx h3.le)
    linarith

theorem switchValue_symm {eps : ℝ} (h1 : eps < 1 / 2) (x : ℝ) :
    switchValue eps x + switchValue eps (1 - x) = 1 := by
  by_cases hx : x < eps
  · have a1 : ¬ (1 - x < eps) := by linarith
    have a2 : 1 - eps < 1 - x := by linarith
    simp [switchValue, hx, a1, a2]
  by_cases hx2 : 1 - eps < x
  · have a1 : 1 - x < eps := by linarith
    simp [switchValue, hx, hx2, a1]
  push Not at hx hx2
  rw [switchValue_mid hx hx2, switchValue_mid (by linarith) (by linarith), sub_sub_cancel]
  set a := √3 / 2 * (1 / x - 1 / (1 - x)) with ha
  have : √3 / 2 * (1 / (1 - x) - 1 / x) = -a := by rw [ha]; ring
  rw [this, exp_neg]
  have hp := exp_pos a
  field_simp
  ring

theorem switchValue_low {eps x : ℝ} (h0 : 0 < eps) (hx : x ≤ 0) : switchValue eps x = 0 := by
  simp [switchValue, show x < eps by linarith]

theorem switchValue_high {eps x : ℝ} (h0 : 0 < eps) (h1 : eps < 1 / 2) (hx : 1 ≤ x) : switchValue eps x = 1 := by
  simp [switchValue, show ¬ x < eps by linarith, show 1 - eps < x by linarith]

/-- **C44.** For `x0 < x1`, `smooth_switch` returns a value for every input; the function it computes is 0 up to `x0`,
1 from `x1` on, takes values in `[0, 1]`, is monotone, is point-symmetric about the midpoint, and has the documented
closed form (with the sign of the second fraction corrected: the documentation writes `x - x1` for `x1 - x`) except on
the two slivers of relative width `eps` next to the boundaries. -/
theorem C44_smooth_switch (eps x0 x1 : ℝ) (h0 : 0 < eps) (h1 : eps < 1 / 2) (h : x0 < x1) :
    ∃ f : ℝ → ℝ, (∀ x, smoothSwitch eps x x0 x1 = .ok (f x)) ∧
      (∀ x, x ≤ x0 → f x = 0) ∧ (∀ x, x1 ≤ x → f x = 1) ∧ (∀ x, 0 ≤ f x ∧ f x ≤ 1) ∧ Monotone f ∧
      (∀ t, f (x0 + t) + f (x1 - t) = 1) ∧
      (∀ x, x0 + eps * (x1 - x0) ≤ x → x ≤ x1 - eps * (x1 - x0) →
        f x = (1 + exp (√3 / 2 * ((x1 - x0) / (x - x0) - (x1 - x0) / (x1 - x))))⁻¹) := by
  have hd : 0 < x1 - x0 := by linarith
  refine ⟨fun x => switchValue eps ((x - x0) / (x1 - x0)), ?_, ?_, ?_, ?_, ?_, ?_, ?_⟩
  · intro x
    unfold smoothSwitch
    rw [if_neg (not_le.mpr h), switchRescale_eq]
  · intro x hx
    exact switchValue_low h0 (div_nonpos_of_nonpos_of_nonneg (by linarith) hd.le)
  · intro x hx
    exact switchValue_high h0 h1 (by rw [le_div_iff₀ hd]; linarith)
  · intro x; exact switchValue_mem _ _
  · intro x y hxy
    exact switchValue_mono h0 h1 (div_le_div_of_nonneg_right (by linarith) hd.le)
  · intro t
    dsimp only
    have e1 : (x1 - t - x0) / (x1 - x0) = 1 - (x0 + t - x0) / (x1 - x0) := by field_simp; ring
    rw [e1]
    exact switchValue_symm h1 _
  · intro x hx hx'
    dsimp only
    have a1 : eps ≤ (x - x0) / (x1 - x0) := by rw [le_div_iff₀ hd]; linarith
    have a2 : (x - x0) / (x1 - x0) ≤ 1 - eps := by rw [div_le_iff₀ hd]; linarith
    rw [switchValue_mid a1 a2, one_div, one_div_div]
    have e1 : 1 - (x - x0) / (x1 - x0) = (x1 - x) / (x1 - x0) := by field_simp; ring
    rw [e1, one_div_div]

/-- **C44.** The slivers: for every input the computed value differs from the exact (infinitely differentiable) switch
function of the documentation by at most `exp(-(√3/2)(1/eps - 1/(1-eps)))`. -/
theorem C44_smooth_switch_error (eps x : ℝ) (h0 : 0 < eps) (h1 : eps < 1 / 2) :
    |switchValue eps x - (if x ≤ 0 then 0 else if 1 ≤ x then 1 else (1 + exp (√3 / 2 * (1 / x - 1 / (1 - x))))⁻¹)| ≤
      exp (-(√3 / 2 * (1 / eps - 1 / (1 - eps)))) := by
  have h3 : (0 : ℝ) < √3 / 2 := by positivity
  have key : ∀ y : ℝ, 0 < y → y < eps → |0 - (1 + exp (√3 / 2 * (1 / y - 1 / (1 - y))))⁻¹| ≤
      exp (-(√3 / 2 * (1 / eps - 1 / (1 - eps)))) := by
    intro y hy hye
    rw [zero_sub, abs_neg, abs_of_pos (by positivity), exp_neg]
    apply inv_anti₀ (exp_pos _)
    have a1 : 1 / eps ≤ 1 / y := one_div_le_one_div_of_le hy hye.le
    have a2 : 1 / (1 - y) ≤ 1 / (1 - eps) := one_div_le_one_div_of_le (by linarith) (by linarith)
    have a3 := exp_le_exp.mpr (mul_le_mul_of_nonneg_left
      (show 1 / eps - 1 / (1 - eps) ≤ 1 / y - 1 / (1 - y) by linarith) h3.le)
    linarith
  by_cases hx0 : x ≤ 0
  · rw [if_pos hx0, switchValue_low h0 hx0]; simp [exp_nonneg]
  rw [if_neg hx0]
  by_cases hx1 : 1 ≤ x
  · rw [if_pos hx1, switchValue_high h0 h1 hx1]; simp [exp_nonneg]
  rw [if_neg hx1]
  push Not at hx0 hx1
  by_cases hs : x < eps
  · have : switchValue eps x = 0 := by simp [switchValue, hs]
    rw [this]; exact key x hx0 hs
  by_cases hl : 1 - eps < x
  · have : switchValue eps x = 1 := by simp [switchValue, hs, hl]
    rw [this]
    have hk := key (1 - x) (by linarith) (by linarith)
    rw [sub_sub_cancel] at hk
    have e : 1 - (1 + exp (√3 / 2 * (1 / x - 1 / (1 - x))))⁻¹ =
        -(0 - (1 + exp (√3 / 2 * (1 / (1 - x) - 1 / x)))⁻¹) := by
      set a := √3 / 2 * (1 / x - 1 / (1 - x)) with ha
      have : √3 / 2 * (1 / (1 - x) - 1 / x) = -a := by rw [ha]; ring
      rw [this, exp_neg]
      have hp := exp_pos a
      field_simp
      ring
    rw [e, abs_neg]; exact hk
  push Not at hs hl
  rw [switchValue_mid hs hl, one_div]
  simp [exp_nonneg]

/-- **C44.** The hand-written derivative of `smooth_switch` is the derivative of the function it computes (times the
incoming tangent), at every input off the two thresholds. -/
theorem C44_smooth_switch_jvp (eps x0 x1 x xDot : ℝ) (h0 : 0 < eps) (h1 : eps < 1 / 2) (h : x0 < x1)
    (hx0 : x ≠ x0 + eps * (x1 - x0)) (hx1 : x ≠ x1 - eps * (x1 - x0)) (f : ℝ → ℝ)
    (hf : ∀ x, smoothSwitch eps x x0 x1 = .ok (f x)) :
    ∃ f', HasDerivAt f f' x ∧ smoothSwitchTangent eps x x0 x1 xDot = f' * xDot := by
  have hd : 0 < x1 - x0 := by linarith
  have hfe : f = fun x => switchValue eps ((x - x0) / (x1 - x0)) := by
    funext y
    have := hf y
    unfold smoothSwitch at this
    rw [if_neg (not_le.mpr h), switchRescale_eq] at this
    exact (Except.ok.inj this).symm
  have hxd : (if x0 ≠ 0 ∨ x1 ≠ 1 then xDot / (x1 - x0) else xDot) = xDot / (x1 - x0) := by
    split_ifs with hh
    · rfl
    · push Not at hh; rw [hh.1, hh.2]; simp
  have hlin : HasDerivAt (fun x : ℝ => (x - x0) / (x1 - x0)) (1 / (x1 - x0)) x :=
    ((hasDerivAt_id x).sub_const x0).div_const _
  set u := (x - x0) / (x1 - x0) with hu
  have hune0 : u ≠ eps := by
    intro hh; apply hx0; rw [hu, div_eq_iff hd.ne'] at hh; linarith
  have hune1 : u ≠ 1 - eps := by
    intro hh; apply hx1; rw [hu, div_eq_iff hd.ne'] at hh; linarith
  have hmain : ∃ g', HasDerivAt (switchValue eps) g' u ∧
      smoothSwitchTangent eps x x0 x1 xDot = g' * (xDot / (x1 - x0)) := by
    rcases lt_or_gt_of_ne hune0 with hlt | hgt
    · refine ⟨0, ?_, ?_⟩
      · have hev : switchValue eps =ᶠ[nhds u] fun _ => 0 := by
          filter_upwards [Iio_mem_nhds hlt] with y hy
          simp [switchValue, show y < eps from hy]
        exact (hasDerivAt_const u (0 : ℝ)).congr_of_eventuallyEq hev
      · simp only [smoothSwitchTangent, switchRescale_eq, ← hu, hlt, true_or, if_true, zero_mul]
    rcases lt_or_gt_of_ne hune1 with hlt1 | hgt1
    · refine ⟨switchSlope * (1 / u ^ 2 + 1 / (1 - u) ^ 2) * switchExp u * (1 / (1 + switchExp u)) ^ 2, ?_, ?_⟩
      · have hev : switchValue eps =ᶠ[nhds u] fun y => 1 / (1 + exp (switchSlope * (1 / y - 1 / (1 - y)))) := by
          filter_upwards [Ioo_mem_nhds hgt hlt1] with y hy
          rw [switchValue_mid (le_of_lt hy.1) (le_of_lt hy.2)]; rfl
        refine HasDerivAt.congr_of_eventuallyEq ?_ hev
        have hu0 : u ≠ 0 := by linarith
        have hu1 : 1 - u ≠ 0 := by linarith
        have d1 : HasDerivAt (fun y : ℝ => 1 / y) (-1 / u ^ 2) u := by
          have := (hasDerivAt_id u).fun_inv hu0
          simpa [one_div] using this
        have d2 : HasDerivAt (fun y : ℝ => 1 / (1 - y)) (1 / (1 - u) ^ 2) u := by
          have := ((hasDerivAt_id u).const_sub 1).fun_inv hu1
          simpa [one_div] using this
        have d3 := ((d1.sub d2).const_mul switchSlope).exp.const_add 1
        have hpos : 1 + exp (switchSlope * (1 / u - 1 / (1 - u))) ≠ 0 := by positivity
        have d4 := d3.fun_inv hpos
        simp only [one_div] at d4 ⊢
        refine d4.congr_deriv ?_
        simp only [switchExp, one_div, Pi.sub_apply]
        field_simp
        ring
      · have n1 : ¬ u < eps := by linarith
        have n2 : ¬ 1 - eps < u := by linarith
        have e1 : 0 < switchExp u := exp_pos _
        have n3 : ¬ (1 / (1 + switchExp u) * (1 / (1 + switchExp u)) = 0 ∨ switchExp u = 0) := by
          push Not
          exact ⟨by positivity, e1.ne'⟩
        simp only [smoothSwitchTangent, switchRescale_eq, ← hu, n1, n2, or_false, if_false, n3, hxd]
        ring
    · refine ⟨0, ?_, ?_⟩
      · have hev : switchValue eps =ᶠ[nhds u] fun _ => 1 := by
          filter_upwards [Ioi_mem_nhds hgt1] with y hy
          have hy' : 1 - eps < y := hy
          simp [switchValue, hy', show ¬ y < eps by linarith]
        exact (hasDerivAt_const u (1 : ℝ)).congr_of_eventuallyEq hev
      · have hg : 1 - eps < u := hgt1
        simp only [smoothSwitchTangent, switchRescale_eq, ← hu, hg, or_true, true_or, if_true, zero_mul]
  obtain ⟨g', hg', htan⟩ := hmain
  refine ⟨g' * (1 / (x1 - x0)), ?_, ?_⟩
  · rw [hfe]
    exact HasDerivAt.comp x (h₂ := switchValue eps) hg' hlin
  · rw [htan]; ring

/-- **C44.** `smooth_switch` raises ValueError exactly when `x0 ≥ x1`. -/
theorem C44_smooth_switch_raises (eps x x0 x1 : ℝ) :
    ((∃ e, smoothSwitch eps x x0 x1 = .error e) ↔ x1 ≤ x0) ∧
    (x1 ≤ x0 → smoothSwitch eps x x0 x1 = .error .valueError) := by
  unfold smoothSwitch
  by_cases h : x1 ≤ x0 <;> simp [h]

example : smoothSwitch (1 / 4) 1 0 2 = .ok (1 / 2) := by
  have h := C44_smooth_switch (1 / 4) 0 2 (by norm_num) (by norm_num) (by norm_num)
  obtain ⟨f, hf, _, _, _, _, hs, _⟩ := h
  have := hs 1
  norm_num at this
  rw [hf 1]; congr 1; linarith

/-! ## Windows -/

/-- Functions `0..num-1` forming a non-negative partition of unity at a point. -/
def Spec.PartitionOfUnity (num : ℕ) (w : ℕ → ℝ) : Prop :=
  (∀ k, k < num → 0 ≤ w k) ∧ ∑ k ∈ Finset.range num, w k = 1

theorem sum_switch_telescope (s : ℝ → ℝ) (t : ℝ) (n : ℕ) :
    ∑ k ∈ Finset.range n, (s (t - k + 1) - s (t - k)) = s (t + 1) - s (t + 1 - n) := by
  have h : ∀ k : ℕ, s (t - k + 1) - s (t - k) = s (t + 1 - (k : ℝ)) - s (t + 1 - ((k + 1 : ℕ) : ℝ)) := by
    intro k
    congr 2
    · ring
    · push_cast; ring
  rw [Finset.sum_congr rfl fun k _ => h k]
  have := Finset.sum_range_sub' (fun k : ℕ => s (t + 1 - (k : ℝ))) n
  rw [this]; simp

/-- The interval of the property is non-empty for every `num ≥ 1`; `limit·(num-1)/num` is the centre of the last
window. -/
theorem C44_smooth_window (eps x limit : ℝ) (num : ℕ) (h0 : 0 < eps) (h1 : eps < 1 / 2) (hl : 0 < limit)
    (hn : 0 < num) (hx : 0 ≤ x) (hx' : x ≤ limit * (num - 1) / num) :
    Spec.PartitionOfUnity num (smoothWindow eps x num limit) := by
  have hnp : (0 : ℝ) < num := by exact_mod_cast hn
  have hw : ∀ k : ℕ, smoothWindow eps x num limit k =
      switchValue eps (num / limit * x - k + 1) - switchValue eps (num / limit * x - k) := by
    intro k
    have : (num : ℝ) / limit * (x - k * limit / num) = num / limit * x - k := by field_simp
    simp only [smoothWindow, linspace0, switchRescale_eq, sub_zero, div_one, this]
  refine ⟨fun k _ => ?_, ?_⟩
  · rw [hw, sub_nonneg]
    exact switchValue_mono h0 h1 (by linarith)
  · rw [Finset.sum_congr rfl fun k _ => hw k, sum_switch_telescope,
      switchValue_high h0 h1 (by have : 0 ≤ (num : ℝ) / limit * x := by positivity
                                 linarith), switchValue_low h0, sub_zero]
    rw [le_div_iff₀ hnp] at hx'
    have : (num : ℝ) / limit * x ≤ num - 1 := by
      rw [div_mul_eq_mul_div, div_le_iff₀ hl]; nlinarith
    linarith

theorem tri_eq (s : ℝ) : max (min (s + 1) (1 - s)) 0 = max (min (s + 1) 1) 0 - max (min s 1) 0 := by
  rcases le_or_gt s (-1) with h | h
  · rw [min_eq_left (by linarith), max_eq_right (by linarith), min_eq_left (by linarith), max_eq_right (by linarith),
      min_eq_left (by linarith), max_eq_right (by linarith)]; ring
  rcases le_or_gt s 0 with h2 | h2
  · rw [min_eq_left (by linarith), max_eq_left (by linarith), min_eq_left (by linarith), max_eq_left (by linarith),
      min_eq_left (by linarith), max_eq_right (by linarith)]; ring
  rcases le_or_gt s 1 with h3 | h3
  · rw [min_eq_right (by linarith), max_eq_left (by linarith), min_eq_right (by linarith), max_eq_left (by linarith),
      min_eq_left (by linarith), max_eq_left (by linarith)]
  · rw [min_eq_right (by linarith), max_eq_right (by linarith), min_eq_right (by linarith), max_eq_left (by linarith),
      min_eq_right (by linarith), max_eq_left (by linarith)]; ring

theorem triangularWindow_eq (x limit : ℝ) (num : ℕ) (hl : 0 < limit) (hn : 0 < num) (k : ℕ) :
    triangularWindow x num limit k = max (min (num / limit * x - k + 1) (1 - (num / limit * x - k))) 0 := by
  have hnp : (0 : ℝ) < num := by exact_mod_cast hn
  simp only [triangularWindow, linspace0]
  congr 2
  · field_simp; ring
  · field_simp; ring

/-- **C44.** Triangular windows form a partition of unity up to the centre of the last window. -/
theorem C44_triangular_window (x limit : ℝ) (num : ℕ) (hl : 0 < limit) (hn : 0 < num) (hx : 0 ≤ x)
    (hx' : x ≤ limit * (num - 1) / num) : Spec.PartitionOfUnity num (triangularWindow x num limit) := by
  have hnp : (0 : ℝ) < num := by exact_mod_cast hn
  refine ⟨fun k _ => le_max_right _ _, ?_⟩
  rw [Finset.sum_congr rfl fun k _ => by rw [triangularWindow_eq x limit num hl hn k, tri_eq],
    sum_switch_telescope (fun s => max (min s 1) 0)]
  rw [le_div_iff₀ hnp] at hx'
  have a1 : (num : ℝ) / limit * x ≤ num - 1 := by
    rw [div_mul_eq_mul_div, div_le_iff₀ hl]; nlinarith
  have a2 : 0 ≤ (num : ℝ) / limit * x := by positivity
  rw [min_eq_right (by linarith), max_eq_left (by norm_num), min_eq_left (by linarith), max_eq_right (by linarith)]
  ring

/-- **C44.** Window `k` of the triangular windows is the tent function with centre `k·limit/num`, height one and half
width `limit/num`. (The formula in the documentation, `max(min(Kx/l - k - 1, Kx/l + k + 1), 0)`, is not this
function.) -/
theorem C44_triangular_window_shape (x limit : ℝ) (num : ℕ) (hl : 0 < limit) (hn : 0 < num) (k : ℕ) :
    triangularWindow x num limit k = max (1 - |x - k * limit / num| / (limit / num)) 0 := by
  have hnp : (0 : ℝ) < num := by exact_mod_cast hn
  rw [triangularWindow_eq x limit num hl hn k]
  have : |x - k * limit / num| / (limit / num) = |num / limit * x - k| := by
    have h1 : (num : ℝ) / limit * x - k = (x - k * limit / num) / (limit / num) := by field_simp
    rw [h1, abs_div, abs_of_pos (show 0 < limit / num by positivity)]
  rw [this]
  congr 1
  set s := (num : ℝ) / limit * x - k
  rcases le_total 0 s with h | h
  · rw [abs_of_nonneg h, min_eq_right (by linarith)]
  · rw [abs_of_nonpos h, min_eq_left (by linarith)]; ring

/-- **C44.** Rectangular windows: window `k` is one on the closed interval between the bounds `k·limit/num` and
`(k+1)·limit/num` and zero elsewhere; on `[0, limit]` at least one window is non-zero; two windows which are non-zero
at the same point are equal or adjacent (so at most two are, and two only on a common bound); outside `[0, limit]` all
are zero. -/
theorem C44_rectangular_window (x limit : ℝ) (num : ℕ) (hl : 0 < limit) (hn : 0 < num) :
    (∀ k : ℕ, (k * limit / num ≤ x ∧ x ≤ (k + 1) * limit / num → rectangularWindow x num limit k = 1) ∧
      (¬ (k * limit / num ≤ x ∧ x ≤ (k + 1) * limit / num) → rectangularWindow x num limit k = 0)) ∧
    (0 ≤ x → x ≤ limit → ∃ k, k < num ∧ rectangularWindow x num limit k = 1) ∧
    (∀ j k, j ≤ k → rectangularWindow x num limit j ≠ 0 → rectangularWindow x num limit k ≠ 0 →
      k = j ∨ (k = j + 1 ∧ x = k * limit / num)) ∧
    (x < 0 ∨ limit < x → ∀ k, k < num → rectangularWindow x num limit k = 0) := by
  have hnp : (0 : ℝ) < num := by exact_mod_cast hn
  have hchar : ∀ k : ℕ, (k * limit / num ≤ x ∧ x ≤ (k + 1) * limit / num → rectangularWindow x num limit k = 1) ∧
      (¬ (k * limit / num ≤ x ∧ x ≤ (k + 1) * limit / num) → rectangularWindow x num limit k = 0) := by
    intro k
    simp only [rectangularWindow, linspace0]
    push_cast
    constructor
    · rintro ⟨h1, h2⟩
      rw [if_neg (not_lt.mpr h1), if_neg (not_lt.mpr h2)]
    · intro h
      by_cases h1 : x < k * limit / num
      · rw [if_pos h1]
      · rw [if_neg h1, if_pos]
        by_contra h2
        exact h ⟨not_lt.mp h1, not_lt.mp h2⟩
  have hne : ∀ k, rectangularWindow x num limit k ≠ 0 → k * limit / num ≤ x ∧ x ≤ (k + 1) * limit / num := by
    intro k hk
    by_contra h
    exact hk ((hchar k).2 h)
  refine ⟨hchar, ?_, ?_, ?_⟩
  · intro hx hx'
    rcases hx'.eq_or_lt with rfl | hlt
    · refine ⟨num - 1, by omega, (hchar _).1 ?_⟩
      rw [Nat.cast_sub hn, Nat.cast_one]
      constructor
      · rw [div_le_iff₀ hnp]; nlinarith
      · rw [le_div_iff₀ hnp]; nlinarith
    · refine ⟨⌊x * num / limit⌋₊, ?_, (hchar _).1 ?_⟩
      · rw [Nat.floor_lt (by positivity), div_lt_iff₀ hl]; nlinarith
      · have h1 := Nat.floor_le (show 0 ≤ x * num / limit by positivity)
        have h2 := Nat.lt_floor_add_one (x * num / limit)
        rw [le_div_iff₀ hl] at h1
        rw [div_lt_iff₀ hl] at h2
        constructor
        · rw [div_le_iff₀ hnp]; exact h1
        · rw [le_div_iff₀ hnp]; exact h2.le
  · intro j k hjk hj hk
    obtain ⟨_, a2⟩ := hne j hj
    obtain ⟨b1, _⟩ := hne k hk
    rw [le_div_iff₀ hnp] at a2
    have b1' := b1
    rw [div_le_iff₀ hnp] at b1
    have h1 : (k : ℝ) ≤ j + 1 := by
      by_contra hc
      push Not at hc
      nlinarith
    have h2 : k ≤ j + 1 := by exact_mod_cast h1
    rcases Nat.lt_or_ge k (j + 1) with h3 | h3
    · left; omega
    · have h4 : k = j + 1 := by omega
      refine Or.inr ⟨h4, le_antisymm ?_ b1'⟩
      rw [le_div_iff₀ hnp, h4]; push_cast; exact a2
  · intro hx k hk
    refine (hchar k).2 ?_
    rintro ⟨h1, h2⟩
    have hk' : (k : ℝ) + 1 ≤ num := by exact_mod_cast hk
    rcases hx with hx | hx
    · have : 0 ≤ k * limit / num := by positivity
      linarith
    · rw [le_div_iff₀ hnp] at h2
      nlinarith

example : (0 : ℝ) ≤ 1 / 3 ∧ (1 / 3 : ℝ) ≤ 1 * ((5 : ℕ) - 1) / (5 : ℕ) := by norm_num

end E3x
