import Mathlib.Analysis.SpecialFunctions.SmoothTransition
import Mathlib.Analysis.SpecialFunctions.Trigonometric.Bounds
import Mathlib.Analysis.SpecialFunctions.ExpDeriv
import Mathlib.Analysis.Complex.ExponentialBounds
import Mathlib.Analysis.Calculus.Deriv.MeanValue
import Verif.Model.Functions

/-!
# C43 (cutoff functions), C46 (distance mappings), C51 (damping)
-/

namespace E3x

open Real Set

open scoped ContDiff

/-! ## C43 -/

/-- What the documentation promises about a cutoff function with cutoff `c`. -/
structure Spec.IsCutoff (c : ℝ) (f : ℝ → ℝ) : Prop where
  at_zero : f 0 = 1
  mem_unit : ∀ x, 0 ≤ x → 0 ≤ f x ∧ f x ≤ 1
  antitone : AntitoneOn f (Ici 0)
  outside : ∀ x, c ≤ x → f x = 0
  inside : ∀ x, 0 ≤ x → x < c → 0 < f x

theorem cutoffRescale_eq (x c : ℝ) : cutoffRescale x c = x / c := by
  unfold cutoffRescale
  split_ifs with h
  · rfl
  · rw [not_not.mp h, div_one]

theorem smoothCutoff_eq {c : ℝ} (hc : 0 < c) {x : ℝ} (hx : -c < x) :
    smoothCutoff x c = .ok (exp 1 * expNegInvGlue (1 - (x / c) ^ 2)) := by
  unfold smoothCutoff
  rw [if_neg (not_le.mpr hc)]
  simp only [cutoffRescale_eq]
  have h1 : -1 < x / c := by rw [lt_div_iff₀ hc]; linarith
  by_cases h : x / c < 1
  · have hp : 0 < 1 - (x / c) ^ 2 := by nlinarith
    simp only [h, if_true, expNegInvGlue, not_le.mpr hp, if_false]
    rw [← exp_add]
    congr 2
    rw [one_div, sq]; ring
  · have hp : 1 - (x / c) ^ 2 ≤ 0 := by nlinarith [not_lt.mp h]
    simp only [h, if_false, expNegInvGlue, hp, if_true, mul_zero]

/-- **C43.** `smooth_cutoff` with any positive cutoff returns a value for every input; the function it computes is a
cutoff function, is infinitely differentiable (on the interval above `-cutoff`, in particular on all distances), and
has the documented closed form below the cutoff. -/
theorem C43_smooth_cutoff (c : ℝ) (hc : 0 < c) :
    ∃ f : ℝ → ℝ, (∀ x, smoothCutoff x c = .ok (f x)) ∧ Spec.IsCutoff c f ∧ ContDiffOn ℝ ∞ f (Ioi (-c)) ∧
      ∀ x, 0 ≤ x → x < c → f x = exp (1 - 1 / (1 - (x / c) ^ 2)) := by
  have hval : ∀ x, ∃ y, smoothCutoff x c = .ok y := by
    intro x
    unfold smoothCutoff
    rw [if_neg (not_le.mpr hc)]
    exact ⟨_, rfl⟩
  choose f hf using hval
  have hE : ∀ x, -c < x → f x = exp 1 * expNegInvGlue (1 - (x / c) ^ 2) := by
    intro x hx
    have := (hf x).symm.trans (smoothCutoff_eq hc hx)
    exact Except.ok.inj this
  have hE0 : ∀ x, 0 ≤ x → f x = exp 1 * expNegInvGlue (1 - (x / c) ^ 2) := fun x hx => hE x (by linarith)
  have hanti : AntitoneOn f (Ici 0) := by
    intro x hx y hy hxy
    have hx' : 0 ≤ x := hx
    rw [hE0 x hx, hE0 y hy]
    refine mul_le_mul_of_nonneg_left (expNegInvGlue.monotone ?_) (exp_pos 1).le
    have h1 : x / c ≤ y / c := div_le_div_of_nonneg_right hxy hc.le
    have h2 : 0 ≤ x / c := div_nonneg hx' hc.le
    nlinarith
  have h0 : f 0 = 1 := by
    rw [hE0 0 le_rfl]
    simp [expNegInvGlue, not_le.mpr zero_lt_one, ← exp_add]
  refine ⟨f, hf, ⟨h0, ?_, hanti, ?_, ?_⟩, ?_, ?_⟩
  · intro x hx
    refine ⟨?_, h0 ▸ hanti (by simp) hx hx⟩
    rw [hE0 x hx]
    exact mul_nonneg (exp_pos 1).le (expNegInvGlue.nonneg _)
  · intro x hx
    rw [hE0 x (by linarith), expNegInvGlue.zero_of_nonpos, mul_zero]
    have : 1 ≤ x / c := by rwa [le_div_iff₀ hc, one_mul]
    nlinarith
  · intro x hx hxc
    rw [hE0 x hx]
    refine mul_pos (exp_pos 1) (expNegInvGlue.pos_of_pos ?_)
    have h1 : x / c < 1 := by rwa [div_lt_one hc]
    have h2 : 0 ≤ x / c := div_nonneg hx hc.le
    nlinarith
  · have : ContDiff ℝ ∞ fun x : ℝ => exp 1 * expNegInvGlue (1 - (x / c) ^ 2) := by
      refine contDiff_const.mul ((expNegInvGlue.contDiff (n := ⊤)).comp ?_)
      exact contDiff_const.sub ((contDiff_id.div_const c).pow 2)
    exact this.contDiffOn.congr fun x hx => hE x hx
  · intro x hx hxc
    have := hf x
    unfold smoothCutoff at this
    have h1 : x / c < 1 := by rwa [div_lt_one hc]
    simp only [if_neg (not_le.mpr hc), cutoffRescale_eq, h1, if_true] at this
    rw [sq]
    exact (Except.ok.inj this).symm

/-- **C43.** `cosine_cutoff` with any positive cutoff returns a value for every input; the function it computes is a
continuous cutoff function with the documented closed form below the cutoff. -/
theorem C43_cosine_cutoff (c : ℝ) (hc : 0 < c) :
    ∃ f : ℝ → ℝ, (∀ x, cosineCutoff x c = .ok (f x)) ∧ Spec.IsCutoff c f ∧ Continuous f ∧
      ∀ x, x < c → f x = 1 / 2 * cos (π * (x / c)) + 1 / 2 := by
  have hval : ∀ x, cosineCutoff x c = .ok (if x / c < 1 then 1 / 2 * cos (π * (x / c)) + 1 / 2 else 0) := by
    intro x
    unfold cosineCutoff
    rw [if_neg (not_le.mpr hc)]
    simp only [cutoffRescale_eq]
    norm_num
  have hcont : Continuous fun x : ℝ => if x / c < 1 then 1 / 2 * cos (π * (x / c)) + 1 / 2 else 0 := by
    refine Continuous.if ?_ (by fun_prop) continuous_const
    intro a ha
    have : a / c = 1 := by
      have hfr := frontier_lt_subset_eq (f := fun x : ℝ => x / c) (g := fun _ => (1 : ℝ)) (by fun_prop) (by fun_prop) ha
      exact hfr
    rw [this]; simp
  have hanti : AntitoneOn (fun x : ℝ => if x / c < 1 then 1 / 2 * cos (π * (x / c)) + 1 / 2 else 0) (Ici 0) := by
    intro x hx y hy hxy
    have hx' : 0 ≤ x / c := div_nonneg hx hc.le
    have hxy' : x / c ≤ y / c := div_le_div_of_nonneg_right hxy hc.le
    dsimp only
    split_ifs with h1 h2 h2
    · have := cos_le_cos_of_nonneg_of_le_pi (mul_nonneg pi_pos.le hx') (by nlinarith [pi_pos])
        (mul_le_mul_of_nonneg_left hxy' pi_pos.le)
      linarith
    · linarith
    · have := neg_one_le_cos (π * (x / c)); linarith
    · exact le_rfl
  have h0 : (fun x : ℝ => if x / c < 1 then 1 / 2 * cos (π * (x / c)) + 1 / 2 else 0) 0 = 1 := by
    simp; norm_num
  refine ⟨_, hval, ⟨h0, ?_, hanti, ?_, ?_⟩, hcont, ?_⟩
  · intro x hx
    refine ⟨?_, (hanti (by simp) hx hx).trans_eq h0⟩
    split_ifs
    · have := neg_one_le_cos (π * (x / c)); linarith
    · exact le_rfl
  · intro x hx
    have : 1 ≤ x / c := by rwa [le_div_iff₀ hc, one_mul]
    simp [not_lt.mpr this]
  · intro x hx hxc
    have h1 : x / c < 1 := by rwa [div_lt_one hc]
    have h2 : 0 ≤ x / c := div_nonneg hx hc.le
    simp only [h1, if_true]
    have := cos_lt_cos_of_nonneg_of_le_pi (mul_nonneg pi_pos.le h2) (le_refl π) (by nlinarith [pi_pos])
    rw [cos_pi] at this
    linarith
  · intro x hx
    have h1 : x / c < 1 := by rwa [div_lt_one hc]
    simp only [h1, if_true]

/-- **C43.** A non-positive cutoff raises ValueError, and only that. -/
theorem C43_cutoff_raises (x c : ℝ) :
    ((∃ e, smoothCutoff x c = .error e) ↔ c ≤ 0) ∧ ((∃ e, cosineCutoff x c = .error e) ↔ c ≤ 0) ∧
    (c ≤ 0 → smoothCutoff x c = .error .valueError ∧ cosineCutoff x c = .error .valueError) := by
  unfold smoothCutoff cosineCutoff
  by_cases h : c ≤ 0 <;> simp [h]

example : (0 : ℝ) < 5 := by norm_num

/-! ## C46 -/

/-- What the documentation promises about a mapping of distances. -/
structure Spec.IsDistanceMapping (f : ℝ → ℝ) : Prop where
  at_zero : f 0 = 1
  mem_unit : ∀ x, 0 ≤ x → 0 < f x ∧ f x ≤ 1
  antitone : AntitoneOn f (Ici 0)

theorem one_sub_exp_neg_le (x : ℝ) : 1 - exp (-x) ≤ x := by
  have := add_one_le_exp (-x); linarith

theorem one_le_add_exp_neg {x : ℝ} : 1 ≤ x + exp (-x) := by
  have := add_one_le_exp (-x); linarith

theorem add_exp_neg_mono {x y : ℝ} (hx : 0 ≤ x) (hxy : x ≤ y) : x + exp (-x) ≤ y + exp (-y) := by
  have h1 : exp (-y) = exp (-x) * exp (-(y - x)) := by rw [← exp_add]; ring_nf
  have h2 := add_one_le_exp (-(y - x))
  have h3 : exp (-x) ≤ 1 := exp_le_one_iff.mpr (by linarith)
  have h4 := exp_pos (-x)
  rw [h1]
  nlinarith

theorem exp_neg_lower {x : ℝ} (hx : 0 ≤ x) : 1 - x + x ^ 2 / 2 - x ^ 3 / 6 ≤ exp (-x) := by
  have hd : ∀ y : ℝ, HasDerivAt (fun x => exp (-x) - (1 - x + x ^ 2 / 2 - x ^ 3 / 6))
      (-exp (-y) - (-1 + y - y ^ 2 / 2)) y := by
    intro y
    have h1 : HasDerivAt (fun x : ℝ => exp (-x)) (-exp (-y)) y := by
      have := (hasDerivAt_neg y).exp; simpa using this
    have h2 : HasDerivAt (fun x : ℝ => 1 - x + x ^ 2 / 2 - x ^ 3 / 6) (-1 + y - y ^ 2 / 2) y := by
      have a1 := hasDerivAt_id y
      have a2 := ((hasDerivAt_pow 2 y).div_const 2)
      have a3 := ((hasDerivAt_pow 3 y).div_const 6)
      have := (((a1.const_sub 1).add a2).sub a3)
      refine this.congr_deriv ?_
      norm_num
      ring
    exact h1.sub h2
  have hq : ∀ y : ℝ, 0 ≤ y → exp (-y) ≤ 1 - y + y ^ 2 / 2 := by
    intro y hy
    have h := Real.quadratic_le_exp_of_nonneg hy
    have hp := exp_pos (-y)
    have he : exp (-y) * exp y = 1 := by rw [← exp_add]; simp
    have hq : 0 < 1 - y + y ^ 2 / 2 := by nlinarith [sq_nonneg (y - 1)]
    have : exp (-y) * (1 + y + y ^ 2 / 2) ≤ 1 := by nlinarith
    have h4 : (1 - y + y ^ 2 / 2) * (1 + y + y ^ 2 / 2) = 1 + y ^ 4 / 4 := by ring
    by_contra hcon
    push Not at hcon
    have h5 : 0 < 1 + y + y ^ 2 / 2 := by positivity
    have : (1 - y + y ^ 2 / 2) * (1 + y + y ^ 2 / 2) < exp (-y) * (1 + y + y ^ 2 / 2) :=
      mul_lt_mul_of_pos_right hcon h5
    nlinarith [sq_nonneg (y ^ 2)]
  have hm : MonotoneOn (fun x => exp (-x) - (1 - x + x ^ 2 / 2 - x ^ 3 / 6)) (Ici 0) := by
    refine monotoneOn_of_deriv_nonneg (convex_Ici 0) ?_ ?_ ?_
    · exact fun y _ => (hd y).continuousAt.continuousWithinAt
    · exact fun y _ => (hd y).differentiableAt.differentiableWithinAt
    · intro y hy
      rw [interior_Ici] at hy
      rw [(hd y).deriv]
      have := hq y (le_of_lt hy)
      linarith
  have := hm (by simp : (0 : ℝ) ∈ Ici (0 : ℝ)) hx hx
  simp at this
  linarith

/-- The exact damped mapping `(1 - exp(-x)) / x` is antitone on the positive reals. -/
theorem damped_antitone {x y : ℝ} (hx : 0 < x) (hxy : x ≤ y) : (1 - exp (-y)) / y ≤ (1 - exp (-x)) / x := by
  have hy : 0 < y := by linarith
  rw [div_le_div_iff₀ hy hx]
  -- convexity: exp(-x) ≤ (1 - x/y) + (x/y) exp(-y)
  have hconv := convexOn_exp.2 (mem_univ 0) (mem_univ (-y))
    (show 0 ≤ 1 - x / y by rw [sub_nonneg, div_le_one hy]; exact hxy) (show 0 ≤ x / y by positivity) (by ring)
  simp only [smul_eq_mul, mul_zero, zero_add, exp_zero, mul_one] at hconv
  have e1 : x / y * -y = -x := by field_simp
  rw [e1] at hconv
  have := mul_le_mul_of_nonneg_right hconv hy.le
  have e2 : (1 - x / y + x / y * exp (-y)) * y = y - x + x * exp (-y) := by field_simp
  rw [e2] at this
  nlinarith

/-- **C46.** For each of the three kinds `reciprocal_mapping` returns a value for every input, and the function it
computes maps distances into `(0, 1]`, decreasing from one. (`0 < eps ≤ 1`; `eps` is the threshold below which the
damped kind switches to its Taylor polynomial.) -/
theorem C46_reciprocal_mapping (eps : ℝ) (h0 : 0 < eps) (h1 : eps ≤ 1) (kind : String)
    (hk : kind ∈ ["shifted", "damped", "cuspless"]) :
    ∃ f : ℝ → ℝ, (∀ x, reciprocalMapping eps x kind = .ok (f x)) ∧ Spec.IsDistanceMapping f := by
  simp only [List.mem_cons, List.not_mem_nil, or_false] at hk
  rcases hk with rfl | rfl | rfl
  · refine ⟨fun x => 1 / (x + 1), fun x => by simp [reciprocalMapping], ⟨by simp, ?_, ?_⟩⟩
    · intro x hx
      have : 0 < x + 1 := by linarith
      exact ⟨by positivity, by rw [div_le_one this]; linarith⟩
    · intro x hx y hy hxy
      have : (0 : ℝ) < x + 1 := by have : (0 : ℝ) ≤ x := hx; linarith
      exact one_div_le_one_div_of_le this (by linarith)
  · have hval : ∀ x, reciprocalMapping eps x "damped" =
        .ok (if x < eps then 1 - x / 2 + x * x / 6 else (1 - exp (-x)) / x) := by
      intro x
      simp only [reciprocalMapping]
      by_cases h : x < eps <;> simp [h]
    have htay : ∀ x : ℝ, 0 < x → (1 - exp (-x)) / x ≤ 1 - x / 2 + x * x / 6 := by
      intro x hx
      rw [div_le_iff₀ hx]
      have := exp_neg_lower hx.le
      nlinarith
    have hanti : AntitoneOn (fun x : ℝ => if x < eps then 1 - x / 2 + x * x / 6 else (1 - exp (-x)) / x) (Ici 0) := by
      intro x hx y hy hxy
      have hx' : (0 : ℝ) ≤ x := hx
      dsimp only
      split_ifs with hy1 hx1 hx1
      · nlinarith
      · linarith
      · have hy0 : 0 < y := by linarith
        rcases hx'.eq_or_lt with rfl | hxp
        · have h2 : (1 - exp (-y)) / y ≤ 1 := by
            rw [div_le_one hy0]; exact one_sub_exp_neg_le y
          simpa using h2
        · exact (damped_antitone hxp hxy).trans (htay x hxp)
      · exact damped_antitone (by linarith) hxy
    have hz : (fun x : ℝ => if x < eps then 1 - x / 2 + x * x / 6 else (1 - exp (-x)) / x) 0 = 1 := by
      simp [h0]
    refine ⟨_, hval, ⟨hz, ?_, hanti⟩⟩
    intro x hx
    refine ⟨?_, (hanti (by simp) hx hx).trans_eq hz⟩
    split_ifs with h
    · nlinarith
    · have hxp : 0 < x := by linarith
      have : exp (-x) < 1 := by rw [exp_lt_one_iff]; linarith
      exact div_pos (by linarith) hxp
  · refine ⟨fun x => 1 / (x + exp (-x)), fun x => by simp [reciprocalMapping], ⟨by simp, ?_, ?_⟩⟩
    · intro x hx
      have := one_le_add_exp_neg (x := x)
      exact ⟨by positivity, by rw [div_le_one (by linarith)]; exact this⟩
    · intro x hx y hy hxy
      exact one_div_le_one_div_of_le (by linarith [one_le_add_exp_neg (x := x)]) (add_exp_neg_mono hx hxy)

/-- **C46.** The documented closed forms: `1/(x+1)`, `(1-exp(-x))/x` (away from the Taylor branch, on which the error is at most
`x³/24 ≤ eps³/24`), `1/(x+exp(-x))`; and the relations between them: the damped and the cuspless mapping lie above the
shifted one. -/
theorem C46_reciprocal_values (eps x : ℝ) (h0 : 0 < eps) (h1 : eps ≤ 1) (hx : 0 ≤ x) :
    ∃ s d c, reciprocalMapping eps x "shifted" = .ok s ∧ reciprocalMapping eps x "damped" = .ok d ∧
      reciprocalMapping eps x "cuspless" = .ok c ∧ s = 1 / (x + 1) ∧ c = 1 / (x + exp (-x)) ∧
      (eps ≤ x → d = (1 - exp (-x)) / x) ∧ (0 < x → (1 - exp (-x)) / x ≤ d ∧ d - (1 - exp (-x)) / x ≤ x ^ 3 / 24) ∧
      s ≤ d ∧ s ≤ c := by
  have hd : reciprocalMapping eps x "damped" =
        .ok (if x < eps then 1 - x / 2 + x * x / 6 else (1 - exp (-x)) / x) := by
    simp only [reciprocalMapping]
    by_cases h : x < eps <;> simp [h]
  refine ⟨_, _, _, by simp [reciprocalMapping]; rfl, hd, by simp [reciprocalMapping]; rfl, by ring, by ring, ?_, ?_, ?_, ?_⟩
  · intro h; rw [if_neg (not_lt.mpr h)]
  · intro hp
    have hlow := exp_neg_lower hx
    have hup : exp (-x) ≤ 1 - x + x ^ 2 / 2 - x ^ 3 / 6 + x ^ 4 / 24 := by
      have := Real.sum_le_exp_of_nonneg hx 5
      simp [Finset.sum_range_succ, Nat.factorial] at this
      have he : exp (-x) * exp x = 1 := by rw [← exp_add]; simp
      have hpos := exp_pos (-x)
      by_contra hcon
      push Not at hcon
      have h5 : 0 < 1 + x + x ^ 2 / 2 + x ^ 3 / 6 + x ^ 4 / 24 := by positivity
      have h6 : (1 - x + x ^ 2 / 2 - x ^ 3 / 6 + x ^ 4 / 24) * (1 + x + x ^ 2 / 2 + x ^ 3 / 6 + x ^ 4 / 24) <
          exp (-x) * (1 + x + x ^ 2 / 2 + x ^ 3 / 6 + x ^ 4 / 24) := mul_lt_mul_of_pos_right hcon h5
      have h7 : exp (-x) * (1 + x + x ^ 2 / 2 + x ^ 3 / 6 + x ^ 4 / 24) ≤ 1 := by nlinarith
      have h8 : (1 - x + x ^ 2 / 2 - x ^ 3 / 6 + x ^ 4 / 24) * (1 + x + x ^ 2 / 2 + x ^ 3 / 6 + x ^ 4 / 24) =
          1 + x ^ 6 / 72 * (1 - 1) + x ^ 8 / 576 + (x^6/24 - x^6/36) := by ring
      have : 0 ≤ x ^ 8 := by positivity
      have : 0 ≤ x ^ 6 := by positivity
      nlinarith
    split_ifs
    · constructor
      · rw [div_le_iff₀ hp]; nlinarith
      · rw [sub_le_iff_le_add, ← sub_le_iff_le_add', le_div_iff₀ hp]; nlinarith
    · refine ⟨le_rfl, ?_⟩
      rw [sub_self]; positivity
  · have hs : (0 : ℝ) < x + 1 := by linarith
    split_ifs with h
    · rw [inv_le_comm₀ hs (by nlinarith), ← one_div, div_le_iff₀ (by nlinarith)]
      nlinarith [mul_nonneg hx hx, mul_nonneg (mul_nonneg hx hx) hx]
    · have hp : 0 < x := by linarith
      rw [inv_eq_one_div, div_le_div_iff₀ hs hp]
      have he : exp (-x) * exp x = 1 := by rw [← exp_add]; simp
      have := add_one_le_exp x
      have hpos := exp_pos (-x)
      have : exp (-x) * (x + 1) ≤ 1 := by nlinarith
      linarith
  · have : exp (-x) ≤ 1 := exp_le_one_iff.mpr (by linarith)
    have h2 := one_le_add_exp_neg (x := x)
    exact inv_anti₀ (by linarith) (by linarith)

/-- **C46.** Every other kind raises ValueError. -/
theorem C46_reciprocal_raises (eps x : ℝ) (kind : String) :
    (¬ ∃ y, reciprocalMapping eps x kind = .ok y) ↔ kind ∉ ["shifted", "damped", "cuspless"] := by
  by_cases hk : kind ∈ ["shifted", "damped", "cuspless"]
  · simp only [List.mem_cons, List.not_mem_nil, or_false] at hk
    rcases hk with rfl | rfl | rfl <;> simp [reciprocalMapping]
  · simp [reciprocalMapping, hk]

/-- **C46.** The error is a ValueError. -/
theorem C46_reciprocal_error (eps x : ℝ) (kind : String) (e : Err) (h : reciprocalMapping eps x kind = .error e) :
    e = .valueError := by
  by_cases hk : kind ∈ ["shifted", "damped", "cuspless"]
  · simp only [List.mem_cons, List.not_mem_nil, or_false] at hk
    rcases hk with rfl | rfl | rfl <;> simp [reciprocalMapping] at h
  · simp only [reciprocalMapping, hk, not_false_eq_true, if_true] at h
    injection h with h; exact h.symm

/-- **C46.** Both variants of `exponential_mapping` map distances into `(0, 1]`, decreasing from one; the cuspless
variant lies above the plain one, and has zero slope at the origin. -/
theorem C46_exponential_mapping (gamma : ℝ) (hg : 0 < gamma) :
    (∀ cuspless, Spec.IsDistanceMapping fun x => exponentialMapping x gamma cuspless) ∧
    (∀ x, exponentialMapping x gamma false = exp (-(gamma * x))) ∧
    (∀ x, exponentialMapping x gamma true = exp (-(gamma * (x + exp (-x) - 1)))) ∧
    (∀ x, 0 ≤ x → exponentialMapping x gamma false ≤ exponentialMapping x gamma true) ∧
    HasDerivAt (fun x => exponentialMapping x gamma true) 0 0 ∧
    HasDerivAt (fun x => exponentialMapping x gamma false) (-gamma) 0 := by
  have hder : HasDerivAt (fun x => exponentialMapping x gamma true) 0 0 := by
    have h1 : HasDerivAt (fun x : ℝ => exp (-x)) (-exp (-0)) 0 := by
      have := (hasDerivAt_neg (0 : ℝ)).exp; simpa using this
    have h2 : HasDerivAt (fun x : ℝ => -gamma * (x + exp (-x) - 1)) 0 0 := by
      have := (((hasDerivAt_id (0 : ℝ)).add h1).sub_const 1).const_mul (-gamma)
      simpa using this
    have h3 := h2.exp
    simpa [exponentialMapping] using h3
  have hder2 : HasDerivAt (fun x => exponentialMapping x gamma false) (-gamma) 0 := by
    have h2 : HasDerivAt (fun x : ℝ => -gamma * x) (-gamma) 0 := by
      have := (hasDerivAt_id (0 : ℝ)).const_mul (-gamma)
      simpa using this
    have h3 := h2.exp
    simpa [exponentialMapping] using h3
  refine ⟨?_, fun x => by simp [exponentialMapping], fun x => by simp [exponentialMapping], ?_, hder, hder2⟩
  · intro cuspless
    cases cuspless
    · refine ⟨by simp [exponentialMapping], fun x hx => ⟨exp_pos _, ?_⟩, ?_⟩
      · simp only [exponentialMapping, Bool.false_eq_true, if_false, exp_le_one_iff]; nlinarith
      · intro x hx y hy hxy
        simp only [exponentialMapping, Bool.false_eq_true, if_false, exp_le_exp]; nlinarith
    · refine ⟨by simp [exponentialMapping], fun x hx => ⟨exp_pos _, ?_⟩, ?_⟩
      · simp only [exponentialMapping, if_true, exp_le_one_iff]
        nlinarith [one_le_add_exp_neg (x := x)]
      · intro x hx y hy hxy
        simp only [exponentialMapping, if_true, exp_le_exp]
        nlinarith [add_exp_neg_mono hx hxy]
  · intro x hx
    have : exp (-x) ≤ 1 := exp_le_one_iff.mpr (by linarith)
    simp only [exponentialMapping, Bool.false_eq_true, if_false, if_true, exp_le_exp]
    nlinarith

example : reciprocalMapping (1 / 2) 1 "shifted" = .ok (1 / 2) := by
  simp [reciprocalMapping]; norm_num

/-! ## C51 -/

/-- **C51.** `smooth_damping` is zero at the origin, positive and below one everywhere else, monotone on all
distances, equal to the documented `exp(-exp(-γx)/(1-exp(-γx)))`, and tends to zero at the origin: no input divides by
zero. -/
theorem C51_smooth_damping (gamma : ℝ) (hg : 0 < gamma) :
    smoothDamping 0 gamma = 0 ∧
    (∀ x, 0 < x → 0 < smoothDamping x gamma ∧ smoothDamping x gamma < 1 ∧ 0 < 1 - exp (-(gamma * x)) ∧
      smoothDamping x gamma = exp (-(exp (-(gamma * x)) / (1 - exp (-(gamma * x)))))) ∧
    MonotoneOn (fun x => smoothDamping x gamma) (Ici 0) ∧
    ContinuousOn (fun x => smoothDamping x gamma) (Ici 0) := by
  have hpos : ∀ x, 0 < x → 0 < 1 - exp (-(gamma * x)) := by
    intro x hx
    have : exp (-(gamma * x)) < 1 := by rw [exp_lt_one_iff]; nlinarith
    linarith
  have hform : ∀ x, 0 < x → smoothDamping x gamma = exp (-(exp (-(gamma * x)) / (1 - exp (-(gamma * x))))) := by
    intro x hx
    have h := hpos x hx
    have h2 : 0 < (1 - exp (-gamma * x)) * (1 - exp (-gamma * x)) := by
      rw [neg_mul]; exact mul_pos h h
    simp only [smoothDamping, h2, if_true]
    rw [neg_mul, neg_div]
  have hzero : smoothDamping 0 gamma = 0 := by simp [smoothDamping]
  have hbd : ∀ x, 0 < x → smoothDamping x gamma ≤ gamma * x := by
    -- exp(-e/(1-e)) ≤ 1 - e ≤ γ x
    intro x hx
    rw [hform x hx]
    have h := hpos x hx
    have he := exp_pos (-(gamma * x))
    set e := exp (-(gamma * x)) with hedef
    have h1 : exp (-(e / (1 - e))) ≤ 1 - e := by
      have := add_one_le_exp (e / (1 - e))
      have h2 : e / (1 - e) + 1 = (1 - e)⁻¹ := by field_simp; ring
      rw [h2] at this
      rw [exp_neg]
      calc (exp (e / (1 - e)))⁻¹ ≤ ((1 - e)⁻¹)⁻¹ := inv_anti₀ (by positivity) this
        _ = 1 - e := inv_inv _
    have h3 : 1 - e ≤ gamma * x := one_sub_exp_neg_le (gamma * x)
    linarith
  refine ⟨hzero, ?_, ?_, ?_⟩
  · intro x hx
    refine ⟨?_, ?_, hpos x hx, hform x hx⟩
    · rw [hform x hx]; exact exp_pos _
    · rw [hform x hx, exp_lt_one_iff, neg_lt_zero]
      exact div_pos (exp_pos _) (hpos x hx)
  · intro x hx y hy hxy
    dsimp only
    rcases (show (0 : ℝ) ≤ x from hx).eq_or_lt with rfl | hxp
    · rw [hzero]
      rcases (show (0 : ℝ) ≤ y from hy).eq_or_lt with rfl | hyp
      · rw [hzero]
      · rw [hform y hyp]; exact (exp_pos _).le
    · have hyp : 0 < y := by linarith
      rw [hform x hxp, hform y hyp, exp_le_exp, neg_le_neg_iff]
      have h1 : exp (-(gamma * y)) ≤ exp (-(gamma * x)) := by rw [exp_le_exp]; nlinarith
      exact div_le_div₀ (exp_pos _).le h1 (hpos x hxp) (by linarith)
  · intro x hx
    rcases (show (0 : ℝ) ≤ x from hx).eq_or_lt with rfl | hxp
    · rw [ContinuousWithinAt, hzero]
      refine squeeze_zero' (g := fun x => gamma * x) ?_ ?_ ?_
      · filter_upwards [self_mem_nhdsWithin] with y hy
        rcases (show (0 : ℝ) ≤ y from hy).eq_or_lt with rfl | hyp
        · rw [hzero]
        · rw [hform y hyp]; exact (exp_pos _).le
      · filter_upwards [self_mem_nhdsWithin] with y hy
        rcases (show (0 : ℝ) ≤ y from hy).eq_or_lt with rfl | hyp
        · rw [hzero, mul_zero]
        · exact hbd y hyp
      · have : Filter.Tendsto (fun x : ℝ => gamma * x) (nhds 0) (nhds (gamma * 0)) :=
          (continuous_const.mul continuous_id).tendsto 0
        rw [mul_zero] at this
        exact this.mono_left nhdsWithin_le_nhds
    · refine ContinuousAt.continuousWithinAt ?_
      have hev : (fun x => smoothDamping x gamma) =ᶠ[nhds x]
          fun x => exp (-(exp (-(gamma * x)) / (1 - exp (-(gamma * x))))) := by
        filter_upwards [Ioi_mem_nhds hxp] with y hy
        exact hform y hy
      refine ContinuousAt.congr ?_ hev.symm
      have hne : 1 - exp (-(gamma * x)) ≠ 0 := (hpos x hxp).ne'
      fun_prop (disch := exact hne)

example : smoothDamping 1 1 ≠ 0 := by
  have := (C51_smooth_damping 1 one_pos).2.1 1 one_pos
  exact this.1.ne'

end E3x
