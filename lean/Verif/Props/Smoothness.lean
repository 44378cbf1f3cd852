import Mathlib.Analysis.SpecialFunctions.SmoothTransition
import Mathlib.Analysis.Calculus.IteratedDeriv.Lemmas
import Verif.Props.Cutoff
import Verif.Props.Switch

/-!
# C43, C44, C51: smoothness at the ends of the support

The documentation calls the `smooth_*` functions infinitely differentiable; what a user relies on is that forces and
higher derivatives of a model stay continuous where a cutoff, switch or damping function becomes constant.
-/

namespace E3x

open Real Set Filter Topology

open scoped ContDiff

/-- A smooth function which is constant below `a` has vanishing derivatives of all positive orders at `a`. -/
theorem iteratedDeriv_zero_of_flat (f : ℝ → ℝ) (hf : ContDiff ℝ ∞ f) (a c : ℝ) (h0 : ∀ x ≤ a, f x = c) (n : ℕ)
    (hn : n ≠ 0) : iteratedDeriv n f a = 0 := by
  have hc : Continuous (iteratedDeriv n f) := hf.continuous_iteratedDeriv n (by exact_mod_cast le_top)
  have hz : ∀ x < a, iteratedDeriv n f x = 0 := by
    intro x hx
    have he : f =ᶠ[𝓝 x] fun _ => c := by
      filter_upwards [Iio_mem_nhds hx] with y hy
      exact h0 y (le_of_lt hy)
    rw [he.iteratedDeriv_eq n, iteratedDeriv_const, if_neg hn]
  have h1 : Tendsto (iteratedDeriv n f) (𝓝[<] a) (𝓝 (iteratedDeriv n f a)) :=
    hc.continuousAt.tendsto.mono_left nhdsWithin_le_nhds
  have h2 : Tendsto (iteratedDeriv n f) (𝓝[<] a) (𝓝 0) := by
    refine Tendsto.congr' ?_ tendsto_const_nhds
    filter_upwards [self_mem_nhdsWithin] with x hx
    exact (hz x hx).symm
  exact tendsto_nhds_unique h1 h2

/-- The same for functions which are constant above `a`. -/
theorem iteratedDeriv_zero_of_flat_above (f : ℝ → ℝ) (hf : ContDiff ℝ ∞ f) (a c : ℝ) (h0 : ∀ x, a ≤ x → f x = c) (n : ℕ)
    (hn : n ≠ 0) : iteratedDeriv n f a = 0 := by
  have hc : Continuous (iteratedDeriv n f) := hf.continuous_iteratedDeriv n (by exact_mod_cast le_top)
  have hz : ∀ x, a < x → iteratedDeriv n f x = 0 := by
    intro x hx
    have he : f =ᶠ[𝓝 x] fun _ => c := by
      filter_upwards [Ioi_mem_nhds hx] with y hy
      exact h0 y (le_of_lt hy)
    rw [he.iteratedDeriv_eq n, iteratedDeriv_const, if_neg hn]
  have h1 : Tendsto (iteratedDeriv n f) (𝓝[>] a) (𝓝 (iteratedDeriv n f a)) :=
    hc.continuousAt.tendsto.mono_left nhdsWithin_le_nhds
  have h2 : Tendsto (iteratedDeriv n f) (𝓝[>] a) (𝓝 0) := by
    refine Tendsto.congr' ?_ tendsto_const_nhds
    filter_upwards [self_mem_nhdsWithin] with x hx
    exact (hz x hx).symm
  exact tendsto_nhds_unique h1 h2

/-- **C43.** On all distances `smooth_cutoff` is the restriction of an infinitely differentiable function whose value
and derivatives of every order vanish at the cutoff. -/
theorem C43_smooth_cutoff_derivatives (c : ℝ) (hc : 0 < c) :
    ∃ F : ℝ → ℝ, ContDiff ℝ ∞ F ∧ (∀ x, 0 ≤ x → smoothCutoff x c = .ok (F x)) ∧ ∀ n, iteratedDeriv n F c = 0 := by
  have hF : ContDiff ℝ ∞ fun x : ℝ => exp 1 * expNegInvGlue (1 - (x / c) ^ 2) := by
    refine contDiff_const.mul ((expNegInvGlue.contDiff (n := ⊤)).comp ?_)
    exact contDiff_const.sub ((contDiff_id.div_const c).pow 2)
  have hz : ∀ x, c ≤ x → (fun x : ℝ => exp 1 * expNegInvGlue (1 - (x / c) ^ 2)) x = 0 := by
    intro x hx
    dsimp only
    rw [expNegInvGlue.zero_of_nonpos, mul_zero]
    have : 1 ≤ x / c := by rwa [le_div_iff₀ hc, one_mul]
    nlinarith
  refine ⟨_, hF, fun x hx => smoothCutoff_eq hc (by linarith), ?_⟩
  intro n
  rcases eq_or_ne n 0 with rfl | hn
  · rw [iteratedDeriv_zero]; exact hz c le_rfl
  · exact iteratedDeriv_zero_of_flat_above _ hF c 0 hz n hn

/-- **C43.** `cosine_cutoff` is continuously differentiable at every distance, including the cutoff. -/
theorem C43_cosine_cutoff_derivative (c : ℝ) (hc : 0 < c) (f : ℝ → ℝ) (hf : ∀ x, cosineCutoff x c = .ok (f x)) :
    (∀ x, HasDerivAt f (if x < c then -(π / (2 * c)) * sin (π * x / c) else 0) x) ∧
    Continuous fun x => if x < c then -(π / (2 * c)) * sin (π * x / c) else 0 := by
  have hfe : f = fun x => if x < c then 1 / 2 * (cos (π * x / c) + 1) else 0 := by
    funext x
    have h := hf x
    unfold cosineCutoff at h
    rw [if_neg (not_le.mpr hc)] at h
    simp only [cutoffRescale_eq] at h
    rw [← Except.ok.inj h]
    by_cases hx : x < c
    · rw [if_pos (by rwa [div_lt_one hc]), if_pos hx]
      rw [mul_div_assoc]
      norm_num [add_comm]
      ring
    · rw [if_neg (by rw [div_lt_one hc]; exact hx), if_neg hx]
  have hd : ∀ x, HasDerivAt (fun x => 1 / 2 * (cos (π * x / c) + 1)) (-(π / (2 * c)) * sin (π * x / c)) x := by
    intro x
    have h1 : HasDerivAt (fun x => π * x / c) (π / c) x := by
      simpa using ((hasDerivAt_id x).const_mul π).div_const c
    have h2 := ((h1.cos.add_const 1).const_mul (1 / 2 : ℝ))
    have e : -(π / (2 * c)) * sin (π * x / c) = 1 / 2 * (-sin (π * x / c) * (π / c)) := by
      field_simp
    rw [e]; exact h2
  have hsin : sin (π * c / c) = 0 := by rw [mul_div_cancel_right₀ _ hc.ne', sin_pi]
  have hcos : cos (π * c / c) = -1 := by rw [mul_div_cancel_right₀ _ hc.ne', cos_pi]
  constructor
  · intro x
    rw [hfe]
    rcases lt_trichotomy x c with h | h | h
    · rw [if_pos h]
      refine (hd x).congr_of_eventuallyEq ?_
      filter_upwards [Iio_mem_nhds h] with y hy
      exact if_pos hy
    · subst h
      rw [if_neg (lt_irrefl _)]
      have hl : HasDerivWithinAt (fun y => if y < x then 1 / 2 * (cos (π * y / x) + 1) else 0) 0 (Iic x) x := by
        have := (hd x).hasDerivWithinAt (s := Iic x)
        rw [hsin, mul_zero] at this
        refine this.congr_of_mem ?_ (by simp)
        intro y hy
        rcases (show y ≤ x from hy).lt_or_eq with h | h
        · exact if_pos h
        · rw [h, if_neg (lt_irrefl _), hcos]; norm_num
      have hr : HasDerivWithinAt (fun y => if y < x then 1 / 2 * (cos (π * y / x) + 1) else 0) 0 (Ici x) x := by
        refine (hasDerivWithinAt_const x (Ici x) (0 : ℝ)).congr_of_mem ?_ (by simp)
        intro y hy
        exact if_neg (not_lt.mpr hy)
      have := hl.union hr
      rwa [Iic_union_Ici, hasDerivWithinAt_univ] at this
    · rw [if_neg (not_lt.mpr h.le)]
      refine (hasDerivAt_const x (0 : ℝ)).congr_of_eventuallyEq ?_
      filter_upwards [Ioi_mem_nhds h] with y hy
      exact if_neg (not_lt.mpr (le_of_lt hy))
  · refine Continuous.if ?_ (by fun_prop) continuous_const
    intro x hx
    have : x = c := by
      have h := frontier_lt_subset_eq continuous_id continuous_const hx
      exact h
    rw [this, hsin, mul_zero]

/-- **C51.** On all distances `smooth_damping` is the restriction of an infinitely differentiable function whose value
and derivatives of every order vanish at the origin. -/
theorem C51_smooth_damping_derivatives (gamma : ℝ) (hg : 0 < gamma) :
    ∃ F : ℝ → ℝ, ContDiff ℝ ∞ F ∧ (∀ x, 0 ≤ x → smoothDamping x gamma = F x) ∧ ∀ n, iteratedDeriv n F 0 = 0 := by
  have hF : ContDiff ℝ ∞ fun x : ℝ => expNegInvGlue (exp (gamma * x) - 1) :=
    (expNegInvGlue.contDiff (n := ⊤)).comp (by fun_prop)
  have hz : ∀ x ≤ 0, (fun x : ℝ => expNegInvGlue (exp (gamma * x) - 1)) x = 0 := by
    intro x hx
    have : exp (gamma * x) ≤ 1 := exp_le_one_iff.mpr (by nlinarith)
    exact expNegInvGlue.zero_of_nonpos (by linarith)
  refine ⟨_, hF, ?_, ?_⟩
  · intro x hx
    obtain ⟨h0, hp, _⟩ := C51_smooth_damping gamma hg
    rcases hx.eq_or_lt with rfl | hx
    · rw [h0]; exact (hz 0 le_rfl).symm
    · rw [(hp x hx).2.2.2]
      have h1 : 1 < exp (gamma * x) := by rw [one_lt_exp_iff]; positivity
      show _ = if _ ≤ (0 : ℝ) then _ else _
      rw [if_neg (by linarith)]
      congr 2
      rw [exp_neg]
      have : exp (gamma * x) - 1 ≠ 0 := by linarith
      field_simp
  · intro n
    rcases eq_or_ne n 0 with rfl | hn
    · rw [iteratedDeriv_zero]; exact hz 0 le_rfl
    · exact iteratedDeriv_zero_of_flat _ hF 0 0 hz n hn

/-- **C44.** For `x0 < x1` there is an infinitely differentiable function, 0 up to `x0` and 1 from `x1` on, with vanishing
derivatives of all positive orders at `x0` and `x1`, from which `smooth_switch` differs nowhere by more than
`exp(-(√3/2)(1/eps - 1/(1-eps)))` (far below the smallest positive number of a float type with this `eps`). -/
theorem C44_smooth_switch_limit (eps x0 x1 : ℝ) (h0 : 0 < eps) (h1 : eps < 1 / 2) (h : x0 < x1) :
    ∃ S : ℝ → ℝ, ContDiff ℝ ∞ S ∧ (∀ x ≤ x0, S x = 0) ∧ (∀ x, x1 ≤ x → S x = 1) ∧
      (∀ x, x0 < x → x < x1 → S x = (1 + exp (√3 / 2 * ((x1 - x0) / (x - x0) - (x1 - x0) / (x1 - x))))⁻¹) ∧
      (∀ n, n ≠ 0 → iteratedDeriv n S x0 = 0 ∧ iteratedDeriv n S x1 = 0) ∧
      ∀ x, ∃ y, smoothSwitch eps x x0 x1 = .ok y ∧ |y - S x| ≤ exp (-(√3 / 2 * (1 / eps - 1 / (1 - eps)))) := by
  have hd : 0 < x1 - x0 := by linarith
  have ha : (0 : ℝ) < √3 / 2 := by positivity
  set a : ℝ := √3 / 2 with hadef
  let g : ℝ → ℝ := fun t => expNegInvGlue (t / a)
  have hg : ContDiff ℝ ∞ g := (expNegInvGlue.contDiff (n := ⊤)).comp (contDiff_id.div_const a)
  have hgpos : ∀ t, 0 < t → g t = exp (-(a / t)) := by
    intro t ht
    show (if _ ≤ (0 : ℝ) then _ else _) = _
    rw [if_neg (by rw [not_le]; positivity), inv_div]
  have hgneg : ∀ t ≤ 0, g t = 0 := by
    intro t ht
    exact expNegInvGlue.zero_of_nonpos (div_nonpos_of_nonpos_of_nonneg ht ha.le)
  have hgnn : ∀ t, 0 ≤ g t := fun t => expNegInvGlue.nonneg _
  have hden : ∀ t, g t + g (1 - t) ≠ 0 := by
    intro t
    rcases lt_or_ge 0 t with ht | ht
    · have : 0 < g t := expNegInvGlue.pos_of_pos (by positivity)
      have := hgnn (1 - t)
      linarith
    · have : 0 < g (1 - t) := expNegInvGlue.pos_of_pos (div_pos (by linarith) ha)
      have := hgnn t
      linarith
  let T : ℝ → ℝ := fun t => g t / (g t + g (1 - t))
  have hT : ContDiff ℝ ∞ T := hg.div (hg.add (hg.comp (contDiff_const.sub contDiff_id))) hden
  have hTlow : ∀ t ≤ 0, T t = 0 := by intro t ht; show _ / _ = _; rw [hgneg t ht, zero_div]
  have hThigh : ∀ t, 1 ≤ t → T t = 1 := by
    intro t ht
    have hd := hden t
    show _ / _ = _
    rw [hgneg (1 - t) (by linarith), add_zero] at hd ⊢
    exact div_self hd
  have hTmid : ∀ t, 0 < t → t < 1 → T t = (1 + exp (a * (1 / t - 1 / (1 - t))))⁻¹ := by
    intro t h0 h1
    show _ / _ = _
    have e : g (1 - t) = g t * exp (a * (1 / t - 1 / (1 - t))) := by
      rw [hgpos t h0, hgpos (1 - t) (by linarith), ← exp_add]
      congr 1
      ring
    have hpos : 0 < g t := expNegInvGlue.pos_of_pos (by positivity)
    rw [e, ← mul_one_add, div_mul_eq_div_div, div_self hpos.ne', one_div]
  have hlin : ContDiff ℝ ∞ fun x : ℝ => (x - x0) / (x1 - x0) := (contDiff_id.sub contDiff_const).div_const _
  have hS : ContDiff ℝ ∞ fun x => T ((x - x0) / (x1 - x0)) := hT.comp hlin
  have hlow : ∀ x ≤ x0, (fun x => T ((x - x0) / (x1 - x0))) x = 0 := fun x hx =>
    hTlow _ (div_nonpos_of_nonpos_of_nonneg (by linarith) hd.le)
  have hhigh : ∀ x, x1 ≤ x → (fun x => T ((x - x0) / (x1 - x0))) x = 1 := fun x hx =>
    hThigh _ (by rw [le_div_iff₀ hd]; linarith)
  refine ⟨fun x => T ((x - x0) / (x1 - x0)), hS, hlow, hhigh, ?_, ?_, ?_⟩
  · intro x hx0 hx1
    dsimp only
    have p : 0 < x - x0 := by linarith
    have q : 0 < x1 - x := by linarith
    rw [hTmid _ (div_pos p hd) (by rw [div_lt_one hd]; linarith)]
    have e1 : 1 - (x - x0) / (x1 - x0) = (x1 - x) / (x1 - x0) := by field_simp; ring
    rw [e1, one_div_div, one_div_div]
  · intro n hn
    exact ⟨iteratedDeriv_zero_of_flat _ hS x0 0 hlow n hn, iteratedDeriv_zero_of_flat_above _ hS x1 1 hhigh n hn⟩
  · intro x
    refine ⟨switchValue eps ((x - x0) / (x1 - x0)), ?_, ?_⟩
    · unfold smoothSwitch
      rw [if_neg (not_le.mpr h), switchRescale_eq]
    · have := C44_smooth_switch_error eps ((x - x0) / (x1 - x0)) h0 h1
      dsimp only
      set t := (x - x0) / (x1 - x0)
      rw [← hadef] at this
      have e : T t = if t ≤ 0 then 0 else if 1 ≤ t then 1 else (1 + exp (a * (1 / t - 1 / (1 - t))))⁻¹ := by
        split_ifs with g0 g1
        · exact hTlow t g0
        · exact hThigh t g1
        · exact hTmid t (by linarith) (by linarith)
      rw [e]; exact this

example : ∃ F : ℝ → ℝ, ContDiff ℝ ∞ F ∧ smoothCutoff 1 2 = .ok (F 1) ∧ iteratedDeriv 3 F 2 = 0 := by
  obtain ⟨F, h1, h2, h3⟩ := C43_smooth_cutoff_derivatives 2 (by norm_num)
  exact ⟨F, h1, h2 1 (by norm_num), h3 3⟩

end E3x
