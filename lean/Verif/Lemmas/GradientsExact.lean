import Verif.Lemmas.Gradients
import Verif.Props.Smoothness
import Verif.Props.RadialBasis
import Verif.Props.Safe
import Mathlib.Analysis.Analytic.IsolatedZeros
import Mathlib.Analysis.SpecialFunctions.Trigonometric.Sinc
import Mathlib.Analysis.SpecialFunctions.Complex.Analytic
import Mathlib.Analysis.SpecialFunctions.Trigonometric.Complex
import Mathlib.Analysis.Calculus.ContDiff.Operations
import Mathlib.MeasureTheory.Integral.IntervalIntegral.FundThmCalculus

/-!
# The derivatives computed for the expressions in `Verif.Model.Gradients`
-/

namespace E3x.AD.Ex

noncomputable section

open Filter Topology Real
open scoped ContDiff

/-- near `t`, with selections fixed, `e` is the function `F` -/
structure Jet (e : Ex) (t : ℝ) (F : ℝ → ℝ) : Prop where
  reg : Regular e fun _ => t
  law : Lawful e fun _ => t
  loc : ∀ᶠ r in 𝓝 (fun _ : ℕ => t), Ex.loc (fun _ => t) e r = F (r 0)

namespace Jet

variable {a b e f k : Ex} {t : ℝ} {A B F G : ℝ → ℝ}

theorem val (h : Jet e t F) : Ex.val e (fun _ => t) = F t := by
  rw [← loc_self]; exact h.loc.self_of_nhds

theorem eval (h : Jet e t F) (n : ℕ) :
    Ex.eval (grads (List.replicate n 0) e) (fun _ => t) = some (iteratedDeriv n F t) :=
  eval_grads_one n e F t h.reg h.law h.loc

theorem tendsto_zero : Tendsto (fun r : ℕ → ℝ => r 0) (𝓝 fun _ => t) (𝓝 t) :=
  (continuous_apply 0).tendsto (fun _ : ℕ => t)

theorem congr (h : Jet e t F) (hFG : F =ᶠ[𝓝 t] G) : Jet e t G :=
  ⟨h.reg, h.law, by filter_upwards [h.loc, tendsto_zero.eventually hFG] with r h1 h2; rw [h1, h2]⟩

theorem continuousAt_loc (h : Jet e t F) : ∀ᶠ r in 𝓝 (fun _ : ℕ => t), ContinuousAt (Ex.loc (fun _ => t) e) r :=
  (exact e _ h.reg h.law).1

theorem tendsto_const : Tendsto (fun s : ℝ => (fun _ : ℕ => s)) (𝓝 t) (𝓝 fun _ => t) :=
  (continuous_pi fun _ => continuous_id).tendsto t

theorem loc_const' (h : Jet e t F) : ∀ᶠ s in 𝓝 t, Ex.loc (fun _ => t) e (fun _ => s) = F s :=
  tendsto_const.eventually h.loc

protected theorem x : Jet x t fun s => s := ⟨trivial, trivial, Eventually.of_forall fun _ => rfl⟩
protected theorem const (c : ℝ) : Jet (const c) t fun _ => c := ⟨trivial, trivial, Eventually.of_forall fun _ => rfl⟩
protected theorem add (ha : Jet a t A) (hb : Jet b t B) : Jet (a + b) t fun s => A s + B s :=
  ⟨⟨ha.reg, hb.reg⟩, ⟨ha.law, hb.law⟩, by
    filter_upwards [ha.loc, hb.loc] with r h1 h2; rw [loc_add, h1, h2]⟩
protected theorem mul (ha : Jet a t A) (hb : Jet b t B) : Jet (a * b) t fun s => A s * B s :=
  ⟨⟨ha.reg, hb.reg⟩, ⟨ha.law, hb.law⟩, by
    filter_upwards [ha.loc, hb.loc] with r h1 h2; rw [loc_mul, h1, h2]⟩
protected theorem neg (ha : Jet a t A) : Jet (-a) t fun s => -A s :=
  ⟨(reg_neg _ _).mpr ha.reg, (law_neg _ _).mpr ha.law, by filter_upwards [ha.loc] with r h1; rw [loc_neg, h1]⟩
protected theorem sub (ha : Jet a t A) (hb : Jet b t B) : Jet (a - b) t fun s => A s - B s :=
  ⟨(reg_sub _ _ _).mpr ⟨ha.reg, hb.reg⟩, (law_sub _ _ _).mpr ⟨ha.law, hb.law⟩, by
    filter_upwards [ha.loc, hb.loc] with r h1 h2; rw [loc_sub, h1, h2]⟩
protected theorem div (ha : Jet a t A) (hb : Jet b t B) (h : B t ≠ 0) : Jet (a / b) t fun s => A s / B s :=
  ⟨⟨ha.reg, hb.reg, by rw [hb.val]; exact h⟩, ⟨ha.law, hb.law⟩, by
    filter_upwards [ha.loc, hb.loc] with r h1 h2; rw [loc_div, h1, h2]⟩
protected theorem prim {f : ℝ → ℝ} (hf : ContDiff ℝ ∞ f) (ha : Jet a t A) : Jet (prim f 0 a) t fun s => f (A s) :=
  ⟨ha.reg, (law_prim _ _ f hf 0).mpr ha.law, by filter_upwards [ha.loc] with r h1; rw [loc_prim, h1]⟩
protected theorem exp (ha : Jet a t A) : Jet (exp a) t fun s => Real.exp (A s) := Jet.prim Real.contDiff_exp ha
protected theorem cos (ha : Jet a t A) : Jet (cos a) t fun s => Real.cos (A s) := Jet.prim Real.contDiff_cos ha
protected theorem log (ha : Jet a t A) (h : 0 < A t) : Jet (log a) t fun s => Real.log (A s) :=
  ⟨⟨ha.reg, by rw [ha.val]; exact h⟩, ha.law, by filter_upwards [ha.loc] with r h1; rw [loc_log, h1]⟩
protected theorem arccos (ha : Jet a t A) (h : |A t| < 1) : Jet (arccos a) t fun s => Real.arccos (A s) :=
  ⟨⟨ha.reg, by rw [ha.val]; exact h⟩, ha.law, by filter_upwards [ha.loc] with r h1; rw [loc_arccos, h1]⟩

/-- without singularities -/
def Ok (e : Ex) (t : ℝ) : Prop := Regular e (fun _ => t) ∧ Lawful e fun _ => t

theorem ok (h : Jet e t F) : Ok e t := ⟨h.reg, h.law⟩

theorem sel_left (hk : T k fun _ => t) (hko : Ok k t) (ha : Jet a t A) (hb : Ok b t) : Jet (sel k a b) t A :=
  ⟨⟨hko.1, ha.reg, hb.1⟩, ⟨hko.2, ha.law, hb.2⟩, by
    filter_upwards [ha.loc] with r h1; rw [loc_sel, if_pos hk, h1]⟩
theorem sel_right (hk : ¬ T k fun _ => t) (hko : Ok k t) (ha : Ok a t) (hb : Jet b t B) : Jet (sel k a b) t B :=
  ⟨⟨hko.1, ha.1, hb.reg⟩, ⟨hko.2, ha.2, hb.law⟩, by
    filter_upwards [hb.loc] with r h1; rw [loc_sel, if_neg hk, h1]⟩

theorem comp (ha : Jet a t A) (hf : Jet f (A t) F) : Jet (at' f a) t fun s => F (A s) := by
  refine ⟨reg_at' ha.reg (by rw [ha.val]; exact hf.reg), law_at' ha.law (by rw [ha.val]; exact hf.law), ?_⟩
  have h0 : Ex.loc (fun _ => t) a (fun _ => t) = A t := by rw [loc_self, ha.val]
  have h1 := ha.continuousAt_loc.self_of_nhds.tendsto
  rw [h0] at h1
  filter_upwards [ha.loc, h1.eventually hf.loc_const'] with r h2 h3
  rw [loc_at', ha.val, h3, h2]

theorem call {df : Ex} {F' : ℝ → ℝ} (hd : Jet df t F') (hreg : Regular f fun _ => t) (hval : Ex.val f (fun _ => t) = F t)
    (hF : ∀ᶠ s in 𝓝 t, HasDerivAt F (F' s) s) : Jet (call f df Ex.x) t F := by
  refine ⟨⟨trivial, hreg, hd.reg⟩, ⟨trivial, hd.law⟩, ?_⟩
  refine loc_call (a := Ex.x) (r0 := fun _ => t) (F := F) (continuous_apply 0).continuousAt hval.symm ?_ ?_
  · filter_upwards [hd.loc_const', hF] with s h1 h2
    exact h2.congr_deriv h1.symm
  · filter_upwards [tendsto_const.eventually hd.continuousAt_loc] with s h1
    exact ContinuousAt.comp (f := fun s : ℝ => (fun _ : ℕ => s)) h1 (continuous_pi fun _ => continuous_id).continuousAt

/-! conditions -/

theorem ok_lt (ha : Ok a t) (hb : Ok b t) : Ok (lt a b) t := ⟨⟨ha.1, hb.1⟩, ⟨ha.2, hb.2⟩⟩
theorem ok_eq (ha : Ok a t) (hb : Ok b t) : Ok (eq a b) t := ⟨⟨ha.1, hb.1⟩, ⟨ha.2, hb.2⟩⟩
theorem ok_le (ha : Ok a t) (hb : Ok b t) : Ok (le a b) t := ⟨(reg_le _ _ _).mpr ⟨ha.1, hb.1⟩, (law_le _ _ _).mpr ⟨ha.2, hb.2⟩⟩
theorem ok_or (ha : Ok a t) (hb : Ok b t) : Ok (or a b) t := ⟨(reg_or _ _ _).mpr ⟨ha.1, hb.1⟩, (law_or _ _ _).mpr ⟨ha.2, hb.2⟩⟩
theorem ok_and (ha : Ok a t) (hb : Ok b t) : Ok (and a b) t :=
  ⟨(reg_and _ _ _).mpr ⟨ha.1, hb.1⟩, (law_and _ _ _).mpr ⟨ha.2, hb.2⟩⟩
theorem ok_cond (p : Bool) : Ok (cond p) t := ⟨trivial, trivial⟩
theorem ok_x : Ok Ex.x t := ⟨trivial, trivial⟩
theorem ok_const (c : ℝ) : Ok (Ex.const c) t := ⟨trivial, trivial⟩
theorem ok_sel (hk : Ok k t) (ha : Ok a t) (hb : Ok b t) : Ok (sel k a b) t := ⟨⟨hk.1, ha.1, hb.1⟩, ⟨hk.2, ha.2, hb.2⟩⟩

end Jet

/-! ## smoothness of the primitives -/

theorem contDiff_expm1 : ContDiff ℝ ∞ fun t : ℝ => Real.exp t - 1 := by fun_prop

theorem contDiff_sinc : ContDiff ℝ ∞ Real.sinc := by
  refine contDiff_iff_contDiffAt.mpr fun t => ?_
  rcases eq_or_ne t 0 with rfl | ht
  · rw [sinc_eq_dslope]
    obtain ⟨p, hp⟩ := (analyticAt_sin (x := (0 : ℝ)) : AnalyticAt ℝ Real.sin 0)
    exact AnalyticAt.contDiffAt (f := dslope Real.sin 0) ⟨_, hp.has_fpower_series_dslope_fslope⟩
  · have h : Real.sinc =ᶠ[𝓝 t] fun s => Real.sin s / s := by
      filter_upwards [isOpen_ne.mem_nhds ht] with s hs
      exact sinc_of_ne_zero hs
    exact ((contDiff_sin.contDiffAt.div contDiffAt_id ht).congr_of_eventuallyEq h)

theorem jnpSinc_eq (t : ℝ) : jnpSinc t = Real.sinc (π * t) := by
  unfold jnpSinc
  split_ifs with h
  · simp [h]
  · rw [sinc_of_ne_zero (mul_ne_zero pi_ne_zero h)]

theorem contDiff_jnpSinc : ContDiff ℝ ∞ jnpSinc := by
  rw [show jnpSinc = fun t => Real.sinc (π * t) from funext jnpSinc_eq]
  exact contDiff_sinc.comp (contDiff_const.mul contDiff_id)

theorem contDiff_softplus : ContDiff ℝ ∞ softplus := by
  unfold softplus logaddexp
  refine ContDiff.log (by fun_prop) fun t => ?_
  positivity

theorem contDiff_siluGate : ContDiff ℝ ∞ siluGate := by
  unfold siluGate
  exact contDiff_const.div (by fun_prop) fun t => by positivity

theorem contDiff_tanh : ContDiff ℝ ∞ Real.tanh := by
  rw [show Real.tanh = fun t => Real.sinh t / Real.cosh t from funext Real.tanh_eq_sinh_div_cosh]
  exact Real.contDiff_sinh.div Real.contDiff_cosh fun t => (Real.cosh_pos t).ne'

theorem contDiff_erf : ContDiff ℝ ∞ erf := by
  have hc : Continuous fun t : ℝ => Real.exp (-t ^ 2) := by fun_prop
  have hd : ∀ t, HasDerivAt erf (2 / √π * Real.exp (-t ^ 2)) t := by
    intro t
    exact (intervalIntegral.integral_hasDerivAt_right (hc.intervalIntegrable _ _)
      hc.aestronglyMeasurable.stronglyMeasurableAtFilter hc.continuousAt).const_mul _
  rw [contDiff_infty_iff_deriv]
  refine ⟨fun t => (hd t).differentiableAt, ?_⟩
  rw [show deriv erf = fun t => 2 / √π * Real.exp (-t ^ 2) from funext fun t => (hd t).deriv]
  fun_prop

/-! ## the functions -/

open Jet

theorem jet_rescale (c t : ℝ) (hc : 0 < c) : Jet (if c ≠ 1 then x / const c else x) t fun s => s / c := by
  split_ifs with h
  · exact Jet.x.div (Jet.const c) hc.ne'
  · rw [not_ne_iff.mp h]
    exact Jet.x.congr (Eventually.of_forall fun s => (div_one s).symm)

theorem jet_smoothCutoff_lt (c t : ℝ) (hc : 0 < c) (h0 : 0 ≤ t) (h1 : t < c) :
    Jet (smoothCutoffEx c) t fun s => Real.exp (1 - 1 / (1 - s / c * (s / c))) := by
  have hx := jet_rescale c t hc
  have hlt : t / c < 1 := by rwa [div_lt_one hc]
  have h0' : 0 ≤ t / c := by positivity
  have hT : T (lt (if c ≠ 1 then x / const c else x) (const 1)) fun _ => t := by
    rw [T_lt, hx.val]; exact hlt
  have hk : Ok (lt (if c ≠ 1 then x / const c else x) (const 1)) t := ok_lt hx.ok (ok_const 1)
  have hs := sel_left hT hk hx (ok_const 0)
  refine sel_left hT hk (((Jet.const 1).sub ((Jet.const 1).div ((Jet.const 1).sub (hs.mul hs)) ?_)).exp) (ok_const 0)
  nlinarith

theorem jet_smoothCutoff_ge (c t : ℝ) (hc : 0 < c) (h1 : c ≤ t) : Jet (smoothCutoffEx c) t fun _ => 0 := by
  have hx := jet_rescale c t hc
  have hge : ¬ t / c < 1 := by rw [div_lt_one hc]; exact not_lt.mpr h1
  have hT : ¬ T (lt (if c ≠ 1 then x / const c else x) (const 1)) fun _ => t := by
    rw [T_lt, hx.val]; exact hge
  have hk : Ok (lt (if c ≠ 1 then x / const c else x) (const 1)) t := ok_lt hx.ok (ok_const 1)
  have hs := sel_right hT hk hx.ok (Jet.const 0)
  refine sel_right hT hk (((Jet.const 1).sub ((Jet.const 1).div ((Jet.const 1).sub (hs.mul hs)) ?_)).exp).ok (Jet.const 0)
  norm_num

theorem jet_cosineCutoff_lt (c t : ℝ) (hc : 0 < c) (h1 : t < c) :
    Jet (cosineCutoffEx c) t fun s => 0.5 * Real.cos (π * (s / c)) + 0.5 := by
  have hx := jet_rescale c t hc
  have hlt : t / c < 1 := by rwa [div_lt_one hc]
  exact sel_left (by rw [T_lt, hx.val]; exact hlt) (ok_lt hx.ok (ok_const 1))
    (((Jet.const 0.5).mul ((Jet.const π).mul hx).cos).add (Jet.const 0.5)) (ok_const 0)

theorem jet_cosineCutoff_ge (c t : ℝ) (hc : 0 < c) (h1 : c ≤ t) : Jet (cosineCutoffEx c) t fun _ => 0 := by
  have hx := jet_rescale c t hc
  have hge : ¬ t / c < 1 := by rw [div_lt_one hc]; exact not_lt.mpr h1
  exact sel_right (by rw [T_lt, hx.val]; exact hge) (ok_lt hx.ok (ok_const 1))
    (((Jet.const 0.5).mul ((Jet.const π).mul hx).cos).add (Jet.const 0.5)).ok (Jet.const 0)

theorem jet_shifted (t : ℝ) (h : 0 ≤ t) : Jet shiftedMappingEx t fun s => 1 / (s + 1) :=
  (Jet.const 1).div (Jet.x.add (Jet.const 1)) (by positivity)

theorem jet_cuspless (t : ℝ) : Jet cusplessMappingEx t fun s => 1 / (s + Real.exp (-s)) :=
  (Jet.const 1).div (Jet.x.add Jet.x.neg.exp) (cuspless_pos t).ne'

theorem jet_damped (eps t : ℝ) (he : 0 < eps) (h : eps ≤ t) :
    Jet (dampedMappingEx eps) t fun s => -(Real.exp (-s) - 1) / s := by
  have hT : ¬ T (lt x (const eps)) fun _ => t := by rw [T_lt]; exact not_lt.mpr h
  have hk : Ok (lt x (const eps)) t := ok_lt ok_x (ok_const _)
  have hs := sel_right hT hk (ok_const 1) Jet.x
  have h6 : Jet (const 1 - x / const 2 + x * x / const 6) t fun s => 1 - s / 2 + s * s / 6 :=
    ((Jet.const 1).sub (Jet.x.div (Jet.const 2) two_ne_zero)).add ((Jet.x.mul Jet.x).div (Jet.const 6) (by norm_num))
  exact sel_right hT hk h6.ok ((Jet.prim contDiff_expm1 hs.neg).neg.div hs (by linarith))

theorem jet_damped_small (eps t : ℝ) (h : t < eps) :
    Jet (dampedMappingEx eps) t fun s => 1 - s / 2 + s * s / 6 := by
  have hT : T (lt x (const eps)) fun _ => t := by rw [T_lt]; exact h
  have hk : Ok (lt x (const eps)) t := ok_lt ok_x (ok_const _)
  have hs := sel_left hT hk (Jet.const 1) (ok_x (t := t))
  have h6 : Jet (const 1 - x / const 2 + x * x / const 6) t fun s => 1 - s / 2 + s * s / 6 :=
    ((Jet.const 1).sub (Jet.x.div (Jet.const 2) two_ne_zero)).add ((Jet.x.mul Jet.x).div (Jet.const 6) (by norm_num))
  exact sel_left hT hk h6 ((Jet.prim contDiff_expm1 hs.neg).neg.div hs one_ne_zero).ok

theorem jet_exponential (gamma t : ℝ) (cuspless : Bool) :
    Jet (exponentialMappingEx gamma cuspless) t fun s => exponentialMapping s gamma cuspless := by
  unfold exponentialMappingEx exponentialMapping
  cases cuspless
  · exact ((Jet.const gamma).neg.mul Jet.x).exp
  · exact ((Jet.const gamma).neg.mul ((Jet.x.add Jet.x.neg.exp).sub (Jet.const 1))).exp

theorem jet_damping_pos (gamma t : ℝ) (hg : 0 < gamma) (h : 0 < t) :
    Jet (smoothDampingEx gamma) t fun s => Real.exp (-Real.exp (-gamma * s) / (1 - Real.exp (-gamma * s))) := by
  have he : Jet (exp (-const gamma * x)) t fun s => Real.exp (-gamma * s) := ((Jet.const gamma).neg.mul Jet.x).exp
  have hd := (Jet.const 1).sub he
  have hlt : Real.exp (-gamma * t) < 1 := by rw [Real.exp_lt_one_iff]; nlinarith
  have hm : 0 < (1 - Real.exp (-gamma * t)) * (1 - Real.exp (-gamma * t)) := by
    have : 0 < 1 - Real.exp (-gamma * t) := by linarith
    positivity
  have hT : T (lt (const 0) ((const 1 - exp (-const gamma * x)) * (const 1 - exp (-const gamma * x)))) fun _ => t := by
    rw [T_lt, (hd.mul hd).val]; exact hm
  have hk := ok_lt (ok_const (t := t) 0) (hd.mul hd).ok
  have hs := sel_left hT hk hd (ok_const 1)
  exact sel_left hT hk ((he.neg.div hs (by linarith)).exp) (ok_const 0)

theorem jet_damping_zero (gamma : ℝ) : Jet (smoothDampingEx gamma) 0 fun _ => 0 := by
  have he : Jet (exp (-const gamma * x)) 0 fun s => Real.exp (-gamma * s) := ((Jet.const gamma).neg.mul Jet.x).exp
  have hd := (Jet.const 1).sub he
  have hT : ¬ T (lt (const 0) ((const 1 - exp (-const gamma * x)) * (const 1 - exp (-const gamma * x)))) fun _ => (0 : ℝ) := by
    rw [T_lt, (hd.mul hd).val]; simp [val_const]
  have hk := ok_lt (ok_const (t := 0) 0) (hd.mul hd).ok
  have hs := sel_right hT hk hd.ok (Jet.const 1)
  exact sel_right hT hk ((he.neg.div hs one_ne_zero).exp).ok (Jet.const 0)

/-! ### the switch -/

/-- the switch between 0 and 1 -/
def switchFn (u : ℝ) : ℝ := 1 / (1 + switchExp u)

/-- its derivative, as it is coded -/
def switchFn' (u : ℝ) : ℝ :=
  -switchSlope * (-1 / (u * u) - 1 / ((1 - u) * (1 - u))) * switchExp u * (switchFn u * switchFn u)

theorem hasDerivAt_switchFn {u : ℝ} (h0 : 0 < u) (h1 : u < 1) : HasDerivAt switchFn (switchFn' u) u := by
  have hu1 : 1 - u ≠ 0 := by linarith
  have d1 : HasDerivAt (fun y : ℝ => 1 / y) (-1 / u ^ 2) u := by
    have := (hasDerivAt_id u).fun_inv h0.ne'
    simpa [one_div] using this
  have d2 : HasDerivAt (fun y : ℝ => 1 / (1 - y)) (1 / (1 - u) ^ 2) u := by
    have := ((hasDerivAt_id u).const_sub 1).fun_inv hu1
    simpa [one_div] using this
  have d3 := ((d1.sub d2).const_mul switchSlope).exp.const_add 1
  have hpos : 1 + Real.exp (switchSlope * (1 / u - 1 / (1 - u))) ≠ 0 := by positivity
  have d4 := d3.fun_inv hpos
  have e : switchFn = fun y => (1 + Real.exp (switchSlope * (1 / y - 1 / (1 - y))))⁻¹ := by
    funext y; unfold switchFn switchExp; rw [one_div]
  rw [e]
  refine d4.congr_deriv ?_
  unfold switchFn' switchFn switchExp
  simp only [one_div, Pi.sub_apply]
  field_simp

theorem jet_switchExp {a : Ex} {t : ℝ} {A : ℝ → ℝ} (ha : Jet a t A) (h0 : 0 < A t) (h1 : A t < 1) :
    Jet (switchExpEx a) t fun s => switchExp (A s) :=
  ((Jet.const switchSlope).mul (((Jet.const 1).div ha h0.ne').sub ((Jet.const 1).div ((Jet.const 1).sub ha)
    (sub_ne_zero.mpr h1.ne')))).exp

theorem switchExp_pos (u : ℝ) : 0 < switchExp u := Real.exp_pos _

theorem jet_switchTangent_mid {eps : ℝ} (he : 0 < eps) {a : Ex} {t : ℝ} {A : ℝ → ℝ} (ha : Jet a t A) (h0 : eps ≤ A t)
    (h1 : A t ≤ 1 - eps) : Jet (switchTangentEx eps a) t fun s => switchFn' (A s) := by
  have hl : Ok (lt a (const eps)) t := ok_lt ha.ok (ok_const _)
  have hg : Ok (lt (const (1 - eps)) a) t := ok_lt (ok_const _) ha.ok
  have nl : ¬ T (lt a (const eps)) fun _ => t := by rw [T_lt, ha.val]; exact not_lt.mpr h0
  have ng : ¬ T (lt (const (1 - eps)) a) fun _ => t := by rw [T_lt, ha.val]; exact not_lt.mpr h1
  have nlg : ¬ T (or (lt a (const eps)) (lt (const (1 - eps)) a)) fun _ => t := by rw [T_or]; tauto
  have hs := sel_right nlg (ok_or hl hg) (ok_const 0.5) ha
  have hA0 : 0 < A t := by linarith
  have hA1 : A t < 1 := by linarith
  have hx := jet_switchExp hs hA0 hA1
  have hp := switchExp_pos (A t)
  have hout := sel_right nl hl (ok_const 0) (sel_right ng hg (ok_const 1)
    ((Jet.const 1).div ((Jet.const 1).add hx) (by positivity)))
  have h1s := (Jet.const 1).sub hs
  have hraw := ((Jet.const (-switchSlope)).mul (((Jet.const (-1)).div (hs.mul hs) (mul_pos hA0 hA0).ne').sub
    ((Jet.const 1).div (h1s.mul h1s) (mul_pos (sub_pos.mpr hA1) (sub_pos.mpr hA1)).ne'))).mul hx |>.mul (hout.mul hout)
  refine sel_right ?_ (ok_or (ok_or hl hg) (ok_or (ok_eq (hout.mul hout).ok (ok_const 0)) (ok_eq hx.ok (ok_const 0))))
    (ok_const 0) hraw
  rw [T_or, T_or (eq _ _), T_eq, T_eq, (hout.mul hout).val, hx.val, val_const]
  rintro (h | h | h)
  · exact nlg h
  · have : 0 < 1 / (1 + switchExp (A t)) := by positivity
    exact (mul_pos this this).ne' h
  · exact hp.ne' h

theorem jet_switchTangent_out {eps : ℝ} {a : Ex} {t : ℝ} {A : ℝ → ℝ} (ha : Jet a t A)
    (h : A t < eps ∨ 1 - eps < A t) : Jet (switchTangentEx eps a) t fun _ => 0 := by
  have hl : Ok (lt a (const eps)) t := ok_lt ha.ok (ok_const _)
  have hg : Ok (lt (const (1 - eps)) a) t := ok_lt (ok_const _) ha.ok
  have nlg : T (or (lt a (const eps)) (lt (const (1 - eps)) a)) fun _ => t := by
    rw [T_or, T_lt, T_lt, ha.val]; exact h
  have hs := sel_left nlg (ok_or hl hg) (Jet.const 0.5) ha.ok
  have hx := jet_switchExp hs (by norm_num) (by norm_num)
  have hp := switchExp_pos 0.5
  have hq : Ok (const 1 / (const 1 + switchExpEx (sel (or (lt a (const eps)) (lt (const (1 - eps)) a)) (const 0.5) a))) t :=
    ((Jet.const 1).div ((Jet.const 1).add hx) (by positivity)).ok
  have hout := ok_sel hl (ok_const 0) (ok_sel hg (ok_const 1) hq)
  have hout2 : Ok (sel (lt a (const eps)) (const 0) (sel (lt (const (1 - eps)) a) (const 1)
      (const 1 / (const 1 + switchExpEx (sel (or (lt a (const eps)) (lt (const (1 - eps)) a)) (const 0.5) a)))) *
    sel (lt a (const eps)) (const 0) (sel (lt (const (1 - eps)) a) (const 1)
      (const 1 / (const 1 + switchExpEx (sel (or (lt a (const eps)) (lt (const (1 - eps)) a)) (const 0.5) a))))) t :=
    ⟨⟨hout.1, hout.1⟩, ⟨hout.2, hout.2⟩⟩
  have h1s := (Jet.const 1).sub hs
  have hraw := (((Jet.const (-switchSlope)).mul (((Jet.const (-1)).div (hs.mul hs) (by norm_num)).sub
    ((Jet.const 1).div (h1s.mul h1s) (by norm_num)))).mul hx).ok
  refine sel_left ?_ (ok_or (ok_or hl hg) (ok_or (ok_eq hout2 (ok_const 0)) (ok_eq hx.ok (ok_const 0))))
    (Jet.const 0) ⟨⟨hraw.1, hout2.1⟩, ⟨hraw.2, hout2.2⟩⟩
  rw [T_or]
  exact Or.inl nlg

theorem switchRescale_affine (x0 x1 s : ℝ) : switchRescale s x0 x1 = (s - x0) / (x1 - x0) := by
  unfold switchRescale
  split_ifs with h
  · rfl
  · push Not at h; rw [h.1, h.2]; simp

theorem switchValue_between {eps u : ℝ} (h0 : eps ≤ u) (h1 : u ≤ 1 - eps) : switchValue eps u = switchFn u := by
  unfold switchValue switchFn
  simp only [not_lt.mpr h0, not_lt.mpr h1, or_self, if_false]

theorem jet_switch_mid {eps x0 x1 t : ℝ} (he : 0 < eps) (h : x0 < x1) (h0 : eps ≤ (t - x0) / (x1 - x0))
    (h1 : (t - x0) / (x1 - x0) ≤ 1 - eps) : Jet (smoothSwitchEx eps x0 x1) t fun s => switchFn ((s - x0) / (x1 - x0)) := by
  have hd : 0 < x1 - x0 := by linarith
  have hfine := fine_smoothSwitch eps x0 x1 t he _ (by rw [smoothSwitch, if_neg (not_le.mpr h)])
  rw [switchRescale_affine, switchValue_between h0 h1] at hfine
  have hder : ∀ᶠ s in 𝓝 t, HasDerivAt (fun s => switchFn ((s - x0) / (x1 - x0)))
      (switchFn' ((s - x0) / (x1 - x0)) * (1 / (x1 - x0))) s := by
    have hc : Continuous fun s : ℝ => (s - x0) / (x1 - x0) := (continuous_id.sub continuous_const).div_const _
    filter_upwards [hc.continuousAt.eventually_mem (Ioo_mem_nhds (show 0 < (t - x0) / (x1 - x0) by linarith)
      (show (t - x0) / (x1 - x0) < 1 by linarith))] with s hs
    exact HasDerivAt.comp s (h₂ := switchFn) (hasDerivAt_switchFn hs.1 hs.2)
      (((hasDerivAt_id s).sub_const x0).div_const _)
  unfold smoothSwitchEx at hfine ⊢
  split_ifs at hfine ⊢ with hc
  · have ha : Jet ((x - const x0) / const (x1 - x0)) t fun s => (s - x0) / (x1 - x0) :=
      (Jet.x.sub (Jet.const x0)).div (Jet.const (x1 - x0)) hd.ne'
    exact Jet.call ((jet_switchTangent_mid he ha h0 h1).mul ((Jet.const 1).div (Jet.const _) hd.ne')) hfine.1.2.1 hfine.2 hder
  · push Not at hc
    have hid : ∀ s : ℝ, (s - x0) / (x1 - x0) = s := by intro s; rw [hc.1, hc.2]; simp
    rw [hid] at h0 h1
    refine Jet.call ((jet_switchTangent_mid he Jet.x h0 h1)) hfine.1.2.1 hfine.2 ?_
    filter_upwards [hder] with s hs
    refine hs.congr_deriv ?_
    rw [hid, hc.1, hc.2]
    simp

theorem jet_switch_out {eps x0 x1 t : ℝ} (he : 0 < eps) (h : x0 < x1)
    (ho : (t - x0) / (x1 - x0) < eps ∨ 1 - eps < (t - x0) / (x1 - x0)) :
    Jet (smoothSwitchEx eps x0 x1) t fun _ => switchValue eps ((t - x0) / (x1 - x0)) := by
  have hd : 0 < x1 - x0 := by linarith
  have hfine := fine_smoothSwitch eps x0 x1 t he _ (by rw [smoothSwitch, if_neg (not_le.mpr h)])
  rw [switchRescale_affine] at hfine
  unfold smoothSwitchEx at hfine ⊢
  split_ifs at hfine ⊢ with hc
  · have ha : Jet ((x - const x0) / const (x1 - x0)) t fun s => (s - x0) / (x1 - x0) :=
      (Jet.x.sub (Jet.const x0)).div (Jet.const (x1 - x0)) hd.ne'
    refine Jet.call ((jet_switchTangent_out ha ho).mul ((Jet.const 1).div (Jet.const _) hd.ne')) hfine.1.2.1 hfine.2 ?_
    refine Eventually.of_forall fun s => (hasDerivAt_const s _).congr_deriv ?_
    simp
  · push Not at hc
    have hid : ∀ s : ℝ, (s - x0) / (x1 - x0) = s := by intro s; rw [hc.1, hc.2]; simp
    rw [hid] at ho
    exact Jet.call (jet_switchTangent_out Jet.x ho) hfine.1.2.1 hfine.2
      (Eventually.of_forall fun s => hasDerivAt_const s _)

/-! ### Bernstein polynomials -/

theorem hasDerivAt_bernstein_succ (n v : ℕ) (s : ℝ) : HasDerivAt (Spec.bernstein (n + 1) v)
    (((n + 1 : ℕ) : ℝ) * ((if v = 0 then 0 else Spec.bernstein n (v - 1) s) - Spec.bernstein n v s)) s := by
  have hpoly : Spec.bernstein (n + 1) v = fun y => (bernsteinPolynomial ℝ (n + 1) v).eval y :=
    funext fun y => Spec.bernstein_eq_eval (n + 1) v y
  rw [hpoly]
  refine ((bernsteinPolynomial ℝ (n + 1) v).hasDerivAt s).congr_deriv ?_
  simp only [Spec.bernstein_eq_eval]
  rcases v with _ | v
  · rw [if_pos rfl, bernsteinPolynomial.derivative_zero]
    simp only [Nat.add_sub_cancel, Polynomial.eval_mul, Polynomial.eval_neg, Polynomial.eval_natCast]
    ring
  · rw [if_neg (by omega), bernsteinPolynomial.derivative_succ]
    simp only [Nat.add_sub_cancel, Polynomial.eval_mul, Polynomial.eval_sub, Polynomial.eval_natCast]

/-- where the polynomial is evaluated -/
def clampEps (eps t : ℝ) : ℝ := if t < eps then 0 else if 1 - eps < t then 1 else t

theorem bern_eq (eps t : ℝ) (h0 : 0 < eps) (h1 : eps < 1 / 2) (n v : ℕ) (hv : v ≤ n) :
    bern eps t n v = Spec.bernstein n v (clampEps eps t) := by
  have hb := bernstein_eq eps t n
  unfold clampEps
  split_ifs with h2 h3
  · exact (C45_ends eps t h1 n _ hb v hv).1 h2
  · exact (C45_ends eps t h1 n _ hb v hv).2 h3
  · exact C45_values eps t h0 (not_lt.mp h2) (not_lt.mp h3) n _ hb v hv

theorem jet_bernstein (eps t : ℝ) (h0 : 0 < eps) (h1 : eps < 1 / 2) (n : ℕ) : ∀ v, v ≤ n →
    Jet (bernsteinEx eps n v) t fun s => Spec.bernstein n v (s - t + clampEps eps t) := by
  induction n with
  | zero =>
    intro v hv
    obtain rfl : v = 0 := by omega
    have e : (fun s : ℝ => Spec.bernstein 0 0 (s - t + clampEps eps t)) = fun _ => 1 := by
      funext s; simp [Spec.bernstein]
    rw [e]
    unfold bernsteinEx
    exact Jet.call (F' := fun _ => 0) (Jet.const 0) trivial rfl (Eventually.of_forall fun s => hasDerivAt_const s 1)
  | succ n ih =>
    intro v hv
    have hlow : ∀ w, Jet (if w < n + 1 then bernsteinEx eps n w else const 0) t
        fun s => Spec.bernstein n w (s - t + clampEps eps t) := by
      intro w
      split_ifs with hw
      · exact ih w (by omega)
      · refine (Jet.const 0).congr (Eventually.of_forall fun s => ?_)
        beta_reduce
        rw [Spec.bernstein_eq_eval, bernsteinPolynomial.eq_zero_of_lt ℝ (by omega), Polynomial.eval_zero]
    have hshift : Jet (if v = 0 then const 0 else if v - 1 < n + 1 then bernsteinEx eps n (v - 1) else const 0) t
        fun s => if v = 0 then 0 else Spec.bernstein n (v - 1) (s - t + clampEps eps t) := by
      by_cases h : v = 0
      · simp only [if_pos h]; exact Jet.const 0
      · simp only [if_neg h]; exact hlow (v - 1)
    have hf := fine_bernsteinValue eps t h0 (n + 1) v (by omega)
    unfold bernsteinEx
    refine Jet.call ((Jet.const _).mul (hshift.sub (hlow v))) hf.1 ?_ (Eventually.of_forall fun s => ?_)
    · rw [hf.2, bern_eq eps t h0 h1 _ _ hv, sub_self, zero_add]
    · have hl : HasDerivAt (fun s : ℝ => s - t + clampEps eps t) 1 s :=
        ((hasDerivAt_id s).sub_const t).add_const _
      exact (HasDerivAt.comp s (h₂ := Spec.bernstein (n + 1) v) (hasDerivAt_bernstein_succ n v _) hl).congr_deriv
        (by rw [mul_one])

theorem jet_bernstein_mid (eps t : ℝ) (h0 : 0 < eps) (h1 : eps < 1 / 2) (n v : ℕ) (hv : v ≤ n) (h2 : eps ≤ t)
    (h3 : t ≤ 1 - eps) : Jet (bernsteinEx eps n v) t (Spec.bernstein n v) := by
  have h := jet_bernstein eps t h0 h1 n v hv
  rw [clampEps, if_neg (not_lt.mpr h2), if_neg (not_lt.mpr h3)] at h
  exact h.congr (Eventually.of_forall fun s => by beta_reduce; rw [sub_add_cancel])

/-! ### the other radial functions -/

open Polynomial in
theorem jet_chebyshev (eps t : ℝ) (h0 : 0 < eps) (h2 : -(1 - eps) ≤ t) (h3 : t ≤ 1 - eps) (num k : ℕ) (hk : k < num) :
    Jet (chebyshevEx eps num k) t fun s => (Chebyshev.T ℝ k).eval s := by
  unfold chebyshevEx
  split_ifs with hnum
  · obtain rfl : k = 0 := by omega
    exact (Jet.const 1).congr (Eventually.of_forall fun s => by simp)
  have hl : Ok (lt x (const (-(1 - eps)))) t := ok_lt ok_x (ok_const _)
  have hg : Ok (lt (const (1 - eps)) x) t := ok_lt (ok_const _) ok_x
  have nl : ¬ T (lt x (const (-(1 - eps)))) fun _ => t := by rw [T_lt]; exact not_lt.mpr h2
  have ng : ¬ T (lt (const (1 - eps)) x) fun _ => t := by rw [T_lt]; exact not_lt.mpr h3
  have nlg : ¬ T (or (lt x (const (-(1 - eps)))) (lt (const (1 - eps)) x)) fun _ => t := by rw [T_or]; tauto
  have hs := sel_right nlg (ok_or hl hg) (ok_const 0) Jet.x
  have habs : |t| < 1 := by rw [abs_lt]; constructor <;> linarith
  have hm := (Jet.x (t := t)).sub (Jet.const 1)
  have hp := (Jet.x (t := t)).add (Jet.const 1)
  have hmain := sel_right nl hl
    (((Jet.const ((-1) ^ k)).mul (((Jet.const 1).sub ((Jet.const (k * k : ℝ)).mul hp)).add
      (((Jet.const (1 / 6 * (k * k : ℝ) * (k * k - 1))).mul hp).mul hp))).ok)
    (sel_right ng hg (((Jet.const 1).add ((Jet.const (k * k : ℝ)).mul hm)).add
      (((Jet.const (1 / 6 * (k * k : ℝ) * (k * k - 1))).mul hm).mul hm)).ok
      ((Jet.const (k : ℝ)).mul (hs.arccos habs)).cos)
  refine Jet.congr hmain ?_
  have ha := abs_lt.mp habs
  filter_upwards [Ioo_mem_nhds ha.1 ha.2] with s hs
  have hc : s = Real.cos (Real.arccos s) := (cos_arccos hs.1.le hs.2.le).symm
  conv_rhs => rw [hc]
  rw [Chebyshev.T_real_cos]
  simp

theorem jet_chebyshev_large (eps t : ℝ) (h0 : eps < 1) (h : 1 - eps < t) (num k : ℕ) (hk : k < num) :
    Jet (chebyshevEx eps num k) t (Spec.chebyshevTaylor k) := by
  unfold chebyshevEx
  split_ifs with hnum
  · obtain rfl : k = 0 := by omega
    exact (Jet.const 1).congr (Eventually.of_forall fun s => by beta_reduce; rw [chebyshevTaylor_eq]; simp)
  have hl : Ok (lt x (const (-(1 - eps)))) t := ok_lt ok_x (ok_const _)
  have hg : Ok (lt (const (1 - eps)) x) t := ok_lt (ok_const _) ok_x
  have nl : ¬ T (lt x (const (-(1 - eps)))) fun _ => t := by rw [T_lt]; simp only [val_x, val_const]; linarith
  have ng : T (lt (const (1 - eps)) x) fun _ => t := by rw [T_lt]; exact h
  have nlg : T (or (lt x (const (-(1 - eps)))) (lt (const (1 - eps)) x)) fun _ => t := by rw [T_or]; exact Or.inr ng
  have hs := sel_left nlg (ok_or hl hg) (Jet.const 0) (ok_x (t := t))
  have hm := (Jet.x (t := t)).sub (Jet.const 1)
  have hp := (Jet.x (t := t)).add (Jet.const 1)
  have hmain := sel_right nl hl
    (((Jet.const ((-1) ^ k)).mul (((Jet.const 1).sub ((Jet.const (k * k : ℝ)).mul hp)).add
      (((Jet.const (1 / 6 * (k * k : ℝ) * (k * k - 1))).mul hp).mul hp))).ok)
    (sel_left ng hg (((Jet.const 1).add ((Jet.const (k * k : ℝ)).mul hm)).add
      (((Jet.const (1 / 6 * (k * k : ℝ) * (k * k - 1))).mul hm).mul hm))
      ((Jet.const (k : ℝ)).mul (hs.arccos (by norm_num))).cos.ok)
  exact hmain.congr (Eventually.of_forall fun s => by beta_reduce; rw [chebyshevTaylor_eq])

theorem jet_chebyshev_small (eps t : ℝ) (h : t < -(1 - eps)) (num k : ℕ) (hk : k < num) :
    Jet (chebyshevEx eps num k) t fun s => (-1) ^ k * Spec.chebyshevTaylor k (-s) := by
  unfold chebyshevEx
  split_ifs with hnum
  · obtain rfl : k = 0 := by omega
    exact (Jet.const 1).congr (Eventually.of_forall fun s => by beta_reduce; rw [chebyshevTaylor_eq]; simp)
  have hl : Ok (lt x (const (-(1 - eps)))) t := ok_lt ok_x (ok_const _)
  have hg : Ok (lt (const (1 - eps)) x) t := ok_lt (ok_const _) ok_x
  have nl : T (lt x (const (-(1 - eps)))) fun _ => t := by rw [T_lt]; exact h
  have nlg : T (or (lt x (const (-(1 - eps)))) (lt (const (1 - eps)) x)) fun _ => t := by rw [T_or]; exact Or.inl nl
  have hs := sel_left nlg (ok_or hl hg) (Jet.const 0) (ok_x (t := t))
  have hm := (Jet.x (t := t)).sub (Jet.const 1)
  have hp := (Jet.x (t := t)).add (Jet.const 1)
  have hmain := sel_left nl hl
    ((Jet.const ((-1) ^ k)).mul (((Jet.const 1).sub ((Jet.const (k * k : ℝ)).mul hp)).add
      (((Jet.const (1 / 6 * (k * k : ℝ) * (k * k - 1))).mul hp).mul hp)))
    (ok_sel hg (((Jet.const 1).add ((Jet.const (k * k : ℝ)).mul hm)).add
      (((Jet.const (1 / 6 * (k * k : ℝ) * (k * k - 1))).mul hm).mul hm)).ok
      ((Jet.const (k : ℝ)).mul (hs.arccos (by norm_num))).cos.ok)
  exact hmain.congr (Eventually.of_forall fun s => by beta_reduce; rw [chebyshevTaylor_eq]; ring)

theorem jet_gaussian (t : ℝ) (num : ℤ) (k : ℕ) : Jet (gaussianEx num k) t fun s =>
    Real.exp (-(√(2 * num) * (num - 1)) * (s - if num = 1 then 0 else (k : ℝ) / (num - 1)) ^ 2) := by
  have hs := (Jet.x (t := t)).sub (Jet.const (if num = 1 then 0 else (k : ℝ) / (num - 1)))
  refine Jet.congr (((Jet.const (√(2 * num) * (num - 1))).neg.mul (hs.mul hs)).exp) (Eventually.of_forall fun s => ?_)
  simp only [pow_two]

theorem jet_fourier (t : ℝ) (k : ℕ) : Jet (fourierEx k) t fun s => Real.cos (π * k * s) :=
  ((Jet.const (π * k)).mul Jet.x).cos

theorem jet_sinc_le (limit t : ℝ) (hl : 0 < limit) (h : t ≤ limit) (k : ℕ) :
    Jet (sincEx limit k) t fun s => jnpSinc ((k + 1 : ℕ) * (s / limit)) := by
  have hx := (Jet.x (t := t)).div (Jet.const limit) hl.ne'
  refine sel_left ?_ (ok_le hx.ok (ok_const 1)) (Jet.prim contDiff_jnpSinc ((Jet.const _).mul hx)) (ok_const 0)
  rw [T_le, hx.val]
  exact (div_le_one hl).mpr h

theorem jet_sinc_gt (limit t : ℝ) (hl : 0 < limit) (h : limit < t) (k : ℕ) : Jet (sincEx limit k) t fun _ => 0 := by
  have hx := (Jet.x (t := t)).div (Jet.const limit) hl.ne'
  refine sel_right ?_ (ok_le hx.ok (ok_const 1)) (Jet.prim contDiff_jnpSinc ((Jet.const _).mul hx)).ok (Jet.const 0)
  rw [T_le, hx.val, not_le]
  exact (one_lt_div hl).mpr h

theorem jet_mapped {f m : Ex} {t : ℝ} {F M : ℝ → ℝ} (hm : Jet m t M) (hf : Jet f (1 - M t) F) (w : Bool) :
    Jet (mappedEx f m w) t fun s => if w then F (1 - M s) * M s else F (1 - M s) := by
  have h := Jet.comp ((Jet.const 1).sub hm) hf
  unfold mappedEx
  cases w
  · exact h
  · exact h.mul hm

theorem jet_mappedChebyshev {f m : Ex} {t : ℝ} {F M : ℝ → ℝ} (hm : Jet m t M) (hf : Jet f (2 * M t - 1) F) (w : Bool) :
    Jet (mappedChebyshevEx f m w) t fun s => if w then F (2 * M s - 1) * M s else F (2 * M s - 1) := by
  have h := Jet.comp (((Jet.const 2).mul hm).sub (Jet.const 1)) hf
  unfold mappedChebyshevEx
  cases w
  · exact h
  · exact h.mul hm

/-! ### activations -/

theorem jet_silu (t : ℝ) : Jet siluEx t siluGate := Jet.prim contDiff_siluGate Jet.x

theorem jet_gelu (approximate : Bool) (t : ℝ) : Jet (geluEx approximate) t (geluGate approximate) := by
  unfold geluEx geluGate
  cases approximate
  · exact ((Jet.prim contDiff_erf (Jet.x.div (Jet.const (√2)) (by positivity))).add (Jet.const 1)).div (Jet.const 2) two_ne_zero
  · refine Jet.congr ((Jet.const 0.5).mul ((Jet.const 1.0).add (Jet.prim contDiff_tanh
      ((Jet.const (√(2 / π))).mul (Jet.x.add ((Jet.const 0.044715).mul ((Jet.x.mul Jet.x).mul Jet.x))))))) (Eventually.of_forall fun s => ?_)
    simp only [if_true]
    rw [show s * s * s = s ^ 3 by ring]

theorem jet_mish (fast : Bool) (t : ℝ) : Jet (mishEx fast) t (mishGate fast) := by
  unfold mishEx mishGate
  cases fast
  · exact Jet.prim contDiff_tanh (Jet.prim contDiff_softplus Jet.x)
  · have hy := (Jet.x (t := t)).neg.exp
    have hz := ((Jet.const 2).mul hy).add (Jet.const 1)
    exact hz.div (hz.add (((Jet.const 2).mul hy).mul hy)) (by positivity)

theorem jet_serf (t : ℝ) : Jet serfEx t serfGate := Jet.prim contDiff_erf (Jet.prim contDiff_softplus Jet.x)

/-! ## vectors -/

/-- a vector as values of the inputs -/
def vec (v : Fin 3 → ℝ) : ℕ → ℝ := fun k => if h : k < 3 then v ⟨k, h⟩ else 0

theorem val_normEx (v : Fin 3 → ℝ) : val normEx (vec v) = Spec.length v := by
  unfold Spec.length
  rw [Fin.sum_univ_three]
  rfl

theorem reg_normEx (r : ℕ → ℝ) : Regular normEx r := ⟨trivial, trivial, trivial⟩

theorem reg_unitEx (k : ℕ) (r : ℕ → ℝ) : Regular (unitEx k) r :=
  ⟨trivial, regular_masked (reg_normEx r)⟩

theorem reg_normalizeEx (tiny : ℝ) (ht : 0 ≤ tiny) (k : ℕ) (r : ℕ → ℝ) : Regular (normalizeEx tiny k) r := by
  refine ⟨trivial, ⟨⟨trivial, reg_normEx r, reg_normEx r⟩, reg_normEx r, trivial⟩, ?_⟩
  rw [val_sel]
  split_ifs with h
  · rw [T_lt, val_mul, val_const] at h
    intro h0
    rw [h0] at h
    linarith
  · exact one_ne_zero

theorem val_unitEx (v : Fin 3 → ℝ) (k : Fin 3) :
    val (unitEx k) (vec v) = v k / (if 0 < Spec.length v then Spec.length v else 1) := by
  unfold unitEx
  rw [val_div, val_sel, T_lt, val_normEx, val_const, val_var, val_const]
  simp [vec]

theorem val_normalizeEx (tiny : ℝ) (v : Fin 3 → ℝ) (k : Fin 3) :
    val (normalizeEx tiny k) (vec v) =
      v k / (if tiny < Spec.length v * Spec.length v then Spec.length v else 1) := by
  unfold normalizeEx
  rw [val_div, val_sel, T_lt, val_mul, val_normEx, val_const, val_var, val_const]
  simp [vec]

theorem reg_polynomialEx (ls : ℕ → List ℕ) (c : ℕ → ℝ) (m : ℕ) (r : ℕ → ℝ) : Regular (polynomialEx ls c m) r := by
  induction m with
  | zero => trivial
  | succ m ih =>
    exact ⟨ih, ⟨⟨reg_pow (a := var 0) trivial _, reg_pow (a := var 1) trivial _⟩, reg_pow (a := var 2) trivial _⟩, trivial⟩

theorem val_polynomialEx (ls : ℕ → List ℕ) (c : ℕ → ℝ) (m : ℕ) (r : ℕ → ℝ) : val (polynomialEx ls c m) r =
    ∑ i ∈ Finset.range m, r 0 ^ (ls i).getD 0 0 * r 1 ^ (ls i).getD 1 0 * r 2 ^ (ls i).getD 2 0 * c i := by
  induction m with
  | zero => rfl
  | succ m ih =>
    rw [Finset.sum_range_succ, polynomialEx, val_add, ih]
    simp only [val_mul, val_pow, val_var, val_const]

theorem law_pow {a : Ex} {r : ℕ → ℝ} (ha : Lawful a r) (n : ℕ) : Lawful (pow a n) r := by
  induction n with
  | zero => trivial
  | succ n ih => exact ⟨ih, ha⟩

theorem loc_pow (a : Ex) (r0 r : ℕ → ℝ) (n : ℕ) : loc r0 (pow a n) r = loc r0 a r ^ n := by
  induction n with
  | zero => rfl
  | succ n ih => rw [pow, loc_mul, ih, pow_succ]

theorem law_polynomialEx (ls : ℕ → List ℕ) (c : ℕ → ℝ) (m : ℕ) (r : ℕ → ℝ) : Lawful (polynomialEx ls c m) r := by
  induction m with
  | zero => trivial
  | succ m ih =>
    exact ⟨ih, ⟨⟨law_pow (a := var 0) trivial _, law_pow (a := var 1) trivial _⟩, law_pow (a := var 2) trivial _⟩, trivial⟩

theorem loc_polynomialEx (ls : ℕ → List ℕ) (c : ℕ → ℝ) (m : ℕ) (r0 r : ℕ → ℝ) :
    loc r0 (polynomialEx ls c m) r = val (polynomialEx ls c m) r := by
  induction m with
  | zero => rfl
  | succ m ih =>
    rw [polynomialEx, loc_add, val_add, ih]
    simp only [loc_mul, val_mul, loc_pow, val_pow, loc_var, val_var, loc_const, val_const]

theorem reg_basisEx (radial angular : ℕ → Ex) (cutoff damping : Option Ex) (r : ℕ → ℝ)
    (hr : ∀ f, Regular (radial f) fun _ => val normEx r) (ha : ∀ i, Regular (angular i) fun k => val (unitEx k) r)
    (hc : ∀ e ∈ cutoff, Regular e fun _ => val normEx r) (hd : ∀ e ∈ damping, Regular e fun _ => val normEx r)
    (i f : ℕ) : Regular (basisEx radial angular cutoff damping i f) r := by
  have h1 : Regular (at' (radial f) normEx) r := reg_at' (reg_normEx r) (hr f)
  have h2 : Regular (subst unitEx (angular i)) r := regular_subst _ _ (fun k => reg_unitEx k r) _ (ha i)
  have h4 : ∀ e ∈ cutoff, Regular (at' (radial f) normEx * at' e normEx) r := fun e he =>
    ⟨h1, reg_at' (reg_normEx r) (hc e he)⟩
  have h5 : ∀ e ∈ damping, Regular (at' e normEx) r := fun e he => reg_at' (reg_normEx r) (hd e he)
  clear hr ha hc hd
  unfold basisEx
  cases cutoff <;> cases damping <;> dsimp only
  · exact ⟨h2, h1⟩
  · split_ifs
    · exact ⟨⟨h2, h1⟩, h5 _ rfl⟩
    · exact ⟨h2, h1⟩
  · exact ⟨h2, h4 _ rfl⟩
  · split_ifs
    · exact ⟨⟨h2, h4 _ rfl⟩, h5 _ rfl⟩
    · exact ⟨h2, h4 _ rfl⟩

/-! ### away from the zero vector -/

theorem law_normEx {r : ℕ → ℝ} (h : 0 < val normEx r) : Lawful normEx r :=
  ⟨trivial, trivial, trivial, Real.sqrt_pos.mp h⟩

theorem loc_normEx (r0 r : ℕ → ℝ) : loc r0 normEx r = val normEx r := rfl

theorem continuous_normEx : Continuous (val normEx) := by
  have : val normEx = fun r : ℕ → ℝ => Real.sqrt (r 0 ^ 2 + r 1 ^ 2 + r 2 ^ 2) := rfl
  rw [this]
  fun_prop

theorem law_unitEx {r : ℕ → ℝ} (h : 0 < val normEx r) (k : ℕ) : Lawful (unitEx k) r :=
  ⟨trivial, ⟨trivial, law_normEx h⟩, law_normEx h, trivial⟩

theorem loc_unitEx {r0 : ℕ → ℝ} (h : 0 < val normEx r0) (k : ℕ) (r : ℕ → ℝ) :
    loc r0 (unitEx k) r = r k / val normEx r := by
  unfold unitEx
  rw [loc_div, loc_sel, if_pos (by rw [T_lt]; exact h)]
  rfl

theorem law_normalizeEx {tiny : ℝ} {r : ℕ → ℝ} (h : 0 < val normEx r) (k : ℕ) : Lawful (normalizeEx tiny k) r :=
  ⟨trivial, ⟨trivial, law_normEx h, law_normEx h⟩, law_normEx h, trivial⟩

theorem loc_normalizeEx {tiny : ℝ} {r0 : ℕ → ℝ} (h : tiny < val normEx r0 * val normEx r0) (k : ℕ) (r : ℕ → ℝ) :
    loc r0 (normalizeEx tiny k) r = r k / val normEx r := by
  unfold normalizeEx
  rw [loc_div, loc_sel, if_pos (by rw [T_lt]; exact h)]
  rfl

/-- a function of the norm -/
theorem germ_at {e : Ex} {r0 : ℕ → ℝ} {F : ℝ → ℝ} (h : 0 < val normEx r0) (he : Jet e (val normEx r0) F) :
    Regular (at' e normEx) r0 ∧ Lawful (at' e normEx) r0 ∧
      ∀ᶠ r in 𝓝 r0, loc r0 (at' e normEx) r = F (val normEx r) := by
  refine ⟨reg_at' (reg_normEx r0) he.reg, law_at' (law_normEx h) he.law, ?_⟩
  filter_upwards [continuous_normEx.continuousAt.eventually he.loc_const'] with r h3
  rw [loc_at', loc_normEx, h3]

/-- the radial part of `basis` -/
def radialPart (R : ℝ → ℝ) (C : Option (ℝ → ℝ)) (D : Option (ℝ → ℝ)) (i : ℕ) (t : ℝ) : ℝ :=
  R t * (match C with | some C => C t | none => 1) * (match D with | some D => if 1 ≤ i then D t else 1 | none => 1)

theorem germ_basis (radial : ℕ → Ex) (ls : ℕ → List ℕ) (c : ℕ → ℕ → ℝ) (m : ℕ) (cutoff damping : Option (Ex × (ℝ → ℝ)))
    (r0 : ℕ → ℝ) (h : 0 < val normEx r0) (f i : ℕ) {R : ℝ → ℝ} (hr : Jet (radial f) (val normEx r0) R)
    (hc : ∀ p ∈ cutoff, Jet p.1 (val normEx r0) p.2) (hd : ∀ p ∈ damping, Jet p.1 (val normEx r0) p.2) (is : List ℕ) :
    eval (grads is (basisEx radial (fun i => polynomialEx ls (c i) m) (cutoff.map Prod.fst) (damping.map Prod.fst) i f)) r0 =
      some (pds is (fun r => val (polynomialEx ls (c i) m) (fun k => r k / val normEx r) *
        radialPart R (cutoff.map Prod.snd) (damping.map Prod.snd) i (val normEx r)) r0) := by
  have hR := germ_at h hr
  have hA : Regular (subst unitEx (polynomialEx ls (c i) m)) r0 ∧ Lawful (subst unitEx (polynomialEx ls (c i) m)) r0 ∧
      ∀ r, loc r0 (subst unitEx (polynomialEx ls (c i) m)) r =
        val (polynomialEx ls (c i) m) fun k => r k / val normEx r := by
    refine ⟨regular_subst _ _ (fun k => reg_unitEx k r0) _ (reg_polynomialEx _ _ _ _),
      lawful_subst _ _ (fun k => law_unitEx h k) _ (law_polynomialEx _ _ _ _), fun r => ?_⟩
    rw [loc_subst, loc_polynomialEx]
    congr 1
    funext k
    exact loc_unitEx h k r
  have key : ∀ e : Ex, Regular e r0 → Lawful e r0 → (∀ᶠ r in 𝓝 r0, loc r0 e r =
      val (polynomialEx ls (c i) m) (fun k => r k / val normEx r) *
        radialPart R (cutoff.map Prod.snd) (damping.map Prod.snd) i (val normEx r)) →
      eval (grads is e) r0 = some (pds is (fun r => val (polynomialEx ls (c i) m) (fun k => r k / val normEx r) *
        radialPart R (cutoff.map Prod.snd) (damping.map Prod.snd) i (val normEx r)) r0) := by
    intro e h1 h2 h3
    rw [eval_grads is e r0 h1 h2, (pds_congr is h3).self_of_nhds]
  apply key
  all_goals clear key
  all_goals
    rcases cutoff with _ | ⟨ec, C⟩ <;> rcases damping with _ | ⟨ed, D⟩ <;>
    simp only [Option.map_none, Option.map_some, basisEx, radialPart]
  · exact ⟨hA.1, hR.1⟩
  · have hD := germ_at h (hd _ rfl)
    split_ifs
    · exact ⟨⟨hA.1, hR.1⟩, hD.1⟩
    · exact ⟨hA.1, hR.1⟩
  · have hC := germ_at h (hc _ rfl)
    exact ⟨hA.1, hR.1, hC.1⟩
  · have hC := germ_at h (hc _ rfl)
    have hD := germ_at h (hd _ rfl)
    split_ifs
    · exact ⟨⟨hA.1, hR.1, hC.1⟩, hD.1⟩
    · exact ⟨hA.1, hR.1, hC.1⟩
  · exact ⟨hA.2.1, hR.2.1⟩
  · have hD := germ_at h (hd _ rfl)
    split_ifs
    · exact ⟨⟨hA.2.1, hR.2.1⟩, hD.2.1⟩
    · exact ⟨hA.2.1, hR.2.1⟩
  · have hC := germ_at h (hc _ rfl)
    exact ⟨hA.2.1, hR.2.1, hC.2.1⟩
  · have hC := germ_at h (hc _ rfl)
    have hD := germ_at h (hd _ rfl)
    split_ifs
    · exact ⟨⟨hA.2.1, hR.2.1, hC.2.1⟩, hD.2.1⟩
    · exact ⟨hA.2.1, hR.2.1, hC.2.1⟩
  · filter_upwards [hR.2.2] with r h1
    rw [loc_mul, hA.2.2, h1]; ring
  · have hD := germ_at h (hd _ rfl)
    split_ifs
    · filter_upwards [hR.2.2, hD.2.2] with r h1 h2
      rw [loc_mul, loc_mul, hA.2.2, h1, h2]; ring
    · filter_upwards [hR.2.2] with r h1
      rw [loc_mul, hA.2.2, h1]; ring
  · have hC := germ_at h (hc _ rfl)
    filter_upwards [hR.2.2, hC.2.2] with r h1 h2
    rw [loc_mul, loc_mul, hA.2.2, h1, h2]; ring
  · have hC := germ_at h (hc _ rfl)
    have hD := germ_at h (hd _ rfl)
    split_ifs
    · filter_upwards [hR.2.2, hC.2.2, hD.2.2] with r h1 h2 h3
      rw [loc_mul, loc_mul, loc_mul, hA.2.2, h1, h2, h3]; ring
    · filter_upwards [hR.2.2, hC.2.2] with r h1 h2
      rw [loc_mul, loc_mul, hA.2.2, h1, h2]; ring

end

end E3x.AD.Ex
