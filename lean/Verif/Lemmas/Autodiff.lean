import Verif.Model.Autodiff
import Mathlib.Analysis.Calculus.IteratedDeriv.Lemmas
import Mathlib.Analysis.SpecialFunctions.Log.Deriv
import Mathlib.Analysis.SpecialFunctions.Sqrt
import Mathlib.Analysis.SpecialFunctions.Trigonometric.InverseDeriv
import Mathlib.MeasureTheory.Integral.IntervalIntegral.FundThmCalculus

/-!
# Automatic differentiation: finite results and their meaning
-/

namespace E3x.AD

noncomputable section

open Filter Topology
open scoped ContDiff

namespace Ex

theorem add_def (a b : Ex) : a + b = add a b := rfl
theorem mul_def (a b : Ex) : a * b = mul a b := rfl
theorem div_def (a b : Ex) : a / b = div a b := rfl
theorem sub_def (a b : Ex) : a - b = add a (mul (const (-1)) b) := rfl
theorem neg_def (a : Ex) : -a = mul (const (-1)) a := rfl

open Classical in
/-- evaluation with the totalised operations of the real numbers -/
def val : Ex → (ℕ → ℝ) → ℝ
  | var i, r => r i
  | const c, _ => c
  | add a b, r => val a r + val b r
  | mul a b, r => val a r * val b r
  | div a b, r => val a r / val b r
  | prim f n a, r => iteratedDeriv n f (val a r)
  | log a, r => Real.log (val a r)
  | sqrt a, r => Real.sqrt (val a r)
  | arccos a, r => Real.arccos (val a r)
  | lt a b, r => if val a r < val b r then 1 else 0
  | eq a b, r => if val a r = val b r then 1 else 0
  | sel k a b, r => if 0 < val k r then val a r else val b r
  | norm a b c, r => Real.sqrt (val a r ^ 2 + val b r ^ 2 + val c r ^ 2)
  | call f _ a, r => val f fun _ => val a r

/-- no division by zero and no singular derivative, in any branch -/
def Regular : Ex → (ℕ → ℝ) → Prop
  | var _, _ => True
  | const _, _ => True
  | add a b, r => Regular a r ∧ Regular b r
  | mul a b, r => Regular a r ∧ Regular b r
  | div a b, r => Regular a r ∧ Regular b r ∧ val b r ≠ 0
  | prim _ _ a, r => Regular a r
  | log a, r => Regular a r ∧ 0 < val a r
  | sqrt a, r => Regular a r ∧ 0 < val a r
  | arccos a, r => Regular a r ∧ |val a r| < 1
  | lt a b, r => Regular a r ∧ Regular b r
  | eq a b, r => Regular a r ∧ Regular b r
  | sel k a b, r => Regular k r ∧ Regular a r ∧ Regular b r
  | norm a b c, r => Regular a r ∧ Regular b r ∧ Regular c r
  | call f df a, r => Regular a r ∧ Regular f (fun _ => val a r) ∧ Regular df (fun _ => val a r)

theorem eval_of_regular (e : Ex) : ∀ r, Regular e r → eval e r = some (val e r) := by
  induction e with
  | var i => intro r _; rfl
  | const c => intro r _; rfl
  | add a b iha ihb => intro r h; simp [eval, val, iha r h.1, ihb r h.2]
  | mul a b iha ihb => intro r h; simp [eval, val, iha r h.1, ihb r h.2]
  | div a b iha ihb => intro r h; simp [eval, val, iha r h.1, ihb r h.2.1, h.2.2]
  | prim f n a iha => intro r h; simp [eval, val, iha r h]
  | log a iha => intro r h; simp [eval, val, iha r h.1, not_le.mpr h.2]
  | sqrt a iha => intro r h; simp [eval, val, iha r h.1, not_lt.mpr h.2.le]
  | arccos a iha => intro r h; simp [eval, val, iha r h.1, h.2.le]
  | lt a b iha ihb => intro r h; simp [eval, val, iha r h.1, ihb r h.2]
  | eq a b iha ihb => intro r h; simp [eval, val, iha r h.1, ihb r h.2]
  | sel k a b ihk iha ihb =>
    intro r h
    simp only [eval, val, ihk r h.1, iha r h.2.1, ihb r h.2.2, Option.bind_eq_bind, Option.bind_some]
    split_ifs <;> rfl
  | norm a b c iha ihb ihc => intro r h; simp [eval, val, iha r h.1, ihb r h.2.1, ihc r h.2.2]
  | call f df a ihf _ iha => intro r h; simp [eval, val, iha r h.1, ihf _ h.2.1]

theorem val_subst (s : ℕ → Ex) (r : ℕ → ℝ) (e : Ex) : val (subst s e) r = val e fun i => val (s i) r := by
  induction e with
  | call f df a _ _ iha => simp only [subst, val, iha]
  | _ => simp_all only [subst, val]

theorem regular_subst (s : ℕ → Ex) (r : ℕ → ℝ) (hs : ∀ i, Regular (s i) r) (e : Ex)
    (h : Regular e fun i => val (s i) r) : Regular (subst s e) r := by
  induction e with
  | var i => exact hs i
  | const c => trivial
  | add a b iha ihb => exact ⟨iha h.1, ihb h.2⟩
  | mul a b iha ihb => exact ⟨iha h.1, ihb h.2⟩
  | div a b iha ihb => exact ⟨iha h.1, ihb h.2.1, by rw [val_subst]; exact h.2.2⟩
  | prim f n a iha => exact iha h
  | log a iha => exact ⟨iha h.1, by rw [val_subst]; exact h.2⟩
  | sqrt a iha => exact ⟨iha h.1, by rw [val_subst]; exact h.2⟩
  | arccos a iha => exact ⟨iha h.1, by rw [val_subst]; exact h.2⟩
  | lt a b iha ihb => exact ⟨iha h.1, ihb h.2⟩
  | eq a b iha ihb => exact ⟨iha h.1, ihb h.2⟩
  | sel k a b ihk iha ihb => exact ⟨ihk h.1, iha h.2.1, ihb h.2.2⟩
  | norm a b c iha ihb ihc => exact ⟨iha h.1, ihb h.2.1, ihc h.2.2⟩
  | call f df a _ _ iha => exact ⟨iha h.1, by rw [val_subst]; exact h.2.1, by rw [val_subst]; exact h.2.2⟩

theorem regular_masked {a b c : Ex} {r : ℕ → ℝ} (h : Regular (norm a b c) r) :
    Regular (sel (lt (const 0) (norm a b c)) (norm a b c) (const 1)) r ∧
      val (sel (lt (const 0) (norm a b c)) (norm a b c) (const 1)) r ≠ 0 := by
  refine ⟨⟨⟨trivial, h⟩, h, trivial⟩, ?_⟩
  change (if 0 < val (lt (const 0) (norm a b c)) r then val (norm a b c) r else 1) ≠ 0
  by_cases h2 : 0 < val (norm a b c) r
  · rw [show val (lt (const 0) (norm a b c)) r = 1 from if_pos h2, if_pos one_pos]; exact h2.ne'
  · rw [show val (lt (const 0) (norm a b c)) r = 0 from if_neg h2, if_neg (lt_irrefl _)]; exact one_ne_zero

/-- differentiating a regular expression gives a regular expression -/
theorem regular_bp (e : Ex) : ∀ (ct : Ex) (i : ℕ) (r : ℕ → ℝ), Regular e r → Regular ct r → Regular (bp e ct i) r := by
  induction e with
  | var j => intro ct i r _ hc; unfold bp; split_ifs; exacts [hc, trivial]
  | const c => intro ct i r _ _; trivial
  | add a b iha ihb => intro ct i r h hc; exact ⟨iha _ _ _ h.1 hc, ihb _ _ _ h.2 hc⟩
  | mul a b iha ihb => intro ct i r h hc; exact ⟨iha _ _ _ h.1 ⟨hc, h.2⟩, ihb _ _ _ h.2 ⟨h.1, hc⟩⟩
  | div a b iha ihb =>
    intro ct i r h hc
    exact ⟨iha _ _ _ h.1 ⟨hc, h.2.1, h.2.2⟩, ihb _ _ _ h.2.1
      ⟨⟨⟨trivial, hc⟩, h.1⟩, ⟨h.2.1, h.2.1⟩, mul_ne_zero h.2.2 h.2.2⟩⟩
  | prim f n a iha => intro ct i r h hc; exact iha _ _ _ h ⟨hc, h⟩
  | log a iha => intro ct i r h hc; exact iha _ _ _ h.1 ⟨hc, h.1, h.2.ne'⟩
  | sqrt a iha =>
    intro ct i r h hc
    exact iha _ _ _ h.1 ⟨hc, trivial, h, (Real.sqrt_pos.mpr h.2).ne'⟩
  | arccos a iha =>
    intro ct i r h hc
    have h1 : 0 < val (const 1 - a * a) r := by
      change 0 < 1 + -1 * (val a r * val a r)
      have := abs_lt.mp h.2
      nlinarith
    exact iha _ _ _ h.1 ⟨⟨trivial, hc⟩, ⟨⟨trivial, trivial, h.1, h.1⟩, h1⟩, (Real.sqrt_pos.mpr h1).ne'⟩
  | lt a b _ _ => intro ct i r _ _; trivial
  | eq a b _ _ => intro ct i r _ _; trivial
  | sel k a b _ iha ihb =>
    intro ct i r h hc
    exact ⟨iha _ _ _ h.2.1 ⟨h.1, hc, trivial⟩, ihb _ _ _ h.2.2 ⟨h.1, trivial, hc⟩⟩
  | norm a b c iha ihb ihc =>
    intro ct i r h hc
    have hm := regular_masked h
    exact ⟨⟨iha _ _ _ h.1 ⟨⟨hc, hm⟩, h.1⟩, ihb _ _ _ h.2.1 ⟨⟨hc, hm⟩, h.2.1⟩⟩, ihc _ _ _ h.2.2 ⟨⟨hc, hm⟩, h.2.2⟩⟩
  | call f df a _ _ iha =>
    intro ct i r h hc
    exact iha _ _ _ h.1 ⟨hc, regular_subst _ _ (fun _ => h.1) _ h.2.2⟩

theorem regular_grads (is : List ℕ) : ∀ (e : Ex) (r : ℕ → ℝ), Regular e r → Regular (grads is e) r := by
  induction is with
  | nil => exact fun e r h => h
  | cons i is ih => exact fun e r h => ih _ _ (regular_bp e _ i r h trivial)

theorem finite_grads (is : List ℕ) (e : Ex) (r : ℕ → ℝ) (h : Regular e r) : ∃ y, eval (grads is e) r = some y :=
  ⟨_, eval_of_regular _ _ (regular_grads is e r h)⟩

/-! ## the function computed near a point, with all selections fixed -/

/-- The function that `e` computes if all comparisons keep the outcome they have at `r0`; functions with a hand-written
derivative are replaced by the function with this derivative and the same value at `r0`. -/
def loc : (r0 : ℕ → ℝ) → Ex → (ℕ → ℝ) → ℝ
  | _, var i, r => r i
  | _, const c, _ => c
  | r0, add a b, r => loc r0 a r + loc r0 b r
  | r0, mul a b, r => loc r0 a r * loc r0 b r
  | r0, div a b, r => loc r0 a r / loc r0 b r
  | r0, prim f n a, r => iteratedDeriv n f (loc r0 a r)
  | r0, log a, r => Real.log (loc r0 a r)
  | r0, sqrt a, r => Real.sqrt (loc r0 a r)
  | r0, arccos a, r => Real.arccos (loc r0 a r)
  | r0, lt a b, _ => val (lt a b) r0
  | r0, eq a b, _ => val (eq a b) r0
  | r0, sel k a b, r => if 0 < val k r0 then loc r0 a r else loc r0 b r
  | r0, norm a b c, r => Real.sqrt (loc r0 a r ^ 2 + loc r0 b r ^ 2 + loc r0 c r ^ 2)
  | r0, call f df a, r => val f (fun _ => val a r0) +
      ∫ t in (val a r0)..(loc r0 a r), loc (fun _ => val a r0) df fun _ => t

theorem loc_self (e : Ex) : ∀ r, loc r e r = val e r := by
  induction e with
  | call f df a _ _ iha => intro r; simp only [loc, val, iha, intervalIntegral.integral_same, add_zero]
  | lt a b _ _ => intro r; rfl
  | eq a b _ _ => intro r; rfl
  | _ => intro r; simp_all only [loc, val]

theorem loc_subst (s : ℕ → Ex) (r0 r : ℕ → ℝ) (e : Ex) :
    loc r0 (subst s e) r = loc (fun i => val (s i) r0) e fun i => loc r0 (s i) r := by
  induction e with
  | call f df a _ _ iha => simp only [subst, loc, iha, val_subst]
  | lt a b _ _ => simp only [subst, loc, val, val_subst]
  | eq a b _ _ => simp only [subst, loc, val, val_subst]
  | sel k a b _ iha ihb => simp only [subst, loc, val_subst, iha, ihb]
  | _ => simp_all only [subst, loc]

/-- all primitives are smooth and norms are positive -/
def Lawful : Ex → (ℕ → ℝ) → Prop
  | var _, _ => True
  | const _, _ => True
  | add a b, r => Lawful a r ∧ Lawful b r
  | mul a b, r => Lawful a r ∧ Lawful b r
  | div a b, r => Lawful a r ∧ Lawful b r
  | prim f _ a, r => Lawful a r ∧ ∀ n, Differentiable ℝ (iteratedDeriv n f)
  | log a, r => Lawful a r
  | sqrt a, r => Lawful a r
  | arccos a, r => Lawful a r
  | lt a b, r => Lawful a r ∧ Lawful b r
  | eq a b, r => Lawful a r ∧ Lawful b r
  | sel k a b, r => Lawful k r ∧ Lawful a r ∧ Lawful b r
  | norm a b c, r => Lawful a r ∧ Lawful b r ∧ Lawful c r ∧ 0 < val a r ^ 2 + val b r ^ 2 + val c r ^ 2
  | call _ df a, r => Lawful a r ∧ Lawful df (fun _ => val a r)

theorem lawful_subst (s : ℕ → Ex) (r : ℕ → ℝ) (hs : ∀ i, Lawful (s i) r) (e : Ex)
    (h : Lawful e fun i => val (s i) r) : Lawful (subst s e) r := by
  induction e with
  | var i => exact hs i
  | const c => trivial
  | add a b iha ihb => exact ⟨iha h.1, ihb h.2⟩
  | mul a b iha ihb => exact ⟨iha h.1, ihb h.2⟩
  | div a b iha ihb => exact ⟨iha h.1, ihb h.2⟩
  | prim f n a iha => exact ⟨iha h.1, h.2⟩
  | log a iha => exact iha h
  | sqrt a iha => exact iha h
  | arccos a iha => exact iha h
  | lt a b iha ihb => exact ⟨iha h.1, ihb h.2⟩
  | eq a b iha ihb => exact ⟨iha h.1, ihb h.2⟩
  | sel k a b ihk iha ihb => exact ⟨ihk h.1, iha h.2.1, ihb h.2.2⟩
  | norm a b c iha ihb ihc => exact ⟨iha h.1, ihb h.2.1, ihc h.2.2.1, by simp only [val_subst]; exact h.2.2.2⟩
  | call f df a _ _ iha =>
    refine ⟨iha h.1, ?_⟩
    rw [val_subst]
    exact h.2

theorem lawful_bp (e : Ex) : ∀ (ct : Ex) (i : ℕ) (r : ℕ → ℝ), Lawful e r → Lawful ct r → Lawful (bp e ct i) r := by
  induction e with
  | var j => intro ct i r _ hc; unfold bp; split_ifs; exacts [hc, trivial]
  | const c => intro ct i r _ _; trivial
  | add a b iha ihb => intro ct i r h hc; exact ⟨iha _ _ _ h.1 hc, ihb _ _ _ h.2 hc⟩
  | mul a b iha ihb => intro ct i r h hc; exact ⟨iha _ _ _ h.1 ⟨hc, h.2⟩, ihb _ _ _ h.2 ⟨h.1, hc⟩⟩
  | div a b iha ihb =>
    intro ct i r h hc
    exact ⟨iha _ _ _ h.1 ⟨hc, h.2⟩, ihb _ _ _ h.2 ⟨⟨⟨trivial, hc⟩, h.1⟩, ⟨h.2, h.2⟩⟩⟩
  | prim f n a iha => intro ct i r h hc; exact iha _ _ _ h.1 ⟨hc, h⟩
  | log a iha => intro ct i r h hc; exact iha _ _ _ h ⟨hc, h⟩
  | sqrt a iha => intro ct i r h hc; exact iha _ _ _ h ⟨hc, trivial, h⟩
  | arccos a iha => intro ct i r h hc; exact iha _ _ _ h ⟨⟨trivial, hc⟩, trivial, trivial, h, h⟩
  | lt a b _ _ => intro ct i r _ _; trivial
  | eq a b _ _ => intro ct i r _ _; trivial
  | sel k a b _ iha ihb =>
    intro ct i r h hc
    exact ⟨iha _ _ _ h.2.1 ⟨h.1, hc, trivial⟩, ihb _ _ _ h.2.2 ⟨h.1, trivial, hc⟩⟩
  | norm a b c iha ihb ihc =>
    intro ct i r h hc
    have hm : Lawful (sel (lt (const 0) (norm a b c)) (norm a b c) (const 1)) r := ⟨⟨trivial, h⟩, h, trivial⟩
    exact ⟨⟨iha _ _ _ h.1 ⟨⟨hc, hm⟩, h.1⟩, ihb _ _ _ h.2.1 ⟨⟨hc, hm⟩, h.2.1⟩⟩, ihc _ _ _ h.2.2.1 ⟨⟨hc, hm⟩, h.2.2.1⟩⟩
  | call f df a _ _ iha =>
    intro ct i r h hc
    exact iha _ _ _ h.1 ⟨hc, lawful_subst _ _ (fun _ => h.1) _ h.2⟩

/-! ## the derivative -/

/-- the partial derivative with respect to the input `i` -/
def pd (i : ℕ) (f : (ℕ → ℝ) → ℝ) (r : ℕ → ℝ) : ℝ := deriv (fun t => f (Function.update r i t)) (r i)

/-- repeated partial derivatives -/
def pds : List ℕ → ((ℕ → ℝ) → ℝ) → (ℕ → ℝ) → ℝ
  | [], f => f
  | i :: is, f => pds is (pd i f)

theorem tendsto_update (r : ℕ → ℝ) (i : ℕ) : Tendsto (fun t => Function.update r i t) (𝓝 (r i)) (𝓝 r) := by
  have : Continuous fun t : ℝ => Function.update r i t := continuous_const.update i continuous_id
  have h := this.tendsto (r i)
  rwa [Function.update_eq_self] at h

theorem pd_congr {f g : (ℕ → ℝ) → ℝ} {r0 : ℕ → ℝ} (h : f =ᶠ[𝓝 r0] g) (i : ℕ) : pd i f =ᶠ[𝓝 r0] pd i g := by
  filter_upwards [eventually_eventually_nhds.mpr h] with r hr
  exact Filter.EventuallyEq.deriv_eq ((tendsto_update r i).eventually hr)

theorem pds_congr (is : List ℕ) : ∀ {f g : (ℕ → ℝ) → ℝ} {r0 : ℕ → ℝ}, f =ᶠ[𝓝 r0] g → pds is f =ᶠ[𝓝 r0] pds is g := by
  induction is with
  | nil => exact fun h => h
  | cons i is ih => exact fun h => ih (pd_congr h i)

theorem primitive {g : ℝ → ℝ} {t0 : ℝ} (h : ∀ᶠ t in 𝓝 t0, ContinuousAt g t) (c : ℝ) :
    ∀ᶠ t in 𝓝 t0, HasDerivAt (fun t => c + ∫ u in t0..t, g u) (g t) t := by
  obtain ⟨δ, hδ, hb⟩ := Metric.eventually_nhds_iff_ball.mp h
  filter_upwards [Metric.ball_mem_nhds t0 hδ] with t ht
  have hon : ContinuousOn g (Metric.ball t0 δ) := fun u hu => (hb u hu).continuousWithinAt
  have hsub : Set.uIcc t0 t ⊆ Metric.ball t0 δ :=
    (convex_ball t0 δ).ordConnected.uIcc_subset (Metric.mem_ball_self hδ) ht
  refine HasDerivAt.const_add c (intervalIntegral.integral_hasDerivAt_right ?_ ?_ (hb t ht))
  · exact (hon.mono hsub).intervalIntegrable
  · exact hon.stronglyMeasurableAtFilter Metric.isOpen_ball t ht

/-- the function with a hand-written derivative is the function with this derivative -/
theorem loc_call {f df : Ex} {r0 : ℕ → ℝ} {a : Ex} {F : ℝ → ℝ} (ca : ContinuousAt (loc r0 a) r0)
    (hF : F (val a r0) = val f fun _ => val a r0)
    (hd : ∀ᶠ t in 𝓝 (val a r0), HasDerivAt F (loc (fun _ => val a r0) df fun _ => t) t)
    (cd : ∀ᶠ t in 𝓝 (val a r0), ContinuousAt (fun t => loc (fun _ => val a r0) df fun _ => t) t) :
    ∀ᶠ r in 𝓝 r0, loc r0 (call f df a) r = F (loc r0 a r) := by
  set g : ℝ → ℝ := fun t => loc (fun _ => val a r0) df fun _ => t with hg
  have key : ∀ᶠ t in 𝓝 (loc r0 a r0), val f (fun _ => val a r0) + ∫ u in (val a r0)..t, g u = F t := by
    rw [loc_self]
    obtain ⟨δ, hδ, hb⟩ := Metric.eventually_nhds_iff_ball.mp (hd.and cd)
    filter_upwards [Metric.ball_mem_nhds (val a r0) hδ] with t ht
    have hon : ContinuousOn g (Metric.ball (val a r0) δ) := fun u hu => (hb u hu).2.continuousWithinAt
    have hsub : Set.uIcc (val a r0) t ⊆ Metric.ball (val a r0) δ :=
      (convex_ball _ δ).ordConnected.uIcc_subset (Metric.mem_ball_self hδ) ht
    rw [intervalIntegral.integral_eq_sub_of_hasDerivAt (fun u hu => (hb u (hsub hu)).1) (hon.mono hsub).intervalIntegrable,
      hF]
    ring
  exact ca.eventually key

/-- near `r0`, reverse mode multiplies the cotangent by the partial derivative -/
def Exact (e : Ex) (r0 : ℕ → ℝ) : Prop :=
  (∀ᶠ r in 𝓝 r0, ContinuousAt (loc r0 e) r) ∧ ∃ D : ℕ → (ℕ → ℝ) → ℝ, ∀ i, ∀ᶠ r in 𝓝 r0,
    HasDerivAt (fun t => loc r0 e (Function.update r i t)) (D i r) (r i) ∧
      ∀ ct, loc r0 (bp e ct i) r = loc r0 ct r * D i r

theorem exact (e : Ex) : ∀ r0, Regular e r0 → Lawful e r0 → Exact e r0 := by
  induction e with
  | var j =>
    intro r0 _ _
    refine ⟨Eventually.of_forall fun _ => (continuous_apply j).continuousAt, fun i _ => if j = i then 1 else 0, fun i => Eventually.of_forall ?_⟩
    intro r
    by_cases h : j = i
    · subst h
      simp only [loc, bp, if_true, Function.update_self, mul_one]
      exact ⟨hasDerivAt_id _, fun _ => trivial⟩
    · simp only [loc, bp, if_neg h, Function.update_of_ne h, mul_zero]
      exact ⟨hasDerivAt_const _ _, fun _ => trivial⟩
  | const c =>
    intro r0 _ _
    refine ⟨Eventually.of_forall fun _ => continuousAt_const, fun _ _ => 0, fun i => Eventually.of_forall fun r => ⟨hasDerivAt_const _ _, ?_⟩⟩
    intro ct
    simp only [bp, loc, mul_zero]
  | add a b iha ihb =>
    intro r0 hr hl
    obtain ⟨ca, Da, ha⟩ := iha r0 hr.1 hl.1
    obtain ⟨cb, Db, hb⟩ := ihb r0 hr.2 hl.2
    refine ⟨by filter_upwards [ca, cb] with r h1 h2 using h1.add h2, fun i r => Da i r + Db i r, fun i => ?_⟩
    filter_upwards [ha i, hb i] with r h1 h2
    refine ⟨h1.1.add h2.1, fun ct => ?_⟩
    simp only [bp, add_def, loc, h1.2, h2.2]
    ring
  | mul a b iha ihb =>
    intro r0 hr hl
    obtain ⟨ca, Da, ha⟩ := iha r0 hr.1 hl.1
    obtain ⟨cb, Db, hb⟩ := ihb r0 hr.2 hl.2
    refine ⟨by filter_upwards [ca, cb] with r h1 h2 using h1.mul h2, fun i r => Da i r * loc r0 b r + loc r0 a r * Db i r, fun i => ?_⟩
    filter_upwards [ha i, hb i] with r h1 h2
    refine ⟨?_, fun ct => ?_⟩
    · have := h1.1.mul h2.1
      simp only [Function.update_eq_self] at this
      exact this
    · simp only [bp, add_def, mul_def, loc, h1.2, h2.2]
      ring
  | div a b iha ihb =>
    intro r0 hr hl
    obtain ⟨ca, Da, ha⟩ := iha r0 hr.1 hl.1
    obtain ⟨cb, Db, hb⟩ := ihb r0 hr.2.1 hl.2
    have hb0 : loc r0 b r0 ≠ 0 := by rw [loc_self]; exact hr.2.2
    refine ⟨by filter_upwards [ca, cb, cb.self_of_nhds.eventually_ne hb0] with r h1 h2 h3 using h1.div h2 h3, fun i r => (Da i r * loc r0 b r - loc r0 a r * Db i r) / loc r0 b r ^ 2, fun i => ?_⟩
    filter_upwards [ha i, hb i, cb.self_of_nhds.eventually_ne hb0] with r h1 h2 h3
    refine ⟨?_, fun ct => ?_⟩
    · have := h1.1.div h2.1 (by rwa [Function.update_eq_self])
      simp only [Function.update_eq_self] at this
      exact this
    · simp only [bp, add_def, mul_def, div_def, neg_def, loc, h1.2, h2.2]
      field_simp
      ring
  | prim f n a iha =>
    intro r0 hr hl
    obtain ⟨ca, Da, ha⟩ := iha r0 hr hl.1
    refine ⟨by
      filter_upwards [ca] with r h1 using ContinuousAt.comp (g := iteratedDeriv n f) (hl.2 n).continuous.continuousAt h1,
      fun i r => iteratedDeriv (n + 1) f (loc r0 a r) * Da i r, fun i => ?_⟩
    filter_upwards [ha i] with r h1
    refine ⟨?_, fun ct => ?_⟩
    · have h := ((hl.2 n) (loc r0 a (Function.update r i (r i)))).hasDerivAt.comp (r i) h1.1
      rw [← iteratedDeriv_succ] at h
      simp only [Function.update_eq_self] at h
      exact h
    · simp only [bp, mul_def, loc, h1.2]
      ring
  | log a iha =>
    intro r0 hr hl
    obtain ⟨ca, Da, ha⟩ := iha r0 hr.1 hl
    have h0 : 0 < loc r0 a r0 := by rw [loc_self]; exact hr.2
    refine ⟨by filter_upwards [ca, ca.self_of_nhds.eventually_ne h0.ne'] with r h1 h2 using h1.log h2, fun i r => Da i r / loc r0 a r, fun i => ?_⟩
    filter_upwards [ha i, ca.self_of_nhds.eventually_ne h0.ne'] with r h1 h2
    refine ⟨?_, fun ct => ?_⟩
    · have := h1.1.log (by rwa [Function.update_eq_self])
      simp only [Function.update_eq_self] at this
      exact this
    · simp only [bp, div_def, loc, h1.2]
      ring
  | sqrt a iha =>
    intro r0 hr hl
    obtain ⟨ca, Da, ha⟩ := iha r0 hr.1 hl
    have h0 : 0 < loc r0 a r0 := by rw [loc_self]; exact hr.2
    refine ⟨by filter_upwards [ca] with r h1 using h1.sqrt, fun i r => Da i r / (2 * Real.sqrt (loc r0 a r)), fun i => ?_⟩
    filter_upwards [ha i, ca.self_of_nhds.eventually_ne h0.ne'] with r h1 h2
    refine ⟨?_, fun ct => ?_⟩
    · have := h1.1.sqrt (by rwa [Function.update_eq_self])
      simp only [Function.update_eq_self] at this
      exact this
    · simp only [bp, mul_def, div_def, loc, h1.2]
      rw [one_div, div_eq_mul_inv, div_eq_mul_inv, mul_inv]
      ring
  | arccos a iha =>
    intro r0 hr hl
    obtain ⟨ca, Da, ha⟩ := iha r0 hr.1 hl
    have h0 : |loc r0 a r0| < 1 := by rw [loc_self]; exact hr.2
    refine ⟨by filter_upwards [ca] with r h1 using Real.continuous_arccos.continuousAt.comp h1,
      fun i r => -(1 / Real.sqrt (1 - loc r0 a r ^ 2)) * Da i r, fun i => ?_⟩
    filter_upwards [ha i, ca.self_of_nhds.abs.eventually_lt continuousAt_const h0] with r h1 h2
    have h3 := abs_lt.mp h2
    refine ⟨?_, fun ct => ?_⟩
    · have h := (Real.hasDerivAt_arccos (x := loc r0 a (Function.update r i (r i)))
        (by rw [Function.update_eq_self]; exact h3.1.ne') (by rw [Function.update_eq_self]; exact h3.2.ne)).comp (r i) h1.1
      simp only [Function.update_eq_self] at h
      exact h
    · simp only [bp, mul_def, div_def, neg_def, sub_def, loc, h1.2]
      rw [show 1 + -1 * (loc r0 a r * loc r0 a r) = 1 - loc r0 a r ^ 2 by ring]
      ring
  | lt a b _ _ =>
    intro r0 _ _
    refine ⟨Eventually.of_forall fun _ => continuousAt_const, fun _ _ => 0, fun i => Eventually.of_forall fun r => ⟨hasDerivAt_const _ _, ?_⟩⟩
    intro ct
    simp only [bp, loc, mul_zero]
  | eq a b _ _ =>
    intro r0 _ _
    refine ⟨Eventually.of_forall fun _ => continuousAt_const, fun _ _ => 0, fun i => Eventually.of_forall fun r => ⟨hasDerivAt_const _ _, ?_⟩⟩
    intro ct
    simp only [bp, loc, mul_zero]
  | sel k a b _ iha ihb =>
    intro r0 hr hl
    obtain ⟨ca, Da, ha⟩ := iha r0 hr.2.1 hl.2.1
    obtain ⟨cb, Db, hb⟩ := ihb r0 hr.2.2 hl.2.2
    by_cases hk : 0 < val k r0
    · refine ⟨?_, Da, fun i => ?_⟩
      · filter_upwards [ca] with r h1
        simpa only [loc, if_pos hk] using h1
      · filter_upwards [ha i, hb i] with r h1 h2
        refine ⟨?_, fun ct => ?_⟩
        · simpa only [loc, if_pos hk] using h1.1
        · simp only [bp, add_def, loc, if_pos hk, h1.2, h2.2]
          ring
    · refine ⟨?_, Db, fun i => ?_⟩
      · filter_upwards [cb] with r h1
        simpa only [loc, if_neg hk] using h1
      · filter_upwards [ha i, hb i] with r h1 h2
        refine ⟨?_, fun ct => ?_⟩
        · simpa only [loc, if_neg hk] using h2.1
        · simp only [bp, add_def, loc, if_neg hk, h1.2, h2.2]
          ring
  | norm a b c iha ihb ihc =>
    intro r0 hr hl
    obtain ⟨ca, Da, ha⟩ := iha r0 hr.1 hl.1
    obtain ⟨cb, Db, hb⟩ := ihb r0 hr.2.1 hl.2.1
    obtain ⟨cc, Dc, hc⟩ := ihc r0 hr.2.2 hl.2.2.1
    have cs : ∀ᶠ r in 𝓝 r0, ContinuousAt (fun r => loc r0 a r ^ 2 + loc r0 b r ^ 2 + loc r0 c r ^ 2) r := by
      filter_upwards [ca, cb, cc] with r h1 h2 h3 using ((h1.pow 2).add (h2.pow 2)).add (h3.pow 2)
    have h0 : 0 < loc r0 a r0 ^ 2 + loc r0 b r0 ^ 2 + loc r0 c r0 ^ 2 := by simp only [loc_self]; exact hl.2.2.2
    refine ⟨by filter_upwards [cs] with r h1 using h1.sqrt, fun i r => (loc r0 a r * Da i r + loc r0 b r * Db i r + loc r0 c r * Dc i r) /
      Real.sqrt (loc r0 a r ^ 2 + loc r0 b r ^ 2 + loc r0 c r ^ 2), fun i => ?_⟩
    filter_upwards [ha i, hb i, hc i, cs.self_of_nhds.eventually_ne h0.ne'] with r h1 h2 h3 h4
    refine ⟨?_, fun ct => ?_⟩
    · have := (((h1.1.pow 2).add (h2.1.pow 2)).add (h3.1.pow 2)).sqrt
        (by simpa only [Function.update_eq_self, Pi.add_apply, Pi.pow_apply] using h4)
      simp only [Function.update_eq_self, Pi.add_apply, Pi.pow_apply] at this
      refine HasDerivAt.congr_deriv this ?_
      rw [mul_comm 2 (Real.sqrt _), ← div_div]
      rw [div_eq_iff (two_ne_zero : (2 : ℝ) ≠ 0)]
      push_cast
      ring
    · have hm : loc r0 (sel (lt (const 0) (norm a b c)) (norm a b c) (const 1)) r =
          Real.sqrt (loc r0 a r ^ 2 + loc r0 b r ^ 2 + loc r0 c r ^ 2) := by
        have hv : val (lt (const 0) (norm a b c)) r0 = 1 := by
          exact if_pos (Real.sqrt_pos.mpr hl.2.2.2)
        simp only [loc, hv, if_pos one_pos]
      simp only [bp, add_def, mul_def, div_def, loc, h1.2, h2.2, h3.2] at hm ⊢
      rw [hm]
      ring
  | call f df a _ ihdf iha =>
    intro r0 hr hl
    obtain ⟨ca, Da, ha⟩ := iha r0 hr.1 hl.1
    obtain ⟨cd, _, _⟩ := ihdf _ hr.2.2 hl.2
    set g : ℝ → ℝ := fun t => loc (fun _ => val a r0) df fun _ => t with hg
    have cg : ∀ᶠ t in 𝓝 (val a r0), ContinuousAt g t := by
      have ht : Continuous fun t : ℝ => (fun _ : ℕ => t) := continuous_pi fun _ => continuous_id
      filter_upwards [(ht.tendsto (val a r0)).eventually cd] with t h1
      exact ContinuousAt.comp (f := fun t : ℝ => (fun _ : ℕ => t)) h1 ht.continuousAt
    have hG : ∀ᶠ t in 𝓝 (loc r0 a r0), HasDerivAt (fun t => val f (fun _ => val a r0) + ∫ u in (val a r0)..t, g u) (g t) t := by
      rw [loc_self]
      exact primitive cg _
    refine ⟨?_, fun i r => g (loc r0 a r) * Da i r, fun i => ?_⟩
    · filter_upwards [ca, ca.self_of_nhds.eventually hG] with r h1 h2
      exact ContinuousAt.comp (g := fun t => val f (fun _ => val a r0) + ∫ u in (val a r0)..t, g u) h2.continuousAt h1
    · filter_upwards [ha i, ca.self_of_nhds.eventually hG] with r h1 h2
      refine ⟨?_, fun ct => ?_⟩
      · exact HasDerivAt.comp (r i) (h₂ := fun t => val f (fun _ => val a r0) + ∫ u in (val a r0)..t, g u)
          (h := fun t => loc r0 a (Function.update r i t)) (by rw [Function.update_eq_self]; exact h2) h1.1
      · simp only [bp, at', mul_def, loc, h1.2, loc_subst, hg]
        ring

theorem loc_grads (is : List ℕ) : ∀ (e : Ex) (r0 : ℕ → ℝ), Regular e r0 → Lawful e r0 →
    loc r0 (grads is e) =ᶠ[𝓝 r0] pds is (loc r0 e) := by
  induction is with
  | nil => exact fun e r0 _ _ => EventuallyEq.rfl
  | cons i is ih =>
    intro e r0 hr hl
    obtain ⟨_, D, hD⟩ := exact e r0 hr hl
    refine (ih (grad i e) r0 (regular_bp e _ i r0 hr trivial) (lawful_bp e _ i r0 hl trivial)).trans (pds_congr is ?_)
    filter_upwards [hD i] with r h
    rw [grad, h.2]
    simp only [loc, one_mul]
    exact h.1.deriv.symm

/-- The derivatives of any order computed by automatic differentiation are the derivatives of the function which is
obtained by fixing the selections. -/
theorem eval_grads (is : List ℕ) (e : Ex) (r0 : ℕ → ℝ) (hr : Regular e r0) (hl : Lawful e r0) :
    eval (grads is e) r0 = some (pds is (loc r0 e) r0) := by
  rw [eval_of_regular _ _ (regular_grads is e r0 hr), ← loc_self, (loc_grads is e r0 hr hl).self_of_nhds]

/-! ## functions of one variable -/

theorem pds_replicate (n : ℕ) : ∀ (g : ℝ → ℝ), pds (List.replicate n 0) (fun r => g (r 0)) = fun r => iteratedDeriv n g (r 0) := by
  induction n with
  | zero => intro g; simp [pds, iteratedDeriv_zero]
  | succ n ih =>
    intro g
    have : pd 0 (fun r => g (r 0)) = fun r => deriv g (r 0) := by
      funext r
      simp only [pd, Function.update_self]
    rw [List.replicate_succ, pds, this, ih, iteratedDeriv_succ']

/-- If near `x` the fixed selection agrees with `F`, all derivatives agree with those of `F`. -/
theorem eval_grads_one (n : ℕ) (e : Ex) (F : ℝ → ℝ) (t : ℝ) (hr : Regular e fun _ => t) (hl : Lawful e fun _ => t)
    (h : ∀ᶠ r in 𝓝 (fun _ : ℕ => t), loc (fun _ => t) e r = F (r 0)) :
    eval (grads (List.replicate n 0) e) (fun _ => t) = some (iteratedDeriv n F t) := by
  rw [eval_grads _ _ _ hr hl, (pds_congr _ h).self_of_nhds, pds_replicate]

/-! ## rewriting rules -/

/-- the condition `k` of `jnp.where` holds -/
def T (k : Ex) (r : ℕ → ℝ) : Prop := 0 < val k r

variable (a b c k u v : Ex) (r r0 : ℕ → ℝ)

theorem T_lt : T (lt a b) r ↔ val a r < val b r := by
  by_cases h : val a r < val b r
  · rw [T, show val (lt a b) r = 1 from if_pos h]; simp [h]
  · rw [T, show val (lt a b) r = 0 from if_neg h]; simp [h]

theorem T_eq : T (eq a b) r ↔ val a r = val b r := by
  by_cases h : val a r = val b r
  · rw [T, show val (eq a b) r = 1 from if_pos h]; simp [h]
  · rw [T, show val (eq a b) r = 0 from if_neg h]; simp [h]

theorem T_const (q : ℝ) : T (const q) r ↔ 0 < q := Iff.rfl

theorem T_cond (p : Bool) : T (cond p) r ↔ p = true := by cases p <;> simp [T_const, cond]

open Classical in
theorem val_sel : val (sel k a b) r = if T k r then val a r else val b r := by
  by_cases h : T k r
  · rw [if_pos h]; exact if_pos h
  · rw [if_neg h]; exact if_neg h

open Classical in
theorem loc_sel : loc r0 (sel k a b) r = if T k r0 then loc r0 a r else loc r0 b r := by
  by_cases h : T k r0
  · rw [if_pos h]; exact if_pos h
  · rw [if_neg h]; exact if_neg h

theorem T_or : T (or a b) r ↔ T a r ∨ T b r := by
  rw [or, T, val_sel]
  by_cases h : T a r
  · simp [h, val]
  · simp only [h, if_false, false_or]; rfl

theorem T_and : T (and a b) r ↔ T a r ∧ T b r := by
  rw [and, T, val_sel]
  by_cases h : T a r
  · simp only [h, if_true, true_and]; rfl
  · simp [h, val]

theorem T_le : T (le a b) r ↔ val a r ≤ val b r := by
  rw [le, T, val_sel]
  by_cases h : val b r < val a r
  · rw [if_pos ((T_lt _ _ _).mpr h)]; simp [val, h]
  · rw [if_neg (fun hh => h ((T_lt _ _ _).mp hh))]; simp [val, not_lt.mp h]

theorem val_var (i : ℕ) : val (var i) r = r i := rfl
theorem val_const (q : ℝ) : val (const q) r = q := rfl
theorem val_add : val (a + b) r = val a r + val b r := rfl
theorem val_mul : val (a * b) r = val a r * val b r := rfl
theorem val_div : val (a / b) r = val a r / val b r := rfl
theorem val_neg : val (-a) r = -val a r := by rw [neg_def]; simp [val]
theorem val_sub : val (a - b) r = val a r - val b r := by rw [sub_def]; simp [val, sub_eq_add_neg]
theorem val_exp : val (exp a) r = Real.exp (val a r) := by simp [exp, val, iteratedDeriv_zero]
theorem val_cos : val (cos a) r = Real.cos (val a r) := by simp [cos, val, iteratedDeriv_zero]
theorem val_prim (f : ℝ → ℝ) : val (prim f 0 a) r = f (val a r) := by simp [val, iteratedDeriv_zero]
theorem val_log : val (log a) r = Real.log (val a r) := rfl
theorem val_sqrt : val (sqrt a) r = Real.sqrt (val a r) := rfl
theorem val_arccos : val (arccos a) r = Real.arccos (val a r) := rfl
theorem val_norm : val (norm a b c) r = Real.sqrt (val a r ^ 2 + val b r ^ 2 + val c r ^ 2) := rfl
theorem val_call (f df : Ex) : val (call f df a) r = val f fun _ => val a r := rfl
theorem val_at' (f : Ex) : val (at' f a) r = val f fun _ => val a r := val_subst _ _ _
theorem val_x : val x r = r 0 := rfl
open Classical in
theorem val_lt : val (lt a b) r = if val a r < val b r then 1 else 0 := by
  split_ifs with h
  · exact if_pos h
  · exact if_neg h

theorem loc_var (i : ℕ) : loc r0 (var i) r = r i := rfl
theorem loc_const (q : ℝ) : loc r0 (const q) r = q := rfl
theorem loc_add : loc r0 (a + b) r = loc r0 a r + loc r0 b r := rfl
theorem loc_mul : loc r0 (a * b) r = loc r0 a r * loc r0 b r := rfl
theorem loc_div : loc r0 (a / b) r = loc r0 a r / loc r0 b r := rfl
theorem loc_neg : loc r0 (-a) r = -loc r0 a r := by rw [neg_def]; simp [loc]
theorem loc_sub : loc r0 (a - b) r = loc r0 a r - loc r0 b r := by rw [sub_def]; simp [loc, sub_eq_add_neg]
theorem loc_exp : loc r0 (exp a) r = Real.exp (loc r0 a r) := by simp [exp, loc, iteratedDeriv_zero]
theorem loc_cos : loc r0 (cos a) r = Real.cos (loc r0 a r) := by simp [cos, loc, iteratedDeriv_zero]
theorem loc_prim (f : ℝ → ℝ) : loc r0 (prim f 0 a) r = f (loc r0 a r) := by simp [loc, iteratedDeriv_zero]
theorem loc_log : loc r0 (log a) r = Real.log (loc r0 a r) := rfl
theorem loc_sqrt : loc r0 (sqrt a) r = Real.sqrt (loc r0 a r) := rfl
theorem loc_arccos : loc r0 (arccos a) r = Real.arccos (loc r0 a r) := rfl
theorem loc_norm : loc r0 (norm a b c) r = Real.sqrt (loc r0 a r ^ 2 + loc r0 b r ^ 2 + loc r0 c r ^ 2) := rfl
theorem loc_at' (f : Ex) : loc r0 (at' f a) r = loc (fun _ => val a r0) f fun _ => loc r0 a r := loc_subst _ _ _ _
theorem loc_x : loc r0 x r = r 0 := rfl

theorem reg_var (i : ℕ) : Regular (var i) r ↔ True := Iff.rfl
theorem reg_const (q : ℝ) : Regular (const q) r ↔ True := Iff.rfl
theorem reg_x : Regular x r ↔ True := Iff.rfl
theorem reg_add : Regular (a + b) r ↔ Regular a r ∧ Regular b r := Iff.rfl
theorem reg_mul : Regular (a * b) r ↔ Regular a r ∧ Regular b r := Iff.rfl
theorem reg_div : Regular (a / b) r ↔ Regular a r ∧ Regular b r ∧ val b r ≠ 0 := Iff.rfl
theorem reg_neg : Regular (-a) r ↔ Regular a r := by rw [neg_def]; simp [Regular]
theorem reg_sub : Regular (a - b) r ↔ Regular a r ∧ Regular b r := by rw [sub_def]; simp [Regular]
theorem reg_exp : Regular (exp a) r ↔ Regular a r := Iff.rfl
theorem reg_cos : Regular (cos a) r ↔ Regular a r := Iff.rfl
theorem reg_prim (f : ℝ → ℝ) (n : ℕ) : Regular (prim f n a) r ↔ Regular a r := Iff.rfl
theorem reg_log : Regular (log a) r ↔ Regular a r ∧ 0 < val a r := Iff.rfl
theorem reg_sqrt : Regular (sqrt a) r ↔ Regular a r ∧ 0 < val a r := Iff.rfl
theorem reg_arccos : Regular (arccos a) r ↔ Regular a r ∧ |val a r| < 1 := Iff.rfl
theorem reg_lt : Regular (lt a b) r ↔ Regular a r ∧ Regular b r := Iff.rfl
theorem reg_eq : Regular (eq a b) r ↔ Regular a r ∧ Regular b r := Iff.rfl
theorem reg_le : Regular (le a b) r ↔ Regular a r ∧ Regular b r := by simp [le, Regular, and_comm]
theorem reg_sel : Regular (sel k a b) r ↔ Regular k r ∧ Regular a r ∧ Regular b r := Iff.rfl
theorem reg_or : Regular (or a b) r ↔ Regular a r ∧ Regular b r := by simp [or, Regular]
theorem reg_and : Regular (and a b) r ↔ Regular a r ∧ Regular b r := by simp [and, Regular]
theorem reg_cond (p : Bool) : Regular (cond p) r ↔ True := Iff.rfl
theorem reg_norm : Regular (norm a b c) r ↔ Regular a r ∧ Regular b r ∧ Regular c r := Iff.rfl
theorem reg_call (f df : Ex) : Regular (call f df a) r ↔
    Regular a r ∧ Regular f (fun _ => val a r) ∧ Regular df (fun _ => val a r) := Iff.rfl
theorem reg_at' {f a : Ex} {r : ℕ → ℝ} (ha : Regular a r) (hf : Regular f fun _ => val a r) : Regular (at' f a) r :=
  regular_subst _ _ (fun _ => ha) _ hf
theorem reg_sign : Regular (sign a) r ↔ Regular a r := by simp [sign, reg_sub, reg_lt, reg_const]
theorem reg_abs : Regular (abs a) r ↔ Regular a r := by simp [abs, reg_sel, reg_neg, reg_lt, reg_const]
theorem reg_max : Regular (max a b) r ↔ Regular a r ∧ Regular b r := by
  simp only [max, reg_sel, reg_lt, reg_div, reg_add, reg_const, val_const]; norm_num; tauto
theorem reg_min : Regular (min a b) r ↔ Regular a r ∧ Regular b r := by
  simp only [min, reg_sel, reg_lt, reg_div, reg_add, reg_const, val_const]; norm_num; tauto

theorem law_var (i : ℕ) : Lawful (var i) r ↔ True := Iff.rfl
theorem law_const (q : ℝ) : Lawful (const q) r ↔ True := Iff.rfl
theorem law_x : Lawful x r ↔ True := Iff.rfl
theorem law_add : Lawful (a + b) r ↔ Lawful a r ∧ Lawful b r := Iff.rfl
theorem law_mul : Lawful (a * b) r ↔ Lawful a r ∧ Lawful b r := Iff.rfl
theorem law_div : Lawful (a / b) r ↔ Lawful a r ∧ Lawful b r := Iff.rfl
theorem law_neg : Lawful (-a) r ↔ Lawful a r := by rw [neg_def]; simp [Lawful]
theorem law_sub : Lawful (a - b) r ↔ Lawful a r ∧ Lawful b r := by rw [sub_def]; simp [Lawful]
theorem law_prim (f : ℝ → ℝ) (hf : ContDiff ℝ ∞ f) (n : ℕ) : Lawful (prim f n a) r ↔ Lawful a r := by
  simp only [Lawful, and_iff_left_iff_imp]
  exact fun _ n => ContDiff.differentiable_iteratedDeriv n hf (by exact_mod_cast WithTop.coe_lt_top _)
theorem law_exp : Lawful (exp a) r ↔ Lawful a r := law_prim _ _ _ Real.contDiff_exp _
theorem law_cos : Lawful (cos a) r ↔ Lawful a r := law_prim _ _ _ Real.contDiff_cos _
theorem law_log : Lawful (log a) r ↔ Lawful a r := Iff.rfl
theorem law_sqrt : Lawful (sqrt a) r ↔ Lawful a r := Iff.rfl
theorem law_arccos : Lawful (arccos a) r ↔ Lawful a r := Iff.rfl
theorem law_lt : Lawful (lt a b) r ↔ Lawful a r ∧ Lawful b r := Iff.rfl
theorem law_eq : Lawful (eq a b) r ↔ Lawful a r ∧ Lawful b r := Iff.rfl
theorem law_le : Lawful (le a b) r ↔ Lawful a r ∧ Lawful b r := by simp [le, Lawful, and_comm]
theorem law_sel : Lawful (sel k a b) r ↔ Lawful k r ∧ Lawful a r ∧ Lawful b r := Iff.rfl
theorem law_or : Lawful (or a b) r ↔ Lawful a r ∧ Lawful b r := by simp [or, Lawful]
theorem law_and : Lawful (and a b) r ↔ Lawful a r ∧ Lawful b r := by simp [and, Lawful]
theorem law_cond (p : Bool) : Lawful (cond p) r ↔ True := Iff.rfl
theorem law_norm : Lawful (norm a b c) r ↔ Lawful a r ∧ Lawful b r ∧ Lawful c r ∧
    0 < val a r ^ 2 + val b r ^ 2 + val c r ^ 2 := Iff.rfl
theorem law_call (f df : Ex) : Lawful (call f df a) r ↔ Lawful a r ∧ Lawful df (fun _ => val a r) := Iff.rfl
theorem law_at' {f a : Ex} {r : ℕ → ℝ} (ha : Lawful a r) (hf : Lawful f fun _ => val a r) : Lawful (at' f a) r :=
  lawful_subst _ _ (fun _ => ha) _ hf

end Ex

end

end E3x.AD
