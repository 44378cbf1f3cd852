import Verif.Lemmas.Autodiff
import Verif.Model.Gradients

/-!
# Values and regularity of the expressions in `Verif.Model.Gradients`
-/

namespace E3x.AD.Ex

noncomputable section

open Real (pi)

attribute [local simp] val_var val_const val_add val_mul val_div val_neg val_sub val_exp val_cos val_prim val_log val_sqrt
  val_arccos val_norm val_call val_at' val_x val_sel T_lt T_eq T_const T_cond T_or T_and T_le reg_var reg_const reg_x reg_add
  reg_mul reg_div reg_neg reg_sub reg_exp reg_cos reg_prim reg_log reg_sqrt reg_arccos reg_lt reg_eq reg_le reg_sel reg_or
  reg_and reg_cond reg_norm reg_call reg_sign reg_abs reg_max reg_min

/-- a function of one variable without singularities at `t` whose value is `y` -/
def Fine (e : Ex) (t y : ℝ) : Prop := Regular e (fun _ => t) ∧ val e (fun _ => t) = y

theorem Fine.eval {e : Ex} {t y : ℝ} (h : Fine e t y) : Ex.eval e (fun _ => t) = some y := by
  rw [eval_of_regular _ _ h.1, h.2]

theorem val_abs (a : Ex) (r : ℕ → ℝ) : val (abs a) r = |val a r| := by
  rw [abs]
  simp
  split_ifs with h1 h2
  · rw [abs_of_pos h1]
  · rw [abs_of_neg h2]
  · rw [le_antisymm (not_lt.mp h1) (not_lt.mp h2), abs_zero]

theorem val_max (a b : Ex) (r : ℕ → ℝ) : val (max a b) r = Max.max (val a r) (val b r) := by
  rw [max]
  simp
  split_ifs with h1 h2
  · rw [max_eq_left h1.le]
  · rw [max_eq_right h2.le]
  · rw [le_antisymm (not_lt.mp h1) (not_lt.mp h2), max_self]; ring

theorem val_min (a b : Ex) (r : ℕ → ℝ) : val (min a b) r = Min.min (val a r) (val b r) := by
  rw [min]
  simp
  split_ifs with h1 h2
  · rw [min_eq_left h1.le]
  · rw [min_eq_right h2.le]
  · rw [le_antisymm (not_lt.mp h2) (not_lt.mp h1), min_self]; ring

theorem val_sign (a : Ex) (r : ℕ → ℝ) : val (sign a) r = signFn (val a r) := by
  rw [sign, signFn, val_sub, val_lt, val_lt, val_const]
  rcases lt_trichotomy (val a r) 0 with h | h | h
  · simp [h, not_lt.mpr h.le]
  · simp [h]
  · simp [h, not_lt.mpr h.le]

attribute [local simp] val_abs val_max val_min val_sign

theorem cutoffRescale_val (c : ℝ) (r : ℕ → ℝ) : val (if c ≠ 1 then x / const c else x) r = cutoffRescale (r 0) c := by
  unfold cutoffRescale
  split_ifs <;> simp

theorem fine_smoothCutoff (c t : ℝ) (hc : 0 < c) (ht : 0 ≤ t) (y : ℝ) (hy : smoothCutoff t c = .ok y) :
    Fine (smoothCutoffEx c) t y := by
  rw [smoothCutoff, if_neg (not_le.mpr hc)] at hy
  have hy := Except.ok.inj hy
  have hx : 0 ≤ cutoffRescale t c := by unfold cutoffRescale; split_ifs <;> positivity
  have hreg : ∀ r, Regular (if c ≠ 1 then x / const c else x) r := by
    intro r; split_ifs
    · simp [hc.ne']
    · simp
  unfold smoothCutoffEx
  constructor
  · simp only [reg_sel, reg_lt, reg_const, reg_exp, reg_sub, reg_div, reg_mul, hreg, true_and, and_true, val_sub, val_mul,
      val_sel, T_lt, val_const, cutoffRescale_val]
    split_ifs with h
    · nlinarith
    · norm_num
  · rw [← hy]
    simp only [val_sel, T_lt, val_exp, val_const, val_sub, val_div, val_mul, cutoffRescale_val]

theorem fine_cosineCutoff (c t : ℝ) (hc : 0 < c) (y : ℝ) (hy : cosineCutoff t c = .ok y) :
    Fine (cosineCutoffEx c) t y := by
  rw [cosineCutoff, if_neg (not_le.mpr hc)] at hy
  have hy := Except.ok.inj hy
  have hreg : ∀ r, Regular (if c ≠ 1 then x / const c else x) r := by
    intro r; split_ifs
    · simp [hc.ne']
    · simp
  unfold cosineCutoffEx
  constructor
  · simp only [reg_sel, reg_lt, reg_const, reg_cos, reg_add, reg_mul, hreg, true_and]
  · rw [← hy]
    simp only [val_sel, T_lt, val_cos, val_const, val_add, val_mul, cutoffRescale_val]

theorem fine_shifted (t : ℝ) (ht : 0 ≤ t) : Fine shiftedMappingEx t (1 / (t + 1)) := by
  unfold shiftedMappingEx Fine
  have : t + 1 ≠ 0 := by positivity
  simp [this]

theorem fine_damped (eps t : ℝ) (he : 0 < eps) :
    Fine (dampedMappingEx eps) t
      (if t < eps then 1 - t / 2 + t * t / 6 else -(Real.exp (-(if t < eps then 1 else t)) - 1) / (if t < eps then 1 else t)) := by
  unfold dampedMappingEx Fine expm1
  constructor
  · simp
    split_ifs with h
    · norm_num
    · exact (he.trans_le (not_lt.mp h)).ne'
  · simp

theorem cuspless_pos (t : ℝ) : 0 < t + Real.exp (-t) := by
  have := Real.add_one_le_exp (-t)
  linarith

theorem fine_cuspless (t : ℝ) : Fine cusplessMappingEx t (1 / (t + Real.exp (-t))) := by
  unfold cusplessMappingEx Fine
  have := (cuspless_pos t).ne'
  simp [this]

theorem fine_reciprocal (eps t : ℝ) (he : 0 < eps) (ht : 0 ≤ t) (kind : String) (m : ℝ)
    (hm : reciprocalMapping eps t kind = .ok m) : Fine (reciprocalMappingEx eps kind) t m := by
  unfold reciprocalMapping at hm
  unfold reciprocalMappingEx
  by_cases h0 : kind ∉ ["shifted", "damped", "cuspless"]
  · rw [if_pos h0] at hm; cases hm
  rw [if_neg h0] at hm
  by_cases h1 : kind = "shifted"
  · rw [if_pos h1] at hm ⊢
    rw [← Except.ok.inj hm]; exact fine_shifted t ht
  rw [if_neg h1] at hm ⊢
  by_cases h2 : kind = "damped"
  · rw [if_pos h2] at hm ⊢
    rw [← Except.ok.inj hm]; exact fine_damped eps t he
  rw [if_neg h2] at hm ⊢
  by_cases h3 : kind = "cuspless"
  · rw [if_pos h3] at hm
    rw [← Except.ok.inj hm]; exact fine_cuspless t
  · rw [if_neg h3] at hm; cases hm

theorem fine_exponential (gamma t : ℝ) (cuspless : Bool) :
    Fine (exponentialMappingEx gamma cuspless) t (exponentialMapping t gamma cuspless) := by
  unfold exponentialMappingEx Fine exponentialMapping
  cases cuspless <;> simp

theorem safeX_bounds {eps t : ℝ} (he : 0 < eps) : ∀ s, s = (if t < eps ∨ 1 - eps < t then 0.5 else t) → 0 < s ∧ s < 1 := by
  rintro s rfl
  split_ifs with h
  · norm_num
  · push Not at h
    constructor <;> linarith [h.1, h.2]

theorem reg_switchExp (a : Ex) (r : ℕ → ℝ) (ha : Regular a r) (h : 0 < val a r ∧ val a r < 1) :
    Regular (switchExpEx a) r := by
  unfold switchExpEx
  simp [ha, h.1.ne', sub_ne_zero.mpr h.2.ne']

theorem val_switchExp (a : Ex) (r : ℕ → ℝ) : val (switchExpEx a) r = switchExp (val a r) := by
  unfold switchExpEx switchExp
  simp

theorem val_safe (eps : ℝ) (a : Ex) (r : ℕ → ℝ) :
    val (sel (or (lt a (const eps)) (lt (const (1 - eps)) a)) (const 0.5) a) r =
      if val a r < eps ∨ 1 - eps < val a r then 0.5 else val a r := by
  simp only [val_sel, T_or, T_lt, val_const]

theorem reg_switchValue (eps : ℝ) (he : 0 < eps) (a : Ex) (r : ℕ → ℝ) (ha : Regular a r) :
    Regular (switchValueEx eps a) r ∧ val (switchValueEx eps a) r = switchValue eps (val a r) := by
  have hs := safeX_bounds (t := val a r) he _ rfl
  have h1 := reg_switchExp (sel (or (lt a (const eps)) (lt (const (1 - eps)) a)) (const 0.5) a) r (by simp [ha])
    (by rw [val_safe]; exact hs)
  have hp : 0 < 1 + switchExp (if val a r < eps ∨ 1 - eps < val a r then 0.5 else val a r) := by
    unfold switchExp; positivity
  unfold switchValueEx switchValue
  constructor
  · simp only [reg_sel, reg_lt, reg_const, reg_div, reg_add, h1, ha, true_and, val_add, val_const, val_switchExp, val_safe]
    exact hp.ne'
  · simp only [val_sel _ _ (lt _ _), T_lt, val_const, val_div, val_add, val_switchExp, val_safe]

theorem reg_switchTangent (eps : ℝ) (he : 0 < eps) (a : Ex) (r : ℕ → ℝ) (ha : Regular a r) :
    Regular (switchTangentEx eps a) r ∧
      val (switchTangentEx eps a) r = smoothSwitchTangent eps (val a r) 0 1 1 := by
  have hs := safeX_bounds (t := val a r) he _ rfl
  have h0 : Regular (sel (or (lt a (const eps)) (lt (const (1 - eps)) a)) (const 0.5) a) r := by simp [ha]
  have h1 := reg_switchExp _ r h0 (by rw [val_safe]; exact hs)
  have hp : 0 < 1 + switchExp (if val a r < eps ∨ 1 - eps < val a r then 0.5 else val a r) := by
    unfold switchExp; positivity
  unfold switchTangentEx smoothSwitchTangent switchRescale
  constructor
  · simp only [reg_sel, reg_lt, reg_eq, reg_or, reg_const, reg_div, reg_add, reg_mul, reg_sub, h1, ha, true_and, val_add,
      val_mul, val_sub, val_const, val_switchExp, val_safe, and_true]
    have h2 := hs.1.ne'
    have h3 := sub_ne_zero.mpr hs.2.ne'
    exact ⟨⟨hp.ne', hp.ne'⟩, ⟨mul_ne_zero h2 h2, mul_ne_zero h3 h3⟩, hp.ne', hp.ne'⟩
  · simp only [val_sel _ _ (lt _ _), val_sel _ _ (or (or _ _) _), T_lt, T_or, T_eq, val_const, val_div, val_add, val_mul, val_sub,
      val_switchExp, val_safe, ne_eq, not_true_eq_false, or_self, if_false, mul_one, pow_two]

theorem fine_smoothSwitch (eps x0 x1 t : ℝ) (he : 0 < eps) (y : ℝ) (hy : smoothSwitch eps t x0 x1 = .ok y) :
    Fine (smoothSwitchEx eps x0 x1) t y := by
  unfold smoothSwitch at hy
  split_ifs at hy with h01
  have hy := Except.ok.inj hy
  have hne : x1 - x0 ≠ 0 := by rw [sub_ne_zero]; exact (not_le.mp h01).ne'
  rw [← hy]
  unfold smoothSwitchEx Fine switchRescale
  split_ifs with h
  · have ha : ∀ r, Regular ((x - const x0) / const (x1 - x0)) r := by intro r; simp [hne]
    have h1 := reg_switchValue eps he _ (fun _ => t) (ha _)
    have h2 := reg_switchTangent eps he _ (fun _ => t) (ha _)
    constructor
    · simp only [reg_call, reg_x, val_x, reg_mul, reg_div, reg_const, val_const, true_and]
      exact ⟨h1.1, h2.1, hne⟩
    · rw [val_call]
      refine h1.2.trans ?_
      simp
  · have h1 := reg_switchValue eps he x (fun _ => t) trivial
    have h2 := reg_switchTangent eps he x (fun _ => t) trivial
    constructor
    · simp only [reg_call, reg_x, val_x, true_and]
      exact ⟨h1.1, h2.1⟩
    · rw [val_call]; exact h1.2

theorem fine_smoothDamping (gamma t : ℝ) : Fine (smoothDampingEx gamma) t (smoothDamping t gamma) := by
  unfold smoothDampingEx smoothDamping
  constructor
  · simp only [reg_sel, reg_lt, reg_const, reg_exp, reg_mul, reg_neg, reg_sub, reg_div, reg_x, true_and, and_true, val_sel,
      T_lt, val_const, val_mul, val_sub]
    split_ifs with h
    · intro h0; rw [h0] at h; simp at h
    · exact one_ne_zero
  · simp only [val_sel, T_lt, val_exp, val_const, val_sub, val_div, val_mul, val_neg, val_x]

theorem fine_rectangular (num : ℕ) (limit t : ℝ) (k : ℕ) :
    Fine (rectangularWindowEx num limit k) t (rectangularWindow t num limit k) := by
  unfold rectangularWindowEx rectangularWindow Fine
  constructor
  · simp
  · simp only [val_sel, T_lt, val_const, val_x]

theorem fine_triangular (num : ℕ) (limit t : ℝ) (k : ℕ) (hn : 0 < num) (hl : 0 < limit) :
    Fine (triangularWindowEx num limit k) t (triangularWindow t num limit k) := by
  unfold triangularWindowEx triangularWindow Fine
  have : limit / num ≠ 0 := by positivity
  constructor
  · simp only [reg_max, reg_min, reg_div, reg_sub, reg_neg, reg_const, reg_x, val_const]
    trivial
  · simp only [val_max, val_min, val_div, val_sub, val_neg, val_const, val_x]

theorem fine_switch01 (eps t : ℝ) (he : 0 < eps) : Fine (smoothSwitchEx eps 0 1) t (switchValue eps (switchRescale t 0 1)) :=
  fine_smoothSwitch eps 0 1 t he _ (by rw [smoothSwitch, if_neg (by norm_num)])

theorem Fine.comp {f a : Ex} {t y z : ℝ} (hf : Fine f y z) (ha : Fine a t y) : Fine (at' f a) t z := by
  refine ⟨reg_at' ha.1 ?_, ?_⟩
  · rw [ha.2]; exact hf.1
  · rw [val_at', ha.2]; exact hf.2

theorem fine_smoothWindow (eps : ℝ) (num : ℕ) (limit t : ℝ) (k : ℕ) (he : 0 < eps) :
    Fine (smoothWindowEx eps num limit k) t (smoothWindow eps t num limit k) := by
  have hy : Fine (const (num / limit) * (x - const (linspace0 limit num k))) t
      (num / limit * (t - linspace0 limit num k)) := ⟨by simp, by simp⟩
  have hy1 : Fine (const (num / limit) * (x - const (linspace0 limit num k)) + const 1) t
      (num / limit * (t - linspace0 limit num k) + 1) := ⟨by simp, by simp⟩
  have h1 := (fine_switch01 eps _ he).comp hy
  have h2 := (fine_switch01 eps _ he).comp hy1
  exact ⟨(reg_sub _ _ _).mpr ⟨h2.1, h1.1⟩, by
    unfold smoothWindowEx smoothWindow
    rw [val_sub, h2.2, h1.2]⟩

theorem fine_sinc (limit t : ℝ) (k : ℕ) (hl : limit ≠ 0) : Fine (sincEx limit k) t (sincBasis t limit k) := by
  unfold sincEx sincBasis Fine
  constructor
  · simp [hl]
  · simp only [val_sel, T_le, val_div, val_const, val_x, val_prim, val_mul]

theorem fine_fourier (t : ℝ) (k : ℕ) : Fine (fourierEx k) t (Real.cos (pi * k * t)) := by
  unfold fourierEx Fine
  simp

/-- the entry `v` of the model of `_bernstein` for `num = n + 1` -/
def bern (eps t : ℝ) (n v : ℕ) : ℝ :=
  if n = 0 then 1 else
  let binomln := -betaln (1 + n - v) (1 + v) - Real.log (n + 1)
  let mask0 := t < eps
  let mask1 := 1 - eps < t
  let safeX := if mask0 ∨ mask1 then 0.5 else t
  let y := if mask0 ∨ mask1 then 0 else Real.exp (binomln + v * Real.log safeX + (n - v) * Real.log (1 + -safeX))
  let y := if mask0 ∧ v = 0 then 1 else y
  if mask1 ∧ v = n then 1 else y

theorem bernstein_eq (eps t : ℝ) (n : ℕ) : bernstein eps t (n + 1) = .ok (bern eps t n) := by
  unfold bernstein bern
  rw [if_neg (by omega)]
  rcases Nat.eq_zero_or_pos n with rfl | hn
  · rfl
  · rw [if_neg (by omega)]
    have : ((n : ℤ) + 1 - 1).toNat = n := by omega
    simp only [this, if_neg hn.ne']

theorem fine_bernsteinValue (eps t : ℝ) (he : 0 < eps) (n v : ℕ) (hn : n ≠ 0) :
    Fine (bernsteinValueEx eps n v) t (bern eps t n v) := by
  have hs := safeX_bounds (t := t) he _ rfl
  unfold bernsteinValueEx bern
  rw [if_neg hn]
  constructor
  · simp only [reg_sel, reg_and, reg_or, reg_lt, reg_const, reg_cond, reg_x, reg_exp, reg_add, reg_mul, reg_log, reg_neg,
      val_add, val_const, val_neg, val_safe, val_x, true_and, and_true]
    exact ⟨hs.1, by linarith [hs.2]⟩
  · simp only [val_sel _ _ (and _ _), T_and, T_lt, T_cond, val_const, val_x, beq_iff_eq]
    simp only [val_sel, T_or, T_lt, val_const, val_x, val_exp, val_add, val_mul, val_log, val_neg]

theorem fine_bernstein (eps t : ℝ) (he : 0 < eps) (n : ℕ) : ∀ v, Fine (bernsteinEx eps n v) t (bern eps t n v) := by
  induction n with
  | zero =>
    intro v
    unfold bernsteinEx Fine bern
    simp
  | succ n ih =>
    intro v
    have h1 := fine_bernsteinValue eps t he (n + 1) v (by omega)
    have hl : ∀ w, Regular (if w < n + 1 then bernsteinEx eps n w else const 0) fun _ => t := by
      intro w
      split_ifs
      · exact (ih w).1
      · trivial
    unfold bernsteinEx
    constructor
    · simp only [reg_call, reg_x, true_and, val_x]
      refine ⟨h1.1, ?_⟩
      simp only [reg_mul, reg_const, true_and, reg_sub]
      refine ⟨?_, hl v⟩
      split_ifs
      · trivial
      · exact (ih _).1
      · trivial
    · rw [val_call]; exact h1.2

theorem fine_chebyshev (eps t : ℝ) (he : 0 < eps) (n : ℕ) (num : ℤ) (hn : 1 ≤ num) (f : ℕ → ℝ)
    (hf : chebyshev eps t num = .ok f) : Fine (chebyshevEx eps num n) t (f n) := by
  unfold chebyshev at hf
  rw [if_neg (by omega)] at hf
  by_cases h1 : num = 1
  · rw [if_pos h1] at hf
    have hf := Except.ok.inj hf
    rw [← hf, chebyshevEx, if_pos h1]
    exact ⟨trivial, rfl⟩
  rw [if_neg h1] at hf
  have hf := Except.ok.inj hf
  rw [← hf]
  have hv : val (sel (or (lt x (const (-(1 - eps)))) (lt (const (1 - eps)) x)) (const 0) x) (fun _ => t) =
      if t < -(1 - eps) ∨ 1 - eps < t then 0 else t := by
    simp only [val_sel, T_or, T_lt, val_const, val_x]
  have hs : |if t < -(1 - eps) ∨ 1 - eps < t then 0 else t| < 1 := by
    split_ifs with h
    · norm_num
    · push Not at h
      rw [abs_lt]
      constructor <;> linarith [h.1, h.2]
  rw [chebyshevEx, if_neg h1]
  constructor
  · simp only [reg_sel, reg_or, reg_lt, reg_const, reg_x, reg_mul, reg_add, reg_sub, reg_cos, reg_arccos, hv, true_and]
    exact hs
  · simp only [val_sel _ _ (lt _ _), T_lt, val_const, val_x, val_mul, val_add, val_sub, val_cos, val_arccos, hv]

theorem reg_pow {a : Ex} {r : ℕ → ℝ} (ha : Regular a r) (n : ℕ) : Regular (pow a n) r := by
  induction n with
  | zero => trivial
  | succ n ih => exact ⟨ih, ha⟩

theorem val_pow (a : Ex) (r : ℕ → ℝ) (n : ℕ) : val (pow a n) r = val a r ^ n := by
  induction n with
  | zero => rfl
  | succ n ih => rw [pow, val_mul, ih, pow_succ]

theorem fine_basicChebyshev (eps t limit : ℝ) (he : 0 < eps) (hl : limit ≠ 0) (n : ℕ) (num : ℤ) (hn : 1 ≤ num) (f : ℕ → ℝ)
    (hf : basicChebyshev eps t num limit = .ok f) : Fine (basicChebyshevEx eps limit num n) t (f n) := by
  unfold basicChebyshev at hf
  have ha : Fine (const 2 * x / const limit - const 1) t (2 * t / limit - 1) := ⟨by simp [hl], by simp⟩
  obtain ⟨g, hg⟩ : ∃ g, chebyshev eps (2 * t / limit - 1) num = .ok g := by
    unfold chebyshev
    rw [if_neg (by omega)]
    split_ifs
    · exact ⟨_, rfl⟩
    · exact ⟨_, rfl⟩
  simp only [hg, Except.bind] at hf
  have hf := Except.ok.inj hf
  rw [← hf]
  have h1 := (fine_chebyshev eps _ he n num hn g hg).comp ha
  unfold basicChebyshevEx
  constructor
  · simp only [reg_sel, reg_le, reg_abs, reg_const, ha.1, h1.1, true_and]
    exact reg_pow (by simp only [reg_sign]; exact ha.1) n
  · simp only [val_sel _ _ (le _ _), T_le, val_abs, ha.2, val_const, h1.2, val_pow, val_sign]

theorem fine_gaussian (t : ℝ) (num : ℤ) (k : ℕ) (f : ℕ → ℝ) (hf : gaussian t num = .ok f) :
    Fine (gaussianEx num k) t (f k) := by
  unfold gaussian at hf
  by_cases h : num < 1
  · rw [if_pos h] at hf; cases hf
  rw [if_neg h] at hf
  have hf := Except.ok.inj hf
  rw [← hf]
  unfold gaussianEx Fine
  constructor
  · simp
  · simp only [val_exp, val_mul, val_neg, val_const, val_sub, val_x, pow_two]

theorem fine_basic {f : Ex} {limit t z : ℝ} (hl : limit ≠ 0) (hf : Fine f (t / limit) z) : Fine (basicEx f limit) t z :=
  Fine.comp hf ⟨by simp [hl], by simp⟩

theorem fine_mapped {f m : Ex} {t y z : ℝ} (w : Bool) (hm : Fine m t y) (hf : Fine f (1 - y) z) :
    Fine (mappedEx f m w) t (if w then z * y else z) := by
  have h := hf.comp (a := const 1 - m) (t := t) ⟨by simp [hm.1], by simp [hm.2]⟩
  unfold mappedEx
  cases w
  · exact h
  · exact ⟨⟨h.1, hm.1⟩, by simp [hm.2, hf.2]⟩

theorem fine_mappedChebyshev {f m : Ex} {t y z : ℝ} (w : Bool) (hm : Fine m t y) (hf : Fine f (2 * y - 1) z) :
    Fine (mappedChebyshevEx f m w) t (if w then z * y else z) := by
  have h := hf.comp (a := const 2 * m - const 1) (t := t) ⟨by simp [hm.1], by simp [hm.2]⟩
  unfold mappedChebyshevEx
  cases w
  · exact h
  · exact ⟨⟨h.1, hm.1⟩, by simp [hm.2, hf.2]⟩

/-! ## activations -/

theorem signFn_eq_sgn (t : ℝ) : signFn t = sgn t := rfl

theorem fine_relu (t : ℝ) : Fine reluEx t (reluGate t) := by
  unfold reluEx Fine reluGate
  simp [signFn_eq_sgn]

theorem fine_leakyRelu (s t : ℝ) : Fine (leakyReluEx s) t (leakyReluGate s t) := by
  unfold leakyReluEx Fine leakyReluGate
  constructor
  · simp
  · simp only [val_sel, T_le, val_const, val_x]

theorem notTiny_ne {eps t : ℝ} (he : 0 ≤ eps) : (if eps < |t| then t else 1) ≠ 0 := by
  split_ifs with h
  · exact abs_pos.mp (he.trans_lt h)
  · exact one_ne_zero

theorem val_notTiny (eps : ℝ) (r : ℕ → ℝ) : val (sel (lt (const eps) (abs x)) x (const 1)) r = if eps < |r 0| then r 0 else 1 := by
  simp only [val_sel, T_lt, val_const, val_abs, val_x]

theorem fine_elu (eps alpha t : ℝ) (he : 0 ≤ eps) : Fine (eluEx eps alpha) t (eluGate eps alpha t) := by
  unfold eluEx eluGate expm1
  constructor
  · simp only [reg_sel, reg_lt, reg_const, reg_x, reg_abs, reg_div, reg_mul, reg_add, reg_prim, val_notTiny, val_const, true_and]
    exact ⟨notTiny_ne he, by norm_num, by norm_num⟩
  · simp only [val_sel _ _ (lt _ _), T_lt, val_const, val_x, val_abs, val_div, val_mul, val_add, val_prim]

theorem fine_celu (eps alpha t : ℝ) (he : 0 ≤ eps) (ha : alpha ≠ 0) : Fine (celuEx eps alpha) t (celuGate eps alpha t) := by
  unfold celuEx celuGate expm1
  constructor
  · simp only [reg_sel, reg_lt, reg_const, reg_x, reg_abs, reg_div, reg_mul, reg_add, reg_prim, val_notTiny, val_const, true_and]
    exact ⟨⟨ha, notTiny_ne he⟩, ⟨by positivity, by positivity⟩, trivial⟩
  · simp only [val_sel _ _ (lt _ _), T_lt, val_const, val_x, val_abs, val_div, val_mul, val_add, val_prim]

theorem fine_silu (t : ℝ) : Fine siluEx t (siluGate t) := by
  unfold siluEx Fine
  simp

theorem fine_gelu (approximate : Bool) (t : ℝ) : Fine (geluEx approximate) t (geluGate approximate t) := by
  unfold geluEx Fine geluGate
  cases approximate
  · simp
  · constructor
    · simp
    · simp only [if_true, val_mul, val_add, val_const, val_prim, val_x]
      rw [show t * t * t = t ^ 3 by ring]

theorem fine_mish (fast : Bool) (t : ℝ) : Fine (mishEx fast) t (mishGate fast t) := by
  unfold mishEx Fine mishGate
  cases fast
  · simp
  · have : 2 * Real.exp (-t) + 1 + 2 * Real.exp (-t) * Real.exp (-t) ≠ 0 := by positivity
    constructor
    · simp [this]
    · simp

theorem fine_serf (t : ℝ) : Fine serfEx t (serfGate t) := by
  unfold serfEx Fine serfGate
  simp

theorem fine_shiftedSoftplus (eps t : ℝ) (he : 0 ≤ eps) : Fine (shiftedSoftplusEx eps) t (shiftedSoftplusGate eps t) := by
  unfold shiftedSoftplusEx shiftedSoftplusGate
  constructor
  · simp only [reg_sel, reg_lt, reg_const, reg_x, reg_abs, reg_div, reg_sub, reg_add, reg_prim, val_notTiny, val_const, true_and]
    exact ⟨notTiny_ne he, by norm_num⟩
  · simp only [val_sel _ _ (lt _ _), T_lt, val_const, val_x, val_abs, val_div, val_sub, val_add, val_prim] <;>
    split_ifs <;> rfl

theorem fine_hardTanh (t : ℝ) : Fine hardTanhEx t (hardTanhGate t) := by
  unfold hardTanhEx hardTanhGate
  constructor
  · simp only [reg_sel, reg_lt, reg_const, reg_x, reg_abs, reg_div, val_notTiny, true_and]
    exact ⟨notTiny_ne (by norm_num), notTiny_ne (by norm_num), trivial⟩
  · simp only [val_sel _ _ (lt _ _), T_lt, val_const, val_x, val_abs, val_div] <;>
    split_ifs <;> rfl

theorem fine_softSign (t : ℝ) : Fine softSignEx t (softSignGate t) := by
  unfold softSignEx Fine softSignGate
  have : |t| + 1 ≠ 0 := by positivity
  simp [this]

theorem fine_relu6 (t : ℝ) : Fine relu6Ex t (relu6Gate t) := by
  unfold relu6Ex relu6Gate
  constructor
  · simp only [reg_min, reg_max, reg_sign, reg_sel, reg_lt, reg_const, reg_x, reg_div, val_sel, T_lt, val_const, val_x, true_and]
    split_ifs with h
    · positivity
    · norm_num
  · simp only [val_min, val_max, val_sign, val_sel, T_lt, val_const, val_x, val_div, signFn_eq_sgn]

theorem fine_hardSilu (t : ℝ) : Fine hardSiluEx t (hardSigmoid t) := by
  unfold hardSiluEx Fine hardSigmoid
  simp

theorem fine_bentIdentity (eps t : ℝ) (he : 0 ≤ eps) : Fine (bentIdentityEx eps) t (bentIdentityGate eps t) := by
  unfold bentIdentityEx bentIdentityGate
  constructor
  · simp only [reg_sel, reg_lt, reg_const, reg_x, reg_abs, reg_div, reg_sub, reg_mul, reg_add, reg_sqrt, val_notTiny, val_const,
      val_mul, val_add, val_x, true_and, and_true]
    exact ⟨⟨by nlinarith, mul_ne_zero two_ne_zero (notTiny_ne he)⟩, by norm_num⟩
  · simp only [val_sel _ _ (lt _ _), T_lt, val_const, val_x, val_abs, val_div, val_sub, val_mul, val_add, val_sqrt] <;>
    split_ifs <;> rfl

end

end E3x.AD.Ex
