import Verif.Model.CutoffFloat
import Verif.Spec.CutoffFloat
import Verif.Lemmas.SoftmaxFloat
import Mathlib.Analysis.Complex.ExponentialBounds

/-!
# Rounding errors of the cutoff function
-/

namespace E3x

namespace FloatFormat

variable {F : FloatFormat}

theorem pow_log_le_round (hp : 1 ≤ F.p) {x : ℝ} (h : F.tiny ≤ x) : (2 : ℝ) ^ Int.log 2 |x| ≤ F.roundUnbounded x := by
  have h0 : 0 < x := tiny_pos.trans_le h
  have hx : |x| = x := abs_of_pos h0
  have h' : F.tiny ≤ |x| := by rwa [hx]
  have e : (((2 : ℤ) ^ (F.p - 1) : ℤ) : ℝ) * 2 ^ F.lastPlace x = 2 ^ Int.log 2 |x| := by
    rw [lastPlace_normal h']
    push_cast
    rw [← zpow_natCast, ← zpow_add₀ two_ne_zero]
    congr 1
    omega
  rw [← e]
  refine le_roundUnbounded ?_
  rw [e]
  exact (log_bounds (by rwa [hx])).1.trans_eq hx

theorem two_pow_le_round (hp : 1 ≤ F.p) {x : ℝ} {k : ℤ} (hk : F.q + F.p - 1 ≤ k) (h : (2 : ℝ) ^ k ≤ x) :
    (2 : ℝ) ^ k ≤ F.roundUnbounded x := by
  have ht : F.tiny ≤ x := (zpow_le hk).trans h
  have h0 : 0 < x := tiny_pos.trans_le ht
  refine le_trans (zpow_le ?_) (pow_log_le_round hp ht)
  have := zpow_lt (h.trans_lt ((le_abs_self x).trans_lt (log_bounds (abs_pos.2 h0.ne')).2))
  omega

theorem round_eq_num {x r : ℝ} (h : F.round x = .num r) :
    |r| ≤ F.maxFinite ∧ (r = F.roundUnbounded x ∨ r = 0 ∧ |F.roundUnbounded x| < F.tiny) ∨ r = 0 ∧ |F.roundUnbounded x| < F.tiny := by
  unfold round at h
  simp only at h
  split_ifs at h with h1 h2 h3
  · cases h
    exact .inr ⟨rfl, h3.2⟩
  · cases h
    exact .inl ⟨abs_le.2 ⟨not_lt.1 h2, not_lt.1 h1⟩, .inl rfl⟩

/-- Rounding and the number one. -/
theorem round_one (hF : F.Accurate) {y : ℝ} (hy : 0 ≤ y) :
    (F.round y = .posInf ∧ 1 ≤ y) ∨ ∃ z, F.round y = .num z ∧ 0 ≤ z ∧ |z - y| ≤ F.unit * y + F.tiny ∧
      (z < 1 → z ≤ 1 - F.unit) ∧ (1 ≤ y → 1 ≤ z) := by
  have u0 := unit_pos (F := F)
  have u1 := hF.unit_le
  have t0 := tiny_pos (F := F)
  have t1 : F.tiny ≤ F.unit / 8 := hF.tiny_le.trans (by nlinarith)
  have hmax : 8 ≤ F.maxFinite := by
    refine le_trans ?_ hF.le_max
    rw [le_div_iff₀ u0]
    linarith
  have hp : 1 ≤ F.p := hF.proper.p_pos
  have hone : 1 ≤ y → 1 ≤ F.roundUnbounded y := by
    intro h
    simpa using two_pow_le_round (F := F) hp (k := 0) (by have := hF.underflow; omega) (by simpa using h)
  -- every rounded number below one is at most `1 - unit`
  have hbelow : ∀ z, F.round y = .num z → |z - y| ≤ F.unit * y + F.tiny → z < 1 → z ≤ 1 - F.unit := by
    intro z hz ez hz1
    have hz' : z = F.roundUnbounded y ∨ z = 0 := by
      rcases round_eq_num hz with ⟨-, h | h⟩ | h
      · exact .inl h
      · exact .inr h.1
      · exact .inr h.1
    rcases hz' with h | h
    · rcases lt_or_ge y (1 / 2) with h2 | h2
      · have := (abs_le.1 ez).2
        nlinarith
      · rcases lt_or_ge y 1 with h3 | h3
        · have hlog : Int.log 2 |y| = -1 := by
            have hb := log_bounds (x := y) (by rw [abs_of_nonneg hy]; linarith)
            rw [abs_of_nonneg hy] at hb ⊢
            have l1 : (2 : ℝ) ^ Int.log 2 y < 2 ^ (0 : ℤ) := by simpa using hb.1.trans_lt h3
            have l2 : (2 : ℝ) ^ (-1 : ℤ) < 2 ^ (Int.log 2 y + 1) := by
              refine lt_of_le_of_lt ?_ hb.2
              norm_num
              linarith
            have := zpow_lt l1
            have := zpow_lt l2
            omega
          have hlp : F.lastPlace y = -(F.p : ℤ) := by
            unfold lastPlace
            rw [hlog]
            have := hF.underflow
            omega
          have hu : (2 : ℝ) ^ F.lastPlace y = F.unit := by rw [hlp]; rfl
          have hz2 : z = nearestEven (y / F.unit) * F.unit := by rw [h, roundUnbounded, hu]
          have hU : F.unit * 2 ^ F.p = 1 := by
            rw [unit, zpow_neg, zpow_natCast]
            exact inv_mul_cancel₀ (by positivity)
          have hlt : (nearestEven (y / F.unit) : ℝ) < 2 ^ F.p := by
            rw [hz2] at hz1
            by_contra hc
            push Not at hc
            have := mul_le_mul_of_nonneg_right hc u0.le
            linarith
          have hle : nearestEven (y / F.unit) ≤ 2 ^ F.p - 1 := by
            have : nearestEven (y / F.unit) < 2 ^ F.p := by exact_mod_cast hlt
            omega
          have hle' : (nearestEven (y / F.unit) : ℝ) ≤ 2 ^ F.p - 1 := by exact_mod_cast hle
          rw [hz2]
          have := mul_le_mul_of_nonneg_right hle' u0.le
          linarith
        · have := hone h3
          linarith
    · linarith
  rcases le_or_gt y F.maxFinite with h | h
  · obtain ⟨z, hz, ez, -, z0⟩ := round_spec hF.proper (x := y) (by rwa [abs_of_nonneg hy])
    rw [abs_of_nonneg hy] at ez
    refine .inr ⟨z, hz, z0 hy, ez, hbelow z hz ez, fun h1 => ?_⟩
    have h2 := hone h1
    rcases round_eq_num hz with ⟨-, h | h⟩ | h
    · rw [h]; exact h2
    · have := (le_abs_self _).trans_lt h.2
      linarith
    · have := (le_abs_self _).trans_lt h.2
      linarith
  · have h1 : 1 ≤ y := by linarith
    rcases round_large hF.proper (x := y) (by linarith) with h2 | ⟨z, hz, ez⟩
    · exact .inl ⟨h2, h1⟩
    · have h2 := hone h1
      have hz1 : 1 ≤ z := by
        rcases round_eq_num hz with ⟨-, h | h⟩ | h
        · rw [h]; exact h2
        · have := (le_abs_self _).trans_lt h.2
          linarith
        · have := (le_abs_self _).trans_lt h.2
          linarith
      exact .inr ⟨z, hz, by linarith, by linarith, fun h => absurd h (not_lt.2 hz1), fun _ => hz1⟩

/-- Numbers up to `1 - unit` are rounded to numbers up to `1 - unit`. -/
theorem round_below_one (hF : F.Accurate) {y : ℝ} (hy : 0 ≤ y) (h : y ≤ 1 - F.unit) :
    ∃ z, F.round y = .num z ∧ 0 ≤ z ∧ |z - y| ≤ F.unit * y + F.tiny ∧ z ≤ 1 - F.unit := by
  have u0 := unit_pos (F := F)
  have u1 := hF.unit_le
  have t0 := tiny_pos (F := F)
  have t1 : F.tiny ≤ F.unit / 8 := hF.tiny_le.trans (by nlinarith)
  rcases round_one hF hy with ⟨-, h1⟩ | ⟨z, hz, z0, ez, hz1, -⟩
  · linarith
  · refine ⟨z, hz, z0, ez, hz1 ?_⟩
    -- `z < 1` because the error is less than `unit` unless `y ≥ 1 / 2`
    by_contra hc
    push Not at hc
    have hzy : z = F.roundUnbounded y := by
      rcases round_eq_num hz with ⟨-, h | h⟩ | h
      · exact h
      · linarith [h.1]
      · linarith [h.1]
    have hy2 : 1 / 2 ≤ y := by
      by_contra h2
      push Not at h2
      have := (abs_le.1 ez).2
      nlinarith
    have hlog : Int.log 2 |y| = -1 := by
      have hb := log_bounds (x := y) (by rw [abs_of_nonneg hy]; linarith)
      rw [abs_of_nonneg hy] at hb ⊢
      have l1 : (2 : ℝ) ^ Int.log 2 y < 2 ^ (0 : ℤ) := by
        refine lt_of_le_of_lt hb.1 ?_
        simp
        linarith
      have l2 : (2 : ℝ) ^ (-1 : ℤ) < 2 ^ (Int.log 2 y + 1) := by
        refine lt_of_le_of_lt ?_ hb.2
        norm_num
        linarith
      have := zpow_lt l1
      have := zpow_lt l2
      omega
    have hlp : F.lastPlace y = -(F.p : ℤ) := by
      unfold lastPlace
      rw [hlog]
      have := hF.underflow
      have := hF.precision
      omega
    have hu : (2 : ℝ) ^ F.lastPlace y = F.unit := by rw [hlp]; rfl
    have hU : F.unit * 2 ^ F.p = 1 := by
      rw [unit, zpow_neg, zpow_natCast]
      exact inv_mul_cancel₀ (by positivity)
    have e1 : (((2 : ℤ) ^ F.p - 1 : ℤ) : ℝ) * F.unit = 1 - F.unit := by
      push_cast
      linarith
    have := roundUnbounded_le (F := F) (x := y) (m := 2 ^ F.p - 1) (by rw [hu, e1]; exact h)
    rw [hu, e1] at this
    linarith

end FloatFormat

open FloatFormat

/-- The bump function of the distance to the cutoff. -/
noncomputable def bump (s : ℝ) : ℝ := Real.exp (1 - 1 / s)

theorem mul_exp_one_sub_le (w : ℝ) : w * Real.exp (1 - w) ≤ 1 := by
  have h := Real.add_one_le_exp (w - 1)
  have h1 : Real.exp (w - 1) * Real.exp (1 - w) = 1 := by rw [← Real.exp_add]; simp
  have := mul_le_mul_of_nonneg_right h (Real.exp_pos (1 - w)).le
  linarith

theorem sq_mul_exp_one_sub_le {w : ℝ} (hw : 0 ≤ w) : w ^ 2 * Real.exp (1 - w) ≤ 3 / 2 := by
  have h := mul_exp_one_sub_le (w / 2)
  have h0 : 0 ≤ w / 2 * Real.exp (1 - w / 2) := by positivity
  have h1 : w ^ 2 * Real.exp (1 - w) = 4 * (w / 2 * Real.exp (1 - w / 2)) ^ 2 * Real.exp (-1) := by
    have : Real.exp (1 - w) = Real.exp (1 - w / 2) ^ 2 * Real.exp (-1) := by
      rw [sq, ← Real.exp_add, ← Real.exp_add]
      ring_nf
    rw [this]
    ring
  have h2 : (w / 2 * Real.exp (1 - w / 2)) ^ 2 ≤ 1 := by nlinarith
  have h3 : Real.exp (-1) ≤ 3 / 8 := by
    rw [Real.exp_neg]
    have := Real.exp_one_gt_d9
    rw [inv_le_comm₀ (Real.exp_pos 1) (by norm_num)]
    linarith
  rw [h1]
  have := Real.exp_pos (-1)
  nlinarith

theorem bump_le {s : ℝ} (hs : 0 < s) : bump s ≤ s := by
  have h := mul_exp_one_sub_le (1 / s)
  unfold bump
  rwa [one_div_mul_eq_div, div_le_one hs] at h

/-- The bump function has slope at most three. -/
theorem bump_lipschitz {a b : ℝ} (ha : 0 < a) (hb : 0 < b) : |bump a - bump b| ≤ 3 * |a - b| := by
  wlog h : a ≤ b generalizing a b
  · rw [abs_sub_comm, abs_sub_comm a b]
    exact this hb ha (le_of_not_ge h)
  have hmono : bump a ≤ bump b := by
    unfold bump
    rw [Real.exp_le_exp]
    have := one_div_le_one_div_of_le ha h
    linarith
  rw [abs_sub_comm, abs_of_nonneg (by linarith), abs_sub_comm, abs_of_nonneg (by linarith)]
  have ha1 : 0 < bump a := Real.exp_pos _
  rcases le_total (b / 2) a with h2 | h2
  · have hdiff : bump b - bump a ≤ (1 / a - 1 / b) * bump b := by
      have h3 := Real.add_one_le_exp (1 / b - 1 / a)
      have h4 : bump a = Real.exp (1 / b - 1 / a) * bump b := by
        unfold bump
        rw [← Real.exp_add]
        ring_nf
      have := mul_le_mul_of_nonneg_right h3 (Real.exp_pos (1 - 1 / b)).le
      rw [h4]
      unfold bump at *
      linarith
    have h5 : (1 / a - 1 / b) ≤ 2 * (b - a) * (1 / b) ^ 2 := by
      rw [div_sub_div _ _ ha.ne' hb.ne', div_le_iff₀ (by positivity)]
      have : 2 * (b - a) * (1 / b) ^ 2 * (a * b) = (b - a) * (2 * a / b) := by field_simp
      rw [this]
      have h6 : 1 ≤ 2 * a / b := by rw [le_div_iff₀ hb]; linarith
      nlinarith
    have h7 := sq_mul_exp_one_sub_le (w := 1 / b) (by positivity)
    calc bump b - bump a ≤ (1 / a - 1 / b) * bump b := hdiff
      _ ≤ 2 * (b - a) * (1 / b) ^ 2 * bump b := mul_le_mul_of_nonneg_right h5 (Real.exp_pos _).le
      _ = 2 * (b - a) * ((1 / b) ^ 2 * Real.exp (1 - 1 / b)) := by unfold bump; ring
      _ ≤ 2 * (b - a) * (3 / 2) := mul_le_mul_of_nonneg_left h7 (by linarith)
      _ = 3 * (b - a) := by ring
  · have := bump_le hb
    linarith

theorem exp_sub_exp_le (a b : ℝ) : Real.exp a - Real.exp b ≤ (a - b) * Real.exp a := by
  have := Real.add_one_le_exp (b - a)
  have h6 : Real.exp b = Real.exp (b - a) * Real.exp a := by rw [← Real.exp_add]; ring_nf
  rw [h6]
  nlinarith [Real.exp_pos a]

set_option maxHeartbeats 800000 in
/-- The value inside the cutoff. -/
theorem inside_spec {F : FloatFormat} (hF : F.Accurate) {exp : FloatVal → FloatVal} (hexp : AccurateExp F exp) {z : ℝ}
    (z0 : 0 ≤ z) (z1 : z ≤ 1 - F.unit) :
    ∃ r, exp (F.sub (.num 1) (F.div (.num 1) (F.sub (.num 1) (F.mul (.num z) (.num z))))) = .num r ∧ 0 ≤ r ∧
      |r - bump (1 - z ^ 2)| ≤ 20 * F.unit := by
  have u0 := unit_pos (F := F)
  have u1 := hF.unit_le
  have t0 := tiny_pos (F := F)
  have t1 : F.tiny ≤ F.unit / 8 := hF.tiny_le.trans (by nlinarith)
  have hmax1 := hF.le_max
  have hmax : 8 ≤ F.maxFinite := by
    refine le_trans ?_ hF.le_max
    rw [le_div_iff₀ u0]
    linarith
  -- the square
  have hzz : z * z ≤ 1 - F.unit := by nlinarith
  obtain ⟨q, hq, q0, eq, q1⟩ := round_below_one hF (mul_self_nonneg z) hzz
  have eq' : |q - z * z| ≤ 9 / 8 * F.unit := eq.trans (by nlinarith)
  -- the difference
  have hd0 : F.sub (.num 1) (F.mul (.num z) (.num z)) = F.round (1 - q) := by
    simp only [FloatFormat.mul, hq, FloatFormat.sub, FloatVal.neg, FloatFormat.add, ← sub_eq_add_neg]
  obtain ⟨d, hd, -, ed, -⟩ := round_spec hF.proper (x := 1 - q) (by rw [abs_of_nonneg (by linarith)]; linarith)
  rw [abs_of_nonneg (a := 1 - q) (by linarith)] at ed
  have ed := ed (by linarith)
  have hdu : F.unit ≤ d := by
    have h1 := two_pow_le_round (F := F) hF.proper.p_pos (k := -(F.p : ℤ)) (x := 1 - q)
      (by have := hF.underflow; omega) (show F.unit ≤ 1 - q by linarith)
    rcases round_eq_num hd with ⟨-, h | h⟩ | h
    · rw [h]; exact h1
    · have := (le_abs_self _).trans_lt h.2
      have h1 : F.unit ≤ F.roundUnbounded (1 - q) := h1
      linarith
    · have := (le_abs_self _).trans_lt h.2
      have h1 : F.unit ≤ F.roundUnbounded (1 - q) := h1
      linarith
  have dpos : 0 < d := by linarith
  have ed' : |d - (1 - q)| ≤ F.unit := ed.trans (by nlinarith)
  have hd1 : d ≤ 9 / 8 := by have := (abs_le.1 ed').2; linarith
  -- the reciprocal
  have hw : 1 / d ≤ 1 / F.unit := one_div_le_one_div_of_le u0 hdu
  have hw0 : 8 / 9 ≤ 1 / d := by rw [le_div_iff₀ dpos]; linarith
  set w := 1 / d with hwd
  have hi0 : F.div (.num 1) (F.round (1 - q)) = F.round w := by
    rw [hd]
    simp only [FloatFormat.div, if_neg dpos.ne']
    rfl
  obtain ⟨i, hi, -, ei, hi1⟩ := round_spec hF.proper (x := w) (by rw [abs_of_pos (by linarith)]; linarith)
  rw [abs_of_pos (a := w) (by linarith)] at ei
  have ei := ei (by linarith)
  have hi2 := abs_le.1 ei
  have huw : F.unit * w ≤ 1 / 8 * w := mul_le_mul_of_nonneg_right u1 (by linarith)
  have himax : i ≤ F.maxFinite := by
    rcases round_eq_num hi with ⟨h, -⟩ | h
    · exact (le_abs_self _).trans h
    · linarith [h.1]
  -- the argument of the exponential function
  have hg0 : F.sub (.num 1) (F.round w) = F.round (1 - i) := by
    rw [hi]
    simp only [FloatFormat.sub, FloatVal.neg, FloatFormat.add, ← sub_eq_add_neg]
  have hi3 : |1 - i| ≤ i := by rw [abs_le]; constructor <;> linarith
  obtain ⟨g, hg, eg, -⟩ := round_spec hF.proper (x := 1 - i) (by linarith)
  have hui : F.unit * |1 - i| ≤ F.unit * (9 / 8 * w) := mul_le_mul_of_nonneg_left (by linarith) u0.le
  have eg2 : |g - (1 - w)| ≤ 17 / 8 * (F.unit * w) + F.tiny := by
    have h1 := abs_sub_le g (1 - i) (1 - w)
    have h2 : |1 - i - (1 - w)| ≤ F.unit * w := by
      rw [show 1 - i - (1 - w) = w - i by ring, abs_sub_comm]
      exact ei
    linarith
  have hg2 := abs_le.1 eg2
  have hg1 : g ≤ 1 := by linarith
  obtain ⟨r, hr, r0, er⟩ := hexp.num g hg1
  refine ⟨r, by rw [hd0, hi0, hg0, hg, hr], r0, ?_⟩
  -- the exponential of the rounded argument
  have hE : Real.exp F.tiny ≤ 8 / 7 := by
    have h3 := Real.one_sub_le_exp_neg F.tiny
    rw [Real.exp_neg] at h3
    have h4 : 7 / 8 ≤ (Real.exp F.tiny)⁻¹ := by linarith
    have := inv_anti₀ (by norm_num) h4
    rw [inv_inv] at this
    linarith
  have hsw := mul_exp_one_sub_le (7 / 10 * w)
  set E := Real.exp (1 - 7 / 10 * w) with hEdef
  have E0 : 0 < E := Real.exp_pos _
  have hE1 : E ≤ 2 := by nlinarith
  have hwE : w * E ≤ 10 / 7 := by linarith
  have hbound : ∀ y, y ≤ 1 - w + (17 / 8 * (F.unit * w) + F.tiny) → Real.exp y ≤ E * (8 / 7) := by
    intro y hy
    have h1 : Real.exp y ≤ Real.exp (1 - 7 / 10 * w + F.tiny) := by
      rw [Real.exp_le_exp]
      linarith
    rw [Real.exp_add] at h1
    exact h1.trans (mul_le_mul_of_nonneg_left hE E0.le)
  set η := 17 / 8 * (F.unit * w) + F.tiny with hη
  have η0 : 0 ≤ η := by positivity
  have hprod : η * (E * (8 / 7)) ≤ 4 * F.unit := by
    have h1 : η * (E * (8 / 7)) = 17 / 7 * F.unit * (w * E) + 8 / 7 * (F.tiny * E) := by rw [hη]; ring
    have h2 : 17 / 7 * F.unit * (w * E) ≤ 17 / 7 * F.unit * (10 / 7) := mul_le_mul_of_nonneg_left hwE (by linarith)
    have h3 : F.tiny * E ≤ F.unit / 8 * 2 := mul_le_mul t1 hE1 E0.le (by linarith)
    linarith
  have key := exp_sub_exp_le
  have hdiff : |Real.exp g - Real.exp (1 - w)| ≤ 4 * F.unit := by
    rw [abs_le]
    constructor
    · have h7 := key (1 - w) g
      have h8 : (1 - w - g) * Real.exp (1 - w) ≤ η * (E * (8 / 7)) :=
        mul_le_mul (by linarith) (hbound _ (by linarith)) (Real.exp_pos _).le η0
      linarith
    · have h7 := key g (1 - w)
      have h8 : (g - (1 - w)) * Real.exp g ≤ η * (E * (8 / 7)) :=
        mul_le_mul (by linarith) (hbound _ (by linarith)) (Real.exp_pos _).le η0
      linarith
  have hbd : Real.exp (1 - w) = bump d := by rw [hwd]; rfl
  have hbd1 := bump_le dpos
  have hg3 : Real.exp g ≤ 7 / 4 := by
    have := (abs_le.1 hdiff).2
    linarith
  have her : 4 * F.unit * Real.exp g ≤ 4 * F.unit * (7 / 4) := mul_le_mul_of_nonneg_left hg3 (by linarith)
  -- the error of the difference
  have hz2 : 0 < 1 - z ^ 2 := by nlinarith
  have hdz : |d - (1 - z ^ 2)| ≤ 17 / 8 * F.unit := by
    have h1 := abs_sub_le d (1 - q) (1 - z ^ 2)
    have h2 : |1 - q - (1 - z ^ 2)| ≤ 9 / 8 * F.unit := by
      rw [show 1 - q - (1 - z ^ 2) = z * z - q by ring, abs_sub_comm]
      exact eq'
    linarith
  have hlip := bump_lipschitz dpos hz2
  have h9 := abs_sub_le r (Real.exp g) (bump (1 - z ^ 2))
  have h10 := abs_sub_le (Real.exp g) (bump d) (bump (1 - z ^ 2))
  rw [hbd] at hdiff
  linarith

end E3x
