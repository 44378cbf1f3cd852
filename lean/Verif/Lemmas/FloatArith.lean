import Verif.Model.FloatArith
import Mathlib.Tactic.Linarith
import Mathlib.Tactic.Positivity
import Mathlib.Tactic.FieldSimp
import Mathlib.Tactic.Ring
import Mathlib.Tactic.NormNum

/-!
# Rounding errors
-/

namespace E3x

namespace FloatFormat

open Int (fract floor_le lt_floor_add_one fract_nonneg fract_lt_one)

theorem nearestEven_ge {x : ℝ} {m : ℤ} (h : (m : ℝ) ≤ x) : m ≤ nearestEven x := by
  have : m ≤ ⌊x⌋ := Int.le_floor.2 h
  unfold nearestEven
  split_ifs <;> omega

theorem nearestEven_le {x : ℝ} {m : ℤ} (h : x ≤ m) : nearestEven x ≤ m := by
  have h1 : ⌊x⌋ ≤ m := by
    have := (floor_le x).trans h
    exact_mod_cast this
  rcases h1.lt_or_eq with h2 | h2
  · unfold nearestEven
    split_ifs <;> omega
  · have : fract x = 0 := by
      have := floor_le x
      rw [Int.fract]
      rw [h2] at this ⊢
      linarith
    unfold nearestEven
    rw [if_pos (by rw [this]; norm_num)]
    omega

theorem nearestEven_error (x : ℝ) : |(nearestEven x : ℝ) - x| ≤ 1 / 2 := by
  have h := Int.floor_add_fract x
  have h0 := fract_nonneg x
  have h1 := fract_lt_one x
  unfold nearestEven
  split_ifs with a b c <;> push_cast <;> rw [abs_le] <;> constructor <;> linarith

theorem nearestEven_int (m : ℤ) : nearestEven (m : ℝ) = m :=
  le_antisymm (nearestEven_le le_rfl) (nearestEven_ge le_rfl)

variable {F : FloatFormat}

theorem tiny_pos : 0 < F.tiny := zpow_pos (by norm_num) _

theorem unit_pos : 0 < F.unit := zpow_pos (by norm_num) _

theorem two_zpow_pos (k : ℤ) : (0 : ℝ) < 2 ^ k := zpow_pos (by norm_num) _

theorem roundUnbounded_error (x : ℝ) : |F.roundUnbounded x - x| ≤ 2 ^ F.lastPlace x / 2 := by
  have h := nearestEven_error (x / 2 ^ F.lastPlace x)
  have p := two_zpow_pos (F.lastPlace x)
  have : F.roundUnbounded x - x =
      (nearestEven (x / 2 ^ F.lastPlace x) - x / 2 ^ F.lastPlace x) * 2 ^ F.lastPlace x := by
    unfold roundUnbounded
    field_simp
  rw [this, abs_mul, abs_of_pos p]
  nlinarith

theorem le_roundUnbounded {x : ℝ} {m : ℤ} (h : m * 2 ^ F.lastPlace x ≤ x) : m * 2 ^ F.lastPlace x ≤ F.roundUnbounded x := by
  have p := two_zpow_pos (F.lastPlace x)
  have : (m : ℝ) ≤ nearestEven (x / 2 ^ F.lastPlace x) := by
    exact_mod_cast nearestEven_ge ((le_div_iff₀ p).2 h)
  exact mul_le_mul_of_nonneg_right this p.le

theorem roundUnbounded_le {x : ℝ} {m : ℤ} (h : x ≤ m * 2 ^ F.lastPlace x) : F.roundUnbounded x ≤ m * 2 ^ F.lastPlace x := by
  have p := two_zpow_pos (F.lastPlace x)
  have : (nearestEven (x / 2 ^ F.lastPlace x) : ℝ) ≤ m := by
    exact_mod_cast nearestEven_le ((div_le_iff₀ p).2 h)
  exact mul_le_mul_of_nonneg_right this p.le

/-- Bounds in terms of multiples of the last place, with both signs. -/
theorem abs_roundUnbounded_le {x : ℝ} {m : ℤ} (h : |x| ≤ m * 2 ^ F.lastPlace x) :
    |F.roundUnbounded x| ≤ m * 2 ^ F.lastPlace x := by
  rw [abs_le] at h ⊢
  constructor
  · have := le_roundUnbounded (F := F) (x := x) (m := -m) (by push_cast; linarith)
    push_cast at this; linarith
  · exact roundUnbounded_le h.2

theorem le_abs_roundUnbounded {x : ℝ} {m : ℤ} (h : m * 2 ^ F.lastPlace x ≤ |x|) :
    m * 2 ^ F.lastPlace x ≤ |F.roundUnbounded x| := by
  rcases le_total 0 x with hx | hx
  · rw [abs_of_nonneg hx] at h
    exact (le_roundUnbounded h).trans (le_abs_self _)
  · rw [abs_of_nonpos hx] at h
    have := roundUnbounded_le (F := F) (x := x) (m := -m) (by push_cast; linarith)
    push_cast at this
    have := neg_le_abs (F.roundUnbounded x)
    linarith

theorem log_bounds {x : ℝ} (h : 0 < |x|) : (2 : ℝ) ^ Int.log 2 |x| ≤ |x| ∧ |x| < 2 ^ (Int.log 2 |x| + 1) := by
  have := Int.zpow_log_le_self (R := ℝ) (b := 2) (by norm_num) h
  have := Int.lt_zpow_succ_log_self (R := ℝ) (b := 2) (by norm_num) |x|
  exact ⟨by simpa using ‹_›, by simpa using ‹_›⟩

theorem zpow_lt {a b : ℤ} (h : (2 : ℝ) ^ a < 2 ^ b) : a < b := (zpow_lt_zpow_iff_right₀ (by norm_num)).1 h

theorem zpow_le {a b : ℤ} (h : a ≤ b) : (2 : ℝ) ^ a ≤ 2 ^ b := (zpow_le_zpow_iff_right₀ (by norm_num)).2 h

theorem log_of_tiny_le {x : ℝ} (h : F.tiny ≤ |x|) : F.q + F.p - 1 ≤ Int.log 2 |x| := by
  have h0 : 0 < |x| := tiny_pos.trans_le h
  have := zpow_lt (h.trans_lt (log_bounds h0).2)
  omega

theorem lastPlace_normal {x : ℝ} (h : F.tiny ≤ |x|) : F.lastPlace x = Int.log 2 |x| + 1 - F.p := by
  have := log_of_tiny_le h
  unfold lastPlace
  omega

theorem lastPlace_subnormal {x : ℝ} (h0 : x ≠ 0) (h : |x| < F.tiny) : F.lastPlace x = F.q := by
  have := zpow_lt ((log_bounds (abs_pos.2 h0)).1.trans_lt h)
  unfold lastPlace
  omega

theorem roundUnbounded_zero : F.roundUnbounded 0 = 0 := by
  have : nearestEven (0 : ℝ) = 0 := by simpa using nearestEven_int 0
  simp [roundUnbounded, this]

theorem error_normal {x : ℝ} (h : F.tiny ≤ |x|) : |F.roundUnbounded x - x| ≤ F.unit * |x| := by
  refine (roundUnbounded_error x).trans ?_
  rw [lastPlace_normal h]
  have h0 : 0 < |x| := tiny_pos.trans_le h
  have : (2 : ℝ) ^ (Int.log 2 |x| + 1 - F.p) / 2 = F.unit * 2 ^ Int.log 2 |x| := by
    rw [unit, show Int.log 2 |x| + 1 - (F.p : ℤ) = -(F.p : ℤ) + (Int.log 2 |x|) + 1 by ring,
      zpow_add₀ two_ne_zero, zpow_add₀ two_ne_zero]
    norm_num
  rw [this]
  exact mul_le_mul_of_nonneg_left (log_bounds h0).1 unit_pos.le

theorem error_subnormal (hp : 1 ≤ F.p) {x : ℝ} (h : |x| < F.tiny) : |F.roundUnbounded x - x| ≤ F.tiny / 2 := by
  rcases eq_or_ne x 0 with rfl | h0
  · rw [roundUnbounded_zero, sub_zero, abs_zero]
    exact (half_pos tiny_pos).le
  · refine (roundUnbounded_error x).trans ?_
    rw [lastPlace_subnormal h0 h]
    have : (2 : ℝ) ^ F.q ≤ F.tiny := zpow_le (by omega)
    linarith

theorem tiny_le_abs_round {x : ℝ} (hp : 1 ≤ F.p) (h : F.tiny ≤ |x|) : F.tiny ≤ |F.roundUnbounded x| := by
  have h0 : 0 < |x| := tiny_pos.trans_le h
  have e : (((2 : ℤ) ^ (F.p - 1) : ℤ) : ℝ) * 2 ^ F.lastPlace x = 2 ^ Int.log 2 |x| := by
    rw [lastPlace_normal h]
    push_cast
    rw [← zpow_natCast, ← zpow_add₀ two_ne_zero]
    congr 1
    omega
  have := le_abs_roundUnbounded (F := F) (x := x) (m := 2 ^ (F.p - 1)) (by rw [e]; exact (log_bounds h0).1)
  rw [e] at this
  exact (zpow_le (log_of_tiny_le h)).trans this

theorem subnormal_le_tiny {x : ℝ} (hp : 1 ≤ F.p) (h : |x| < F.tiny) : |F.roundUnbounded x| ≤ F.tiny := by
  rcases eq_or_ne x 0 with rfl | h0
  · rw [roundUnbounded_zero]
    simp [tiny_pos.le]
  · have e : (((2 : ℤ) ^ (F.p - 1) : ℤ) : ℝ) * 2 ^ F.lastPlace x = F.tiny := by
      rw [lastPlace_subnormal h0 h, tiny]
      push_cast
      rw [← zpow_natCast, ← zpow_add₀ two_ne_zero]
      congr 1
      omega
    have := abs_roundUnbounded_le (F := F) (x := x) (m := 2 ^ (F.p - 1)) (by rw [e]; exact h.le)
    rwa [e] at this

/-- The smallest normal number is a number of the format. -/
structure Proper (F : FloatFormat) : Prop where
  p_pos : 1 ≤ F.p
  range : F.q + F.p - 1 ≤ F.emax

theorem maxFinite_ge (hF : F.Proper) : (2 : ℝ) ^ F.emax ≤ F.maxFinite := by
  have h1 : (2 : ℝ) ^ F.emax = 2 ^ ((F.p : ℤ) - 1) * 2 ^ (F.emax - F.p + 1) := by
    rw [← zpow_add₀ two_ne_zero]; congr 1; ring
  rw [h1, maxFinite]
  have h2 : (2 : ℝ) ^ F.p = 2 * 2 ^ ((F.p : ℤ) - 1) := by
    rw [← zpow_one_add₀ two_ne_zero, ← zpow_natCast]; congr 1; ring
  have h3 : (1 : ℝ) ≤ 2 ^ ((F.p : ℤ) - 1) := one_le_zpow₀ (by norm_num) (by have := hF.p_pos; omega)
  refine mul_le_mul_of_nonneg_right ?_ (two_zpow_pos _).le
  rw [h2]; linarith

theorem tiny_le_maxFinite (hF : F.Proper) : F.tiny ≤ F.maxFinite := (zpow_le hF.range).trans (maxFinite_ge hF)

theorem round_le_maxFinite (hF : F.Proper) {x : ℝ} (h : |x| ≤ F.maxFinite) : |F.roundUnbounded x| ≤ F.maxFinite := by
  rcases lt_or_ge |x| F.tiny with ht | ht
  · exact (subnormal_le_tiny hF.p_pos ht).trans (tiny_le_maxFinite hF)
  have h0 : 0 < |x| := tiny_pos.trans_le ht
  have hl : Int.log 2 |x| ≤ F.emax := by
    have h2 : F.maxFinite < 2 ^ (F.emax + 1) := by
      have : (2 : ℝ) ^ (F.emax + 1) = 2 ^ F.p * 2 ^ (F.emax - F.p + 1) := by
        rw [← zpow_natCast, ← zpow_add₀ two_ne_zero]; congr 1; ring
      rw [this, maxFinite]
      exact mul_lt_mul_of_pos_right (by linarith) (two_zpow_pos _)
    have := zpow_lt (((log_bounds h0).1.trans h).trans_lt h2)
    omega
  rcases hl.lt_or_eq with hl | hl
  · have e : (((2 : ℤ) ^ F.p : ℤ) : ℝ) * 2 ^ F.lastPlace x = 2 ^ (Int.log 2 |x| + 1) := by
      rw [lastPlace_normal ht]
      push_cast
      rw [← zpow_natCast, ← zpow_add₀ two_ne_zero]
      congr 1
      omega
    have := abs_roundUnbounded_le (F := F) (x := x) (m := 2 ^ F.p) (by rw [e]; exact (log_bounds h0).2.le)
    rw [e] at this
    exact this.trans ((zpow_le (by omega)).trans (maxFinite_ge hF))
  · have e : (((2 : ℤ) ^ F.p - 1 : ℤ) : ℝ) * 2 ^ F.lastPlace x = F.maxFinite := by
      rw [lastPlace_normal ht, maxFinite, hl]
      push_cast
      congr 2
      ring
    have := abs_roundUnbounded_le (F := F) (x := x) (m := 2 ^ F.p - 1) (by rw [e]; exact h)
    rwa [e] at this

/-- What a rounded result is. -/
theorem round_spec (hF : F.Proper) {x : ℝ} (h : |x| ≤ F.maxFinite) :
    ∃ r, F.round x = .num r ∧ |r - x| ≤ F.unit * |x| + F.tiny ∧ (F.tiny ≤ |x| → |r - x| ≤ F.unit * |x|) ∧
      (0 ≤ x → 0 ≤ r) := by
  have hm := round_le_maxFinite hF h
  have hu := mul_nonneg (unit_pos (F := F)).le (abs_nonneg x)
  have ht := tiny_pos (F := F)
  have hsign : 0 ≤ x → 0 ≤ F.roundUnbounded x := fun hx => by
    simpa using le_roundUnbounded (F := F) (x := x) (m := 0) (by simpa using hx)
  unfold round
  simp only
  rw [if_neg (by rw [abs_le] at hm; linarith), if_neg (by rw [abs_le] at hm; linarith)]
  split_ifs with hf
  · have hx : |x| < F.tiny := by
      by_contra hx
      exact absurd hf.2 (not_lt.2 (tiny_le_abs_round hF.p_pos (not_lt.1 hx)))
    refine ⟨0, rfl, ?_, fun h => absurd h (not_le.2 hx), fun _ => le_rfl⟩
    rw [zero_sub, abs_neg]
    linarith
  · refine ⟨_, rfl, ?_, error_normal, hsign⟩
    rcases lt_or_ge |x| F.tiny with hx | hx
    · have := error_subnormal hF.p_pos hx
      linarith
    · have := error_normal hx
      linarith

/-- Results which may be beyond the largest number. -/
theorem round_large (hF : F.Proper) {x : ℝ} (h : F.tiny ≤ x) :
    F.round x = .posInf ∨ ∃ r, F.round x = .num r ∧ |r - x| ≤ F.unit * x := by
  have h0 : 0 < x := tiny_pos.trans_le h
  have hx : |x| = x := abs_of_pos h0
  by_cases h1 : F.maxFinite < F.roundUnbounded x
  · left
    simp only [round, if_pos h1]
  · right
    have h2 : 0 ≤ F.roundUnbounded x := by
      simpa using le_roundUnbounded (F := F) (x := x) (m := 0) (by simpa using h0.le)
    have h3 : ¬ F.roundUnbounded x < -F.maxFinite := by
      have := tiny_pos.trans_le (tiny_le_maxFinite hF)
      linarith
    have h4 : ¬ (F.flush = true ∧ |F.roundUnbounded x| < F.tiny) := fun hf =>
      absurd hf.2 (not_lt.2 (tiny_le_abs_round hF.p_pos (by rwa [hx])))
    refine ⟨F.roundUnbounded x, by simp only [round, if_neg h1, if_neg h3, if_neg h4], ?_⟩
    have := error_normal (F := F) (x := x) (by rwa [hx])
    rwa [hx] at this

theorem round_neg_large (hF : F.Proper) {x : ℝ} (h : F.tiny ≤ x) :
    F.round (-x) = .negInf ∨ ∃ r, F.round (-x) = .num r ∧ |r - -x| ≤ F.unit * x := by
  have h0 : 0 < x := tiny_pos.trans_le h
  have hx : |(-x)| = x := by rw [abs_neg, abs_of_pos h0]
  have hm := tiny_pos.trans_le (tiny_le_maxFinite hF)
  have h2 : F.roundUnbounded (-x) ≤ 0 := by
    simpa using roundUnbounded_le (F := F) (x := -x) (m := 0) (by simpa using h0.le)
  have h3 : ¬ F.maxFinite < F.roundUnbounded (-x) := by linarith
  by_cases h1 : F.roundUnbounded (-x) < -F.maxFinite
  · left
    simp only [round, if_neg h3, if_pos h1]
  · right
    have h4 : ¬ (F.flush = true ∧ |F.roundUnbounded (-x)| < F.tiny) := fun hf =>
      absurd hf.2 (not_lt.2 (tiny_le_abs_round hF.p_pos (by rwa [hx])))
    refine ⟨F.roundUnbounded (-x), by simp only [round, if_neg h1, if_neg h3, if_neg h4], ?_⟩
    have := error_normal (F := F) (x := -x) (by rwa [hx])
    rwa [hx] at this

theorem round_overflow (hF : F.Proper) (hu : F.unit ≤ 1 / 4) {x : ℝ} (h : 2 * F.maxFinite ≤ x) : F.round x = .posInf := by
  have hm := tiny_pos.trans_le (tiny_le_maxFinite hF)
  have h0 : 0 < x := by linarith
  have he := error_normal (F := F) (x := x) (by
    rw [abs_of_pos h0]
    have := tiny_le_maxFinite hF
    linarith)
  rw [abs_of_pos h0] at he
  have h1 : F.maxFinite < F.roundUnbounded x := by
    have := (abs_le.1 he).1
    nlinarith
  simp only [round, if_pos h1]

/-- Results below half of the smallest number. -/
theorem round_underflow (hF : F.Proper) {x : ℝ} (h : |x| < 2 ^ F.q / 2) : F.round x = .num 0 := by
  have hq := two_zpow_pos F.q
  have hm := tiny_pos.trans_le (tiny_le_maxFinite hF)
  have hz : F.roundUnbounded x = 0 := by
    rcases eq_or_ne x 0 with rfl | h0
    · exact roundUnbounded_zero
    have ht : |x| < F.tiny := by
      have : (2 : ℝ) ^ F.q ≤ F.tiny := zpow_le (by have := hF.p_pos; omega)
      linarith
    have h1 := nearestEven_error (x / 2 ^ F.q)
    have h2 : |x / 2 ^ F.q| < 1 / 2 := by
      rw [abs_div, abs_of_pos hq, div_lt_iff₀ hq]
      linarith
    have h3 : |(nearestEven (x / 2 ^ F.q) : ℝ)| < 1 := by
      have := abs_add_le ((nearestEven (x / 2 ^ F.q) : ℝ) - x / 2 ^ F.q) (x / 2 ^ F.q)
      rw [sub_add_cancel] at this
      linarith
    have h4 : nearestEven (x / 2 ^ F.q) = 0 := by
      have : |nearestEven (x / 2 ^ F.q)| < 1 := by exact_mod_cast h3
      exact Int.abs_lt_one_iff.1 this
    unfold roundUnbounded
    rw [lastPlace_subnormal h0 ht, h4]
    simp
  simp only [round, hz]
  rw [if_neg (by linarith), if_neg (by linarith)]
  split_ifs <;> rfl

theorem abs_round_le (hF : F.Proper) (hu : F.unit ≤ 1) {x : ℝ} (h : |x| ≤ F.maxFinite) :
    ∃ r, F.round x = .num r ∧ |r| ≤ 2 * |x| + 2 ^ F.q / 2 := by
  have hq := two_zpow_pos F.q
  have hr : |F.roundUnbounded x| ≤ 2 * |x| + 2 ^ F.q / 2 := by
    have h1 := abs_add_le (F.roundUnbounded x - x) x
    rw [sub_add_cancel] at h1
    rcases lt_or_ge |x| F.tiny with ht | ht
    · rcases eq_or_ne x 0 with rfl | h0
      · rw [roundUnbounded_zero]; simp; positivity
      · have := roundUnbounded_error (F := F) x
        rw [lastPlace_subnormal h0 ht] at this
        have := abs_nonneg x
        linarith
    · have := error_normal ht
      have := abs_nonneg x
      nlinarith
  have hm := round_le_maxFinite hF h
  simp only [round]
  rw [if_neg (by rw [abs_le] at hm; linarith), if_neg (by rw [abs_le] at hm; linarith)]
  split_ifs with hf
  · exact ⟨0, rfl, by rw [abs_zero]; positivity⟩
  · exact ⟨_, rfl, hr⟩

end FloatFormat

end E3x
