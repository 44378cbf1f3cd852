import Verif.Lemmas.SoftmaxFloat
import Mathlib.Analysis.Complex.ExponentialBounds
import Mathlib.Data.Fin.VecNotation
import Mathlib.Tactic.FinCases

/-!
# C77: the softmax in floating-point arithmetic

`indexed_softmax` with every operation rounded (`Model/SoftmaxFloat.lean`), for one segment.
-/

namespace E3x

open FloatFormat

variable {F : FloatFormat} {κ : Type}

/-- The correctly rounded exponential function is accurate. -/
theorem accurateExp_exp (hF : F.Accurate) : AccurateExp F F.exp := by
  have hmax : 8 ≤ F.maxFinite := by
    refine le_trans ?_ hF.le_max
    rw [le_div_iff₀ unit_pos]
    linarith [hF.unit_le]
  refine ⟨fun x hx => ?_, rfl⟩
  have h0 := Real.exp_pos x
  have h1 : Real.exp x ≤ 3 := (Real.exp_le_exp.2 hx).trans (by linarith [Real.exp_one_lt_d9])
  obtain ⟨r, hr, e, -, hr0⟩ := round_spec hF.proper (x := Real.exp x) (by rw [abs_of_pos h0]; linarith)
  refine ⟨r, hr, hr0 h0.le, ?_⟩
  rw [abs_of_pos h0] at e
  have := mul_pos (unit_pos (F := F)) h0
  linarith

/-- C77: for all finite inputs, however large, the computed softmax is finite and differs from the exact one by at most `36 n`
unit roundoffs, whatever the order of the sum and whichever accurate exponential function is used. -/
theorem C77_softmax (hF : F.Accurate) {exp : FloatVal → FloatVal} (hexp : AccurateExp F exp) {init : FloatVal}
    (hinit : init = .negInf ∨ init = .num (-F.maxFinite)) (order : SumOrder κ) (x : κ → ℝ)
    (hx : ∀ k ∈ order.entries, |x k| ≤ F.maxFinite) (hn : 32 * (order.entries.length : ℝ) * F.unit ≤ 1) {k : κ}
    (hk : k ∈ order.entries) :
    ∃ y, softmaxFloat F exp init order (fun k => .num (x k)) none k = .num y ∧ 0 ≤ y ∧
      |y - exactSoftmax order.entries 1 x k| ≤ 36 * (order.entries.length : ℝ) * F.unit := by
  classical
  have u0 := unit_pos (F := F)
  have u1 := hF.unit_le
  have t0 := tiny_pos (F := F)
  have t1 : F.tiny ≤ F.unit / 8 := hF.tiny_le.trans (by nlinarith)
  have hne : order.entries ≠ [] := List.ne_nil_of_mem hk
  obtain ⟨M, hM, hle, k₁, hk₁, hk₁M⟩ := segmentMax_spec init x order.entries init (by
    rcases hinit with h | h
    · exact .inl h
    · exact .inr ⟨_, h, fun k hk => (abs_le.1 (hx k hk)).1⟩) hne
  have hc : ∀ k, ∃ c, 0 ≤ c ∧ (k ∈ order.entries → exp (F.sub (.num (x k)) (.num M)) = .num c ∧
      |c - Real.exp (x k - M)| ≤ 8 * F.unit) := by
    intro k
    by_cases h : k ∈ order.entries
    · obtain ⟨c, h1, h2, h3⟩ := numerator_spec hF hexp (hle k h)
      exact ⟨c, h2, fun _ => ⟨h1, h3.trans (by linarith)⟩⟩
    · exact ⟨0, le_rfl, fun h' => absurd h' h⟩
  choose c hc0 hc using hc
  have hS : exactSoftmax order.entries 1 x k =
      Real.exp (x k - M) / (order.entries.map fun k => Real.exp (x k - M)).sum := by
    unfold exactSoftmax
    simp only [Pi.one_apply, one_mul, Real.exp_sub]
    rw [sum_map_div]
    have := Real.exp_pos M
    field_simp
  have hsum : ∀ l : List κ, (∀ k ∈ l, k ∈ order.entries) →
      |(l.map c).sum - (l.map fun k => Real.exp (x k - M)).sum| ≤ l.length * (8 * F.unit) ∧
      0 ≤ (l.map fun k => Real.exp (x k - M)).sum ∧ (l.map fun k => Real.exp (x k - M)).sum ≤ l.length := by
    intro l
    induction l with
    | nil => simp
    | cons j l ih =>
      intro h
      obtain ⟨h1, h2, h3⟩ := ih fun k hk => h k (by simp [hk])
      have h4 := (hc j (h j (by simp))).2
      have h5 : Real.exp (x j - M) ≤ 1 := by
        rw [Real.exp_le_one_iff]
        linarith [hle j (h j (by simp))]
      have h6 := Real.exp_pos (x j - M)
      simp only [List.map_cons, List.sum_cons, List.length_cons, Nat.cast_add, Nat.cast_one]
      refine ⟨?_, by linarith, by linarith⟩
      have := abs_add_le (c j - Real.exp (x j - M)) ((l.map c).sum - (l.map fun k => Real.exp (x k - M)).sum)
      rw [show c j + (l.map c).sum - (Real.exp (x j - M) + (l.map fun k => Real.exp (x k - M)).sum) =
        c j - Real.exp (x j - M) + ((l.map c).sum - (l.map fun k => Real.exp (x k - M)).sum) by ring]
      linarith
  obtain ⟨hs1, -, hs3⟩ := hsum order.entries fun _ h => h
  have hS1 : 1 ≤ (order.entries.map fun k => Real.exp (x k - M)).sum := by
    have : Real.exp (x k₁ - M) = 1 := by rw [hk₁M, sub_self, Real.exp_zero]
    rw [← this]
    exact List.single_le_sum (by simpa using fun k _ => (Real.exp_pos _).le) _ (List.mem_map.2 ⟨k₁, hk₁, rfl⟩)
  have hek : Real.exp (x k - M) ≤ (order.entries.map fun k => Real.exp (x k - M)).sum :=
    List.single_le_sum (by simpa using fun k _ => (Real.exp_pos _).le) _ (List.mem_map.2 ⟨k, hk, rfl⟩)
  have hek0 := Real.exp_pos (x k - M)
  have hlen : (1 : ℝ) ≤ order.entries.length := by exact_mod_cast List.length_pos_iff.2 hne
  set n : ℝ := (order.entries.length : ℝ)
  set S := (order.entries.map fun k => Real.exp (x k - M)).sum
  set R := (order.entries.map c).sum
  have hnu : n * F.unit ≤ 1 / 32 := by linarith
  have hmax : 32 * n ≤ F.maxFinite := by
    refine le_trans ?_ hF.le_max
    rw [le_div_iff₀ u0]
    exact hn
  have hR := abs_le.1 hs1
  obtain ⟨s, hs, s0, -, es⟩ := sum_spec hF c hc0 order (by linarith) (by linarith)
  have hcong : order.sum F (fun k => exp (F.sub (.num (x k)) (.num M))) = .num s := by
    rw [← hs]
    exact sum_congr order fun k hk => (hc k hk).1
  -- the error of the denominator
  have esS : |s - S| ≤ 11 * (n * F.unit) * S := by
    have h1 := abs_sub_le s R S
    have h2 : 2 * (n - 1) * (F.unit * R + F.tiny) ≤ 2 * n * (F.unit * (S + 1 / 4) + F.unit / 8) := by
      refine mul_le_mul (by linarith) ?_ ?_ (by linarith)
      · have : F.unit * R ≤ F.unit * (S + 1 / 4) := mul_le_mul_of_nonneg_left (by linarith) u0.le
        linarith
      · have : 0 ≤ R := by linarith
        positivity
    have h3 : 2 * n * (F.unit * (S + 1 / 4) + F.unit / 8) = n * F.unit * (2 * S + 3 / 4) := by ring
    have h4 : n * F.unit * (2 * S + 3 / 4) + n * F.unit * 8 ≤ n * F.unit * (11 * S) := by
      rw [← mul_add]
      exact mul_le_mul_of_nonneg_left (by linarith) (by positivity)
    linarith
  have hsS : 5 / 8 * S ≤ s := by
    have := (abs_le.1 esS).1
    have h1 : 11 * (n * F.unit) * S ≤ 11 / 32 * S := mul_le_mul_of_nonneg_right (by linarith) (by linarith)
    linarith
  have spos : 0 < s := by linarith
  obtain ⟨hck, eck⟩ := hc k hk
  have h0 := hc0 k
  set e := Real.exp (x k - M)
  have Spos : 0 < S := by linarith
  have hq : |c k / s - e / S| ≤ 31 * (n * F.unit) := by
    have h1 : c k / s - e / S = (c k - e) / s + e / S * ((S - s) / s) := by field_simp; ring
    have h2 : |(c k - e) / s| ≤ 8 * F.unit / (5 / 8) := by
      rw [abs_div, abs_of_pos spos]
      exact div_le_div₀ (by linarith) eck (by norm_num) (by linarith)
    have h3 : |(S - s) / s| ≤ 11 * (n * F.unit) / (5 / 8) := by
      rw [abs_div, abs_of_pos spos, abs_sub_comm, div_le_div_iff₀ spos (by norm_num)]
      have : 11 * (n * F.unit) * (5 / 8 * S) ≤ 11 * (n * F.unit) * s := mul_le_mul_of_nonneg_left hsS (by positivity)
      linarith
    have h4 : |e / S| ≤ 1 := by
      rw [abs_of_pos (by positivity), div_le_one Spos]
      exact hek
    have h5 : |e / S * ((S - s) / s)| ≤ 1 * (11 * (n * F.unit) / (5 / 8)) := by
      rw [abs_mul]
      exact mul_le_mul h4 h3 (abs_nonneg _) (by norm_num)
    have h6 : F.unit ≤ n * F.unit := by nlinarith
    rw [h1]
    have := abs_add_le ((c k - e) / s) (e / S * ((S - s) / s))
    linarith
  have hp : |e / S| ≤ 1 := by
    rw [abs_of_pos (by positivity), div_le_one Spos]
    exact hek
  have hq2 : |c k / s| ≤ 2 := by
    have := abs_sub_abs_le_abs_sub (c k / s) (e / S)
    linarith
  obtain ⟨y, hy, ey, -, y0⟩ := round_spec hF.proper (x := c k / s) (by linarith)
  refine ⟨y, ?_, y0 (by positivity), ?_⟩
  · simp only [softmaxFloat, hM, hcong, hck, FloatFormat.div, if_neg spos.ne', hy]
  · rw [hS]
    have h6 : F.unit ≤ n * F.unit := by nlinarith
    have h7 : F.unit * |c k / s| ≤ F.unit * 2 := mul_le_mul_of_nonneg_left hq2 u0.le
    have := abs_sub_le y (c k / s) (e / S)
    linarith

/-- C77: with a multiplicative mask (weights between 0 and 1) the error is larger by a factor of `1 / v`, if the weighted sum of
the exponentials is at least `v` times the exponential of the largest input. -/
theorem C77_mask (hF : F.Accurate) {exp : FloatVal → FloatVal} (hexp : AccurateExp F exp) {init : FloatVal}
    (hinit : init = .negInf ∨ init = .num (-F.maxFinite)) (order : SumOrder κ) (x w : κ → ℝ)
    (hw : ∀ k ∈ order.entries, 0 ≤ w k ∧ w k ≤ 1) (hx : ∀ k ∈ order.entries, |x k| ≤ F.maxFinite) {v : ℝ} (hv : 0 < v)
    (hv1 : v ≤ 1) (hvx : ∀ k ∈ order.entries, v * Real.exp (x k) ≤ (order.entries.map fun k => w k * Real.exp (x k)).sum)
    (hn : 32 * (order.entries.length : ℝ) * F.unit ≤ v) {k : κ}
    (hk : k ∈ order.entries) :
    ∃ y, softmaxFloat F exp init order (fun k => .num (x k)) (some fun k => .num (w k)) k = .num y ∧ 0 ≤ y ∧
      |y - exactSoftmax order.entries w x k| ≤ 42 * (order.entries.length : ℝ) * F.unit / v := by
  classical
  have u0 := unit_pos (F := F)
  have u1 := hF.unit_le
  have t0 := tiny_pos (F := F)
  have t1 : F.tiny ≤ F.unit / 8 := hF.tiny_le.trans (by nlinarith)
  have hne : order.entries ≠ [] := List.ne_nil_of_mem hk
  obtain ⟨M, hM, hle, k₁, hk₁, hk₁M⟩ := segmentMax_spec init x order.entries init (by
    rcases hinit with h | h
    · exact .inl h
    · exact .inr ⟨_, h, fun k hk => (abs_le.1 (hx k hk)).1⟩) hne
  have hc : ∀ k, ∃ c, 0 ≤ c ∧ (k ∈ order.entries → F.mul (exp (F.sub (.num (x k)) (.num M))) (.num (w k)) = .num c ∧
      |c - w k * Real.exp (x k - M)| ≤ 10 * F.unit) := by
    intro k
    by_cases h : k ∈ order.entries
    · obtain ⟨c, h1, h2, h3⟩ := numerator_mask_spec hF hexp (hle k h) (hw k h).1 (hw k h).2
      exact ⟨c, h2, fun _ => ⟨h1, h3⟩⟩
    · exact ⟨0, le_rfl, fun h' => absurd h' h⟩
  choose c hc0 hc using hc
  have hS : exactSoftmax order.entries w x k =
      w k * Real.exp (x k - M) / (order.entries.map fun k => w k * Real.exp (x k - M)).sum := by
    unfold exactSoftmax
    simp only [Real.exp_sub, ← mul_div_assoc]
    rw [sum_map_div order.entries (fun k => w k * Real.exp (x k))]
    have := Real.exp_pos M
    field_simp
  have hterm : ∀ k ∈ order.entries, 0 ≤ w k * Real.exp (x k - M) ∧ w k * Real.exp (x k - M) ≤ 1 := by
    intro k hk
    have h5 : Real.exp (x k - M) ≤ 1 := by
      rw [Real.exp_le_one_iff]
      linarith [hle k hk]
    have h6 := Real.exp_pos (x k - M)
    obtain ⟨h1, h2⟩ := hw k hk
    exact ⟨by positivity, mul_le_one₀ h2 h6.le h5⟩
  have hsum : ∀ l : List κ, (∀ k ∈ l, k ∈ order.entries) →
      |(l.map c).sum - (l.map fun k => w k * Real.exp (x k - M)).sum| ≤ l.length * (10 * F.unit) ∧
      0 ≤ (l.map fun k => w k * Real.exp (x k - M)).sum ∧ (l.map fun k => w k * Real.exp (x k - M)).sum ≤ l.length := by
    intro l
    induction l with
    | nil => simp
    | cons j l ih =>
      intro h
      obtain ⟨h1, h2, h3⟩ := ih fun k hk => h k (by simp [hk])
      have h4 := (hc j (h j (by simp))).2
      obtain ⟨h6, h5⟩ := hterm j (h j (by simp))
      simp only [List.map_cons, List.sum_cons, List.length_cons, Nat.cast_add, Nat.cast_one]
      refine ⟨?_, by linarith, by linarith⟩
      have := abs_add_le (c j - w j * Real.exp (x j - M)) ((l.map c).sum - (l.map fun k => w k * Real.exp (x k - M)).sum)
      rw [show c j + (l.map c).sum - (w j * Real.exp (x j - M) + (l.map fun k => w k * Real.exp (x k - M)).sum) =
        c j - w j * Real.exp (x j - M) + ((l.map c).sum - (l.map fun k => w k * Real.exp (x k - M)).sum) by ring]
      linarith
  obtain ⟨hs1, -, hs3⟩ := hsum order.entries fun _ h => h
  have hS1 : v ≤ (order.entries.map fun k => w k * Real.exp (x k - M)).sum := by
    have h1 := hvx k₁ hk₁
    simp only [Real.exp_sub, ← mul_div_assoc]
    rw [sum_map_div order.entries (fun k => w k * Real.exp (x k)), le_div_iff₀ (Real.exp_pos M), ← hk₁M]
    exact h1
  have hek : w k * Real.exp (x k - M) ≤ (order.entries.map fun k => w k * Real.exp (x k - M)).sum :=
    List.single_le_sum (by simpa using fun k hk => (hterm k hk).1) _ (List.mem_map.2 ⟨k, hk, rfl⟩)
  have hek0 := (hterm k hk).1
  have hlen : (1 : ℝ) ≤ order.entries.length := by exact_mod_cast List.length_pos_iff.2 hne
  set n : ℝ := (order.entries.length : ℝ)
  set S := (order.entries.map fun k => w k * Real.exp (x k - M)).sum
  set R := (order.entries.map c).sum
  have hnu : n * F.unit ≤ v / 32 := by linarith
  have hmax : 32 * n ≤ F.maxFinite := by
    refine le_trans ?_ hF.le_max
    rw [le_div_iff₀ u0]
    exact hn.trans hv1
  have hR := abs_le.1 hs1
  have hR0 : 0 ≤ R := List.sum_nonneg (by simpa using fun k _ => hc0 k)
  obtain ⟨s, hs, s0, -, es⟩ := sum_spec hF c hc0 order (by linarith) (by linarith)
  have hcong : order.sum F (fun k => F.mul (exp (F.sub (.num (x k)) (.num M))) (.num (w k))) = .num s := by
    rw [← hs]
    exact sum_congr order fun k hk => (hc k hk).1
  -- the error of the denominator, relative to the exact one
  have A0 : 0 < n * F.unit := by positivity
  have Spos : 0 < S := by linarith
  have hvS : n * F.unit ≤ n * F.unit / v * S := by
    rw [div_mul_eq_mul_div, le_div_iff₀ hv]
    exact mul_le_mul_of_nonneg_left hS1 A0.le
  have hAS : n * F.unit * S ≤ n * F.unit / v * S := by
    refine mul_le_mul_of_nonneg_right ?_ Spos.le
    rw [le_div_iff₀ hv]
    nlinarith
  have hA32 : n * F.unit / v ≤ 1 / 32 := by
    rw [div_le_iff₀ hv]
    linarith
  set B := n * F.unit / v with hB
  have B0 : 0 < B := by positivity
  have esS : |s - S| ≤ 13 * B * S := by
    have h1 := abs_sub_le s R S
    have h2 : 2 * (n - 1) * (F.unit * R + F.tiny) ≤ 2 * n * (F.unit * (S + 10 / 32) + F.unit / 8) := by
      refine mul_le_mul (by linarith) ?_ ?_ (by linarith)
      · have : F.unit * R ≤ F.unit * (S + 10 / 32) := mul_le_mul_of_nonneg_left (by linarith) u0.le
        linarith
      · positivity
    have h3 : 2 * n * (F.unit * (S + 10 / 32) + F.unit / 8) = 2 * (n * F.unit * S) + 7 / 8 * (n * F.unit) := by ring
    linarith
  have hsS : 19 / 32 * S ≤ s := by
    have := (abs_le.1 esS).1
    have h1 : 13 * B * S ≤ 13 / 32 * S := mul_le_mul_of_nonneg_right (by linarith) Spos.le
    linarith
  have spos : 0 < s := by linarith
  obtain ⟨hck, eck⟩ := hc k hk
  have h0 := hc0 k
  set e := w k * Real.exp (x k - M)
  have hub : F.unit ≤ B * v := by
    rw [hB, div_mul_cancel₀ _ hv.ne']
    nlinarith
  have hub' : F.unit ≤ B := hub.trans (by nlinarith)
  have hp : |e / S| ≤ 1 := by
    rw [abs_of_nonneg (by positivity), div_le_one Spos]
    exact hek
  have hq : |c k / s - e / S| ≤ 39 * B := by
    have h1 : c k / s - e / S = (c k - e) / s + e / S * ((S - s) / s) := by field_simp; ring
    have h2 : |(c k - e) / s| ≤ 10 * B / (19 / 32) := by
      rw [abs_div, abs_of_pos spos, div_le_div_iff₀ spos (by norm_num)]
      have h3 : B * v ≤ B * S := mul_le_mul_of_nonneg_left hS1 B0.le
      have h4 : B * (19 / 32 * S) ≤ B * s := mul_le_mul_of_nonneg_left hsS B0.le
      linarith
    have h3 : |(S - s) / s| ≤ 13 * B / (19 / 32) := by
      rw [abs_div, abs_of_pos spos, abs_sub_comm, div_le_div_iff₀ spos (by norm_num)]
      have : 13 * B * (19 / 32 * S) ≤ 13 * B * s := mul_le_mul_of_nonneg_left hsS (by positivity)
      linarith
    have h5 : |e / S * ((S - s) / s)| ≤ 1 * (13 * B / (19 / 32)) := by
      rw [abs_mul]
      exact mul_le_mul hp h3 (abs_nonneg _) (by norm_num)
    rw [h1]
    have := abs_add_le ((c k - e) / s) (e / S * ((S - s) / s))
    linarith
  have hq2 : |c k / s| ≤ 5 / 2 := by
    have := abs_sub_abs_le_abs_sub (c k / s) (e / S)
    linarith
  obtain ⟨y, hy, ey, -, y0⟩ := round_spec hF.proper (x := c k / s) (by linarith)
  refine ⟨y, ?_, y0 (by positivity), ?_⟩
  · simp only [softmaxFloat, hM, hcong, hck, FloatFormat.div, if_neg spos.ne', hy]
  · rw [hS, show 42 * n * F.unit / v = 42 * B by rw [hB]; ring]
    have h7 : F.unit * |c k / s| ≤ F.unit * (5 / 2) := mul_le_mul_of_nonneg_left hq2 u0.le
    have := abs_sub_le y (c k / s) (e / S)
    linarith

/-- C77: but if all entries whose weight is not zero are smaller than the largest input by `(8/7) (3 - q)` (174 for float32),
the numerators vanish and the result is not a number (the exponential function is correctly rounded here). -/
theorem C77_lost (hF : F.Accurate) {init : FloatVal} (hinit : init = .negInf ∨ init = .num (-F.maxFinite))
    (order : SumOrder κ) (x w : κ → ℝ) (hx : ∀ k ∈ order.entries, |x k| ≤ F.maxFinite)
    (hw : ∀ k ∈ order.entries, 0 ≤ w k ∧ w k ≤ 1) {k₁ : κ} (hk₁ : k₁ ∈ order.entries)
    (hlost : ∀ k ∈ order.entries, w k = 0 ∨ 8 * (3 - (F.q : ℝ)) ≤ 7 * (x k₁ - x k)) {k : κ} (hk : k ∈ order.entries) :
    softmaxFloat F F.exp init order (fun k => .num (x k)) (some fun k => .num (w k)) k = .nan := by
  have r0 : F.round 0 = .num 0 := round_zero hF.proper
  have hne : order.entries ≠ [] := List.ne_nil_of_mem hk
  obtain ⟨M, hM, hle, -, -, -⟩ := segmentMax_spec init x order.entries init (by
    rcases hinit with h | h
    · exact .inl h
    · exact .inr ⟨_, h, fun k hk => (abs_le.1 (hx k hk)).1⟩) hne
  have hzero : ∀ k ∈ order.entries, F.mul (F.exp (F.sub (.num (x k)) (.num M))) (.num (w k)) = .num 0 := by
    intro k hk
    rcases hlost k hk with h | h
    · obtain ⟨c, h1, -, -⟩ := numerator_spec hF (accurateExp_exp hF) (hle k hk)
      rw [h1, h]
      simp only [FloatFormat.mul, mul_zero, r0]
    · have hz : F.exp (F.sub (.num (x k)) (.num M)) = .num 0 := by
        have hM1 := hle k₁ hk₁
        rcases sub_spec hF (hle k hk) with ⟨h1, -⟩ | ⟨d, hd, e⟩
        · rw [h1]; rfl
        · rw [hd]
          refine round_underflow hF.proper ?_
          have u0 := unit_pos (F := F)
          have u1 := hF.unit_le
          have t1 : F.tiny ≤ F.unit / 8 := hF.tiny_le.trans (by nlinarith)
          have hq : F.q ≤ -8 := by have := hF.precision; have := hF.underflow; omega
          have hq' : (F.q : ℝ) ≤ -8 := by exact_mod_cast hq
          have h2 : F.unit * (M - x k) ≤ 1 / 8 * (M - x k) := mul_le_mul_of_nonneg_right u1 (by linarith [hle k hk])
          have h3 : d ≤ (F.q : ℝ) - 2 := by
            have := (abs_le.1 e).2
            linarith
          rw [abs_of_pos (Real.exp_pos d)]
          have h4 : Real.exp d ≤ 2 ^ (F.q - 2) := by
            refine (Real.exp_le_exp.2 h3).trans ?_
            have h6 : F.q - 2 = -((2 - F.q).toNat : ℤ) := by omega
            have h5 : (F.q : ℝ) - 2 = -((2 - F.q).toNat : ℝ) := by exact_mod_cast h6
            rw [h5, h6, Real.exp_neg, zpow_neg, zpow_natCast, ← Real.exp_one_pow]
            refine inv_anti₀ (by positivity) (pow_le_pow_left₀ (by norm_num) ?_ _)
            have := Real.add_one_le_exp 1
            linarith
          have h7 : (2 : ℝ) ^ (F.q - 2) = 2 ^ F.q / 4 := by
            rw [zpow_sub₀ two_ne_zero]
            norm_num
          have := two_zpow_pos F.q
          linarith
      rw [hz]
      simp only [FloatFormat.mul, zero_mul, r0]
  have hsum : order.sum F (fun k => F.mul (F.exp (F.sub (.num (x k)) (.num M))) (.num (w k))) = .num 0 := by
    rw [sum_congr order hzero]
    exact sum_zero hF.proper order
  simp only [softmaxFloat, hM, hsum, hzero k hk, FloatFormat.div, infOfSign, lt_irrefl, if_true, if_false]

/-- C77, the negation with a mask: in float32, the exact softmax of `(0, 200)` with weights `(1, 0)` is `(1, 0)`, but both
computed values are not a number. -/
theorem C77_nan (flush : Bool) :
    (exactSoftmax [0, 1] (![1, 0] : Fin 2 → ℝ) ![0, 200] 0 = 1 ∧ exactSoftmax [0, 1] (![1, 0] : Fin 2 → ℝ) ![0, 200] 1 = 0) ∧
      ∀ k : Fin 2, softmaxFloat { float32 with flush := flush } (FloatFormat.exp { float32 with flush := flush }) .negInf
        (.node (.entry 0) (.entry 1)) (fun k => .num (![0, 200] k)) (some fun k => .num (![1, 0] k)) k = .nan := by
  have hF : FloatFormat.Accurate { float32 with flush := flush } := by
    refine ⟨?_, ?_, ?_⟩ <;> simp [float32]
  have hm : FloatFormat.maxFinite { float32 with flush := flush } = (2 ^ 24 - 1) * 2 ^ 104 := by
    norm_num [FloatFormat.maxFinite, float32]
  refine ⟨by simp [exactSoftmax], fun k => ?_⟩
  refine C77_lost hF (.inl rfl) (.node (.entry 0) (.entry 1)) ![0, 200] ![1, 0] ?_ ?_ (k₁ := 1) ?_ ?_ ?_
  · intro k _
    rw [hm]
    fin_cases k <;> norm_num
  · intro k _
    fin_cases k <;> simp
  · simp [SumOrder.entries]
  · intro k _
    fin_cases k
    · right
      norm_num [float32]
    · left
      simp
  · fin_cases k <;> simp [SumOrder.entries]

/-- The hypotheses of `C77_softmax` for inputs whose exponentials overflow and whose difference overflows. -/
example (flush : Bool) (k : Fin 2) : ∃ y, softmaxFloat { float32 with flush := flush }
    (FloatFormat.exp { float32 with flush := flush }) .negInf (.node (.entry 0) (.entry 1))
      (fun k => .num (![3 * 10 ^ 38, -3 * 10 ^ 38] k)) none k = .num y ∧ 0 ≤ y ∧
      |y - exactSoftmax [0, 1] 1 ![3 * 10 ^ 38, -3 * 10 ^ 38] k| ≤ 1 / 10 ^ 5 := by
  have hF : FloatFormat.Accurate { float32 with flush := flush } := by
    refine ⟨?_, ?_, ?_⟩ <;> simp [float32]
  have hu : FloatFormat.unit { float32 with flush := flush } = 1 / 2 ^ 24 := by
    norm_num [FloatFormat.unit, float32, zpow_neg, zpow_natCast]
  have hm : FloatFormat.maxFinite { float32 with flush := flush } = (2 ^ 24 - 1) * 2 ^ 104 := by
    norm_num [FloatFormat.maxFinite, float32]
  obtain ⟨y, h1, h2, h3⟩ := C77_softmax hF (accurateExp_exp hF) (.inl rfl) (.node (.entry 0) (.entry 1))
    ![3 * 10 ^ 38, -3 * 10 ^ 38]
    (by intro k _; rw [hm]; fin_cases k <;> norm_num [abs_of_nonneg, abs_of_nonpos])
    (by rw [hu]; norm_num [SumOrder.entries]) (k := k) (by fin_cases k <;> simp [SumOrder.entries])
  refine ⟨y, h1, h2, h3.trans ?_⟩
  rw [hu]
  norm_num [SumOrder.entries]

/-- The hypotheses of `C77_mask`. -/
example (flush : Bool) (k : Fin 2) : ∃ y, softmaxFloat { float32 with flush := flush }
    (FloatFormat.exp { float32 with flush := flush }) (.num (-FloatFormat.maxFinite { float32 with flush := flush }))
      (.node (.entry 0) (.entry 1)) (fun k => .num (![0, 1] k)) (some fun k => .num (![1, 1 / 2] k)) k = .num y ∧ 0 ≤ y ∧
      |y - exactSoftmax [0, 1] ![1, 1 / 2] ![0, 1] k| ≤ 84 * 2 * (1 / 2 ^ 24) := by
  have hF : FloatFormat.Accurate { float32 with flush := flush } := by
    refine ⟨?_, ?_, ?_⟩ <;> simp [float32]
  have hu : FloatFormat.unit { float32 with flush := flush } = 1 / 2 ^ 24 := by
    norm_num [FloatFormat.unit, float32, zpow_neg, zpow_natCast]
  have hm : FloatFormat.maxFinite { float32 with flush := flush } = (2 ^ 24 - 1) * 2 ^ 104 := by
    norm_num [FloatFormat.maxFinite, float32]
  obtain ⟨y, h1, h2, h3⟩ := C77_mask hF (accurateExp_exp hF) (.inr rfl) (.node (.entry 0) (.entry 1)) ![0, 1] ![1, 1 / 2]
    (by intro k _; fin_cases k <;> norm_num)
    (by intro k _; rw [hm]; fin_cases k <;> norm_num) (v := 1 / 2) (by norm_num) (by norm_num)
    (by
      have := Real.exp_pos 1
      intro k _
      fin_cases k <;> simp [SumOrder.entries] <;> linarith)
    (by rw [hu]; norm_num [SumOrder.entries]) (k := k) (by fin_cases k <;> simp [SumOrder.entries])
  refine ⟨y, h1, h2, h3.trans ?_⟩
  rw [hu]
  norm_num [SumOrder.entries]

end E3x
