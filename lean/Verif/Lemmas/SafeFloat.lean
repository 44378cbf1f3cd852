import Verif.Model.SafeFloat
import Verif.Lemmas.FloatArith
import Verif.Spec.FloatArith
import Mathlib.Algebra.Order.BigOperators.Group.List

/-!
# Rounding errors of `norm` and `normalize`
-/

namespace E3x

open FloatFormat

variable {F : FloatFormat} {ι κ : Type}

namespace FloatFormat.Accurate

theorem proper (hF : F.Accurate) : F.Proper := ⟨by have := hF.precision; omega, by have := hF.underflow; have := hF.overflow; omega⟩

theorem unit_le (hF : F.Accurate) : F.unit ≤ 1 / 8 := by
  have : F.unit ≤ 2 ^ (-3 : ℤ) := zpow_le (by have := hF.precision; omega)
  norm_num at this ⊢
  exact this

theorem tiny_le (hF : F.Accurate) : F.tiny ≤ F.unit ^ 2 := by
  have : F.tiny ≤ 2 ^ (-(F.p : ℤ) + -(F.p : ℤ)) := zpow_le (by have := hF.underflow; omega)
  rw [zpow_add₀ two_ne_zero] at this
  rw [sq]; exact this

theorem le_max (hF : F.Accurate) : 1 / F.unit ≤ F.maxFinite := by
  have : (1 : ℝ) / F.unit = 2 ^ (F.p : ℤ) := by rw [unit, zpow_neg, one_div, inv_inv]
  rw [this]
  exact (zpow_le hF.overflow).trans (maxFinite_ge hF.proper)

end FloatFormat.Accurate

section
variable (hF : F.Accurate)
include hF

/-- One entry: division by the scale and squaring. -/
theorem entry_spec {t : ℝ} (ht : |t| ≤ 1) : ∃ b c, F.round t = .num b ∧ F.round (b * b) = .num c ∧ 0 ≤ c ∧
    |c - t ^ 2| ≤ 4 * F.unit * t ^ 2 + 5 * F.tiny := by
  have u0 := unit_pos (F := F)
  have u1 := hF.unit_le
  have τ0 := tiny_pos (F := F)
  have τ1 : F.tiny ≤ 1 / 64 := hF.tiny_le.trans (by nlinarith)
  have hmax : 8 ≤ F.maxFinite := by
    refine le_trans ?_ hF.le_max
    rw [le_div_iff₀ u0]; linarith
  obtain ⟨b, hb, eb, -, -⟩ := round_spec hF.proper (x := t) (by linarith)
  have hbt : |b * b - t ^ 2| ≤ (2 * F.unit + F.unit ^ 2) * t ^ 2 + 3 * F.tiny := by
    have h1 : b * b - t ^ 2 = (b - t) * (2 * t + (b - t)) := by ring
    have h2 : |2 * t + (b - t)| ≤ 2 * |t| + |b - t| := (abs_add_le _ _).trans (by rw [abs_mul]; norm_num)
    rw [h1, abs_mul]
    have h3 : t ^ 2 = |t| ^ 2 := (sq_abs t).symm
    rw [h3]
    set s := |t|
    set d := |b - t|
    have hs : 0 ≤ s := abs_nonneg t
    have hd : 0 ≤ d := abs_nonneg _
    calc d * |2 * t + (b - t)| ≤ (F.unit * s + F.tiny) * (2 * s + (F.unit * s + F.tiny)) :=
          mul_le_mul eb (h2.trans (by linarith)) (abs_nonneg _) (by positivity)
      _ = (2 * F.unit + F.unit ^ 2) * s ^ 2 + F.tiny * (2 * s + 2 * (F.unit * s) + F.tiny) := by ring
      _ ≤ _ := by
        have : 2 * s + 2 * (F.unit * s) + F.tiny ≤ 3 := by nlinarith
        nlinarith
  have ht2 : t ^ 2 ≤ 1 := by rw [← sq_abs]; nlinarith [abs_nonneg t]
  have hbb : b * b ≤ (1 + 2 * F.unit + F.unit ^ 2) * t ^ 2 + 3 * F.tiny := by
    have := (abs_le.1 hbt).2; nlinarith
  have hbb2 : b * b ≤ 2 := hbb.trans (by nlinarith [sq_nonneg t])
  have hbb0 : 0 ≤ b * b := mul_self_nonneg b
  obtain ⟨c, hc, ec, -, sc⟩ := round_spec hF.proper (x := b * b) (by rw [abs_of_nonneg hbb0]; linarith)
  rw [abs_of_nonneg hbb0] at ec
  refine ⟨b, c, hb, hc, sc hbb0, ?_⟩
  have : c - t ^ 2 = (c - b * b) + (b * b - t ^ 2) := by ring
  rw [this]
  refine (abs_add_le _ _).trans ?_
  have h4 : F.unit * (b * b) ≤ F.unit * ((1 + 2 * F.unit + F.unit ^ 2) * t ^ 2 + 3 * F.tiny) :=
    mul_le_mul_of_nonneg_left hbb u0.le
  have h5 : F.unit * F.tiny ≤ F.tiny / 8 := by nlinarith
  have h6 : F.unit * ((1 + 2 * F.unit + F.unit ^ 2) * t ^ 2) + (2 * F.unit + F.unit ^ 2) * t ^ 2 ≤ 4 * F.unit * t ^ 2 := by
    have : F.unit * (1 + 2 * F.unit + F.unit ^ 2) + (2 * F.unit + F.unit ^ 2) ≤ 4 * F.unit := by nlinarith
    nlinarith [sq_nonneg t]
  nlinarith

/-- Adding non-negative numbers in any order. -/
theorem sum_spec (y : κ → ℝ) (hy : ∀ k, 0 ≤ y k) : ∀ T : SumOrder κ, 8 * (T.entries.length : ℝ) * F.unit ≤ 1 →
    2 * (T.entries.map y).sum + 1 ≤ F.maxFinite → ∃ s, T.sum F (fun k => .num (y k)) = .num s ∧ 0 ≤ s ∧
      1 ≤ T.entries.length ∧
      |s - (T.entries.map y).sum| ≤ 2 * ((T.entries.length : ℝ) - 1) * (F.unit * (T.entries.map y).sum + F.tiny)
  | .entry k, _, _ => ⟨y k, rfl, hy k, by simp [SumOrder.entries], by simp [SumOrder.entries]⟩
  | .node l r, hn, hmax => by
    have u0 := unit_pos (F := F)
    have u1 := hF.unit_le
    have τ0 := tiny_pos (F := F)
    have τ1 := hF.tiny_le
    simp only [SumOrder.entries, List.map_append, List.sum_append, List.length_append, Nat.cast_add] at hn hmax ⊢
    have hl0 : 0 ≤ (l.entries.map y).sum := List.sum_nonneg (by simpa using fun k _ => hy k)
    have hr0 : 0 ≤ (r.entries.map y).sum := List.sum_nonneg (by simpa using fun k _ => hy k)
    have nl : (0 : ℝ) ≤ l.entries.length := Nat.cast_nonneg _
    have nr : (0 : ℝ) ≤ r.entries.length := Nat.cast_nonneg _
    obtain ⟨s, hs, s0, hl1, es⟩ := sum_spec y hy l (by nlinarith) (by linarith)
    obtain ⟨t, ht, t0, hr1, et⟩ := sum_spec y hy r (by nlinarith) (by linarith)
    have hl1' : (1 : ℝ) ≤ l.entries.length := by exact_mod_cast hl1
    have hr1' : (1 : ℝ) ≤ r.entries.length := by exact_mod_cast hr1
    set a := (l.entries.map y).sum
    set b := (r.entries.map y).sum
    set m : ℝ := (l.entries.length : ℝ)
    set n : ℝ := (r.entries.length : ℝ)
    have est : |s + t - (a + b)| ≤ 2 * (m + n - 2) * (F.unit * (a + b) + F.tiny) := by
      have : s + t - (a + b) = (s - a) + (t - b) := by ring
      rw [this]
      refine (abs_add_le _ _).trans ((add_le_add es et).trans ?_)
      have h1 : 0 ≤ (m - 1) * (F.unit * b) := mul_nonneg (by linarith) (by positivity)
      have h2 : 0 ≤ (n - 1) * (F.unit * a) := mul_nonneg (by linarith) (by positivity)
      nlinarith
    have hE : 2 * (m + n - 2) * (F.unit * (a + b) + F.tiny) ≤ (1 / 4) * (a + b) + F.tiny * (2 * (m + n)) := by
      have h1 : (m + n) * F.unit * (a + b) ≤ 1 / 8 * (a + b) := mul_le_mul_of_nonneg_right (by linarith) (by positivity)
      have h2 : 0 ≤ F.unit * (a + b) := by positivity
      nlinarith
    have hτ : F.tiny * (2 * (m + n)) ≤ F.unit / 4 := by
      have : F.unit ^ 2 * (2 * (m + n)) ≤ F.unit / 4 := by nlinarith
      exact (mul_le_mul_of_nonneg_right τ1 (by positivity)).trans this
    have hst : s + t ≤ (5 / 4) * (a + b) + F.unit / 4 := by
      have := (abs_le.1 est).2; linarith
    obtain ⟨v, hv, ev, -, sv⟩ := round_spec hF.proper (x := s + t)
      (by rw [abs_of_nonneg (add_nonneg s0 t0)]; linarith)
    rw [abs_of_nonneg (add_nonneg s0 t0)] at ev
    refine ⟨v, ?_, sv (by positivity), by omega, ?_⟩
    · show F.add (l.sum F _) (r.sum F _) = _
      rw [hs, ht]
      exact hv
    · have : v - (a + b) = (v - (s + t)) + (s + t - (a + b)) := by ring
      rw [this]
      refine (abs_add_le _ _).trans ((add_le_add ev est).trans ?_)
      have h3 : F.unit * (s + t) ≤ 5 / 4 * (F.unit * (a + b)) + F.tiny := by
        have h4 : s + t ≤ (5 / 4) * (a + b) + F.tiny * (2 * (m + n)) := by
          have := (abs_le.1 est).2; linarith
        have h5 : F.unit * (F.tiny * (2 * (m + n))) ≤ F.tiny := by nlinarith
        nlinarith
      have h6 : 0 ≤ F.unit * (a + b) := by positivity
      nlinarith

omit hF in
theorem sum_congr (T : SumOrder κ) {y z : κ → FloatVal} (h : ∀ k ∈ T.entries, y k = z k) : T.sum F y = T.sum F z := by
  induction T with
  | entry k => exact h k (by simp [SumOrder.entries])
  | node l r hl hr =>
    simp only [SumOrder.entries, List.mem_append] at h
    simp only [SumOrder.sum]
    rw [hl fun k hk => h k (.inl hk), hr fun k hk => h k (.inr hk)]

omit hF in
theorem sum_error {c t : κ → ℝ} {e d : ℝ} (l : List κ) (h : ∀ k ∈ l, |c k - t k ^ 2| ≤ e * t k ^ 2 + d) :
    |(l.map c).sum - (l.map fun k => t k ^ 2).sum| ≤ e * (l.map fun k => t k ^ 2).sum + l.length * d := by
  induction l with
  | nil => simp
  | cons k l ih =>
    simp only [List.map_cons, List.sum_cons, List.length_cons, Nat.cast_add, Nat.cast_one]
    have h1 := h k (by simp)
    have h2 := ih fun k hk => h k (by simp [hk])
    rw [show c k + (l.map c).sum - (t k ^ 2 + (l.map fun k => t k ^ 2).sum) =
      (c k - t k ^ 2) + ((l.map c).sum - (l.map fun k => t k ^ 2).sum) by ring]
    refine (abs_add_le _ _).trans ?_
    linarith

omit hF in
theorem sum_sq_le {t : κ → ℝ} (l : List κ) (h : ∀ k ∈ l, |t k| ≤ 1) : (l.map fun k => t k ^ 2).sum ≤ l.length := by
  induction l with
  | nil => simp
  | cons k l ih =>
    simp only [List.map_cons, List.sum_cons, List.length_cons, Nat.cast_add, Nat.cast_one]
    have h1 : t k ^ 2 ≤ 1 := by rw [← sq_abs]; nlinarith [abs_nonneg (t k), h k (by simp)]
    have h2 := ih fun k hk => h k (by simp [hk])
    linarith

/-- The sum of the squares of one row. -/
theorem squares_spec (T : SumOrder κ) (t : κ → ℝ) (ht : ∀ k ∈ T.entries, |t k| ≤ 1)
    (hn : 8 * ((T.entries.length : ℝ) + 4) * F.unit ≤ 1) (hS : F.tiny ≤ F.unit ^ 2 * (T.entries.map fun k => t k ^ 2).sum)
    (y : κ → FloatVal) (hy : ∀ k ∈ T.entries, y k = F.mul (F.round (t k)) (F.round (t k))) :
    ∃ s, T.sum F y = .num s ∧ 0 ≤ s ∧ (1 : ℝ) ≤ T.entries.length ∧
      |s - (T.entries.map fun k => t k ^ 2).sum| ≤
        (3 * (T.entries.length : ℝ) + 2) * F.unit * (T.entries.map fun k => t k ^ 2).sum := by
  classical
  have hc : ∀ k, ∃ c, 0 ≤ c ∧ (k ∈ T.entries → y k = .num c ∧ |c - t k ^ 2| ≤ 4 * F.unit * t k ^ 2 + 5 * F.tiny) := by
    intro k
    by_cases hk : k ∈ T.entries
    · obtain ⟨b, c, hb, hc, c0, ec⟩ := entry_spec hF (ht k hk)
      refine ⟨c, c0, fun _ => ⟨?_, ec⟩⟩
      rw [hy k hk, hb]
      exact hc
    · exact ⟨0, le_rfl, fun h => absurd h hk⟩
  choose c c0 hc using hc
  have u0 := unit_pos (F := F)
  have τ0 := tiny_pos (F := F)
  have n0 : (0 : ℝ) ≤ T.entries.length := Nat.cast_nonneg _
  have hC := sum_error (c := c) (t := t) T.entries fun k hk => (hc k hk).2
  have hSn := sum_sq_le (t := t) T.entries ht
  have hS0 : 0 ≤ (T.entries.map fun k => t k ^ 2).sum := List.sum_nonneg (by simpa using fun k _ => sq_nonneg (t k))
  set S := (T.entries.map fun k => t k ^ 2).sum
  set C := (T.entries.map c).sum
  set n : ℝ := (T.entries.length : ℝ)
  set u := F.unit
  have u1 : u ≤ 1 / 32 := by nlinarith
  have nu : n * u ≤ 1 / 8 := by nlinarith
  have hnτ : n * F.tiny ≤ 1 / 8 * (u * S) := by
    calc n * F.tiny ≤ n * (u ^ 2 * S) := mul_le_mul_of_nonneg_left hS n0
      _ = (n * u) * (u * S) := by ring
      _ ≤ _ := mul_le_mul_of_nonneg_right nu (by positivity)
  have uS : 0 ≤ u * S := by positivity
  have hC1 : |C - S| ≤ 37 / 8 * (u * S) := by
    refine hC.trans ?_
    linarith
  have hC2 : C ≤ 6 / 5 * S := by
    have := (abs_le.1 hC1).2
    nlinarith
  have hmax : 2 * C + 1 ≤ F.maxFinite := by
    refine le_trans ?_ hF.le_max
    rw [le_div_iff₀ u0]
    have : C * u ≤ 6 / 5 * (1 / 8) := by
      calc C * u ≤ (6 / 5 * n) * u := mul_le_mul_of_nonneg_right (by linarith) u0.le
        _ ≤ _ := by linarith
    linarith
  obtain ⟨s, hs, s0, hl, es⟩ := sum_spec hF c c0 T (by linarith) hmax
  have n1 : (1 : ℝ) ≤ n := Nat.one_le_cast.2 hl
  refine ⟨s, ?_, s0, n1, ?_⟩
  · rw [← hs]
    exact sum_congr T fun k hk => (hc k hk).1
  · change |s - C| ≤ 2 * (n - 1) * (u * C + F.tiny) at es
    have : s - S = (s - C) + (C - S) := by ring
    rw [this]
    refine (abs_add_le _ _).trans ((add_le_add es hC1).trans ?_)
    have h1 : 2 * (n - 1) * (u * C + F.tiny) ≤ 2 * (n - 1) * (6 / 5 * (u * S)) + 2 * (1 / 8 * (u * S)) := by
      have h2 : 2 * (n - 1) * (u * C) ≤ 2 * (n - 1) * (6 / 5 * (u * S)) :=
        mul_le_mul_of_nonneg_left (by nlinarith) (by linarith)
      nlinarith
    nlinarith

set_option maxHeartbeats 800000 in
/-- The norm of one row, with the scale `a`. -/
theorem row_spec (T : SumOrder κ) (t : κ → ℝ) (ht : ∀ k ∈ T.entries, |t k| ≤ 1) (a : ℝ) (ha : 0 < a)
    (hn : 8 * ((T.entries.length : ℝ) + 4) * F.unit ≤ 1) (hS : F.tiny ≤ F.unit ^ 2 * (T.entries.map fun k => t k ^ 2).sum)
    (hlow : 2 * F.tiny ≤ a * √(T.entries.map fun k => t k ^ 2).sum)
    (hhigh : (1 + 2 * ((T.entries.length : ℝ) + 2) * F.unit) * (a * √(T.entries.map fun k => t k ^ 2).sum) ≤ F.maxFinite)
    (y : κ → FloatVal) (hy : ∀ k ∈ T.entries, y k = F.mul (F.round (t k)) (F.round (t k))) :
    ∃ r, F.mul (.num a) (F.sqrt (T.sum F y)) = .num r ∧
      |r - a * √(T.entries.map fun k => t k ^ 2).sum| ≤
        2 * ((T.entries.length : ℝ) + 2) * F.unit * (a * √(T.entries.map fun k => t k ^ 2).sum) := by
  obtain ⟨s, hs, s0, n1, es⟩ := squares_spec hF T t ht hn hS y hy
  have u0 := unit_pos (F := F)
  have τ0 := tiny_pos (F := F)
  have τ1 := hF.tiny_le
  have hSn := sum_sq_le (t := t) T.entries ht
  set S := (T.entries.map fun k => t k ^ 2).sum
  set n : ℝ := (T.entries.length : ℝ)
  set u := F.unit
  have u1 : u ≤ 1 / 40 := by nlinarith
  have nu : n * u ≤ 1 / 8 - 4 * u := by nlinarith
  have S0 : 0 < S := by
    by_contra h
    have : u ^ 2 * S ≤ 0 := mul_nonpos_of_nonneg_of_nonpos (by positivity) (not_lt.1 h)
    linarith
  set R := √S
  have R0 : 0 < R := Real.sqrt_pos.2 S0
  have RS : R * R = S := Real.mul_self_sqrt S0.le
  set Q := √s
  have Q0 : 0 ≤ Q := Real.sqrt_nonneg s
  have QS : Q * Q = s := Real.mul_self_sqrt s0
  have hsS : 5 / 8 * S ≤ s := by
    have := (abs_le.1 es).1
    nlinarith
  have hQR : 79 / 100 * R ≤ Q := by
    refine Real.le_sqrt_of_sq_le ?_
    nlinarith
  have hδ : |Q - R| ≤ (42 / 25 * n + 28 / 25) * u * R := by
    have h1 : |Q - R| * (Q + R) = |s - S| := by
      rw [← QS, ← RS, show Q * Q - R * R = (Q - R) * (Q + R) by ring, abs_mul, abs_of_pos (show 0 < Q + R by linarith)]
    have h2 : |Q - R| * (179 / 100 * R) ≤ (3 * n + 2) * u * (R * R) := by
      calc |Q - R| * (179 / 100 * R) ≤ |Q - R| * (Q + R) := mul_le_mul_of_nonneg_left (by linarith) (abs_nonneg _)
        _ ≤ _ := by rw [h1, RS]; exact es
    have h3 : |Q - R| * (179 / 100) ≤ (3 * n + 2) * u * R := by
      have : (|Q - R| * (179 / 100)) * R ≤ ((3 * n + 2) * u * R) * R := by linarith
      exact le_of_mul_le_mul_right this R0
    have h4 : 0 ≤ n * (u * R) := by positivity
    have h5 : 0 ≤ u * R := by positivity
    linarith
  have hQle : Q ≤ 5 / 4 * R := by
    have h := (abs_le.1 hδ).2
    have h1 : (42 / 25 * n + 28 / 25) * u ≤ 1 / 4 := by linarith
    have h2 := mul_le_mul_of_nonneg_right h1 R0.le
    linarith
  have hQmax : Q ≤ F.maxFinite := by
    refine le_trans ?_ hF.le_max
    rw [le_div_iff₀ u0]
    have : R ≤ n := by
      rw [show R = √S from rfl, Real.sqrt_le_left (by linarith)]
      nlinarith
    nlinarith
  have hQτ : F.tiny ≤ Q := by
    refine Real.le_sqrt_of_sq_le ?_
    have h1 : F.tiny ≤ 1 := by nlinarith
    have h2 : F.tiny ^ 2 ≤ F.tiny := by nlinarith
    have h3 : u ^ 2 * S ≤ 1 / 1600 * S := mul_le_mul_of_nonneg_right (by nlinarith) S0.le
    linarith
  obtain ⟨v, hv, -, ev, -⟩ := round_spec hF.proper (x := Q) (by rw [abs_of_nonneg Q0]; exact hQmax)
  rw [abs_of_nonneg Q0] at ev
  replace ev := ev hQτ
  have hvR : |v - R| ≤ (42 / 25 * n + 28 / 25 + 5 / 4) * u * R := by
    rw [show v - R = (v - Q) + (Q - R) by ring]
    refine (abs_add_le _ _).trans ((add_le_add ev hδ).trans ?_)
    have : u * Q ≤ u * (5 / 4 * R) := mul_le_mul_of_nonneg_left hQle u0.le
    linarith
  have hvlow : 1 / 2 * R ≤ v := by
    have h := (abs_le.1 hvR).1
    have h1 : (42 / 25 * n + 28 / 25 + 5 / 4) * u ≤ 1 / 2 := by linarith
    have h2 := mul_le_mul_of_nonneg_right h1 R0.le
    linarith
  have hvhigh : v ≤ (1 + 2 * (n + 2) * u) * R := by
    have h := (abs_le.1 hvR).2
    have h4 : 0 ≤ n * (u * R) := by positivity
    have h5 : 0 ≤ u * R := by positivity
    linarith
  have hvhigh2 : v ≤ 13 / 10 * R := by
    have h := (abs_le.1 hvR).2
    have h1 : (42 / 25 * n + 28 / 25 + 5 / 4) * u ≤ 3 / 10 := by linarith
    have h2 := mul_le_mul_of_nonneg_right h1 R0.le
    linarith
  have v0 : 0 ≤ v := by linarith
  have av : |a * v| = a * v := abs_of_nonneg (by positivity)
  obtain ⟨r, hr, -, er, -⟩ := round_spec hF.proper (x := a * v) (by
    rw [av]
    refine le_trans ?_ hhigh
    calc a * v ≤ a * ((1 + 2 * (n + 2) * u) * R) := mul_le_mul_of_nonneg_left hvhigh ha.le
      _ = _ := by ring)
  rw [av] at er
  replace er := er (by
    calc F.tiny ≤ a * (1 / 2 * R) := by linarith
      _ ≤ a * v := mul_le_mul_of_nonneg_left hvlow ha.le)
  refine ⟨r, ?_, ?_⟩
  · rw [hs]
    show F.mul (.num a) (if s < 0 then .nan else F.round Q) = _
    rw [if_neg (not_lt.2 s0), hv]
    exact hr
  · rw [show r - a * R = (r - a * v) + a * (v - R) by ring]
    refine (abs_add_le _ _).trans ?_
    rw [abs_mul, abs_of_pos ha]
    have h1 : a * |v - R| ≤ a * ((42 / 25 * n + 28 / 25 + 5 / 4) * u * R) := mul_le_mul_of_nonneg_left hvR ha.le
    have h2 : u * (a * v) ≤ u * (a * (13 / 10 * R)) :=
      mul_le_mul_of_nonneg_left (mul_le_mul_of_nonneg_left hvhigh2 ha.le) u0.le
    have h3 : 0 ≤ u * (a * R) := by positivity
    have h4 : 0 ≤ n * (u * (a * R)) := by positivity
    linarith

end

/-- `jnp.max(jnp.abs(x))` of numbers. -/
theorem maxAbs_num : ∀ l : List ℝ, l ≠ [] → ∃ M, maxAbs (l.map .num) = .ok (.num M) ∧ (∀ x ∈ l, |x| ≤ M) ∧ ∃ x ∈ l, |x| = M
  | [], h => absurd rfl h
  | x :: xs, _ => by
    have key : ∀ (l : List ℝ) (m : ℝ), ∃ M, (l.map FloatVal.num).foldl (fun m y => FloatVal.maximum m y.abs) (.num m) = FloatVal.num M ∧
        m ≤ M ∧ (∀ x ∈ l, |x| ≤ M) ∧ (M = m ∨ ∃ x ∈ l, |x| = M) := by
      intro l
      induction l with
      | nil => exact fun m => ⟨m, rfl, le_rfl, by simp, .inl rfl⟩
      | cons y l ih =>
        intro m
        obtain ⟨M, h1, h2, h3, h4⟩ := ih (max m |y|)
        refine ⟨M, h1, (le_max_left _ _).trans h2, ?_, ?_⟩
        · intro x hx
          rcases List.mem_cons.1 hx with rfl | hx
          · exact (le_max_right _ _).trans h2
          · exact h3 x hx
        · rcases h4 with h4 | ⟨x, hx, h4⟩
          · rcases max_choice m |y| with h | h
            · exact .inl (h4.trans h)
            · exact .inr ⟨y, by simp, (h4.trans h).symm⟩
          · exact .inr ⟨x, by simp [hx], h4⟩
    obtain ⟨M, h1, h2, h3, h4⟩ := key xs |x|
    refine ⟨M, by simp only [List.map_cons, maxAbs]; exact congrArg _ h1, ?_, ?_⟩
    · intro z hz
      rcases List.mem_cons.1 hz with rfl | hz
      · exact h2
      · exact h3 z hz
    · rcases h4 with h4 | ⟨z, hz, h4⟩
      · exact ⟨x, by simp, h4.symm⟩
      · exact ⟨z, by simp [hz], h4⟩

/-- The scale used by `norm`, and the resulting formula. -/
theorem normFloat_eq (order : SumOrder κ) (batch : List ι) (axis : List κ) (x : ι → κ → ℝ) {i : ι} (hi : i ∈ batch)
    {k : κ} (hk : k ∈ axis) : ∃ a, F.tiny ≤ a ∧ (∀ j ∈ batch, ∀ k ∈ axis, |x j k| ≤ a) ∧
      (a = F.tiny ∨ ∃ j ∈ batch, ∃ k ∈ axis, |x j k| = a) ∧
      normFloat F order batch axis (fun i k => .num (x i k)) = .ok fun i =>
        F.mul (.num a) (F.sqrt (order.sum F fun k => F.mul (F.round (x i k / a)) (F.round (x i k / a)))) := by
  have hl : (batch.flatMap fun i => axis.map (x i)) ≠ [] := by
    intro h
    have : x i k ∈ batch.flatMap fun i => axis.map (x i) := List.mem_flatMap.2 ⟨i, hi, List.mem_map.2 ⟨k, hk, rfl⟩⟩
    rw [h] at this
    exact absurd this (by simp)
  obtain ⟨M, h1, h2, h3⟩ := maxAbs_num _ hl
  have h4 : (batch.flatMap fun i => axis.map (x i)).map FloatVal.num =
      batch.flatMap fun i => axis.map fun k => FloatVal.num (x i k) := by
    simp [List.map_flatMap, Function.comp_def]
  rw [h4] at h1
  refine ⟨max M F.tiny, le_max_right _ _, fun j hj k hk => (h2 _ ?_).trans (le_max_left _ _), ?_, ?_⟩
  · exact List.mem_flatMap.2 ⟨j, hj, List.mem_map.2 ⟨k, hk, rfl⟩⟩
  · rcases max_choice M F.tiny with h | h
    · obtain ⟨z, hz, h5⟩ := h3
      obtain ⟨j, hj, hz⟩ := List.mem_flatMap.1 hz
      obtain ⟨k, hk, rfl⟩ := List.mem_map.1 hz
      exact .inr ⟨j, hj, k, hk, by rw [h, h5]⟩
    · exact .inl h
  · unfold normFloat
    rw [h1]
    have ha : max M F.tiny ≠ 0 := (tiny_pos.trans_le (le_max_right M F.tiny)).ne'
    simp only [FloatVal.maximum, FloatFormat.div, if_neg ha]

theorem sum_map_div (l : List κ) (f : κ → ℝ) (c : ℝ) : (l.map fun k => f k / c).sum = (l.map f).sum / c := by
  induction l with
  | nil => simp
  | cons k l ih => simp only [List.map_cons, List.sum_cons, ih, add_div]

theorem round_zero (hF : F.Proper) : F.round 0 = .num 0 := round_underflow hF (by
  rw [abs_zero]
  exact half_pos (two_zpow_pos _))

theorem sum_zero (hF : F.Proper) : ∀ T : SumOrder κ, T.sum F (fun _ => .num 0) = .num 0
  | .entry _ => rfl
  | .node l r => by
    simp only [SumOrder.sum, sum_zero hF l, sum_zero hF r, FloatFormat.add, add_zero, round_zero hF]

theorem round_nonneg (hF : F.Proper) {x : ℝ} (hx : 0 ≤ x) : F.round x = .posInf ∨ ∃ c, 0 ≤ c ∧ F.round x = .num c := by
  rcases le_or_gt x F.maxFinite with h | h
  · obtain ⟨r, hr, -, -, h0⟩ := round_spec hF (x := x) (by rwa [abs_of_nonneg hx])
    exact .inr ⟨r, h0 hx, hr⟩
  · have ht := (tiny_le_maxFinite hF).trans h.le
    rcases round_large hF ht with h1 | ⟨r, hr, er⟩
    · exact .inl h1
    · refine .inr ⟨r, ?_, hr⟩
      have u : F.unit ≤ 1 := by
        have : F.unit ≤ 2 ^ (0 : ℤ) := zpow_le (by omega)
        simpa using this
      have := (abs_le.1 er).1
      nlinarith

theorem sum_nonneg (hF : F.Proper) {y : κ → FloatVal} (hy : ∀ k, y k = .posInf ∨ ∃ c, 0 ≤ c ∧ y k = .num c) :
    ∀ T : SumOrder κ, T.sum F y = .posInf ∨ ∃ c, 0 ≤ c ∧ T.sum F y = .num c
  | .entry k => hy k
  | .node l r => by
    simp only [SumOrder.sum]
    rcases sum_nonneg hF hy l with h | ⟨c, hc, h⟩ <;> rcases sum_nonneg hF hy r with h' | ⟨d, hd, h'⟩ <;>
      rw [h, h'] <;> simp only [FloatFormat.add]
    · exact .inl trivial
    · exact .inl trivial
    · exact .inl trivial
    · exact round_nonneg hF (add_nonneg hc hd)

theorem sum_posInf (hF : F.Proper) (T : SumOrder κ) {y : κ → FloatVal}
    (hy : ∀ k, y k = .posInf ∨ ∃ c, 0 ≤ c ∧ y k = .num c) {k : κ} (hk : k ∈ T.entries) (hk' : y k = .posInf) :
    T.sum F y = .posInf := by
  induction T with
  | entry k' =>
    obtain rfl : k = k' := by simpa [SumOrder.entries] using hk
    exact hk'
  | node l r hl hr =>
    simp only [SumOrder.entries, List.mem_append] at hk
    simp only [SumOrder.sum]
    rcases hk with h | h
    · rw [hl h]
      rcases sum_nonneg hF hy r with h' | ⟨d, hd, h'⟩ <;> rw [h'] <;> rfl
    · rw [hr h]
      rcases sum_nonneg hF hy l with h' | ⟨d, hd, h'⟩ <;> rw [h'] <;> rfl

theorem isNumber_zero (hF : F.Proper) : F.IsNumber 0 := round_zero hF

/-- Normal powers of two are numbers. -/
theorem isNumber_two_pow (hF : F.Proper) {e : ℤ} (h1 : F.q + F.p - 1 ≤ e) (h2 : e ≤ F.emax) : F.IsNumber (2 ^ e) := by
  have P := two_zpow_pos e
  have hl : Int.log 2 |(2 : ℝ) ^ e| = e := by
    rw [abs_of_pos P]
    exact_mod_cast Int.log_zpow (R := ℝ) (b := 2) (by norm_num) e
  have hp := hF.p_pos
  have hlp : F.lastPlace (2 ^ e) = e + 1 - F.p := by
    unfold FloatFormat.lastPlace
    rw [hl]
    omega
  have hr : F.roundUnbounded (2 ^ e) = 2 ^ e := by
    unfold FloatFormat.roundUnbounded
    rw [hlp]
    have : (2 : ℝ) ^ e / 2 ^ (e + 1 - (F.p : ℤ)) = (((2 : ℤ) ^ (F.p - 1) : ℤ) : ℝ) := by
      rw [← zpow_sub₀ two_ne_zero, show e - (e + 1 - (F.p : ℤ)) = ((F.p - 1 : ℕ) : ℤ) by omega, zpow_natCast]
      push_cast
      rfl
    rw [this, nearestEven_int, ← this]
    exact div_mul_cancel₀ _ (two_zpow_pos _).ne'
  have hmax : (2 : ℝ) ^ e ≤ F.maxFinite := (zpow_le h2).trans (maxFinite_ge hF)
  have ht : F.tiny ≤ 2 ^ e := zpow_le h1
  unfold FloatFormat.IsNumber FloatFormat.round
  simp only [hr]
  rw [if_neg (not_lt.2 hmax), if_neg (not_lt.2 (by linarith)), if_neg]
  rw [abs_of_pos P]
  exact fun h => absurd h.2 (not_lt.2 ht)

end E3x
