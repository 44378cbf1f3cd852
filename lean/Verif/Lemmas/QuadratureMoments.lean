import Mathlib.Analysis.Real.Pi.Bounds
import Mathlib.Algebra.Order.Floor.Semifield
import Mathlib.Tactic.Linarith
import Mathlib.Tactic.Ring
import Mathlib.Tactic.Positivity
import Mathlib.Tactic.NormNum
import Verif.Lemmas.QuadratureCheck
import Verif.Lemmas.SphereIntegral

/-!
# What the check of the moments of a quadrature rule says
-/

namespace E3x

namespace QuadratureCheck

open Finset

set_option exponentiation.threshold 300

theorem force_eq {α : Type} (n : ℕ) (k : ℕ → α) : force n k = k n := by cases n <;> rfl

noncomputable section

/-- the square of a coordinate -/
def sq (x : ℕ) : ℝ := ((x : ℝ) / 2 ^ 70) ^ 2

theorem sq_nonneg' (x : ℕ) : 0 ≤ sq x := sq_nonneg _

theorem sq_le_one {x : ℕ} (h : x ≤ 2 ^ 70) : sq x ≤ 1 := by
  have h1 : (x : ℝ) / 2 ^ 70 ≤ 1 := by
    rw [div_le_one (by positivity)]
    exact_mod_cast h
  exact pow_le_one₀ (by positivity) h1

theorem fix_eq (x a : ℕ) : fix x a = x ^ (2 * a) * 2 ^ 64 / 2 ^ (140 * a) := by
  show (x ^ (2 * a) <<< 64) >>> (140 * a) = _
  rw [Nat.shiftLeft_eq, Nat.shiftRight_eq_div_pow]

theorem fix_bounds (x a : ℕ) : 2 ^ 64 * sq x ^ a - 1 ≤ (fix x a : ℝ) ∧ (fix x a : ℝ) ≤ 2 ^ 64 * sq x ^ a := by
  have h : ((x ^ (2 * a) * 2 ^ 64 : ℕ) : ℝ) / ((2 ^ (140 * a) : ℕ) : ℝ) = 2 ^ 64 * sq x ^ a := by
    push_cast
    rw [sq, div_pow, div_pow, ← pow_mul, ← pow_mul, ← pow_mul]
    rw [show 70 * 2 * a = 140 * a by ring]
    ring
  rw [fix_eq, ← h]
  constructor
  · have := Nat.lt_floor_add_one (((x ^ (2 * a) * 2 ^ 64 : ℕ) : ℝ) / ((2 ^ (140 * a) : ℕ) : ℝ))
    rw [Nat.floor_div_eq_div] at this
    linarith
  · exact Nat.cast_div_le

/-- the sum of a monomial over the six arrangements -/
def six (x y z : ℝ) (a b c : ℕ) : ℝ :=
  x ^ a * (y ^ b * z ^ c + z ^ b * y ^ c) + y ^ a * (x ^ b * z ^ c + z ^ b * x ^ c) +
    z ^ a * (x ^ b * y ^ c + y ^ b * x ^ c)

/-- the same, rounded -/
def sixN (o : QuadratureOrbit) (a b c : ℕ) : ℕ :=
  fix o.x a * cross o.y o.z b c + fix o.y a * cross o.x o.z b c + fix o.z a * cross o.x o.y b c

theorem prod_bounds {F u v w x y z : ℝ} (hF : 1 ≤ F) (hx : 0 ≤ x) (hx1 : x ≤ 1) (hy : 0 ≤ y) (hy1 : y ≤ 1)
    (hz : 0 ≤ z) (hz1 : z ≤ 1) (hv0 : 0 ≤ v) (hw0 : 0 ≤ w) (hu : F * x - 1 ≤ u) (hu' : u ≤ F * x) (hv : F * y - 1 ≤ v) (hv' : v ≤ F * y)
    (hw : F * z - 1 ≤ w) (hw' : w ≤ F * z) :
    F ^ 3 * (x * (y * z)) - 3 * F ^ 2 ≤ u * (v * w) ∧ u * (v * w) ≤ F ^ 3 * (x * (y * z)) := by
  have hF0 : 0 ≤ F := by linarith
  have hFx : F * x ≤ F := by nlinarith
  have hFy : F * y ≤ F := by nlinarith
  have hFz : F * z ≤ F := by nlinarith
  constructor
  · have e : F ^ 3 * (x * (y * z)) - u * (v * w) =
        (F * x - u) * (F * y * (F * z)) + u * ((F * y - v) * (F * z)) + u * (v * (F * z - w)) := by ring
    have h1 : (F * x - u) * (F * y * (F * z)) ≤ 1 * (F * F) := by
      apply mul_le_mul (by linarith) _ (by positivity) zero_le_one
      exact mul_le_mul hFy hFz (by positivity) hF0
    have h2 : u * ((F * y - v) * (F * z)) ≤ F * (1 * F) := by
      apply mul_le_mul (by linarith) _ (mul_nonneg (by linarith) (by positivity)) hF0
      exact mul_le_mul (by linarith) hFz (by positivity) zero_le_one
    have h3 : u * (v * (F * z - w)) ≤ F * (F * 1) := by
      apply mul_le_mul (by linarith) _ (mul_nonneg hv0 (by linarith)) hF0
      exact mul_le_mul (by linarith) (by linarith) (by linarith) hF0
    nlinarith
  · calc u * (v * w) ≤ F * x * (F * y * (F * z)) := by
          apply mul_le_mul hu' _ (by positivity) (by positivity)
          exact mul_le_mul hv' hw' hw0 (by positivity)
      _ = _ := by ring

theorem fix_prod_bounds {x y z : ℕ} (hx : x ≤ 2 ^ 70) (hy : y ≤ 2 ^ 70) (hz : z ≤ 2 ^ 70) (a b c : ℕ) :
    (2 ^ 64) ^ 3 * (sq x ^ a * (sq y ^ b * sq z ^ c)) - 3 * (2 ^ 64) ^ 2 ≤
        (fix x a : ℝ) * ((fix y b : ℝ) * (fix z c : ℝ)) ∧
      (fix x a : ℝ) * ((fix y b : ℝ) * (fix z c : ℝ)) ≤ (2 ^ 64) ^ 3 * (sq x ^ a * (sq y ^ b * sq z ^ c)) := by
  refine prod_bounds (by norm_num) (pow_nonneg (sq_nonneg' x) a) (pow_le_one₀ (sq_nonneg' x) (sq_le_one hx))
    (pow_nonneg (sq_nonneg' y) b) (pow_le_one₀ (sq_nonneg' y) (sq_le_one hy))
    (pow_nonneg (sq_nonneg' z) c) (pow_le_one₀ (sq_nonneg' z) (sq_le_one hz)) (by positivity) (by positivity) ?_ ?_ ?_ ?_ ?_ ?_
  exacts [(fix_bounds x a).1, (fix_bounds x a).2, (fix_bounds y b).1, (fix_bounds y b).2, (fix_bounds z c).1,
    (fix_bounds z c).2]

/-- all coordinates are at most one -/
def Small (o : QuadratureOrbit) : Prop := o.x ≤ 2 ^ 70 ∧ o.y ≤ 2 ^ 70 ∧ o.z ≤ 2 ^ 70

theorem sixN_bounds {o : QuadratureOrbit} (h : Small o) (a b c : ℕ) :
    (2 ^ 64) ^ 3 * six (sq o.x) (sq o.y) (sq o.z) a b c - 18 * (2 ^ 64) ^ 2 ≤ (sixN o a b c : ℝ) ∧
      (sixN o a b c : ℝ) ≤ (2 ^ 64) ^ 3 * six (sq o.x) (sq o.y) (sq o.z) a b c := by
  obtain ⟨hx, hy, hz⟩ := h
  have e : (sixN o a b c : ℝ) = (fix o.x a : ℝ) * ((fix o.y b : ℝ) * (fix o.z c : ℝ)) + (fix o.x a : ℝ) * ((fix o.z b : ℝ) * (fix o.y c : ℝ)) +
      ((fix o.y a : ℝ) * ((fix o.x b : ℝ) * (fix o.z c : ℝ)) + (fix o.y a : ℝ) * ((fix o.z b : ℝ) * (fix o.x c : ℝ))) +
      ((fix o.z a : ℝ) * ((fix o.x b : ℝ) * (fix o.y c : ℝ)) + (fix o.z a : ℝ) * ((fix o.y b : ℝ) * (fix o.x c : ℝ))) := by
    have hc : ∀ x y : ℕ, cross x y b c = fix x b * fix y c + fix y b * fix x c := fun _ _ => rfl
    simp only [sixN, hc]
    push_cast
    ring
  have h1 := fix_prod_bounds hx hy hz a b c
  have h2 := fix_prod_bounds hx hz hy a b c
  have h3 := fix_prod_bounds hy hx hz a b c
  have h4 := fix_prod_bounds hy hz hx a b c
  have h5 := fix_prod_bounds hz hx hy a b c
  have h6 := fix_prod_bounds hz hy hx a b c
  rw [e, six]
  constructor
  · linarith [h1.1, h2.1, h3.1, h4.1, h5.1, h6.1]
  · linarith [h1.2, h2.2, h3.2, h4.2, h5.2, h6.2]

theorem six_bounds {x y z : ℝ} (hx : 0 ≤ x) (hx1 : x ≤ 1) (hy : 0 ≤ y) (hy1 : y ≤ 1) (hz : 0 ≤ z) (hz1 : z ≤ 1)
    (a b c : ℕ) : 0 ≤ six x y z a b c ∧ six x y z a b c ≤ 6 := by
  have key : ∀ {x y z : ℝ}, 0 ≤ x → x ≤ 1 → 0 ≤ y → y ≤ 1 → 0 ≤ z → z ≤ 1 → x ^ a * (y ^ b * z ^ c) ≤ 1 := by
    intro x y z hx hx1 hy hy1 hz hz1
    have h1 := pow_le_one₀ (n := a) hx hx1
    have h2 := pow_le_one₀ (n := b) hy hy1
    have h3 := pow_le_one₀ (n := c) hz hz1
    exact mul_le_one₀ h1 (by positivity) (mul_le_one₀ h2 (by positivity) h3)
  refine ⟨by unfold six; positivity, ?_⟩
  have h1 := key hx hx1 hy hy1 hz hz1
  have h2 := key hx hx1 hz hz1 hy hy1
  have h3 := key hy hy1 hx hx1 hz hz1
  have h4 := key hy hy1 hz hz1 hx hx1
  have h5 := key hz hz1 hx hx1 hy hy1
  have h6 := key hz hz1 hy hy1 hx hx1
  unfold six
  linarith

/-! ## sums over the orbits -/

/-- `∑ₒ total o · six` -/
def mom (l : List QuadratureOrbit) (a b c : ℕ) : ℝ :=
  (l.map fun o => (total o : ℝ) * six (sq o.x) (sq o.y) (sq o.z) a b c).sum

/-- the same, rounded -/
def momN (l : List QuadratureOrbit) (a b c : ℕ) : ℕ := (l.map fun o => total o * sixN o a b c).sum

theorem weight_eq (l : List QuadratureOrbit) : weight l = (l.map total).sum := by
  induction l with
  | nil => rfl
  | cons o l ih =>
    show total o + weight l = _
    rw [ih, List.map_cons, List.sum_cons]

theorem small_iff (l : List QuadratureOrbit) : small l = true ↔ ∀ o ∈ l, Small o := by
  induction l with
  | nil => simp [small]
  | cons o l ih =>
    have : small (o :: l) = (and (and (Nat.ble o.x (Nat.pow 2 70)) (and (Nat.ble o.y (Nat.pow 2 70))
      (Nat.ble o.z (Nat.pow 2 70)))) (small l)) := rfl
    rw [this, Bool.and_eq_true, ih, Bool.and_eq_true, Bool.and_eq_true, Nat.ble_eq, Nat.ble_eq, Nat.ble_eq]
    simp only [List.mem_cons, forall_eq_or_imp]
    exact Iff.rfl

theorem momN_bounds (l : List QuadratureOrbit) (h : ∀ o ∈ l, Small o) (a b c : ℕ) :
    (2 ^ 64) ^ 3 * mom l a b c - 18 * (2 ^ 64) ^ 2 * (weight l : ℝ) ≤ (momN l a b c : ℝ) ∧
      (momN l a b c : ℝ) ≤ (2 ^ 64) ^ 3 * mom l a b c := by
  induction l with
  | nil => simp [mom, momN, weight_eq]
  | cons o l ih =>
    obtain ⟨h1, h2⟩ := ih fun o ho => h o (List.mem_cons_of_mem _ ho)
    obtain ⟨h3, h4⟩ := sixN_bounds (h o List.mem_cons_self) a b c
    have ht : (0 : ℝ) ≤ (total o : ℝ) := by positivity
    have h5 := mul_le_mul_of_nonneg_left h3 ht
    have h6 := mul_le_mul_of_nonneg_left h4 ht
    rw [weight_eq] at h1
    simp only [mom, momN, weight_eq, List.map_cons, List.sum_cons, Nat.cast_add, Nat.cast_mul] at h1 h2 ⊢
    constructor <;> linarith

theorem mom_le (l : List QuadratureOrbit) (h : ∀ o ∈ l, Small o) (a b c : ℕ) : mom l a b c ≤ 6 * (weight l : ℝ) := by
  induction l with
  | nil => simp [mom, weight_eq]
  | cons o l ih =>
    have h1 := ih fun o ho => h o (List.mem_cons_of_mem _ ho)
    obtain ⟨hx, hy, hz⟩ := h o List.mem_cons_self
    have h2 := (six_bounds (sq_nonneg' o.x) (sq_le_one hx) (sq_nonneg' o.y) (sq_le_one hy) (sq_nonneg' o.z)
      (sq_le_one hz) a b c).2
    have h3 := mul_le_mul_of_nonneg_left h2 (Nat.cast_nonneg (α := ℝ) (total o))
    rw [weight_eq] at h1
    simp only [mom, weight_eq, List.map_cons, List.sum_cons, Nat.cast_add] at h1 ⊢
    linarith

theorem momN_lt (l : List QuadratureOrbit) (h : ∀ o ∈ l, Small o) (hw : weight l ≤ 2 ^ 71) (a b c : ℕ) :
    momN l a b c < 2 ^ 272 := by
  have h1 := (momN_bounds l h a b c).2
  have h2 := mom_le l h a b c
  have h3 : (weight l : ℝ) ≤ 2 ^ 71 := by exact_mod_cast hw
  have h4 : (momN l a b c : ℝ) < 2 ^ 272 := by
    calc (momN l a b c : ℝ) ≤ (2 ^ 64) ^ 3 * mom l a b c := h1
      _ ≤ (2 ^ 64) ^ 3 * (6 * 2 ^ 71) := by
        apply mul_le_mul_of_nonneg_left _ (by positivity)
        linarith
      _ = 6 * 2 ^ 263 := by rw [← pow_mul]; ring
      _ < 2 ^ 9 * 2 ^ 263 := by apply mul_lt_mul_of_pos_right _ (by positivity); norm_num
      _ = 2 ^ 272 := by rw [← pow_add]
  exact_mod_cast h4

/-! ## packed numbers -/

theorem pack_eq (x n : ℕ) : pack x n = ∑ a ∈ range (n + 1), fix x a * (2 ^ 272) ^ a := by
  induction n with
  | zero => simp [pack]
  | succ n ih =>
    rw [sum_range_succ, ← ih]
    show pack x n + fix x (n + 1) <<< (272 * (n + 1)) = _
    rw [Nat.shiftLeft_eq, pow_mul]

theorem digit_sum (T : ℕ) (d : ℕ → ℕ) (n a : ℕ) (ha : a ≤ n) (hd : ∀ a ≤ n, d a < T) :
    (∑ a ∈ range (n + 1), d a * T ^ a) / T ^ a % T = d a := by
  have hT : 0 < T := lt_of_le_of_lt (Nat.zero_le _) (hd 0 (Nat.zero_le _))
  induction n generalizing d a with
  | zero =>
    obtain rfl : a = 0 := by omega
    simpa using Nat.mod_eq_of_lt (hd 0 le_rfl)
  | succ n ih =>
    rw [sum_range_succ']
    have e : ∑ k ∈ range (n + 1), d (k + 1) * T ^ (k + 1) + d 0 * T ^ 0 =
        d 0 + T * ∑ k ∈ range (n + 1), d (k + 1) * T ^ k := by
      rw [mul_sum, pow_zero, mul_one, add_comm]
      congr 1
      refine sum_congr rfl fun k _ => ?_
      ring
    rw [e]
    cases a with
    | zero =>
      rw [pow_zero, Nat.div_one, Nat.add_mul_mod_self_left, Nat.mod_eq_of_lt (hd 0 (by omega))]
    | succ a =>
      rw [pow_succ', ← Nat.div_div_eq_div_mul, Nat.add_mul_div_left _ _ hT, Nat.div_eq_of_lt (hd 0 (by omega)), zero_add]
      exact ih (fun k => d (k + 1)) a (by omega) fun k hk => hd (k + 1) (by omega)

/-- the packed orbit -/
def mk (n : ℕ) (o : QuadratureOrbit) : Packed :=
  ⟨o.x, o.y, o.z, pack o.x n, pack o.y n, pack o.z n, total o⟩

theorem packAll_eq (n : ℕ) (l : List QuadratureOrbit) (k : List Packed → Bool) (acc : List Packed) :
    packAll n l k acc = k ((l.map (mk n)).reverse ++ acc) := by
  induction l generalizing acc with
  | nil => rfl
  | cons o l ih =>
    have : packAll n (o :: l) k acc = (force (pack o.x n) fun gx => force (pack o.y n) fun gy => force (pack o.z n) fun gz =>
      force (total o) fun v => packAll n l k (⟨o.x, o.y, o.z, gx, gy, gz, v⟩ :: acc)) := rfl
    rw [this]
    simp only [force_eq]
    rw [ih, List.map_cons, List.reverse_cons, List.append_assoc]
    rfl

/-- one term of a row -/
def rowTerm (b c : ℕ) (p : Packed) : ℕ :=
  p.v * (p.gx * cross p.y p.z b c + (p.gy * cross p.x p.z b c + p.gz * cross p.x p.y b c))

theorem row_eq (b c : ℕ) (l : List Packed) : row b c l = (l.map (rowTerm b c)).sum := by
  induction l with
  | nil => rfl
  | cons p l ih =>
    show row b c l + rowTerm b c p = _
    rw [ih, List.map_cons, List.sum_cons, add_comm]

theorem rowTerm_mk (n b c : ℕ) (o : QuadratureOrbit) :
    rowTerm b c (mk n o) = ∑ a ∈ range (n + 1), total o * sixN o a b c * (2 ^ 272) ^ a := by
  simp only [rowTerm, mk, pack_eq, sum_mul, mul_sum, ← sum_add_distrib, sixN]
  refine sum_congr rfl fun a _ => ?_
  ring

theorem row_mk (n b c : ℕ) (l : List QuadratureOrbit) :
    row b c (l.map (mk n)).reverse = ∑ a ∈ range (n + 1), momN l a b c * (2 ^ 272) ^ a := by
  rw [row_eq, List.map_reverse, List.sum_reverse, List.map_map]
  induction l with
  | nil => simp [momN]
  | cons o l ih =>
    rw [List.map_cons, List.sum_cons, ih, Function.comp, rowTerm_mk, ← sum_add_distrib]
    refine sum_congr rfl fun a _ => ?_
    simp only [momN, List.map_cons, List.sum_cons]
    ring

theorem digit_row (n b c a : ℕ) (ha : a ≤ n) (l : List QuadratureOrbit) (h : ∀ o ∈ l, Small o) (hw : weight l ≤ 2 ^ 71) :
    digit (row b c (l.map (mk n)).reverse) a = momN l a b c := by
  have e : ∀ g, digit g a = g / (2 ^ 272) ^ a % 2 ^ 272 := by
    intro g
    show (g >>> (272 * a)) % 2 ^ 272 = _
    rw [Nat.shiftRight_eq_div_pow, pow_mul]
  rw [e, row_mk]
  exact digit_sum _ (fun a => momN l a b c) n a ha fun a _ => momN_lt l h hw a b c

/-! ## the loops -/

/-- the mean value of `x²ᵃ y²ᵇ z²ᶜ` over the sphere -/
def mean (a b c : ℕ) : ℝ := monoInt (2 * a) (2 * b) (2 * c) / (4 * Real.pi)

theorem mean_zero : mean 0 0 0 = 1 := by
  rw [mean, mul_zero, monoInt_zero, div_self (by positivity)]

theorem mean_x (a b c : ℕ) : (2 * ((a : ℝ) + (b + c)) + 3) * mean (a + 1) b c = (2 * a + 1) * mean a b c := by
  have h := monoInt_x (2 * a) (2 * b) (2 * c)
  push_cast at h
  unfold mean
  rw [show 2 * (a + 1) = 2 * a + 2 by ring]
  linear_combination h / (4 * Real.pi)

theorem mean_y (a b c : ℕ) : (2 * ((a : ℝ) + (b + c)) + 3) * mean a (b + 1) c = (2 * b + 1) * mean a b c := by
  have h := monoInt_y (2 * a) (2 * b) (2 * c)
  push_cast at h
  unfold mean
  rw [show 2 * (b + 1) = 2 * b + 2 by ring]
  linear_combination h / (4 * Real.pi)

theorem mean_z (a b c : ℕ) : (2 * ((a : ℝ) + (b + c)) + 3) * mean a b (c + 1) = (2 * c + 1) * mean a b c := by
  have h := monoInt_z (2 * a) (2 * b) (2 * c)
  push_cast at h
  unfold mean
  rw [show 2 * (c + 1) = 2 * c + 2 by ring]
  linear_combination h / (4 * Real.pi)

theorem close_spec {e p q num den : ℕ} (he : 0 < e) (hden : 0 < den) (h : close e p q num den = true) :
    |((p : ℝ) - q) / scale - num / den| ≤ 1 / e := by
  have hs : (0 : ℝ) < scale := by norm_num [scale]
  have he' : (0 : ℝ) < e := by exact_mod_cast he
  have hd' : (0 : ℝ) < den := by exact_mod_cast hden
  rw [close, Bool.and_eq_true, Nat.ble_eq, Nat.ble_eq] at h
  obtain ⟨h1, h2⟩ := h
  have h1' : (e : ℝ) * (p * den) ≤ e * (q * den + num * scale) + scale * den := by exact_mod_cast h1
  have h2' : (e : ℝ) * (q * den + num * scale) ≤ e * (p * den) + scale * den := by exact_mod_cast h2
  rw [div_sub_div _ _ hs.ne' hd'.ne', abs_le, ← neg_div, div_le_div_iff₀ he' (by positivity),
    div_le_div_iff₀ (by positivity) he']
  constructor <;> linarith

theorem loopA_spec (e b c gp gn fuel a num den : ℕ) (hden : 0 < den) (hnum : (num : ℝ) = den * mean a b c)
    (he : 0 < e) (h : loopA e b (b + c) gp gn fuel a num den = true) :
    ∀ i < fuel, b ≤ a + i → |((digit gp (a + i) : ℝ) - digit gn (a + i)) / scale - mean (a + i) b c| ≤ 1 / e := by
  induction fuel generalizing a num den with
  | zero => intro i hi; omega
  | succ fuel ih =>
    have e1 : loopA e b (b + c) gp gn (fuel + 1) a num den =
      and (or (Nat.blt a b) (close e (digit gp a) (digit gn a) num den))
        (force (Nat.succ a) fun a' => force (Nat.mul num (Nat.add (Nat.mul 2 a) 1)) fun num' =>
          force (Nat.mul den (Nat.add (Nat.mul 2 (Nat.add a (b + c))) 3)) fun den' =>
            loopA e b (b + c) gp gn fuel a' num' den') := rfl
    rw [e1] at h
    simp only [force_eq, Bool.and_eq_true, Bool.or_eq_true] at h
    obtain ⟨h1, h2⟩ := h
    intro i hi hb
    cases i with
    | zero =>
      rcases h1 with h1 | h1
      · have : a < b := by
          have : Nat.ble (a + 1) b = true := h1
          rw [Nat.ble_eq] at this; exact this
        omega
      · have := close_spec he hden h1
        rw [hnum] at this
        have hd' : (0 : ℝ) < den := by exact_mod_cast hden
        rwa [mul_div_cancel_left₀ _ hd'.ne'] at this
    | succ i =>
      have := ih (a + 1) (num * (2 * a + 1)) (den * (2 * (a + (b + c)) + 3)) (by positivity) ?_ h2 i (by omega) (by omega)
      · rw [show a + (i + 1) = a + 1 + i by ring]
        exact this
      · push_cast
        rw [hnum]
        linear_combination (-(den : ℝ)) * mean_x a b c

theorem loopB_spec (e n c : ℕ) (lp ln : List Packed) (fuel b num den : ℕ) (hden : 0 < den)
    (hnum : (num : ℝ) = den * mean 0 b c) (he : 0 < e) (h : loopB e n c lp ln fuel b num den = true) :
    ∀ i < fuel, c ≤ b + i → 2 * (b + i) + c ≤ n → ∀ a, b + i ≤ a → a + (b + i) + c ≤ n →
      |((digit (row (b + i) c lp) a : ℝ) - digit (row (b + i) c ln) a) / scale - mean a (b + i) c| ≤ 1 / e := by
  induction fuel generalizing b num den with
  | zero => intro i hi; omega
  | succ fuel ih =>
    have e1 : loopB e n c lp ln (fuel + 1) b num den =
      and (or (or (Nat.blt b c) (Nat.blt n (Nat.add (Nat.add b b) c)))
          (force (row b c lp) fun gp => force (row b c ln) fun gn =>
            loopA e b (Nat.add b c) gp gn (Nat.succ (Nat.sub n (Nat.add b c))) 0 num den))
        (force (Nat.succ b) fun b' => force (Nat.mul num (Nat.add (Nat.mul 2 b) 1)) fun num' =>
          force (Nat.mul den (Nat.add (Nat.mul 2 (Nat.add b c)) 3)) fun den' => loopB e n c lp ln fuel b' num' den') := rfl
    rw [e1] at h
    simp only [force_eq, Bool.and_eq_true, Bool.or_eq_true] at h
    obtain ⟨h1, h2⟩ := h
    intro i hi hb hn a ha hs
    cases i with
    | zero =>
      rcases h1 with (h1 | h1) | h1
      · have : b < c := by
          have : Nat.ble (b + 1) c = true := h1
          rw [Nat.ble_eq] at this; exact this
        omega
      · have : n < b + b + c := by
          have : Nat.ble (n + 1) (b + b + c) = true := h1
          rw [Nat.ble_eq] at this; exact this
        omega
      · have := loopA_spec e b c _ _ _ 0 num den hden hnum he h1 a (by
          show a < n - (b + c) + 1
          omega) (by omega)
        simpa using this
    | succ i =>
      have := ih (b + 1) (num * (2 * b + 1)) (den * (2 * (b + c) + 3)) (by positivity) ?_ h2 i (by omega) (by omega)
        (by omega) a (by omega) (by omega)
      · rw [show b + (i + 1) = b + 1 + i by ring]
        exact this
      · have := mean_y 0 b c
        push_cast at this ⊢
        rw [hnum]
        linear_combination (-(den : ℝ)) * this

theorem loopC_spec (e n : ℕ) (lp ln : List Packed) (fuel c num den : ℕ) (hden : 0 < den)
    (hnum : (num : ℝ) = den * mean 0 0 c) (he : 0 < e) (h : loopC e n lp ln fuel c num den = true) :
    ∀ i < fuel, ∀ b, c + i ≤ b → ∀ a, b ≤ a → a + b + (c + i) ≤ n →
      |((digit (row b (c + i) lp) a : ℝ) - digit (row b (c + i) ln) a) / scale - mean a b (c + i)| ≤ 1 / e := by
  induction fuel generalizing c num den with
  | zero => intro i hi; omega
  | succ fuel ih =>
    have e1 : loopC e n lp ln (fuel + 1) c num den =
      and (loopB e n c lp ln (Nat.succ (Nat.sub n c)) 0 num den)
        (force (Nat.succ c) fun c' => force (Nat.mul num (Nat.add (Nat.mul 2 c) 1)) fun num' =>
          force (Nat.mul den (Nat.add (Nat.mul 2 c) 3)) fun den' => loopC e n lp ln fuel c' num' den') := rfl
    rw [e1] at h
    simp only [force_eq, Bool.and_eq_true] at h
    obtain ⟨h1, h2⟩ := h
    intro i hi b hb a ha hs
    cases i with
    | zero =>
      have := loopB_spec e n c lp ln _ 0 num den hden hnum he h1 b (by
        show b < n - c + 1
        omega) (by omega) (by omega) a (by omega) (by omega)
      simpa using this
    | succ i =>
      have := ih (c + 1) (num * (2 * c + 1)) (den * (2 * c + 3)) (by positivity) ?_ h2 i (by omega) b (by omega) a
        (by omega) (by omega)
      · rw [show c + (i + 1) = c + 1 + i by ring]
        exact this
      · have := mean_z 0 0 c
        push_cast at this ⊢
        rw [hnum]
        linear_combination (-(den : ℝ)) * this

/-- What the check says about the moments with sorted exponents. -/
theorem check_sorted {e n : ℕ} {R : QuadratureRule} (he : 0 < e) (h : check e n R = true) {a b c : ℕ} (hab : b ≤ a)
    (hbc : c ≤ b) (hn : a + b + c ≤ n) :
    |(mom R.pos a b c - mom R.neg a b c) / (6 * 2 ^ 70) - mean a b c| ≤ 1 / (e : ℝ) + 6 / 2 ^ 64 := by
  rw [check, Bool.and_eq_true, Bool.and_eq_true, Bool.and_eq_true, small_iff, small_iff, Nat.ble_eq, packAll_eq,
    packAll_eq, List.append_nil, List.append_nil] at h
  obtain ⟨⟨hp, hq⟩, hw, hl⟩ := h
  have hw' : weight R.pos + weight R.neg ≤ 2 ^ 71 := hw
  have h1 := loopC_spec e n _ _ _ 0 1 1 one_pos (by simp [mean_zero]) he hl c (by
    show c < n / 3 + 1
    omega) b (by omega) a hab (by omega)
  rw [zero_add, digit_row n b c a (by omega) R.pos hp (by omega), digit_row n b c a (by omega) R.neg hq (by omega)] at h1
  obtain ⟨h2, h3⟩ := momN_bounds R.pos hp a b c
  obtain ⟨h4, h5⟩ := momN_bounds R.neg hq a b c
  have hw2 : (weight R.pos : ℝ) + weight R.neg ≤ 2 ^ 71 := by exact_mod_cast hw'
  have hwp : (0 : ℝ) ≤ weight R.pos := by positivity
  have hwn : (0 : ℝ) ≤ weight R.neg := by positivity
  have h6 : |(mom R.pos a b c - mom R.neg a b c) / (6 * 2 ^ 70) - ((momN R.pos a b c : ℝ) - momN R.neg a b c) / scale| ≤
      6 / 2 ^ 64 := by
    have hs : ((scale : ℕ) : ℝ) = (6 * 2 ^ 70) * (2 ^ 64) ^ 3 := by
      norm_num [scale]
    rw [hs, ← mul_div_mul_right (mom R.pos a b c - mom R.neg a b c) (6 * 2 ^ 70 : ℝ)
      (show ((2 : ℝ) ^ 64) ^ 3 ≠ 0 by positivity), ← sub_div, abs_div, abs_of_pos (a := (6 * 2 ^ 70) * ((2 : ℝ) ^ 64) ^ 3) (by positivity),
      div_le_iff₀ (by positivity), abs_le]
    have hc : (6 : ℝ) / 2 ^ 64 * ((6 * 2 ^ 70) * (2 ^ 64) ^ 3) = 18 * (2 ^ 64) ^ 2 * 2 ^ 71 := by norm_num
    rw [hc]
    have h7 : (18 : ℝ) * (2 ^ 64) ^ 2 * (weight R.pos + weight R.neg) ≤ 18 * (2 ^ 64) ^ 2 * 2 ^ 71 :=
      mul_le_mul_of_nonneg_left hw2 (by positivity)
    have h8 : (0 : ℝ) ≤ 18 * (2 ^ 64) ^ 2 * weight R.pos := by positivity
    have h9 : (0 : ℝ) ≤ 18 * (2 ^ 64) ^ 2 * weight R.neg := by positivity
    constructor <;> linarith
  calc _ ≤ |(mom R.pos a b c - mom R.neg a b c) / (6 * 2 ^ 70) - ((momN R.pos a b c : ℝ) - momN R.neg a b c) / scale| +
        |((momN R.pos a b c : ℝ) - momN R.neg a b c) / scale - mean a b c| := abs_sub_le _ _ _
    _ ≤ _ := by linarith

end

end QuadratureCheck

end E3x
