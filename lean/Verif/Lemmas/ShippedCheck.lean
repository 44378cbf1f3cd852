import Verif.Lemmas.HarmonicCoeff
import Verif.Model.ShippedHarmonics
import Verif.Props.Common
import Mathlib.Tactic.FinCases
import Mathlib.Tactic.IntervalCases
import Mathlib.Analysis.SpecialFunctions.Sqrt

/-!
# Checking the shipped coefficients of the spherical harmonics

The exact coefficients are `√R · z / 2ˡ` for a fraction `R` and an integer `z`, so that comparing them with a float64
number is a comparison of integers.
-/

namespace E3x.Coefficients

open MvPolynomial Finset

/-! ## The coefficients as numbers -/

/-- `cos(e π / 2)` -/
def cosQuarter (e : ℕ) : ℤ := if e % 4 = 0 then 1 else if e % 4 = 2 then -1 else 0

/-- `sin(e π / 2)` -/
def sinQuarter (e : ℕ) : ℤ := if e % 4 = 1 then 1 else if e % 4 = 3 then -1 else 0

theorem cos_quarter (e : ℕ) : Real.cos ((e : ℝ) * Real.pi / 2) = cosQuarter e := by
  have h : ((e : ℝ) * Real.pi / 2) = ((e % 4 : ℕ) : ℝ) * Real.pi / 2 + (e / 4 : ℕ) * (2 * Real.pi) := by
    have : (e : ℝ) = ((e % 4 : ℕ) : ℝ) + 4 * (e / 4 : ℕ) := by exact_mod_cast (Nat.mod_add_div e 4).symm
    generalize e % 4 = r at this ⊢
    generalize e / 4 = t at this ⊢
    rw [this]
    ring
  rw [h, Real.cos_add_nat_mul_two_pi]
  unfold cosQuarter
  have hlt : e % 4 < 4 := Nat.mod_lt _ (by norm_num)
  generalize e % 4 = r at hlt ⊢
  interval_cases r
  · simp
  · simp
  · simp [mul_div_assoc]
  · have : ((3 : ℕ) : ℝ) * Real.pi / 2 = Real.pi / 2 + Real.pi := by push_cast; ring
    rw [this, Real.cos_add_pi]
    simp

theorem sin_quarter (e : ℕ) : Real.sin ((e : ℝ) * Real.pi / 2) = sinQuarter e := by
  have h : ((e : ℝ) * Real.pi / 2) = ((e % 4 : ℕ) : ℝ) * Real.pi / 2 + (e / 4 : ℕ) * (2 * Real.pi) := by
    have : (e : ℝ) = ((e % 4 : ℕ) : ℝ) + 4 * (e / 4 : ℕ) := by exact_mod_cast (Nat.mod_add_div e 4).symm
    generalize e % 4 = r at this ⊢
    generalize e / 4 = t at this ⊢
    rw [this]
    ring
  rw [h, Real.sin_add_nat_mul_two_pi]
  unfold sinQuarter
  have hlt : e % 4 < 4 := Nat.mod_lt _ (by norm_num)
  generalize e % 4 = r at hlt ⊢
  interval_cases r
  · simp
  · simp
  · simp [mul_div_assoc]
  · have : ((3 : ℕ) : ℝ) * Real.pi / 2 = Real.pi / 2 + Real.pi := by push_cast; ring
    rw [this, Real.sin_add_pi]
    simp

/-- The integer in the coefficient of `xᵃ yᵇ z^(l-a-b)` in the harmonic of degree `l` and order `m`. -/
def harmonicInt (l : ℕ) (m : ℤ) (a b : ℕ) : ℤ :=
  piCoeff l m.natAbs ((a + b - m.natAbs) / 2) *
    trigCoeff (if 0 ≤ m then cosQuarter else sinQuarter) m.natAbs a b ((a + b - m.natAbs) / 2)

theorem coeff_harmonic {l a b c : ℕ} {m : ℤ} (hm : |m| ≤ l) (h : a + b + c = l) :
    coeff (expo a b c) (symSphericalHarmonics l m) =
      Real.sqrt ((if m = 0 then 1 else 2) * ((l - m.natAbs).factorial / (l + m.natAbs).factorial)) *
        (harmonicInt l m a b / 2 ^ l) := by
  have hm' : m.natAbs ≤ l := by
    rw [Int.abs_eq_natAbs] at hm
    exact_mod_cast hm
  unfold harmonicInt symSphericalHarmonics
  rcases lt_trichotomy m 0 with h0 | h0 | h0
  · have e : (-m).toNat = m.natAbs := by omega
    rw [if_neg (by omega), if_pos h0, if_neg (by omega), if_neg (by omega), e, mul_assoc, coeff_C_mul,
      Real.sqrt_mul (by norm_num), mul_assoc]
    congr 1
    exact coeff_product hm' h sinQuarter (fun e => Real.sin ((e : ℝ) * Real.pi / 2)) sin_quarter
  · subst h0
    rw [if_neg (by omega), if_neg (by omega), if_pos rfl, if_pos le_rfl, one_mul]
    have := coeff_product (Nat.zero_le l) h cosQuarter (fun e => Real.cos ((e : ℝ) * Real.pi / 2)) cos_quarter
    simp only [zero_add, range_one, sum_singleton, Nat.choose_self, Nat.cast_one, one_mul, Nat.sub_self,
      Nat.cast_zero, zero_mul, zero_div, Real.cos_zero, map_one, pow_zero, mul_one] at this
    exact this
  · have e : m.toNat = m.natAbs := by omega
    rw [if_pos h0, if_neg (by omega), if_pos (by omega), e, mul_assoc, coeff_C_mul,
      Real.sqrt_mul (by norm_num), mul_assoc]
    congr 1
    exact coeff_product hm' h cosQuarter (fun e => Real.cos ((e : ℝ) * Real.pi / 2)) cos_quarter

/-! ## Evaluating them with natural numbers -/

/-- falling factorials, by the recursor -/
def fdesc (n k : ℕ) : ℕ := Nat.rec 1 (fun j ih => Nat.mul (Nat.sub n j) ih) k

theorem fdesc_eq (n k : ℕ) : fdesc n k = n.descFactorial k := by
  induction k with
  | zero => rfl
  | succ k ih => rw [Nat.descFactorial_succ, ← ih]; rfl

/-- binomial coefficients -/
def fchoose (n k : ℕ) : ℕ := Nat.div (fdesc n k) (fdesc k k)

theorem fchoose_eq (n k : ℕ) : fchoose n k = n.choose k := by
  rw [Nat.choose_eq_descFactorial_div_factorial, ← Nat.descFactorial_self, ← fdesc_eq, ← fdesc_eq]
  rfl

/-- sums over `range n`, by the recursor -/
def fsum (f : ℕ → ℕ) (n : ℕ) : ℕ := Nat.rec 0 (fun k ih => Nat.add ih (f k)) n

theorem fsum_eq (f : ℕ → ℕ) (n : ℕ) : fsum f n = ∑ k ∈ range n, f k := by
  induction n with
  | zero => rfl
  | succ n ih => rw [sum_range_succ, ← ih]; rfl

/-- the terms of `piCoeff` with `k % 2 = r` -/
def fpi (l m s r : ℕ) : ℕ := fsum (fun k => bif Nat.beq (Nat.mod k 2) r then
  Nat.mul (Nat.mul (Nat.mul (fchoose l k) (fchoose (2 * l - 2 * k) l)) (fdesc (l - 2 * k) m)) (fchoose k s) else 0)
  ((l - m) / 2 + 1)

theorem fpi_eq (l m s : ℕ) : piCoeff l m s = (fpi l m s 0 : ℤ) - fpi l m s 1 := by
  unfold piCoeff fpi
  rw [fsum_eq, fsum_eq]
  push_cast
  rw [← sum_sub_distrib]
  refine sum_congr rfl fun k _ => ?_
  simp only [fchoose_eq, fdesc_eq]
  rcases Nat.mod_two_eq_zero_or_one k with h | h
  · have : Nat.mod k 2 = 0 := h
    rw [(Nat.even_iff.2 h).neg_one_pow, this]
    simp
  · have : Nat.mod k 2 = 1 := h
    rw [(Nat.odd_iff.2 h).neg_one_pow, this]
    simp

/-- the terms of `trigCoeff` with `(m - p) % 4 = r` -/
def ftrig (m a b s r : ℕ) : ℕ := fsum (fun p =>
  bif Nat.beq (Nat.mod (m - p) 4) r && (Nat.ble p a && (Nat.ble (m - p) b &&
    (Nat.beq (Nat.mod (a - p) 2) 0 && Nat.beq (Nat.mod (b - (m - p)) 2) 0))) then
    Nat.mul (fchoose m p) (fchoose s ((a - p) / 2)) else 0) (m + 1)

theorem ftrig_eq (t : ℕ → ℤ) (q : ℕ) (hq : q < 2)
    (ht : ∀ e, t e = if e % 4 = q then 1 else if e % 4 = q + 2 then -1 else 0) (m a b s : ℕ) :
    trigCoeff t m a b s = (ftrig m a b s q : ℤ) - ftrig m a b s (q + 2) := by
  unfold trigCoeff ftrig
  rw [fsum_eq, fsum_eq]
  push_cast
  rw [← sum_sub_distrib]
  refine sum_congr rfl fun p _ => ?_
  rw [ht]
  simp only [fchoose_eq]
  have e1 : ∀ r, (Nat.beq (Nat.mod (m - p) 4) r && (Nat.ble p a && (Nat.ble (m - p) b &&
    (Nat.beq (Nat.mod (a - p) 2) 0 && Nat.beq (Nat.mod (b - (m - p)) 2) 0)))) =
      decide ((m - p) % 4 = r ∧ p ≤ a ∧ m - p ≤ b ∧ (a - p) % 2 = 0 ∧ (b - (m - p)) % 2 = 0) := by
    intro r
    rw [Bool.eq_iff_iff]
    simp only [Bool.and_eq_true, Nat.beq_eq, Nat.ble_eq, decide_eq_true_eq]
    rfl
  rw [e1, e1]
  by_cases hc : p ≤ a ∧ m - p ≤ b ∧ (a - p) % 2 = 0 ∧ (b - (m - p)) % 2 = 0
  · rw [if_pos hc]
    by_cases h1 : (m - p) % 4 = q
    · have h2 : ¬ (m - p) % 4 = q + 2 := by omega
      simp [h1, h2, hc]
    · by_cases h2 : (m - p) % 4 = q + 2
      · simp [h1, h2, hc]
      · simp [h1, h2]
  · rw [if_neg hc, decide_eq_false (fun h => hc h.2), decide_eq_false (fun h => hc h.2)]
    simp

/-! ## Comparing a number with a coefficient -/

/-- evaluate the argument first -/
def force (n : ℕ) (f : ℕ → Bool) : Bool := Nat.rec (motive := fun _ => (ℕ → Bool) → Bool) (fun f => f 0) (fun k _ f => f (k + 1)) n f

theorem force_eq (n : ℕ) (f : ℕ → Bool) : force n f = f n := by
  cases n <;> rfl

/-- `(K - 1)² num z² 4ᴱ ≤ den M² 4ˡ K² ≤ (K + 1)² num z² 4ᴱ` -/
def fclose (K num den l z M E : ℕ) : Bool :=
  force (Nat.mul (Nat.mul num (Nat.mul z z)) (Nat.pow 4 E)) fun x =>
  force (Nat.mul (Nat.mul den (Nat.mul M M)) (Nat.mul (Nat.pow 4 l) (Nat.mul K K))) fun y =>
    Nat.ble (Nat.mul (Nat.mul (Nat.sub K 1) (Nat.sub K 1)) x) y &&
      Nat.ble y (Nat.mul (Nat.mul (Nat.add K 1) (Nat.add K 1)) x)

theorem fclose_sound {K num den l z M E : ℕ} (hK : 0 < K) (hden : 0 < den) (h : fclose K num den l z M E = true) :
    |(M : ℝ) / 2 ^ E - Real.sqrt (num / den) * (z / 2 ^ l)| ≤ (K : ℝ)⁻¹ * (Real.sqrt (num / den) * (z / 2 ^ l)) := by
  unfold fclose at h
  rw [force_eq, force_eq, Bool.and_eq_true, Nat.ble_eq, Nat.ble_eq] at h
  obtain ⟨h1, h2⟩ := h
  have hK' : (0 : ℝ) < K := by exact_mod_cast hK
  have hK1 : ((K - 1 : ℕ) : ℝ) = K - 1 := by rw [Nat.cast_sub hK]; simp
  have h1' : ((K - 1) * (K - 1) * (num * (z * z) * 4 ^ E) : ℝ) ≤ den * (M * M) * (4 ^ l * (K * K)) := by
    have : (K - 1) * (K - 1) * (num * (z * z) * 4 ^ E) ≤ den * (M * M) * (4 ^ l * (K * K)) := h1
    have := (Nat.cast_le (α := ℝ)).2 this
    push_cast [hK1] at this
    exact this
  have h2' : (den * (M * M) * (4 ^ l * (K * K)) : ℝ) ≤ (K + 1) * (K + 1) * (num * (z * z) * 4 ^ E) := by
    have : den * (M * M) * (4 ^ l * (K * K)) ≤ (K + 1) * (K + 1) * (num * (z * z) * 4 ^ E) := h2
    exact_mod_cast this
  clear h1 h2
  set Y := Real.sqrt (num / den) * (z / 2 ^ l) with hY
  have hY0 : 0 ≤ Y := by positivity
  have hden' : (0 : ℝ) < den := by exact_mod_cast hden
  have hYY : Y ^ 2 = num / den * (z ^ 2 / 4 ^ l) := by
    rw [hY, mul_pow, Real.sq_sqrt (by positivity), div_pow, ← pow_mul, mul_comm l 2, pow_mul]
    norm_num
  have hX0 : (0 : ℝ) ≤ (M : ℝ) / 2 ^ E := by positivity
  have hXX : ((M : ℝ) / 2 ^ E) ^ 2 = M ^ 2 / 4 ^ E := by
    rw [div_pow, ← pow_mul, mul_comm E 2, pow_mul]
    norm_num
  have k1 : ((1 - (K : ℝ)⁻¹) * Y) ^ 2 ≤ ((M : ℝ) / 2 ^ E) ^ 2 := by
    rw [mul_pow, hYY, hXX, show (1 - (K : ℝ)⁻¹) = (K - 1) / K by field_simp, div_pow,
      div_mul_div_comm, div_mul_div_comm, div_le_div_iff₀ (by positivity) (by positivity)]
    linarith
  have k2 : ((M : ℝ) / 2 ^ E) ^ 2 ≤ ((1 + (K : ℝ)⁻¹) * Y) ^ 2 := by
    rw [mul_pow, hYY, hXX, show (1 + (K : ℝ)⁻¹) = (K + 1) / K by field_simp, div_pow,
      div_mul_div_comm, div_mul_div_comm, div_le_div_iff₀ (by positivity) (by positivity)]
    linarith
  have j1 := abs_le_of_sq_le_sq' k1 hX0
  have j2 := abs_le_of_sq_le_sq' k2 (by positivity)
  rw [abs_le]
  constructor <;> linarith [j1.2, j2.2]

/-- the sign bit of an entry agrees with the sign of the product of two differences -/
def fsign (neg : Bool) (M p0 p1 t0 t1 : ℕ) : Bool :=
  Nat.beq M 0 || (neg == xor (Nat.blt p0 p1) (Nat.blt t0 t1))

/-- the absolute value of a difference -/
def fdist (x y : ℕ) : ℕ := Nat.add (Nat.sub x y) (Nat.sub y x)

theorem fdist_cast (x y : ℕ) : (fdist x y : ℝ) = |(x : ℝ) - y| := by
  have : fdist x y = (x - y) + (y - x) := rfl
  rw [this]
  rcases le_total x y with h | h
  · rw [Nat.sub_eq_zero_of_le h, zero_add, Nat.cast_sub h, abs_sub_comm, abs_of_nonneg]
    have : (x : ℝ) ≤ y := by exact_mod_cast h
    linarith
  · rw [Nat.sub_eq_zero_of_le h, add_zero, Nat.cast_sub h, abs_of_nonneg]
    have : (y : ℝ) ≤ x := by exact_mod_cast h
    linarith

/-- Compares an entry with the coefficient of `xᵃ yᵇ z^(l-a-b)` in the harmonic of degree `l`, with the absolute value
`m` of the order, and `q = 0` for cosines, `q = 1` for sines. -/
def fentry (l m q a b : ℕ) (neg : Bool) (M E : ℕ) : Bool :=
  force (Nat.div (Nat.sub (Nat.add a b) m) 2) fun s =>
  force (fpi l m s 0) fun p0 => force (fpi l m s 1) fun p1 =>
  force (ftrig m a b s q) fun t0 => force (ftrig m a b s (q + 2)) fun t1 =>
    fsign neg M p0 p1 t0 t1 &&
      fclose 4503599627370496 (bif Nat.beq m 0 then fdesc (l - m) (l - m) else Nat.mul 2 (fdesc (l - m) (l - m)))
        (fdesc (l + m) (l + m)) l (Nat.mul (fdist p0 p1) (fdist t0 t1)) M E

theorem sign_close {x y p t : ℝ} {X ε Z s : ℝ} (hs : 0 ≤ s) (hZ : Z = |p| * |t|) (hx : |x| = X)
    (hy : y = s * (p * t)) (hε : ε < 1) (h : |X - s * Z| ≤ ε * (s * Z))
    (hsign : X = 0 ∨ 0 ≤ x * (p * t)) : |x - y| ≤ ε * |y| := by
  have hyabs : |y| = s * Z := by rw [hy, abs_mul, abs_mul, abs_of_nonneg hs, hZ]
  have hsZ : 0 ≤ s * Z := by rw [← hyabs]; exact abs_nonneg y
  rw [hyabs]
  rcases hsign with h0 | h0
  · rw [h0, zero_sub, abs_neg, abs_of_nonneg hsZ] at h
    have hz : s * Z = 0 := by nlinarith
    have hx0 : x = 0 := abs_eq_zero.1 (hx.trans h0)
    have hy0 : y = 0 := abs_eq_zero.1 (hyabs.trans hz)
    rw [hx0, hy0, hz]
    simp
  · have hxy : 0 ≤ x * y := by
      rw [hy]
      have : x * (s * (p * t)) = s * (x * (p * t)) := by ring
      rw [this]
      exact mul_nonneg hs h0
    have : |x - y| = |(|x| - |y|)| := by
      rcases le_total 0 x with a | a
      · rcases le_total 0 y with b | b
        · rw [abs_of_nonneg a, abs_of_nonneg b]
        · rcases eq_or_lt_of_le a with c | c
          · rw [← c]; simp
          · have : y = 0 := le_antisymm b (by by_contra hc; nlinarith [not_le.1 hc])
            rw [this]; simp
      · rcases le_total 0 y with b | b
        · rcases eq_or_lt_of_le b with c | c
          · rw [← c]; simp
          · have : x = 0 := le_antisymm a (by by_contra hc; nlinarith [not_le.1 hc])
            rw [this]; simp
        · rw [abs_of_nonpos a, abs_of_nonpos b, ← abs_neg]
          congr 1
          ring
    rw [this, hx, hyabs]
    exact h

theorem fentry_sound {l a b c : ℕ} {m : ℤ} (hm : |m| ≤ l) (h : a + b + c = l) (j : ℕ) {neg : Bool} {M E : ℕ}
    (hc : fentry l m.natAbs (if 0 ≤ m then 0 else 1) a b neg M E = true) :
    |(ShippedEntry.mk j neg M E).value - coeff (expo a b c) (symSphericalHarmonics l m)| ≤
      2⁻¹ ^ 52 * |coeff (expo a b c) (symSphericalHarmonics l m)| := by
  unfold fentry at hc
  simp only [force_eq, Bool.and_eq_true] at hc
  obtain ⟨h1, h2⟩ := hc
  set s := Nat.div (Nat.sub (Nat.add a b) m.natAbs) 2 with hs
  have hs' : (a + b - m.natAbs) / 2 = s := rfl
  set q : ℕ := if 0 ≤ m then 0 else 1 with hq
  have hpi := fpi_eq l m.natAbs s
  have htrig : trigCoeff (if 0 ≤ m then cosQuarter else sinQuarter) m.natAbs a b s =
      (ftrig m.natAbs a b s q : ℤ) - ftrig m.natAbs a b s (q + 2) := by
    apply ftrig_eq
    · rw [hq]; split_ifs <;> norm_num
    · intro e
      rw [hq]
      split_ifs with h0
      all_goals simp_all [cosQuarter, sinQuarter]
  generalize fpi l m.natAbs s 0 = p0 at h1 h2 hpi
  generalize fpi l m.natAbs s 1 = p1 at h1 h2 hpi
  generalize ftrig m.natAbs a b s q = t0 at h1 h2 htrig
  generalize ftrig m.natAbs a b s (q + 2) = t1 at h1 h2 htrig
  have hR : (((bif Nat.beq m.natAbs 0 then fdesc (l - m.natAbs) (l - m.natAbs) else
      Nat.mul 2 (fdesc (l - m.natAbs) (l - m.natAbs)) : ℕ) : ℝ) / ((fdesc (l + m.natAbs) (l + m.natAbs) : ℕ) : ℝ)) =
      (if m = 0 then 1 else 2) * ((l - m.natAbs).factorial / (l + m.natAbs).factorial) := by
    rw [fdesc_eq, fdesc_eq, Nat.descFactorial_self, Nat.descFactorial_self]
    by_cases h0 : m = 0
    · subst h0
      simp
    · have : Nat.beq m.natAbs 0 = false := by
        rw [← Bool.not_eq_true, Nat.beq_eq]
        simpa using h0
      rw [this, cond_false, if_neg h0, mul_div_assoc']
      congr 1
      have : Nat.mul 2 (l - m.natAbs).factorial = 2 * (l - m.natAbs).factorial := rfl
      rw [this]
      push_cast
      ring
  have hcl := fclose_sound (by norm_num) (by rw [fdesc_eq, Nat.descFactorial_self]; exact Nat.factorial_pos _) h2
  rw [hR, show (((4503599627370496 : ℕ) : ℝ)⁻¹) = 2⁻¹ ^ 52 by norm_num] at hcl
  have hz : (harmonicInt l m a b : ℝ) = ((p0 : ℝ) - p1) * ((t0 : ℝ) - t1) := by
    unfold harmonicInt
    rw [hs', hpi, htrig]
    push_cast
    ring
  rw [coeff_harmonic hm h, hz]
  set R := Real.sqrt ((if m = 0 then 1 else 2) * ((l - m.natAbs).factorial / (l + m.natAbs).factorial)) with hRdef
  have hR0 : 0 ≤ R := Real.sqrt_nonneg _
  refine sign_close (s := R / 2 ^ l) (X := M / 2 ^ E) (Z := |(p0 : ℝ) - p1| * |(t0 : ℝ) - t1|) (p := (p0 : ℝ) - p1)
    (t := (t0 : ℝ) - t1) (by positivity) rfl ?_ (by ring) (by norm_num) ?_ ?_
  · unfold ShippedEntry.value
    dsimp only
    rw [abs_div, abs_mul, abs_of_nonneg (by positivity : (0 : ℝ) ≤ M), abs_of_nonneg (by positivity : (0 : ℝ) ≤ 2 ^ E)]
    cases neg <;> simp
  · have e : ((Nat.mul (fdist p0 p1) (fdist t0 t1) : ℕ) : ℝ) = |(p0 : ℝ) - p1| * |(t0 : ℝ) - t1| := by
      have : Nat.mul (fdist p0 p1) (fdist t0 t1) = fdist p0 p1 * fdist t0 t1 := rfl
      rw [this, Nat.cast_mul, fdist_cast, fdist_cast]
    rw [e] at hcl
    have e2 : R / 2 ^ l * (|(p0 : ℝ) - p1| * |(t0 : ℝ) - t1|) = R * (|(p0 : ℝ) - p1| * |(t0 : ℝ) - t1| / 2 ^ l) := by
      ring
    rw [e2]
    exact hcl
  · unfold fsign at h1
    rw [Bool.or_eq_true, Nat.beq_eq, beq_iff_eq] at h1
    rcases h1 with h1 | h1
    · left
      rw [h1]
      simp
    · right
      have hlt : ∀ x y : ℕ, (Nat.blt x y = true → (x : ℝ) - y ≤ 0) ∧ (Nat.blt x y = false → 0 ≤ (x : ℝ) - y) := by
        intro x y
        constructor
        · intro h
          have : x < y := by simpa [Nat.blt_eq] using h
          have : (x : ℝ) < y := by exact_mod_cast this
          linarith
        · intro h
          have : ¬ x < y := by
            intro h'
            rw [show Nat.blt x y = true by rw [Nat.blt_eq]; exact h'] at h
            exact absurd h (by decide)
          have : (y : ℝ) ≤ x := by exact_mod_cast not_lt.1 this
          linarith
      have hM : 0 ≤ (M : ℝ) / 2 ^ E := by positivity
      have hv : (ShippedEntry.mk j neg M E).value = (if neg then -1 else 1) * ((M : ℝ) / 2 ^ E) := by
        unfold ShippedEntry.value
        dsimp only
        rw [mul_div_assoc]
      rw [hv, mul_comm _ ((M : ℝ) / 2 ^ E), mul_assoc]
      refine mul_nonneg hM ?_
      have hp := hlt p0 p1
      have ht := hlt t0 t1
      rw [h1]
      cases hp' : Nat.blt p0 p1 <;> cases ht' : Nat.blt t0 t1 <;> simp only [hp', ht', Bool.xor_true, Bool.xor_false,
        Bool.not_true, Bool.not_false, if_true, if_false, reduceCtorEq, false_implies, true_implies, forall_const,
        and_true, true_and] at hp ht ⊢
      · nlinarith
      · nlinarith
      · nlinarith
      · nlinarith

end E3x.Coefficients
