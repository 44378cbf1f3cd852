import Verif.Lemmas.WignerD

/-!
# Clebsch-Gordan coefficients on the null cone
-/

namespace E3x

noncomputable section

open Finset MvPolynomial
open scoped Nat

/-- factorial of an integer -/
def ifac (n : ℤ) : ℝ := (n.toNat ! : ℝ)

theorem ifac_pos (n : ℤ) : 0 < ifac n := by unfold ifac; positivity

/-- one term of Racah's sum -/
def cgTerm (l1 l2 l3 : ℕ) (k1 k2 i : ℤ) : ℝ :=
  (-1) ^ i / (ifac i * ifac (i + l3 - l1 - k2) * ifac (l2 + k2 - i) * ifac (l1 - i - k1) * ifac (i + l3 - l2 + k1) *
    ifac (l1 + l2 - l3 - i))

def cgLo (l1 l2 l3 : ℕ) (k1 k2 : ℤ) : ℤ := max (max (-l3 + l1 + k2) (-l3 + l2 - k1)) 0

def cgHi (l1 l2 l3 : ℕ) (k1 k2 : ℤ) : ℤ := min (min (l2 + k2) (l1 - k1)) (l1 + l2 - l3)

/-- the triangle rule, with half-sums as natural numbers -/
structure Tri (l1 l2 l3 a b c : ℕ) : Prop where
  h1 : a + b = 2 * l1
  h2 : a + c = 2 * l2
  h3 : b + c = 2 * l3

/-- the factor of a Clebsch-Gordan coefficient that depends only on the degrees -/
def cgNorm (l1 l2 l3 a b c : ℕ) : ℝ := Real.sqrt (2 * l3 + 1) * Real.sqrt (a ! * b ! * c ! / (l1 + l2 + l3 + 1)!)

theorem zpow_neg_one_mul_self (n : ℤ) : ((-1 : ℝ) ^ n) * (-1) ^ n = 1 := by
  rw [← mul_zpow]; simp

theorem sqrtFac_eq (l : ℕ) (k : ℤ) (hk : |k| ≤ l) : sqrtFac l k.natAbs = Real.sqrt (ifac (l - k) * ifac (l + k)) := by
  unfold sqrtFac ifac
  have hl := natAbs_le_of_abs hk
  rcases le_total 0 k with h | h
  · rw [show ((l : ℤ) - k).toNat = l - k.natAbs by omega, show ((l : ℤ) + k).toNat = l + k.natAbs by omega]
  · rw [show ((l : ℤ) - k).toNat = l + k.natAbs by omega, show ((l : ℤ) + k).toNat = l - k.natAbs by omega, mul_comm]

theorem complexCG_eq (l1 l2 l3 a b c : ℕ) (h : Tri l1 l2 l3 a b c) (k1 k2 k3 : ℤ) (h1 : |k1| ≤ l1) (h2 : |k2| ≤ l2)
    (h3 : |k3| ≤ l3) (hk : k3 = k1 + k2) :
    complexCG l1 l2 l3 k1 k2 k3 = cgNorm l1 l2 l3 a b c *
      (sqrtFac l1 k1.natAbs * sqrtFac l2 k2.natAbs * sqrtFac l3 k3.natAbs) *
      ∑ i ∈ Icc (cgLo l1 l2 l3 k1 k2) (cgHi l1 l2 l3 k1 k2), cgTerm l1 l2 l3 k1 k2 i := by
  obtain ⟨e1, e2, e3⟩ := h
  unfold complexCG wigner3j
  rw [if_neg (by omega), if_neg (by omega), if_neg (by omega), if_neg (by omega),
    if_neg (by rw [abs_neg]; omega)]
  dsimp only
  rw [neg_neg, show (l1 : ℤ) - l2 - -k3 = l1 - l2 + k3 by ring]
  have hsq : Real.sqrt (ifac (l1 + l2 - l3) * ifac (l1 - l2 + l3) * ifac (-l1 + l2 + l3) * ifac (l1 - k1) *
      ifac (l1 + k1) * ifac (l2 - k2) * ifac (l2 + k2) * ifac (l3 - k3) * ifac (l3 + k3) / ifac (l1 + l2 + l3 + 1)) =
      Real.sqrt (a ! * b ! * c ! / (l1 + l2 + l3 + 1)!) *
        (sqrtFac l1 k1.natAbs * sqrtFac l2 k2.natAbs * sqrtFac l3 k3.natAbs) := by
    rw [sqrtFac_eq l1 k1 h1, sqrtFac_eq l2 k2 h2, sqrtFac_eq l3 k3 h3]
    have p := ifac_pos
    rw [← Real.sqrt_mul (by have := p (l1 - k1); have := p (l1 + k1); positivity),
      ← Real.sqrt_mul (by
        have := p (l1 - k1); have := p (l1 + k1); have := p (l2 - k2); have := p (l2 + k2); positivity),
      ← Real.sqrt_mul (by positivity)]
    congr 1
    have ea : ifac ((l1 : ℤ) + l2 - l3) = (a ! : ℝ) := by
      unfold ifac; rw [show ((l1 : ℤ) + l2 - l3).toNat = a by omega]
    have eb : ifac ((l1 : ℤ) - l2 + l3) = (b ! : ℝ) := by
      unfold ifac; rw [show ((l1 : ℤ) - l2 + l3).toNat = b by omega]
    have ec : ifac (-(l1 : ℤ) + l2 + l3) = (c ! : ℝ) := by
      unfold ifac; rw [show (-(l1 : ℤ) + l2 + l3).toNat = c by omega]
    have eJ : ifac ((l1 : ℤ) + l2 + l3 + 1) = ((l1 + l2 + l3 + 1)! : ℝ) := by
      unfold ifac; rw [show ((l1 : ℤ) + l2 + l3 + 1).toNat = l1 + l2 + l3 + 1 by omega]
    rw [ea, eb, ec, eJ]
    ring
  change (-1 : ℝ) ^ _ * _ * (Real.sqrt (ifac (l1 + l2 - l3) * ifac (l1 - l2 + l3) * ifac (-l1 + l2 + l3) * ifac (l1 - k1) *
      ifac (l1 + k1) * ifac (l2 - k2) * ifac (l2 + k2) * ifac (l3 - k3) * ifac (l3 + k3) / ifac (l1 + l2 + l3 + 1)) *
      (∑ i ∈ Icc (cgLo l1 l2 l3 k1 k2) (cgHi l1 l2 l3 k1 k2), cgTerm l1 l2 l3 k1 k2 i) * (-1) ^ _) = _
  rw [hsq, cgNorm]
  linear_combination (Real.sqrt (2 * l3 + 1) * (Real.sqrt (a ! * b ! * c ! / (l1 + l2 + l3 + 1)!) *
        (sqrtFac l1 k1.natAbs * sqrtFac l2 k2.natAbs * sqrtFac l3 k3.natAbs)) *
        ∑ i ∈ Icc (cgLo l1 l2 l3 k1 k2) (cgHi l1 l2 l3 k1 k2), cgTerm l1 l2 l3 k1 k2 i) *
    zpow_neg_one_mul_self ((l1 : ℤ) - l2 + k3)

theorem complexCG_of_ne (l1 l2 l3 : ℕ) (k1 k2 k3 : ℤ) (hk : k3 ≠ k1 + k2) : complexCG l1 l2 l3 k1 k2 k3 = 0 := by
  unfold complexCG wigner3j
  rw [if_pos (by omega), mul_zero]

theorem complexCG_of_not_tri (l1 l2 l3 : ℕ) (k1 k2 k3 : ℤ) (h : ¬ (l3 ≤ l1 + l2 ∧ l2 ≤ l1 + l3 ∧ l1 ≤ l2 + l3)) :
    complexCG l1 l2 l3 k1 k2 k3 = 0 := by
  unfold complexCG wigner3j
  split_ifs <;> first | rw [mul_zero] | (exfalso; omega)

theorem exists_tri (l1 l2 l3 : ℕ) (h : l3 ≤ l1 + l2 ∧ l2 ≤ l1 + l3 ∧ l1 ≤ l2 + l3) : ∃ a b c, Tri l1 l2 l3 a b c :=
  ⟨l1 + l2 - l3, l1 + l3 - l2, l2 + l3 - l1, ⟨by omega, by omega, by omega⟩⟩

/-- binomial theorem with factorials -/
theorem binom_fac (a : ℕ) (x y : ℂ) :
    (x - y) ^ a / (a ! : ℂ) = ∑ p ∈ range (a + 1), (-1) ^ p * (y ^ p * x ^ (a - p)) / ((p ! : ℂ) * ((a - p)! : ℂ)) := by
  have f : ∀ n : ℕ, (n ! : ℂ) ≠ 0 := fun n => by exact_mod_cast n.factorial_ne_zero
  rw [sub_eq_add_neg, add_comm, add_pow, sum_div]
  refine sum_congr rfl fun p hp => ?_
  have hp : p ≤ a := by have := mem_range.mp hp; omega
  rw [Nat.cast_choose ℂ hp, neg_pow y]
  have := f a; have := f p; have := f (a - p)
  field_simp

theorem cg_algebra (s s' sp sq st fp fct ft fq fbq fap u1q u1p v1a v1b u2a u2c v2t v2p u3b u3t v3c v3q : ℂ) :
    s * s' * (sp * sq * st) / (fp * fct * ft * fq * fbq * fap) *
      (u1q * u1p * (v1a * v1b) * (u2a * u2c * (v2t * v2p)) * (u3b * u3t * (v3c * v3q))) =
    s * s' * (sp * (u1p * v2p * (v1a * u2a)) / (fp * fap) * (sq * (u1q * v3q * (v1b * u3b)) / (fq * fbq)) *
      (st * (v2t * u3t * (u2c * v3c)) / (ft * fct))) := by
  simp only [div_eq_mul_inv, mul_inv]
  ring

/-- The reindexed sum. -/
theorem cg_reindex (l1 l2 l3 a b c : ℕ) (h : Tri l1 l2 l3 a b c) (u1 v1 u2 v2 u3 v3 : ℂ) :
    ∑ k1 ∈ Icc (-(l1 : ℤ)) l1, ∑ k2 ∈ Icc (-(l2 : ℤ)) l2, ∑ k3 ∈ Icc (-(l3 : ℤ)) l3,
      (if k3 = k1 + k2 then
        (∑ i ∈ Icc (cgLo l1 l2 l3 k1 k2) (cgHi l1 l2 l3 k1 k2), (cgTerm l1 l2 l3 k1 k2 i : ℂ)) * (altSign k1 * altSign k2) *
          ((u1 ^ (l1 - k1).toNat * v1 ^ (l1 + k1).toNat) * (u2 ^ (l2 - k2).toNat * v2 ^ (l2 + k2).toNat) *
            (u3 ^ (l3 + k3).toNat * v3 ^ (l3 - k3).toNat)) else 0) =
      (-1) ^ (l1 + l2) * ((v1 * u2 - u1 * v2) ^ a / (a ! : ℂ) * ((v1 * u3 - u1 * v3) ^ b / (b ! : ℂ)) *
        ((u2 * v3 - v2 * u3) ^ c / (c ! : ℂ))) := by
  obtain ⟨e1, e2, e3⟩ := h
  rw [binom_fac, binom_fac, binom_fac, sum_mul_sum, sum_mul_sum, mul_sum]
  -- the right-hand side as one sum
  have hR : ∑ p ∈ range (a + 1), (-1 : ℂ) ^ (l1 + l2) * ∑ x ∈ range (c + 1),
      (∑ q ∈ range (b + 1), (-1) ^ p * ((u1 * v2) ^ p * (v1 * u2) ^ (a - p)) / ((p ! : ℂ) * ((a - p)! : ℂ)) *
        ((-1) ^ q * ((u1 * v3) ^ q * (v1 * u3) ^ (b - q)) / ((q ! : ℂ) * ((b - q)! : ℂ)))) *
        ((-1) ^ x * ((v2 * u3) ^ x * (u2 * v3) ^ (c - x)) / ((x ! : ℂ) * ((c - x)! : ℂ))) =
      ∑ x ∈ range (a + 1) ×ˢ range (c + 1) ×ˢ range (b + 1), (-1 : ℂ) ^ (l1 + l2) *
        ((-1) ^ x.1 * ((u1 * v2) ^ x.1 * (v1 * u2) ^ (a - x.1)) / ((x.1 ! : ℂ) * ((a - x.1)! : ℂ)) *
        ((-1) ^ x.2.2 * ((u1 * v3) ^ x.2.2 * (v1 * u3) ^ (b - x.2.2)) / ((x.2.2 ! : ℂ) * ((b - x.2.2)! : ℂ))) *
        ((-1) ^ x.2.1 * ((v2 * u3) ^ x.2.1 * (u2 * v3) ^ (c - x.2.1)) / ((x.2.1 ! : ℂ) * ((c - x.2.1)! : ℂ)))) := by
    rw [sum_product]
    refine sum_congr rfl fun p _ => ?_
    rw [sum_product, mul_sum]
    refine sum_congr rfl fun t _ => ?_
    rw [sum_mul, mul_sum]
  rw [hR]
  -- the left-hand side as one sum
  have hL : ∀ k1 ∈ Icc (-(l1 : ℤ)) l1, ∀ k2 ∈ Icc (-(l2 : ℤ)) l2, ∀ k3 ∈ Icc (-(l3 : ℤ)) l3,
      (if k3 = k1 + k2 then
        (∑ i ∈ Icc (cgLo l1 l2 l3 k1 k2) (cgHi l1 l2 l3 k1 k2), (cgTerm l1 l2 l3 k1 k2 i : ℂ)) * (altSign k1 * altSign k2) *
          ((u1 ^ (l1 - k1).toNat * v1 ^ (l1 + k1).toNat) * (u2 ^ (l2 - k2).toNat * v2 ^ (l2 + k2).toNat) *
            (u3 ^ (l3 + k3).toNat * v3 ^ (l3 - k3).toNat)) else 0) =
      ∑ i ∈ Icc (0 : ℤ) a, if k3 = k1 + k2 ∧ cgLo l1 l2 l3 k1 k2 ≤ i ∧ i ≤ cgHi l1 l2 l3 k1 k2 then
        (cgTerm l1 l2 l3 k1 k2 i : ℂ) * (altSign k1 * altSign k2) *
          ((u1 ^ (l1 - k1).toNat * v1 ^ (l1 + k1).toNat) * (u2 ^ (l2 - k2).toNat * v2 ^ (l2 + k2).toNat) *
            (u3 ^ (l3 + k3).toNat * v3 ^ (l3 - k3).toNat)) else 0 := by
    intro k1 _ k2 _ k3 _
    rw [← sum_filter]
    split_ifs with hk
    · rw [sum_mul, sum_mul]
      refine sum_congr ?_ fun _ _ => rfl
      ext i
      simp only [mem_Icc, mem_filter, cgLo, cgHi, hk, true_and]
      omega
    · symm
      refine sum_eq_zero fun i hi => ?_
      exact absurd (mem_filter.mp hi).2.1 hk
  rw [sum_congr rfl fun k1 h1 => sum_congr rfl fun k2 h2 => sum_congr rfl fun k3 h3 => hL k1 h1 k2 h2 k3 h3]
  rw [← sum_product', ← sum_product', ← sum_product', ← sum_filter]
  refine sum_nbij' (fun x => (x.2.toNat, (l2 + x.1.1.2 - x.2).toNat, (l1 - x.1.1.1 - x.2).toNat))
    (fun y => (((l1 - y.2.2 - y.1, y.2.1 + y.1 - l2), l1 - l2 - y.2.2 + y.2.1), y.1)) ?_ ?_ ?_ ?_ ?_
  · rintro ⟨⟨⟨k1, k2⟩, k3⟩, i⟩ hx
    rw [mem_filter] at hx
    simp only [mem_product, mem_Icc, cgLo, cgHi, mem_range] at hx ⊢
    omega
  · rintro ⟨p, t, q⟩ hy
    rw [mem_filter]
    simp only [mem_product, mem_Icc, cgLo, cgHi, mem_range] at hy ⊢
    omega
  · rintro ⟨⟨⟨k1, k2⟩, k3⟩, i⟩ hx
    rw [mem_filter] at hx
    simp only [mem_product, mem_Icc, cgLo, cgHi] at hx
    simp only [Prod.mk.injEq]
    omega
  · rintro ⟨p, t, q⟩ hy
    simp only [mem_product, mem_range] at hy
    simp only [Prod.mk.injEq]
    omega
  · rintro ⟨⟨⟨k1, k2⟩, k3⟩, i⟩ hx
    rw [mem_filter] at hx
    simp only [mem_product, mem_Icc, cgLo, cgHi] at hx
    dsimp only
    obtain ⟨p, hp⟩ : ∃ p : ℕ, i = p := ⟨i.toNat, by omega⟩
    obtain ⟨q, hq⟩ : ∃ q : ℕ, (l1 : ℤ) - k1 - i = q := ⟨((l1 : ℤ) - k1 - i).toNat, by omega⟩
    obtain ⟨t, ht⟩ : ∃ t : ℕ, (l2 : ℤ) + k2 - i = t := ⟨((l2 : ℤ) + k2 - i).toNat, by omega⟩
    have hpa : p ≤ a := by omega
    have hqb : q ≤ b := by omega
    have htc : t ≤ c := by omega
    rw [show (l1 - k1).toNat = q + p by omega, show (l1 + k1).toNat = (a - p) + (b - q) by omega,
      show (l2 - k2).toNat = (a - p) + (c - t) by omega, show (l2 + k2).toNat = t + p by omega,
      show (l3 + k3).toNat = (b - q) + t by omega, show (l3 - k3).toNat = (c - t) + q by omega,
      show i.toNat = p by omega, show (l1 - k1 - i).toNat = q by omega, show (l2 + k2 - i).toNat = t by omega]
    unfold cgTerm ifac
    rw [show i.toNat = p by omega, show (i + l3 - l1 - k2).toNat = c - t by omega,
      show (l2 + k2 - i).toNat = t by omega, show (l1 - i - k1).toNat = q by omega,
      show (i + l3 - l2 + k1).toNat = b - q by omega, show (l1 + l2 - l3 - i).toNat = a - p by omega]
    have hsign : ((-1 : ℂ) ^ i) * (altSign k1 * altSign k2) = (-1) ^ (l1 + l2) * ((-1) ^ p * (-1) ^ q * (-1) ^ t) := by
      rw [hp, zpow_natCast]
      unfold altSign
      have e : ∀ m n : ℕ, m % 2 = n % 2 → (-1 : ℂ) ^ m = (-1) ^ n := by
        intro m n hmn
        rw [← Nat.div_add_mod m 2, ← Nat.div_add_mod n 2, pow_add, pow_mul, pow_add, pow_mul, hmn]; simp
      rw [← pow_add, ← pow_add, ← pow_add, ← pow_add, ← pow_add]
      exact e _ _ (by omega)
    push_cast
    rw [mul_comm (_ / _), ← mul_div_assoc, mul_comm (altSign k1 * altSign k2), hsign]
    simp only [mul_pow, pow_add]
    generalize (-1 : ℂ) ^ p = sp
    generalize (-1 : ℂ) ^ q = sq
    generalize (-1 : ℂ) ^ t = st
    exact cg_algebra _ _ _ _ _ _ _ _ _ _ _ _ _ _ _ _ _ _ _ _ _ _ _

end

end E3x
