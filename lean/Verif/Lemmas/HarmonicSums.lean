import Mathlib.Algebra.Polynomial.Coeff
import Mathlib.Data.Nat.Choose.Sum
import Mathlib.Tactic.Ring
import Mathlib.Tactic.LinearCombination

/-!
# Binomial sums behind the closed form of the spherical harmonics
-/

namespace E3x

open Finset Polynomial

theorem choose_sum_base (n d : ℕ) :
    ∑ k ∈ range (n + 1), (-1 : ℤ) ^ k * (n.choose k : ℤ) * ((2 * n - 2 * k).choose (n + d) : ℤ) =
      (n.choose d : ℤ) * 2 ^ (n - d) := by
  have h : ((-1 : ℤ[X]) + (1 + X) ^ 2) ^ n = X ^ n * (X + C 2) ^ n := by
    rw [← mul_pow]; congr 1; simp; ring
  have h2 := congrArg (fun p => coeff p (d + n)) h
  simp only [add_pow (-1 : ℤ[X]), coeff_X_pow_mul, coeff_X_add_C_pow] at h2
  rw [finsetSum_coeff] at h2
  rw [mul_comm (n.choose d : ℤ), ← h2]
  refine sum_congr rfl fun k hk => ?_
  rw [← pow_mul, mul_comm _ ((n.choose k : ℕ) : ℤ[X]), ← mul_assoc, ← Polynomial.C_eq_natCast,
    show (-1 : ℤ[X]) ^ k = C ((-1) ^ k) by simp, ← C_mul, coeff_C_mul, coeff_one_add_X_pow]
  rw [show 2 * (n - k) = 2 * n - 2 * k by omega, show d + n = n + d by omega]
  ring

theorem choose_sum (l m j : ℕ) :
    ∑ k ∈ range (l + 1), (-1 : ℤ) ^ k * (l.choose k : ℤ) * (k.choose j : ℤ) * ((2 * l - 2 * k).choose (l + m) : ℤ) =
      (-1) ^ j * (l.choose j : ℤ) * ((l - j).choose (m + j) : ℤ) * 2 ^ (l - m - 2 * j) := by
  by_cases hj : l < j
  · rw [Nat.choose_eq_zero_of_lt hj]
    simp only [Nat.cast_zero, mul_zero, zero_mul]
    refine sum_eq_zero fun k hk => ?_
    rw [Nat.choose_eq_zero_of_lt (lt_of_lt_of_le (mem_range.mp hk) hj)]; simp
  have hj : j ≤ l := by omega
  have h := choose_sum_base (l - j) (m + j)
  rw [show l - m - 2 * j = (l - j) - (m + j) by omega, mul_assoc _ _ (2 ^ _ : ℤ), ← h, mul_sum]
  rw [show l + 1 = j + (l - j + 1) by omega, sum_range_add]
  rw [sum_eq_zero (s := range j)]
  · rw [zero_add]
    refine sum_congr rfl fun k hk => ?_
    have hk : k ≤ l - j := by have := mem_range.mp hk; omega
    have e := Nat.choose_mul (n := l) (k := j + k) (s := j) (by omega)
    rw [show j + k - j = k by omega] at e
    have e' : ((l.choose (j + k) : ℤ)) * ((j + k).choose j : ℤ) = (l.choose j : ℤ) * ((l - j).choose k : ℤ) := by
      exact_mod_cast e
    rw [show 2 * l - 2 * (j + k) = 2 * (l - j) - 2 * k by omega, show l + m = l - j + (m + j) by omega, pow_add]
    linear_combination ((-1 : ℤ) ^ j * (-1) ^ k * ((2 * (l - j) - 2 * k).choose (l - j + (m + j)) : ℤ)) * e'
  · intro k hk
    rw [Nat.choose_eq_zero_of_lt (mem_range.mp hk)]; simp

end E3x
