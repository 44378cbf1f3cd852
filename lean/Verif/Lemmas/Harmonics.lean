import Mathlib.Algebra.MvPolynomial.Eval
import Mathlib.Analysis.SpecialFunctions.Trigonometric.Basic
import Mathlib.Tactic.FieldSimp
import Mathlib.Data.Nat.Choose.Cast
import Mathlib.Algebra.BigOperators.Field
import Verif.Lemmas.HarmonicSums
import Verif.Model.Symbolic

/-!
# Closed forms of the spherical harmonics at complex arguments
-/

namespace E3x

noncomputable section

open Finset MvPolynomial
open scoped Nat

/-- The common part of all harmonics of degree `l` and order `±m`; `s = x² + y²`. -/
def radialPart (l m : ℕ) (s z : ℂ) : ℂ :=
  ∑ i ∈ range ((l - m) / 2 + 1), (-s / 4) ^ i * z ^ (l - m - 2 * i) / ((i ! : ℂ) * (i + m)! * (l - m - 2 * i)!)

theorem choose_quot (l m k : ℕ) (h : 2 * k + m ≤ l) :
    (((2 * l - 2 * k).choose l : ℝ)) * ((l - 2 * k)! : ℝ) / ((l - 2 * k - m)! : ℝ) =
      ((2 * l - 2 * k).choose (l + m) : ℝ) * ((l + m)! : ℝ) / (l ! : ℝ) := by
  rw [Nat.cast_choose ℝ (show l ≤ 2 * l - 2 * k by omega), Nat.cast_choose ℝ (show l + m ≤ 2 * l - 2 * k by omega)]
  rw [show 2 * l - 2 * k - l = l - 2 * k by omega, show 2 * l - 2 * k - (l + m) = l - 2 * k - m by omega]
  have h1 : (l ! : ℝ) ≠ 0 := by positivity
  have h2 : ((l - 2 * k)! : ℝ) ≠ 0 := by positivity
  have h3 : ((l - 2 * k - m)! : ℝ) ≠ 0 := by positivity
  have h4 : ((l + m)! : ℝ) ≠ 0 := by positivity
  field_simp

theorem choose_choose (l m j : ℕ) (h : m + 2 * j ≤ l) :
    ((l.choose j : ℂ)) * ((l - j).choose (m + j) : ℂ) = (l ! : ℂ) / ((j ! : ℂ) * (j + m)! * (l - m - 2 * j)!) := by
  rw [Nat.cast_choose ℂ (show j ≤ l by omega), Nat.cast_choose ℂ (show m + j ≤ l - j by omega)]
  rw [show l - j - (m + j) = l - m - 2 * j by omega, Nat.add_comm m j]
  have h1 : (j ! : ℂ) ≠ 0 := by exact_mod_cast (j.factorial_ne_zero)
  have h2 : ((l - j)! : ℂ) ≠ 0 := by exact_mod_cast ((l - j).factorial_ne_zero)
  have h3 : ((j + m)! : ℂ) ≠ 0 := by exact_mod_cast ((j + m).factorial_ne_zero)
  have h4 : ((l - m - 2 * j)! : ℂ) ≠ 0 := by exact_mod_cast ((l - m - 2 * j).factorial_ne_zero)
  field_simp

theorem pow_expand (n k : ℕ) (hk : 2 * k ≤ n) (s z : ℂ) :
    z ^ (n - 2 * k) * (s + z ^ 2) ^ k = ∑ j ∈ range (n / 2 + 1), (k.choose j : ℂ) * (s ^ j * z ^ (n - 2 * j)) := by
  rw [add_pow, mul_sum]
  rw [← sum_subset (range_subset_range.mpr (show k + 1 ≤ n / 2 + 1 by omega))]
  · refine sum_congr rfl fun j hj => ?_
    have hj : j ≤ k := by have := mem_range.mp hj; omega
    rw [show n - 2 * j = (n - 2 * k) + 2 * (k - j) by omega, pow_add, pow_mul]; ring
  · intro j _ hj
    rw [Nat.choose_eq_zero_of_lt (by simp only [mem_range] at hj; omega)]; simp

theorem sum_coeffs (l m : ℕ) (hm : m ≤ l) (s z : ℂ) :
    ∑ k ∈ range ((l - m) / 2 + 1), ((-1) ^ k * (l.choose k : ℂ) * ((2 * l - 2 * k).choose (l + m) : ℂ)) *
      (z ^ (l - 2 * k - m) * (s + z ^ 2) ^ k) = (l ! : ℂ) * 2 ^ (l - m) * radialPart l m s z := by
  have h1 : ∀ k ∈ range ((l - m) / 2 + 1),
      ((-1) ^ k * (l.choose k : ℂ) * ((2 * l - 2 * k).choose (l + m) : ℂ)) * (z ^ (l - 2 * k - m) * (s + z ^ 2) ^ k) =
      ∑ j ∈ range ((l - m) / 2 + 1), ((-1) ^ k * (l.choose k : ℂ) * (k.choose j : ℂ) *
        ((2 * l - 2 * k).choose (l + m) : ℂ)) * (s ^ j * z ^ (l - m - 2 * j)) := by
    intro k hk
    rw [show l - 2 * k - m = (l - m) - 2 * k by omega, pow_expand (l - m) k (by have := mem_range.mp hk; omega),
      mul_sum]
    exact sum_congr rfl fun j _ => by ring
  rw [sum_congr rfl h1, sum_comm, radialPart, mul_sum]
  refine sum_congr rfl fun j hj => ?_
  have hj : m + 2 * j ≤ l := by have := mem_range.mp hj; omega
  rw [← sum_mul]
  have e : ∑ k ∈ range ((l - m) / 2 + 1), ((-1) ^ k * (l.choose k : ℂ) * (k.choose j : ℂ) *
        ((2 * l - 2 * k).choose (l + m) : ℂ)) =
      (-1) ^ j * (l.choose j : ℂ) * ((l - j).choose (m + j) : ℂ) * 2 ^ (l - m - 2 * j) := by
    have := congrArg (Int.cast : ℤ → ℂ) (choose_sum l m j)
    push_cast at this
    rw [← this]
    refine sum_subset (range_subset_range.mpr (by omega)) fun k hk' hk => ?_
    rw [Nat.choose_eq_zero_of_lt (show 2 * l - 2 * k < l + m by simp only [mem_range] at hk hk'; omega)]; simp
  rw [e, mul_assoc ((-1) ^ j) _ _, choose_choose l m j hj, div_pow, neg_pow s j,
    show (2 : ℂ) ^ (l - m) = 2 ^ (l - m - 2 * j) * 4 ^ j by
      rw [show (4 : ℂ) = 2 ^ 2 by norm_num, ← pow_mul, ← pow_add]; congr 1; omega]
  have h4 : (4 : ℂ) ^ j ≠ 0 := pow_ne_zero _ (by norm_num)
  field_simp

/-- The factor `sqrt((l-m)! (l+m)!)`. -/
def sqrtFac (l m : ℕ) : ℝ := Real.sqrt ((l - m)! * (l + m)!)

theorem aeval_symPi (l m : ℕ) (hm : m ≤ l) (r : Fin 3 → ℂ) :
    aeval r (symPi l m) = (sqrtFac l m : ℂ) / 2 ^ m * radialPart l m (r 0 ^ 2 + r 1 ^ 2) (r 2) := by
  have h1 : aeval r (symPi l m) = (Real.sqrt ((l - m)! / (l + m)!) : ℂ) *
      ∑ k ∈ range ((l - m) / 2 + 1), ((l + m)! : ℂ) / (2 ^ l * l !) *
        (((-1) ^ k * (l.choose k : ℂ) * ((2 * l - 2 * k).choose (l + m) : ℂ)) *
        (r 2 ^ (l - 2 * k - m) * ((r 0 ^ 2 + r 1 ^ 2) + r 2 ^ 2) ^ k)) := by
    simp only [symPi, map_mul, map_sum, map_pow, map_add, aeval_X, aeval_C, Complex.coe_algebraMap]
    congr 1
    refine sum_congr rfl fun k hk => ?_
    have e := choose_quot l m k (by have := mem_range.mp hk; omega)
    have e2 : ((-1 : ℝ) ^ k * 2⁻¹ ^ l * (l.choose k : ℝ) * ((2 * l - 2 * k).choose l : ℝ) * ((l - 2 * k)! : ℝ) /
        ((l - 2 * k - m)! : ℝ)) = ((l + m)! : ℝ) / (2 ^ l * l !) *
          ((-1) ^ k * (l.choose k : ℝ) * ((2 * l - 2 * k).choose (l + m) : ℝ)) := by
      rw [show ∀ a b c d e f : ℝ, a * b * c * d * e / f = a * b * c * (d * e / f) by intros; ring, e, inv_pow]
      field_simp
    rw [e2]; push_cast; ring
  rw [h1, ← mul_sum, sum_coeffs l m hm]
  have h2 : Real.sqrt ((l - m)! / (l + m)!) * ((l + m)! : ℝ) = sqrtFac l m := by
    rw [sqrtFac]
    have hp : (0 : ℝ) < (l + m)! := by positivity
    have hq : (0 : ℝ) ≤ (l - m)! := by positivity
    rw [Real.sqrt_div hq, Real.sqrt_mul hq]
    field_simp
    rw [Real.sq_sqrt hp.le]
  have h2' := congrArg (Complex.ofReal) h2
  push_cast at h2'
  rw [← h2']
  have hl : (l ! : ℂ) ≠ 0 := by exact_mod_cast l.factorial_ne_zero
  have h22 : (2 : ℂ) ^ l = 2 ^ m * 2 ^ (l - m) := by rw [← pow_add]; congr 1; omega
  have hm2 : (2 : ℂ) ^ (l - m) ≠ 0 := pow_ne_zero _ (by norm_num)
  rw [h22]
  field_simp

theorem cos_half_pi (j : ℕ) : ((Real.cos (j * Real.pi / 2) : ℝ) : ℂ) = (Complex.I ^ j + (-Complex.I) ^ j) / 2 := by
  have h1 : Complex.exp ((j * Real.pi / 2 : ℂ) * Complex.I) = Complex.I ^ j := by
    rw [show (j * Real.pi / 2 : ℂ) * Complex.I = j * (Real.pi / 2 * Complex.I) by ring, Complex.exp_nat_mul,
      Complex.exp_pi_div_two_mul_I]
  have h2 : Complex.exp (-(j * Real.pi / 2 : ℂ) * Complex.I) = (-Complex.I) ^ j := by
    rw [show -(j * Real.pi / 2 : ℂ) * Complex.I = j * (-Real.pi / 2 * Complex.I) by ring, Complex.exp_nat_mul,
      Complex.exp_neg_pi_div_two_mul_I]
  rw [Complex.ofReal_cos, Complex.cos]; push_cast
  rw [h1, h2]

theorem sin_half_pi (j : ℕ) :
    ((Real.sin (j * Real.pi / 2) : ℝ) : ℂ) = (Complex.I ^ j - (-Complex.I) ^ j) / (2 * Complex.I) := by
  have h1 : Complex.exp ((j * Real.pi / 2 : ℂ) * Complex.I) = Complex.I ^ j := by
    rw [show (j * Real.pi / 2 : ℂ) * Complex.I = j * (Real.pi / 2 * Complex.I) by ring, Complex.exp_nat_mul,
      Complex.exp_pi_div_two_mul_I]
  have h2 : Complex.exp (-(j * Real.pi / 2 : ℂ) * Complex.I) = (-Complex.I) ^ j := by
    rw [show -(j * Real.pi / 2 : ℂ) * Complex.I = j * (-Real.pi / 2 * Complex.I) by ring, Complex.exp_nat_mul,
      Complex.exp_neg_pi_div_two_mul_I]
  rw [Complex.ofReal_sin, Complex.sin]; push_cast
  rw [h1, h2]
  have hI : Complex.I ≠ 0 := Complex.I_ne_zero
  field_simp
  linear_combination (-Complex.I ^ j + (-Complex.I) ^ j) * Complex.I_sq

theorem aeval_symA (m : ℕ) (r : Fin 3 → ℂ) :
    aeval r (symA m) = ((r 0 + Complex.I * r 1) ^ m + (r 0 - Complex.I * r 1) ^ m) / 2 := by
  simp only [symA, map_mul, map_sum, map_pow, aeval_X, aeval_C, Complex.coe_algebraMap]
  rw [sub_eq_add_neg, add_pow, add_pow, ← sum_add_distrib, sum_div]
  refine sum_congr rfl fun p _ => ?_
  rw [cos_half_pi, ← neg_mul, mul_pow, mul_pow]; push_cast; ring

theorem aeval_symB (m : ℕ) (r : Fin 3 → ℂ) :
    aeval r (symB m) = ((r 0 + Complex.I * r 1) ^ m - (r 0 - Complex.I * r 1) ^ m) / (2 * Complex.I) := by
  simp only [symB, map_mul, map_sum, map_pow, aeval_X, aeval_C, Complex.coe_algebraMap]
  rw [sub_eq_add_neg (r 0), add_pow, add_pow, ← sum_sub_distrib, sum_div]
  refine sum_congr rfl fun p _ => ?_
  rw [sin_half_pi, ← neg_mul, mul_pow, mul_pow]; push_cast; ring

end

end E3x
