import Mathlib.Data.Nat.Choose.Multinomial
import Mathlib.Order.Interval.Finset.Nat
import Mathlib.Data.Int.Interval
import Mathlib.Algebra.Polynomial.Roots
import Mathlib.Tactic.LinearCombination
import Verif.Lemmas.Harmonics

/-!
# Harmonics on the null cone

A vector `n` of `ℂ³` with `n · n = 0` has the form `nullVec u v`. On such vectors the harmonics of degree `l` are
(combinations of) the monomials `u^(l+κ) v^(l-κ)`, and the `l`-th power of `n · r` is the generating function of the
harmonics.
-/

namespace E3x

noncomputable section

open Finset MvPolynomial
open scoped Nat

theorem sum_Icc_pair (l : ℕ) (m : ℤ) (hm : |m| ≤ l) (a b : ℂ) (f : ℤ → ℂ) :
    ∑ κ ∈ Icc (-(l : ℤ)) l, ((if κ = m then a else 0) + (if κ = -m then b else 0)) * f κ = a * f m + b * f (-m) := by
  have h := abs_le.mp hm
  simp only [add_mul, sum_add_distrib, ite_mul, zero_mul]
  rw [sum_ite_eq' , sum_ite_eq', if_pos (mem_Icc.mpr h), if_pos (mem_Icc.mpr ⟨by omega, by omega⟩)]

/-- `(-1)^κ` -/
def altSign (κ : ℤ) : ℂ := (-1) ^ κ.natAbs

theorem altSign_mul_self (κ : ℤ) : altSign κ * altSign κ = 1 := by
  rw [altSign, ← mul_pow]; simp

@[simp] theorem altSign_neg (κ : ℤ) : altSign (-κ) = altSign κ := by simp [altSign]

@[simp] theorem altSign_zero : altSign 0 = 1 := by simp [altSign]

theorem conj_altSign (κ : ℤ) : starRingEnd ℂ (altSign κ) = altSign κ := by simp [altSign]

/-- `√2` -/
def rt2 : ℂ := (Real.sqrt 2 : ℝ)

theorem rt2_sq : rt2 * rt2 = 2 := by
  rw [rt2, ← Complex.ofReal_mul, Real.mul_self_sqrt (by norm_num)]; norm_num

theorem rt2_ne : rt2 ≠ 0 := by
  intro h; have := rt2_sq; rw [h] at this; norm_num at this

theorem conj_rt2 : starRingEnd ℂ rt2 = rt2 := Complex.conj_ofReal _

theorem realCoeff_pos (m : ℤ) (h : 0 < m) : realCoeff m = (altSign m / rt2, 1 / rt2) := by
  have h1 : ¬ m < 0 := by omega
  rcases Int.even_or_odd m with he | ho
  · have e := Int.even_iff.mp he
    have : Even m.natAbs := Int.natAbs_even.mpr he
    simp [realCoeff, h, h1, e, altSign, this.neg_one_pow, rt2]
  · have e := Int.odd_iff.mp ho
    have : Odd m.natAbs := Int.natAbs_odd.mpr ho
    simp [realCoeff, h, h1, e, altSign, this.neg_one_pow, rt2]

theorem realCoeff_neg (m : ℤ) (h : m < 0) :
    realCoeff m = (Complex.I / rt2, -(altSign m * Complex.I) / rt2) := by
  rcases Int.even_or_odd m with he | ho
  · have e := Int.even_iff.mp he
    have : Even m.natAbs := Int.natAbs_even.mpr he
    simp [realCoeff, h, e, altSign, this.neg_one_pow, rt2]
  · have e := Int.odd_iff.mp ho
    have : Odd m.natAbs := Int.natAbs_odd.mpr ho
    simp [realCoeff, h, e, altSign, this.neg_one_pow, rt2]

theorem realCoeff_zero : realCoeff 0 = (1 / 2, 1 / 2) := by simp [realCoeff]

/-- The change of basis from complex to real harmonics. -/
def basisU (m κ : ℤ) : ℂ := (if κ = m then (realCoeff m).1 else 0) + (if κ = -m then (realCoeff m).2 else 0)

theorem sum_basisU (l : ℕ) (m : ℤ) (hm : |m| ≤ l) (f : ℤ → ℂ) :
    ∑ κ ∈ Icc (-(l : ℤ)) l, basisU m κ * f κ = (realCoeff m).1 * f m + (realCoeff m).2 * f (-m) :=
  sum_Icc_pair l m hm _ _ f

theorem basisU_col (m κ : ℤ) :
    basisU m κ = (if m = κ then (realCoeff κ).1 else 0) + (if m = -κ then (realCoeff (-κ)).2 else 0) := by
  unfold basisU
  congr 1
  · by_cases h : κ = m
    · subst h; simp
    · rw [if_neg h, if_neg (fun e => h e.symm)]
  · by_cases h : κ = -m
    · subst h; simp
    · rw [if_neg h, if_neg (fun e => h (by omega))]

theorem sum_basisU_col (l : ℕ) (κ : ℤ) (hκ : |κ| ≤ l) (f : ℤ → ℂ) :
    ∑ m ∈ Icc (-(l : ℤ)) l, basisU m κ * f m = (realCoeff κ).1 * f κ + (realCoeff (-κ)).2 * f (-κ) := by
  simp only [basisU_col]
  exact sum_Icc_pair l κ hκ _ _ f

theorem basisU_mul_basisU (l : ℕ) (κ κ' : ℤ) (hκ : |κ| ≤ l) :
    ∑ m ∈ Icc (-(l : ℤ)) l, basisU m κ * basisU m κ' = if κ' = -κ then altSign κ else 0 := by
  rw [sum_basisU_col l κ hκ]
  have hne := rt2_ne
  have hs := altSign_mul_self κ
  have h2 := rt2_sq
  have hI := Complex.I_mul_I
  rcases lt_trichotomy κ 0 with h | h | h
  · rw [realCoeff_neg κ h, realCoeff_pos (-κ) (by omega)]
    unfold basisU
    rw [realCoeff_neg κ h, realCoeff_pos (-κ) (by omega)]
    simp only [neg_neg, altSign_neg]
    by_cases h1 : κ' = κ
    · subst h1
      have h3 : ¬ κ' = -κ' := by omega
      simp only [if_true, if_neg h3]
      field_simp; linear_combination hI
    · by_cases h4 : κ' = -κ
      · have h5 : ¬ -κ = κ := by omega
        simp only [h4, if_true, if_neg h5]
        field_simp
        linear_combination (-altSign κ) * hI - altSign κ * h2
      · simp [h1, h4]
  · subst h
    unfold basisU
    by_cases h1 : κ' = 0
    · subst h1; simp [realCoeff_zero]; norm_num
    · simp [h1, realCoeff_zero]
  · rw [realCoeff_pos κ h, realCoeff_neg (-κ) (by omega)]
    unfold basisU
    rw [realCoeff_pos κ h, realCoeff_neg (-κ) (by omega)]
    simp only [neg_neg, altSign_neg]
    by_cases h1 : κ' = κ
    · subst h1
      have h3 : ¬ κ' = -κ' := by omega
      simp only [if_true, if_neg h3]
      field_simp; linear_combination altSign κ' * altSign κ' * hI
    · by_cases h4 : κ' = -κ
      · have h5 : ¬ -κ = κ := by omega
        simp only [h4, if_true, if_neg h5]
        field_simp
        linear_combination (-altSign κ) * hI - altSign κ * h2
      · simp [h1, h4]

theorem conj_basisU (m κ : ℤ) : starRingEnd ℂ (basisU m κ) = altSign κ * basisU m (-κ) := by
  have hs := altSign_mul_self κ
  have hne := rt2_ne
  rcases lt_trichotomy m 0 with h | h | h
  · unfold basisU
    rw [realCoeff_neg m h]
    by_cases h1 : κ = m
    · subst h1
      have h3 : ¬ κ = -κ := by omega
      have h4 : ¬ -κ = κ := by omega
      simp [h3, h4, conj_rt2]
      field_simp; linear_combination hs
    · by_cases h4 : κ = -m
      · subst h4
        have h5 : ¬ -m = m := by omega
        have h6 : ¬ m = -m := by omega
        simp [h5, h6, conj_rt2, conj_altSign]
        ring
      · have h5 : ¬ -κ = m := by omega
        have h6 : ¬ -κ = -m := by omega
        simp only [if_neg h1, if_neg h4, if_neg h5, if_neg h6]; simp
  · subst h
    unfold basisU
    by_cases h1 : κ = 0
    · subst h1; simp [realCoeff_zero, map_ofNat (starRingEnd ℂ)]
    · simp [h1]
  · unfold basisU
    rw [realCoeff_pos m h]
    by_cases h1 : κ = m
    · subst h1
      have h3 : ¬ κ = -κ := by omega
      have h4 : ¬ -κ = κ := by omega
      simp [h3, h4, conj_rt2, conj_altSign]
      field_simp
    · by_cases h4 : κ = -m
      · subst h4
        have h5 : ¬ -m = m := by omega
        have h6 : ¬ m = -m := by omega
        simp [h5, h6, conj_rt2]
        have hs' := altSign_mul_self m
        field_simp; linear_combination -hs'
      · have h5 : ¬ -κ = m := by omega
        have h6 : ¬ -κ = -m := by omega
        simp only [if_neg h1, if_neg h4, if_neg h5, if_neg h6]; simp

theorem conj_basisU_mul (l : ℕ) (κ κ' : ℤ) (hκ : |κ| ≤ l) :
    ∑ m ∈ Icc (-(l : ℤ)) l, starRingEnd ℂ (basisU m κ) * basisU m κ' = if κ' = κ then 1 else 0 := by
  simp only [conj_basisU, mul_assoc]
  rw [← mul_sum, basisU_mul_basisU l (-κ) κ' (by rwa [abs_neg])]
  simp only [neg_neg, altSign_neg, mul_ite, mul_zero, altSign_mul_self]

theorem basisU_mul_conj (l : ℕ) (m m' : ℤ) (hm : |m| ≤ l) :
    ∑ κ ∈ Icc (-(l : ℤ)) l, basisU m κ * starRingEnd ℂ (basisU m' κ) = if m' = m then 1 else 0 := by
  rw [sum_basisU l m hm]
  have hne := rt2_ne
  have hs := altSign_mul_self m
  have h2 := rt2_sq
  have hI := Complex.I_mul_I
  rcases lt_trichotomy m 0 with h | h | h
  · rw [realCoeff_neg m h]
    by_cases h1 : m' = m
    · subst h1
      have h3 : ¬ m' = -m' := by omega
      have h4 : ¬ -m' = m' := by omega
      simp [basisU, realCoeff_neg m' h, h3, h4, conj_rt2, conj_altSign]
      field_simp; linear_combination (-1 - altSign m' * altSign m') * hI + hs - h2
    · by_cases h4 : m' = -m
      · subst h4
        have h3 : ¬ m = -m := by omega
        have h5 : ¬ -m = m := by omega
        simp [basisU, realCoeff_pos (-m) (by omega), h3, h5, conj_rt2, conj_altSign]
        field_simp; linear_combination (-Complex.I) * hs
      · have h5 : ¬ m = m' := by omega
        have h6 : ¬ m = -m' := by omega
        have h7 : ¬ -m = m' := by omega
        have h8 : ¬ -m = -m' := by omega
        simp only [basisU, if_neg h1, if_neg h5, if_neg h6, if_neg h7, if_neg h8]; simp
  · subst h
    by_cases h1 : m' = 0
    · subst h1; simp [basisU, realCoeff_zero, map_ofNat (starRingEnd ℂ)]; norm_num
    · have h5 : ¬ 0 = m' := by omega
      have h6 : ¬ 0 = -m' := by omega
      simp only [basisU, neg_zero, if_neg h1, if_neg h5, if_neg h6]; simp
  · rw [realCoeff_pos m h]
    by_cases h1 : m' = m
    · subst h1
      have h3 : ¬ m' = -m' := by omega
      have h4 : ¬ -m' = m' := by omega
      simp [basisU, realCoeff_pos m' h, h3, h4, conj_rt2, conj_altSign]
      field_simp; linear_combination hs - h2
    · by_cases h4 : m' = -m
      · subst h4
        have h3 : ¬ m = -m := by omega
        have h5 : ¬ -m = m := by omega
        simp [basisU, realCoeff_neg (-m) (by omega), h3, h5, conj_rt2, conj_altSign]
        field_simp; linear_combination Complex.I * hs
      · have h5 : ¬ m = m' := by omega
        have h6 : ¬ m = -m' := by omega
        have h7 : ¬ -m = m' := by omega
        have h8 : ¬ -m = -m' := by omega
        simp only [basisU, if_neg h1, if_neg h5, if_neg h6, if_neg h7, if_neg h8]; simp

end

end E3x
