import Verif.Lemmas.Coupling

/-!
# Exchange of the first two arguments of Clebsch-Gordan coefficients
-/

namespace E3x

noncomputable section

open Finset
open scoped Nat

theorem cgTerm_swap (l1 l2 l3 : ℕ) (k1 k2 i : ℤ) :
    cgTerm l2 l1 l3 k2 k1 (l1 + l2 - l3 - i) = (-1) ^ ((l1 : ℤ) + l2 - l3) * cgTerm l1 l2 l3 k1 k2 i := by
  have hs : (-1 : ℝ) ^ ((l1 : ℤ) + l2 - l3 - i) = (-1) ^ ((l1 : ℤ) + l2 - l3) * (-1) ^ i := by
    rw [zpow_sub₀ (by norm_num), div_eq_mul_inv, ← zpow_neg]
    congr 1
    rcases Int.even_or_odd i with h | h
    · rw [h.neg.neg_one_zpow, h.neg_one_zpow]
    · rw [h.neg.neg_one_zpow, h.neg_one_zpow]
  unfold cgTerm
  rw [hs, show (l1 : ℤ) + l2 - l3 - i + l3 - l2 - k1 = l1 - i - k1 by ring,
    show (l1 : ℤ) + k1 - (l1 + l2 - l3 - i) = i + l3 - l2 + k1 by ring,
    show (l2 : ℤ) - (l1 + l2 - l3 - i) - k2 = i + l3 - l1 - k2 by ring,
    show (l1 : ℤ) + l2 - l3 - i + l3 - l1 + k2 = l2 + k2 - i by ring,
    show (l2 : ℤ) + l1 - l3 - (l1 + l2 - l3 - i) = i by ring, mul_div_assoc]
  congr 2
  ring

theorem complexCG_swap (l1 l2 l3 : ℕ) (k1 k2 k3 : ℤ) (h1 : |k1| ≤ l1) (h2 : |k2| ≤ l2) (h3 : |k3| ≤ l3) :
    complexCG l2 l1 l3 k2 k1 k3 = (-1) ^ ((l1 : ℤ) + l2 - l3) * complexCG l1 l2 l3 k1 k2 k3 := by
  by_cases ht : l3 ≤ l1 + l2 ∧ l2 ≤ l1 + l3 ∧ l1 ≤ l2 + l3
  · by_cases hk : k3 = k1 + k2
    · obtain ⟨a, b, c, ht⟩ := exists_tri l1 l2 l3 ht
      have ht' : Tri l2 l1 l3 a c b := ⟨ht.h2, ht.h1, by have := ht.h3; omega⟩
      rw [complexCG_eq l1 l2 l3 a b c ht k1 k2 k3 h1 h2 h3 hk, complexCG_eq l2 l1 l3 a c b ht' k2 k1 k3 h2 h1 h3 (by omega)]
      have hsum : ∑ i ∈ Icc (cgLo l2 l1 l3 k2 k1) (cgHi l2 l1 l3 k2 k1), cgTerm l2 l1 l3 k2 k1 i =
          (-1) ^ ((l1 : ℤ) + l2 - l3) * ∑ i ∈ Icc (cgLo l1 l2 l3 k1 k2) (cgHi l1 l2 l3 k1 k2), cgTerm l1 l2 l3 k1 k2 i := by
        rw [mul_sum]
        symm
        refine sum_nbij' (fun i => (l1 : ℤ) + l2 - l3 - i) (fun i => (l1 : ℤ) + l2 - l3 - i) ?_ ?_ ?_ ?_ ?_
        · intro i hi
          simp only [mem_Icc, cgLo, cgHi] at hi ⊢
          omega
        · intro i hi
          simp only [mem_Icc, cgLo, cgHi] at hi ⊢
          omega
        · intro i _; ring
        · intro i _; ring
        · intro i _
          rw [cgTerm_swap]
      have hn : cgNorm l2 l1 l3 a c b = cgNorm l1 l2 l3 a b c := by
        unfold cgNorm
        rw [show l2 + l1 + l3 + 1 = l1 + l2 + l3 + 1 by ring, show (a ! : ℝ) * c ! * b ! = a ! * b ! * (c !) by ring]
      rw [hsum, hn]
      ring
    · rw [complexCG_of_ne l1 l2 l3 k1 k2 k3 hk, complexCG_of_ne l2 l1 l3 k2 k1 k3 (by omega), mul_zero]
  · rw [complexCG_of_not_tri l1 l2 l3 _ _ _ ht, complexCG_of_not_tri l2 l1 l3 _ _ _ (by omega), mul_zero]

theorem symCG_swap (l1 l2 l3 : ℕ) (m1 m2 m3 : ℤ) (h1 : |m1| ≤ l1) (h2 : |m2| ≤ l2) (h3 : |m3| ≤ l3) :
    symClebschGordan l2 m2 l1 m1 l3 m3 = (-1) ^ ((l1 : ℤ) + l2 - l3) * symClebschGordan l1 m1 l2 m2 l3 m3 := by
  have h : symClebschGordanC l2 m2 l1 m1 l3 m3 =
      (((-1) ^ ((l1 : ℤ) + l2 - l3) : ℝ) : ℂ) * symClebschGordanC l1 m1 l2 m2 l3 m3 := by
    have h1' : |-m1| ≤ l1 := by rwa [abs_neg]
    have h2' : |-m2| ≤ l2 := by rwa [abs_neg]
    have h3' : |-m3| ≤ l3 := by rwa [abs_neg]
    unfold symClebschGordanC
    dsimp only
    rw [complexCG_swap l1 l2 l3 m1 m2 m3 h1 h2 h3, complexCG_swap l1 l2 l3 m1 m2 (-m3) h1 h2 h3',
      complexCG_swap l1 l2 l3 m1 (-m2) m3 h1 h2' h3, complexCG_swap l1 l2 l3 m1 (-m2) (-m3) h1 h2' h3',
      complexCG_swap l1 l2 l3 (-m1) m2 m3 h1' h2 h3, complexCG_swap l1 l2 l3 (-m1) m2 (-m3) h1' h2 h3',
      complexCG_swap l1 l2 l3 (-m1) (-m2) m3 h1' h2' h3, complexCG_swap l1 l2 l3 (-m1) (-m2) (-m3) h1' h2' h3',
      show (l2 : ℤ) + l1 - l3 = l1 + l2 - l3 by ring]
    push_cast
    ring
  unfold symClebschGordan
  rw [h, Complex.re_ofReal_mul]

end

end E3x
