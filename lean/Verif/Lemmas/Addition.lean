import Verif.Lemmas.Polynomials
import Mathlib.Algebra.MvPolynomial.PDeriv
import Mathlib.Analysis.SpecialFunctions.Sqrt

/-!
# Laplace's equation and the sum of squares of the spherical harmonics
-/

namespace E3x

noncomputable section

open Finset MvPolynomial
open scoped Nat

/-! ## Laplace's equation -/

/-- The Laplacian of a polynomial in three variables. -/
def lap {R : Type} [CommSemiring R] (p : MvPolynomial (Fin 3) R) : MvPolynomial (Fin 3) R :=
  ∑ i, pderiv i (pderiv i p)

theorem lap_smul (c : ℂ) (p : MvPolynomial (Fin 3) ℂ) : lap (c • p) = c • lap p := by
  simp only [lap, smul_sum]
  refine sum_congr rfl fun i _ => ?_
  rw [Derivation.map_smul, Derivation.map_smul]

theorem lap_sum {ι : Type} (s : Finset ι) (f : ι → MvPolynomial (Fin 3) ℂ) : lap (∑ i ∈ s, f i) = ∑ i ∈ s, lap (f i) := by
  simp only [lap, map_sum]
  exact sum_comm

theorem pderiv_linForm (n : Fin 3 → ℂ) (i : Fin 3) : pderiv i (linForm n) = C (n i) := by
  simp only [linForm, map_sum, pderiv_C_mul, pderiv_X, Pi.single_apply]
  fin_cases i <;> simp

theorem lap_linForm_pow (l : ℕ) (u v : ℂ) : lap (linForm (nullVec u v) ^ l) = 0 := by
  have h : ∀ i, pderiv i (pderiv i (linForm (nullVec u v) ^ l)) =
      C (nullVec u v i ^ 2) * ((l : MvPolynomial (Fin 3) ℂ) * (((l - 1 : ℕ) : MvPolynomial (Fin 3) ℂ) *
        linForm (nullVec u v) ^ (l - 1 - 1))) := by
    intro i
    rw [pderiv_pow, pderiv_linForm, mul_comm, pderiv_C_mul, ← C_eq_coe_nat, pderiv_C_mul, pderiv_pow, pderiv_linForm,
      C_pow, ← C_eq_coe_nat]
    ring
  rw [lap, sum_congr rfl fun i _ => h i, ← sum_mul, Fin.sum_univ_three, ← C_add, ← C_add, nullVec_null, C_0, zero_mul]

theorem lap_map (p : MvPolynomial (Fin 3) ℝ) : lap (map (algebraMap ℝ ℂ) p) = map (algebraMap ℝ ℂ) (lap p) := by
  simp only [lap, map_sum, pderiv_map]

theorem symSH_harmonic (l : ℕ) (m : ℤ) (hm : |m| ≤ l) : lap (symSphericalHarmonics l m) = 0 := by
  apply map_injective (algebraMap ℝ ℂ) Complex.ofReal_injective
  rw [map_zero, ← lap_map]
  change lap (symSHC l m) = 0
  refine MvPolynomial.funext fun r => ?_
  rw [map_zero]
  refine null_independent l (fun m => eval r (lap (symSHC l m))) (fun u v => ?_) m (mem_Icc.mpr (abs_le.mp hm))
  have h := congrArg (fun p => eval r (lap p)) (generating_poly l u v)
  simp only [lap_smul, lap_linForm_pow, smul_zero, map_zero, lap_sum, map_sum] at h
  simp only [smul_eq_C_mul, map_mul, eval_C] at h
  rw [h]
  exact sum_congr rfl fun _ _ => mul_comm _ _

/-! ## values at the pole -/

theorem cHarm_pole (l : ℕ) (κ : ℤ) : cHarm l κ ![0, 0, 1] = if κ = 0 then 1 else 0 := by
  unfold cHarm
  split_ifs with h0 h1
  · subst h1
    have hs : sqrtFac l 0 = (l ! : ℝ) := by
      rw [sqrtFac, Nat.sub_zero, Nat.add_zero, ← pow_two, Real.sqrt_sq (by positivity)]
    have hr : radialPart l 0 0 1 = 1 / (l ! : ℂ) := by
      unfold radialPart
      rw [sum_eq_single 0]
      · simp
      · intro i _ hi
        simp [hi]
      · simp
    have e : (![0, 0, 1] : Fin 3 → ℂ) 2 = 1 := rfl
    simp only [Int.natAbs_zero, Matrix.cons_val_zero, Matrix.cons_val_one, e, pow_zero, mul_one, hs]
    rw [show (0 : ℂ) ^ 2 + 0 ^ 2 = 0 by ring, hr]
    have : (l ! : ℂ) ≠ 0 := by exact_mod_cast l.factorial_ne_zero
    push_cast
    field_simp
  · simp [h1]
  · omega
  · simp [show κ ≠ 0 by omega]

theorem sphC_pole (l : ℕ) (m : ℤ) (hm : |m| ≤ l) : sphC l m ![0, 0, 1] = if m = 0 then 1 else 0 := by
  rw [sphC, aeval_symSH l m hm, sum_congr rfl fun κ _ => by rw [cHarm_pole]]
  simp only [mul_ite, mul_one, mul_zero]
  rw [sum_ite_eq' (Icc (-(l : ℤ)) l) 0, if_pos (by simp)]
  unfold basisU
  split_ifs <;> first | omega | skip
  · rename_i h _ _
    rw [h.symm, realCoeff_zero]; norm_num
  · simp

theorem sphC_smul (l : ℕ) (m : ℤ) (hm : |m| ≤ l) (a : ℂ) (r : Fin 3 → ℂ) :
    sphC l m (fun i => a * r i) = a ^ l * sphC l m r := by
  rw [← eval_symSHC, ← eval_symSHC, eval_eq', eval_eq', mul_sum]
  refine sum_congr rfl fun d hd => ?_
  have hdeg : l = ∑ i, d i := by
    rw [(symSHC_homog l m hm).degree_eq_sum_deg_support hd]
    exact sum_subset (subset_univ _) fun i _ hi => Finsupp.notMem_support_iff.mp hi
  simp only [mul_pow, prod_mul_distrib, prod_pow_eq_pow_sum]
  rw [← hdeg]; ring

/-! ## sum of squares -/

/-- every vector is a multiple of the image of the pole under an orthogonal matrix -/
theorem exists_orth (r : Fin 3 → ℝ) : ∃ R : Fin 3 → Fin 3 → ℝ, COrth (toC R) ∧
    ∀ i, r i = Real.sqrt (∑ k, r k ^ 2) * R i 2 := by
  set n := Real.sqrt (∑ k, r k ^ 2) with hn
  have hn2 : n * n = r 0 ^ 2 + r 1 ^ 2 + r 2 ^ 2 := by
    rw [hn, Real.mul_self_sqrt (by positivity), Fin.sum_univ_three]
  have hn0 : 0 ≤ n := Real.sqrt_nonneg _
  set q := r 0 ^ 2 + r 1 ^ 2 + (r 2 - n) ^ 2 with hq
  by_cases h : q = 0
  · have h0 : r 0 = 0 := by nlinarith [sq_nonneg (r 0), sq_nonneg (r 1), sq_nonneg (r 2 - n)]
    have h1 : r 1 = 0 := by nlinarith [sq_nonneg (r 0), sq_nonneg (r 1), sq_nonneg (r 2 - n)]
    have h2 : r 2 = n := by nlinarith [sq_nonneg (r 0), sq_nonneg (r 1), sq_nonneg (r 2 - n)]
    refine ⟨fun i j => if i = j then 1 else 0, ?_, ?_⟩
    · intro i j
      fin_cases i <;> fin_cases j <;> simp [toC, Fin.sum_univ_three]
    · intro i
      fin_cases i
      · simp [h0]
      · simp [h1]
      · simp [h2]
  · let w : Fin 3 → ℝ := ![r 0, r 1, r 2 - n]
    have hw : w 0 ^ 2 + w 1 ^ 2 + w 2 ^ 2 = q := rfl
    refine ⟨fun i j => (if i = j then 1 else 0) - 2 * w i * w j / q, ?_, ?_⟩
    · intro i j
      have key : ∀ i j, ∑ k : Fin 3, ((if k = i then (1 : ℝ) else 0) - 2 * w k * w i / q) *
          ((if k = j then 1 else 0) - 2 * w k * w j / q) = if i = j then 1 else 0 := by
        intro i j
        have e : ∑ k : Fin 3, ((if k = i then (1 : ℝ) else 0) - 2 * w k * w i / q) *
            ((if k = j then 1 else 0) - 2 * w k * w j / q) = (if i = j then 1 else 0) - 4 * w i * w j / q +
            4 * w i * w j * (w 0 ^ 2 + w 1 ^ 2 + w 2 ^ 2) / q ^ 2 := by
          fin_cases i <;> fin_cases j <;> simp [Fin.sum_univ_three] <;> ring_nf
        rw [e, hw]
        field_simp
        ring
      have := congrArg Complex.ofReal (key i j)
      push_cast at this
      simp only [toC]
      push_cast
      rw [this]
      split_ifs <;> simp
    · intro i
      have hq2 : q = 2 * n * (n - r 2) := by rw [hq]; linear_combination -hn2
      have hnr : n - r 2 ≠ 0 := by
        intro h'
        exact h (by rw [hq2, h']; ring)
      have hn' : n ≠ 0 := by
        intro h'
        exact h (by rw [hq2, h']; ring)
      fin_cases i
      · change r 0 = n * ((if (0 : Fin 3) = 2 then 1 else 0) - 2 * r 0 * (r 2 - n) / q)
        rw [hq2, if_neg (by decide)]
        field_simp
        ring
      · change r 1 = n * ((if (1 : Fin 3) = 2 then 1 else 0) - 2 * r 1 * (r 2 - n) / q)
        rw [hq2, if_neg (by decide)]
        field_simp
        ring
      · change r 2 = n * ((if (2 : Fin 3) = 2 then 1 else 0) - 2 * (r 2 - n) * (r 2 - n) / q)
        rw [hq2, if_pos rfl]
        field_simp
        ring

theorem sum_sq (l : ℕ) (r : Fin 3 → ℝ) :
    ∑ m ∈ Icc (-(l : ℤ)) l, eval r (symSphericalHarmonics l m) ^ 2 = (∑ k, r k ^ 2) ^ l := by
  obtain ⟨R, hR, hr⟩ := exists_orth r
  have h1 : ∀ m ∈ Icc (-(l : ℤ)) l, ((eval r (symSphericalHarmonics l m) : ℝ) : ℂ) =
      (Real.sqrt (∑ k, r k ^ 2) : ℂ) ^ l * wigC l (toC R) m 0 := by
    intro m hm
    have hm := abs_le.mpr (mem_Icc.mp hm)
    rw [← sphC_ofReal]
    have e : (fun i => (r i : ℂ)) = fun i => (Real.sqrt (∑ k, r k ^ 2) : ℂ) * cmulVec (toC R) ![0, 0, 1] i := by
      ext i
      conv_lhs => rw [hr i]
      simp [cmulVec, toC, Fin.sum_univ_three]
    rw [e, sphC_smul l m hm, sphC_mulVec l hR m hm]
    congr 1
    rw [sum_eq_single 0]
    · rw [sphC_pole l 0 (by simp)]; simp
    · intro b hb hb0
      rw [sphC_pole l b (abs_le.mpr (mem_Icc.mp hb)), if_neg hb0, mul_zero]
    · intro h; simp at h
  have h2 : ((∑ m ∈ Icc (-(l : ℤ)) l, eval r (symSphericalHarmonics l m) ^ 2 : ℝ) : ℂ) =
      (((∑ k, r k ^ 2) ^ l : ℝ) : ℂ) := by
    rw [Complex.ofReal_sum, sum_congr rfl fun m hm => by rw [Complex.ofReal_pow, h1 m hm, mul_pow], ← mul_sum]
    have h3 := wigC_orth l hR.trans 0 0 (by simp) (by simp)
    rw [if_pos rfl] at h3
    have h4 : ∑ m ∈ Icc (-(l : ℤ)) l, wigC l (toC R) m 0 ^ 2 = 1 := by
      rw [← h3]
      refine sum_congr rfl fun m hm => ?_
      rw [wigC_trans l hR m 0 (abs_le.mpr (mem_Icc.mp hm)) (by simp)]; ring
    rw [h4, mul_one, ← Complex.ofReal_pow, ← Complex.ofReal_pow, ← pow_mul, mul_comm l 2, pow_mul,
      Real.sq_sqrt (sum_nonneg fun _ _ => sq_nonneg _)]
  exact_mod_cast h2

end

end E3x
