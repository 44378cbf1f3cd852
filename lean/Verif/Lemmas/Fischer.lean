import Verif.Lemmas.Generating
import Mathlib.Algebra.MvPolynomial.Funext
import Mathlib.Analysis.SpecialFunctions.Pow.Complex
import Mathlib.Data.Nat.Choose.Multinomial
import Mathlib.RingTheory.MvPolynomial.Homogeneous
import Mathlib.RingTheory.MvPolynomial.Basic

/-!
# The scaled dot product of polynomials and orthonormality of the spherical harmonics
-/

namespace E3x

noncomputable section

open Finset MvPolynomial
open scoped Nat

/-- value of a spherical harmonic at a complex point -/
def sphC (l : ℕ) (m : ℤ) (r : Fin 3 → ℂ) : ℂ := aeval r (symSphericalHarmonics l m)

/-! ## null vectors -/

theorem exists_nullVec (w : Fin 3 → ℂ) (h : w 0 ^ 2 + w 1 ^ 2 + w 2 ^ 2 = 0) : ∃ u v, w = nullVec u v := by
  obtain ⟨u, hu⟩ : ∃ u, -(w 0 + Complex.I * w 1) = u ^ 2 := ⟨_, (Complex.cpow_nat_inv_pow _ two_ne_zero).symm⟩
  obtain ⟨v, hv⟩ : ∃ v, w 0 - Complex.I * w 1 = v ^ 2 := ⟨_, (Complex.cpow_nat_inv_pow _ two_ne_zero).symm⟩
  have hz : (u * v) ^ 2 = w 2 ^ 2 := by
    rw [mul_pow, ← hu, ← hv]
    linear_combination (w 1 ^ 2) * Complex.I_sq - h
  have hx : w 0 = (v ^ 2 - u ^ 2) / 2 := by rw [← hu, ← hv]; ring
  have hy : w 1 = Complex.I * (u ^ 2 + v ^ 2) / 2 := by
    rw [← hu, ← hv]
    linear_combination w 1 * Complex.I_sq
  rcases sq_eq_sq_iff_eq_or_eq_neg.mp hz with h | h
  · refine ⟨u, v, ?_⟩
    ext i; fin_cases i
    · exact hx
    · exact hy
    · exact h.symm
  · refine ⟨u, -v, ?_⟩
    ext i; fin_cases i
    · simpa [nullVec] using hx
    · simpa [nullVec] using hy
    · simp [nullVec, h]

theorem nullVec_null (u v : ℂ) : nullVec u v 0 ^ 2 + nullVec u v 1 ^ 2 + nullVec u v 2 ^ 2 = 0 := by
  rw [nullVec_rho, nullVec_z]; ring

/-! ## homogeneity -/

theorem symA_homog (m : ℕ) : (symA m).IsHomogeneous m := by
  refine IsHomogeneous.sum _ _ _ fun p hp => ?_
  have hp : p ≤ m := by have := mem_range.mp hp; omega
  have := ((isHomogeneous_C (Fin 3) ((m.choose p : ℝ) * Real.cos ((m - p : ℕ) * Real.pi / 2))).mul
    (isHomogeneous_X_pow (R := ℝ) (0 : Fin 3) p)).mul (isHomogeneous_X_pow (R := ℝ) (1 : Fin 3) (m - p))
  convert this using 1
  omega

theorem symB_homog (m : ℕ) : (symB m).IsHomogeneous m := by
  refine IsHomogeneous.sum _ _ _ fun p hp => ?_
  have hp : p ≤ m := by have := mem_range.mp hp; omega
  have := ((isHomogeneous_C (Fin 3) ((m.choose p : ℝ) * Real.sin ((m - p : ℕ) * Real.pi / 2))).mul
    (isHomogeneous_X_pow (R := ℝ) (0 : Fin 3) p)).mul (isHomogeneous_X_pow (R := ℝ) (1 : Fin 3) (m - p))
  convert this using 1
  omega

theorem symPi_homog (l m : ℕ) (h : m ≤ l) : (symPi l m).IsHomogeneous (l - m) := by
  refine IsHomogeneous.C_mul (IsHomogeneous.sum _ _ _ fun k hk => ?_) _
  have hk : 2 * k + m ≤ l := by have := mem_range.mp hk; omega
  have h2 : (X 0 ^ 2 + X 1 ^ 2 + X 2 ^ 2 : MvPolynomial (Fin 3) ℝ).IsHomogeneous 2 :=
    ((isHomogeneous_X_pow _ _).add (isHomogeneous_X_pow _ _)).add (isHomogeneous_X_pow _ _)
  have := (IsHomogeneous.C_mul (isHomogeneous_X_pow (R := ℝ) (2 : Fin 3) (l - 2 * k - m))
    ((-1) ^ k * (2 : ℝ)⁻¹ ^ l * (l.choose k : ℝ) * ((2 * l - 2 * k).choose l : ℝ) *
        ((l - 2 * k).factorial : ℝ) / ((l - 2 * k - m).factorial : ℝ))).mul (h2.pow k)
  convert this using 1
  omega

theorem symSH_homog (l : ℕ) (m : ℤ) (h : |m| ≤ l) : (symSphericalHarmonics l m).IsHomogeneous l := by
  have hl := natAbs_le_of_abs h
  unfold symSphericalHarmonics
  split_ifs with h1 h2
  · have := (IsHomogeneous.C_mul (symPi_homog l m.toNat (by omega)) (Real.sqrt 2)).mul (symA_homog m.toNat)
    convert this using 1; omega
  · have := (IsHomogeneous.C_mul (symPi_homog l (-m).toNat (by omega)) (Real.sqrt 2)).mul (symB_homog (-m).toNat)
    convert this using 1; omega
  · simpa using symPi_homog l 0 (by omega)

theorem symSH_ne_zero (l : ℕ) (m : ℤ) (h : |m| ≤ l) : symSphericalHarmonics l m ≠ 0 := by
  intro h0
  have := null_independent l (fun k => if k = m then 1 else 0) (fun u v => by
    simp only [ite_mul, zero_mul, one_mul]
    refine sum_eq_zero fun k _ => ?_
    split_ifs with hk
    · rw [hk, h0, map_zero]
    · rfl) m (mem_Icc.mpr (abs_le.mp h))
  simp at this

theorem symSH_totalDegree (l : ℕ) (m : ℤ) (h : |m| ≤ l) : (symSphericalHarmonics l m).totalDegree = l :=
  (symSH_homog l m h).totalDegree (symSH_ne_zero l m h)

/-! ## the Fischer product -/

theorem trinomialCoefficient_ne (k : Fin 3 →₀ ℕ) : trinomialCoefficient k ≠ 0 := by
  unfold trinomialCoefficient; positivity

/-- `p ↦ ∑ₖ pₖ qₖ / trinomial k` -/
def fischer (q : MvPolynomial (Fin 3) ℂ) : MvPolynomial (Fin 3) ℂ →ₗ[ℂ] ℂ :=
  (basisMonomials (Fin 3) ℂ).constr ℂ fun k => coeff k q / (trinomialCoefficient k : ℂ)

theorem fischer_monomial (q : MvPolynomial (Fin 3) ℂ) (k : Fin 3 →₀ ℕ) (a : ℂ) :
    fischer q (monomial k a) = a * (coeff k q / (trinomialCoefficient k : ℂ)) := by
  have h1 : monomial k a = a • basisMonomials (Fin 3) ℂ k := by simp [coe_basisMonomials, smul_monomial]
  rw [h1, map_smul, fischer, Module.Basis.constr_basis, smul_eq_mul]

theorem fischer_eq (q p : MvPolynomial (Fin 3) ℂ) :
    fischer q p = ∑ k ∈ p.support, coeff k p * (coeff k q / (trinomialCoefficient k : ℂ)) := by
  conv_lhs => rw [p.as_sum]
  rw [map_sum]
  exact sum_congr rfl fun k _ => fischer_monomial q k _

/-- the linear form `r ↦ n · r` -/
def linForm (n : Fin 3 → ℂ) : MvPolynomial (Fin 3) ℂ := ∑ i, C (n i) * X i

theorem eval_linForm (n r : Fin 3 → ℂ) : eval r (linForm n) = cdot n r := by
  simp [linForm, cdot]

theorem fischer_linForm_pow (q : MvPolynomial (Fin 3) ℂ) (l : ℕ) (hq : q.IsHomogeneous l) (n : Fin 3 → ℂ) :
    fischer q (linForm n ^ l) = eval n q := by
  rw [linForm, sum_pow_eq_sum_piAntidiag]
  have h1 : ∀ k ∈ piAntidiag (univ : Finset (Fin 3)) l,
      fischer q ((Nat.multinomial univ k : MvPolynomial (Fin 3) ℂ) * ∏ i, (C (n i) * X i) ^ k i) =
        coeff (Finsupp.equivFunOnFinite.symm k) q * ∏ i, n i ^ k i := by
    intro k hk
    have e : ((Nat.multinomial univ k : MvPolynomial (Fin 3) ℂ) * ∏ i, (C (n i) * X i) ^ k i) =
        monomial (Finsupp.equivFunOnFinite.symm k) ((Nat.multinomial univ k : ℂ) * ∏ i, n i ^ k i) := by
      rw [monomial_eq, Finsupp.prod_fintype _ _ (fun _ => pow_zero _)]
      simp only [mul_pow, prod_mul_distrib, ← C_pow, ← map_prod, C_mul]
      simp [mul_assoc]
    rw [e, fischer_monomial]
    have t : (trinomialCoefficient (Finsupp.equivFunOnFinite.symm k) : ℂ) = (Nat.multinomial univ k : ℂ) := by
      have hs := Nat.multinomial_spec (univ : Finset (Fin 3)) k
      simp only [Fin.prod_univ_three, Fin.sum_univ_three] at hs
      have hs' : ((k 0)! * (k 1)! * (k 2)! : ℂ) * (Nat.multinomial univ k : ℂ) = ((k 0 + k 1 + k 2)! : ℂ) := by
        exact_mod_cast hs
      have f : ∀ j : ℕ, (j ! : ℂ) ≠ 0 := fun j => by exact_mod_cast j.factorial_ne_zero
      unfold trinomialCoefficient
      push_cast
      simp only [Finsupp.equivFunOnFinite_symm_apply_apply]
      rw [← hs']
      have := f (k 0); have := f (k 1); have := f (k 2)
      field_simp
    rw [t]
    have : (Nat.multinomial univ k : ℂ) ≠ 0 := by exact_mod_cast (Nat.multinomial_pos _ _).ne'
    field_simp
  rw [map_sum, sum_congr rfl h1, eval_eq']
  symm
  refine sum_bij_ne_zero (fun d _ _ => (d : Fin 3 → ℕ)) ?_ ?_ ?_ ?_
  · intro d hd _
    rw [mem_piAntidiag]
    refine ⟨?_, fun _ _ => mem_univ _⟩
    have := hq.degree_eq_sum_deg_support hd
    rw [this]
    exact (sum_subset (subset_univ _) fun i _ hi => Finsupp.notMem_support_iff.mp hi).symm
  · intro a _ _ b _ _ h
    exact DFunLike.coe_injective h
  · intro k hk hne
    refine ⟨Finsupp.equivFunOnFinite.symm k, ?_, hne, rfl⟩
    rw [mem_support_iff]
    exact left_ne_zero_of_mul hne
  · intro d _ _
    congr 2
    ext i; rfl

/-- the spherical harmonics as polynomials with complex coefficients -/
def symSHC (l : ℕ) (m : ℤ) : MvPolynomial (Fin 3) ℂ := map (algebraMap ℝ ℂ) (symSphericalHarmonics l m)

theorem eval_symSHC (l : ℕ) (m : ℤ) (r : Fin 3 → ℂ) : eval r (symSHC l m) = sphC l m r := by
  rw [symSHC, eval_map, sphC, aeval_def]

theorem symSHC_homog (l : ℕ) (m : ℤ) (h : |m| ≤ l) : (symSHC l m).IsHomogeneous l := (symSH_homog l m h).map _

theorem generating_poly (l : ℕ) (u v : ℂ) :
    kConst l • linForm (nullVec u v) ^ l = ∑ m ∈ Icc (-(l : ℤ)) l, sphC l m (nullVec u v) • symSHC l m := by
  refine MvPolynomial.funext fun r => ?_
  have h := generating l u v r
  simp only [smul_eq_C_mul, map_mul, map_pow, map_sum, eval_C, eval_linForm, eval_symSHC]
  exact h

/-- Every homogeneous polynomial of degree `l` is a combination of spherical harmonics on the null cone. -/
theorem null_expansion (l : ℕ) (q : MvPolynomial (Fin 3) ℂ) (hq : q.IsHomogeneous l) (u v : ℂ) :
    eval (nullVec u v) q =
      ∑ m ∈ Icc (-(l : ℤ)) l, fischer q (symSHC l m) / kConst l * sphC l m (nullVec u v) := by
  have h := congrArg (fischer q) (generating_poly l u v)
  rw [map_smul, fischer_linForm_pow q l hq, map_sum] at h
  have hk := kConst_ne l
  have h' : eval (nullVec u v) q = (∑ m ∈ Icc (-(l : ℤ)) l, fischer q (sphC l m (nullVec u v) • symSHC l m)) / kConst l := by
    rw [← h, smul_eq_mul]; field_simp
  rw [h', sum_div]
  refine sum_congr rfl fun m _ => ?_
  rw [map_smul, smul_eq_mul]; ring

/-- equal combinations of spherical harmonics on the null cone have equal coefficients -/
theorem null_coeff_eq (l : ℕ) (c d : ℤ → ℂ)
    (h : ∀ u v, ∑ m ∈ Icc (-(l : ℤ)) l, c m * sphC l m (nullVec u v) =
      ∑ m ∈ Icc (-(l : ℤ)) l, d m * sphC l m (nullVec u v)) :
    ∀ m ∈ Icc (-(l : ℤ)) l, c m = d m := by
  intro m hm
  refine sub_eq_zero.mp (null_independent l (fun m => c m - d m) (fun u v => ?_) m hm)
  rw [← sub_eq_zero.mpr (h u v), ← sum_sub_distrib]
  exact sum_congr rfl fun _ _ => by rw [sub_mul]; rfl

/-- The spherical harmonics are orthonormal for the scaled dot product. -/
theorem fischer_symSHC (l : ℕ) (m m' : ℤ) (hm : |m| ≤ l) (hm' : |m'| ≤ l) :
    fischer (symSHC l m') (symSHC l m) / kConst l = if m = m' then 1 else 0 := by
  refine null_coeff_eq l (fun m => fischer (symSHC l m') (symSHC l m) / kConst l) (fun m => if m = m' then 1 else 0)
    (fun u v => ?_) m (mem_Icc.mpr (abs_le.mp hm))
  rw [← null_expansion l _ (symSHC_homog l m' hm'), eval_symSHC]
  simp [ite_mul, (abs_le.mp hm').1, (abs_le.mp hm').2]

end

end E3x
