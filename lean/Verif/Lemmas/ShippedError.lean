import Verif.Lemmas.ShippedHarmonics
import Verif.Lemmas.SphericalHarmonics
import Verif.Lemmas.TensorIndices

/-!
# Values computed with the shipped table of spherical harmonics
-/

namespace E3x.Coefficients

open Spec MvPolynomial Finset Nat

/-- the polynomial with the absolute values of the coefficients -/
noncomputable def absPoly (p : MvPolynomial (Fin 3) ℝ) : MvPolynomial (Fin 3) ℝ :=
  ∑ k ∈ p.support, monomial k |coeff k p|

theorem coeff_absPoly (p : MvPolynomial (Fin 3) ℝ) (k : Fin 3 →₀ ℕ) : coeff k (absPoly p) = |coeff k p| := by
  unfold absPoly
  rw [coeff_sum]
  simp only [coeff_monomial]
  rw [Finset.sum_ite_eq']
  split_ifs with h
  · rfl
  · rw [notMem_support_iff.1 h, abs_zero]

theorem absPoly_homog {p : MvPolynomial (Fin 3) ℝ} {l : ℕ} (h : p.IsHomogeneous l) : (absPoly p).IsHomogeneous l := by
  intro k hk
  rw [coeff_absPoly] at hk
  exact h (by simpa using hk)

theorem absPoly_support (p : MvPolynomial (Fin 3) ℝ) : (absPoly p).support = p.support := by
  ext k
  rw [mem_support_iff, mem_support_iff, coeff_absPoly]
  simp

theorem trinomial_multinomial (k : Fin 3 →₀ ℕ) : trinomialCoefficient k = (Nat.multinomial univ (k : Fin 3 → ℕ) : ℝ) := by
  have hs := Nat.multinomial_spec (univ : Finset (Fin 3)) k
  simp only [Fin.prod_univ_three, Fin.sum_univ_three] at hs
  have hs' : ((k 0)! * (k 1)! * (k 2)! : ℝ) * (Nat.multinomial univ (k : Fin 3 → ℕ) : ℝ) = ((k 0 + k 1 + k 2)! : ℝ) := by
    exact_mod_cast hs
  unfold trinomialCoefficient
  rw [← hs']
  field_simp

theorem sum_trinomial_le {p : MvPolynomial (Fin 3) ℝ} {l : ℕ} (h : p.IsHomogeneous l) (u : Fin 3 → ℝ) :
    ∑ k ∈ p.support, trinomialCoefficient k * (∏ i, u i ^ k i) ^ 2 ≤ (normSq u) ^ l := by
  have e : normSq u = ∑ i, u i ^ 2 := by
    unfold normSq
    rw [Fin.sum_univ_three]
  rw [e, Finset.sum_pow_eq_sum_piAntidiag]
  have e2 : ∑ k ∈ p.support, trinomialCoefficient k * (∏ i, u i ^ k i) ^ 2 =
      ∑ k ∈ p.support.map ⟨fun k : Fin 3 →₀ ℕ => (k : Fin 3 → ℕ), DFunLike.coe_injective⟩,
        (Nat.multinomial univ k : ℝ) * ∏ i, (u i ^ 2) ^ k i := by
    rw [sum_map]
    refine sum_congr rfl fun k _ => ?_
    rw [trinomial_multinomial, ← prod_pow]
    congr 1
    refine prod_congr rfl fun i _ => ?_
    rw [← pow_mul, ← pow_mul, mul_comm]
    rfl
  rw [e2]
  refine sum_le_sum_of_subset_of_nonneg ?_ fun k _ _ => by positivity
  intro k hk
  obtain ⟨d, hd, rfl⟩ := mem_map.1 hk
  rw [mem_piAntidiag]
  refine ⟨?_, fun _ _ => mem_univ _⟩
  have := h.degree_eq_sum_deg_support hd
  rw [this]
  exact (sum_subset (subset_univ _) fun i _ hi => Finsupp.notMem_support_iff.mp hi).symm

theorem fischer_norm (l : ℕ) (m : ℤ) (hm : |m| ≤ l) :
    ∑ k ∈ (symSphericalHarmonics l m).support, coeff k (symSphericalHarmonics l m) ^ 2 / trinomialCoefficient k =
      ((2 * l).choose l : ℝ) / 2 ^ l := by
  have h := fischer_symSHC l m m hm hm
  rw [if_pos rfl, div_eq_one_iff_eq (kConst_ne l), fischer_eq] at h
  have hs : (symSHC l m).support = (symSphericalHarmonics l m).support :=
    support_map_of_injective _ (algebraMap ℝ ℂ).injective
  rw [hs] at h
  have h2 : ((∑ k ∈ (symSphericalHarmonics l m).support, coeff k (symSphericalHarmonics l m) ^ 2 /
      trinomialCoefficient k : ℝ) : ℂ) = ((((2 * l).choose l : ℝ) / 2 ^ l : ℝ) : ℂ) := by
    rw [Complex.ofReal_sum]
    refine Eq.trans (sum_congr rfl fun k _ => ?_) (h.trans ?_)
    · rw [symSHC, coeff_map]
      simp only [Complex.coe_algebraMap]
      push_cast
      ring
    · unfold kConst
      push_cast
      rw [inv_pow]
      ring
  exact_mod_cast h2

/-- the sum of the absolute values of the terms of a harmonic -/
theorem sum_abs_le (l : ℕ) (m : ℤ) (hm : |m| ≤ l) (u : Fin 3 → ℝ) :
    eval (fun i => |u i|) (absPoly (symSphericalHarmonics l m)) ≤
      Real.sqrt (((2 * l).choose l : ℝ) / 2 ^ l) * Spec.length u ^ l := by
  set p := symSphericalHarmonics l m with hp
  have hh := symSH_homog l m hm
  rw [eval_eq', absPoly_support]
  simp only [coeff_absPoly]
  have hcs := Finset.sum_mul_sq_le_sq_mul_sq p.support (fun k => |coeff k p| / Real.sqrt (trinomialCoefficient k))
    (fun k => Real.sqrt (trinomialCoefficient k) * ∏ i, |u i| ^ k i)
  have hpos : ∀ k : Fin 3 →₀ ℕ, 0 < trinomialCoefficient k := by
    intro k; unfold trinomialCoefficient; positivity
  have e1 : ∀ k ∈ p.support, |coeff k p| / Real.sqrt (trinomialCoefficient k) *
      (Real.sqrt (trinomialCoefficient k) * ∏ i, |u i| ^ k i) = |coeff k p| * ∏ i, |u i| ^ k i := by
    intro k _
    have := Real.sqrt_pos.2 (hpos k)
    field_simp
  have e2 : ∀ k ∈ p.support, (|coeff k p| / Real.sqrt (trinomialCoefficient k)) ^ 2 =
      coeff k p ^ 2 / trinomialCoefficient k := by
    intro k _
    rw [div_pow, Real.sq_sqrt (hpos k).le, sq_abs]
  have e3 : ∀ k ∈ p.support, (Real.sqrt (trinomialCoefficient k) * ∏ i, |u i| ^ k i) ^ 2 =
      trinomialCoefficient k * (∏ i, u i ^ k i) ^ 2 := by
    intro k _
    rw [mul_pow, Real.sq_sqrt (hpos k).le]
    congr 1
    rw [← prod_pow, ← prod_pow]
    refine prod_congr rfl fun i _ => ?_
    rw [← pow_mul, ← pow_mul, mul_comm (k i) 2, pow_mul, pow_mul, sq_abs]
  rw [sum_congr rfl e1, sum_congr rfl e2, sum_congr rfl e3, fischer_norm l m hm] at hcs
  have hle := sum_trinomial_le hh u
  have hN : (normSq u) ^ l = (Spec.length u ^ l) ^ 2 := by
    have : Spec.length u = Real.sqrt (normSq u) := rfl
    rw [this, ← pow_mul, mul_comm l 2, pow_mul, Real.sq_sqrt]
    unfold normSq; positivity
  rw [hN] at hle
  have hk : (0 : ℝ) ≤ ((2 * l).choose l : ℝ) / 2 ^ l := by positivity
  have hl : 0 ≤ Spec.length u ^ l := pow_nonneg (Real.sqrt_nonneg _) l
  refine abs_le_of_sq_le_sq' ?_ (by positivity) |>.2
  rw [mul_pow, Real.sq_sqrt hk]
  exact hcs.trans (mul_le_mul_of_nonneg_left hle hk)

theorem monomialValue_abs (u : Fin 3 → ℝ) (p : List ℕ) : |monomialValue u p| = monomialValue (fun i => |u i|) p := by
  unfold monomialValue
  rw [abs_prod]
  simp [abs_pow]

/-- one column: the difference of the sums over the rows -/
theorem column_error (L l : ℕ) (m : ℤ) (hl : l ≤ L) (hm : |m| ≤ l) (u : Fin 3 → ℝ) :
    |∑ i ∈ range (totalCartMonomials L), cartesianMonomial L u ((monomials monomialPowers L).getD i []) *
        rowCoefficient (monomials monomialPowers L) (shippedTerms l m) i -
      ∑ i ∈ range (totalCartMonomials L), cartesianMonomial L u ((monomials monomialPowers L).getD i []) *
        rowCoefficient (monomials monomialPowers L) (sphTerms l m) i| ≤
      2⁻¹ ^ 52 * (Real.sqrt (((2 * l).choose l : ℝ) / 2 ^ l) * Spec.length u ^ l) := by
  have hbound := sum_abs_le l m hm u
  have h := sum_monomials (n := 3) (by omega) (absPoly (symSphericalHarmonics l m)) l L hl
    (absPoly_homog (symSH_homog l m hm)) (fun i => |u i|) (monomials monomialPowers L) rfl
  rw [← sum_sub_distrib]
  refine (abs_sum_le_sum_abs _ _).trans (le_trans ?_ (mul_le_mul_of_nonneg_left hbound (by positivity)))
  rw [← h, mul_sum, monomials_length_cart]
  refine sum_le_sum fun i hi => ?_
  rw [mem_range, ← monomials_length_cart] at hi
  have hmem : (monomials monomialPowers L).getD i [] ∈ monomials (fun d => multicombinations d 3) L := by
    rw [List.getD, List.getElem?_eq_getElem hi, Option.getD_some]
    exact List.getElem_mem hi
  rw [rowCoefficient_getD _ hi, rowCoefficient_getD _ hi, cartesianMonomial_eq u (powers_mem_monomials (by omega) hmem).2,
    ← mul_sub, abs_mul, monomialValue_abs]
  have hc := shippedTerms_close l m hm ((monomials monomialPowers L).getD i [])
  obtain ⟨d, -, hd⟩ := (mem_monomials _ _ _).1 hmem
  have habs : coefficient (polyTerms (absPoly (symSphericalHarmonics l m))) ((monomials monomialPowers L).getD i []) =
      |coefficient (sphTerms l m) ((monomials monomialPowers L).getD i [])| := by
    unfold sphTerms
    rw [coefficient_power d _ _ hd, coefficient_power d _ _ hd, coeff_absPoly]
  rw [habs]
  have hmv : 0 ≤ monomialValue (fun i => |u i|) ((monomials monomialPowers L).getD i []) := by
    rw [← monomialValue_abs]
    exact abs_nonneg _
  calc _ ≤ monomialValue (fun i => |u i|) ((monomials monomialPowers L).getD i []) *
        (2⁻¹ ^ 52 * |coefficient (sphTerms l m) ((monomials monomialPowers L).getD i [])|) :=
        mul_le_mul_of_nonneg_left hc hmv
    _ = _ := by ring

end E3x.Coefficients
