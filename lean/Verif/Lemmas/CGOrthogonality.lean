import Verif.Lemmas.Bargmann
import Verif.Lemmas.Representation
import Mathlib.Algebra.Polynomial.Roots
import Mathlib.Data.Matrix.Mul

/-!
# Orthonormality of the Clebsch-Gordan coefficients
-/

namespace E3x

noncomputable section

open Finset MvPolynomial
open scoped Nat

/-- Racah's sum -/
def racah (l1 l2 l3 : ℕ) (k1 k2 : ℤ) : ℝ := ∑ i ∈ Icc (cgLo l1 l2 l3 k1 k2) (cgHi l1 l2 l3 k1 k2), cgTerm l1 l2 l3 k1 k2 i

def formExp (l1 l2 : ℕ) (K : ℤ × ℤ) : Fin 4 →₀ ℕ :=
  Finsupp.equivFunOnFinite.symm ![(l1 - K.1).toNat, (l1 + K.1).toNat, (l2 - K.2).toNat, (l2 + K.2).toNat]

def formFac (l1 l2 : ℕ) (K : ℤ × ℤ) : ℝ := ifac (l1 - K.1) * ifac (l1 + K.1) * (ifac (l2 - K.2) * ifac (l2 + K.2))

def I2 (l1 l2 : ℕ) : Finset (ℤ × ℤ) := Icc (-(l1 : ℤ)) l1 ×ˢ Icc (-(l2 : ℤ)) l2

theorem mem_I2 {l1 l2 : ℕ} {K : ℤ × ℤ} : K ∈ I2 l1 l2 ↔ |K.1| ≤ l1 ∧ |K.2| ≤ l2 := by
  simp only [I2, mem_product, mem_Icc, abs_le]

def coupledCoef (l1 l2 l3 : ℕ) (x y : ℂ) (K : ℤ × ℤ) : ℂ :=
  (racah l1 l2 l3 K.1 K.2 : ℂ) * (altSign K.1 * altSign K.2) *
    (if |K.1 + K.2| ≤ l3 then x ^ (l3 + (K.1 + K.2)).toNat * y ^ (l3 - (K.1 + K.2)).toNat else 0)

def coupledForm (l1 l2 l3 : ℕ) (x y : ℂ) : Form :=
  ∑ K ∈ I2 l1 l2, C (coupledCoef l1 l2 l3 x y K) * monomial (formExp l1 l2 K) 1

theorem eval_formExp (l1 l2 : ℕ) (K : ℤ × ℤ) (w : Fin 4 → ℂ) : MvPolynomial.eval w (monomial (formExp l1 l2 K) 1) =
    w 0 ^ (l1 - K.1).toNat * w 1 ^ (l1 + K.1).toNat * (w 2 ^ (l2 - K.2).toNat * w 3 ^ (l2 + K.2).toNat) := by
  rw [eval_monomial, one_mul, Finsupp.prod_fintype _ _ (fun i => pow_zero _), Fin.prod_univ_four]
  simp [formExp, mul_assoc]

theorem coupledForm_eq (l1 l2 l3 a b c : ℕ) (h : Tri l1 l2 l3 a b c) (x y : ℂ) : coupledForm l1 l2 l3 x y =
    C ((-1) ^ (l1 + l2) / ((a ! : ℂ) * b ! * c !)) * (bracket ^ a * linProd b c x y) := by
  refine MvPolynomial.funext fun w => ?_
  have hR := cg_reindex l1 l2 l3 a b c h (w 0) (w 1) (w 2) (w 3) x y
  have hL : MvPolynomial.eval w (coupledForm l1 l2 l3 x y) = ∑ k1 ∈ Icc (-(l1 : ℤ)) l1, ∑ k2 ∈ Icc (-(l2 : ℤ)) l2,
      ∑ k3 ∈ Icc (-(l3 : ℤ)) l3, (if k3 = k1 + k2 then
        (∑ i ∈ Icc (cgLo l1 l2 l3 k1 k2) (cgHi l1 l2 l3 k1 k2), (cgTerm l1 l2 l3 k1 k2 i : ℂ)) * (altSign k1 * altSign k2) *
          ((w 0 ^ (l1 - k1).toNat * w 1 ^ (l1 + k1).toNat) * (w 2 ^ (l2 - k2).toNat * w 3 ^ (l2 + k2).toNat) *
            (x ^ (l3 + k3).toNat * y ^ (l3 - k3).toNat)) else 0) := by
    rw [coupledForm, map_sum, I2, sum_product]
    refine sum_congr rfl fun k1 _ => sum_congr rfl fun k2 _ => ?_
    rw [map_mul, eval_C, eval_formExp, sum_ite_eq', coupledCoef, racah, Complex.ofReal_sum]
    by_cases hk : |k1 + k2| ≤ l3
    · rw [if_pos hk, if_pos (mem_Icc.mpr (abs_le.mp hk))]; ring
    · rw [if_neg hk, if_neg (fun h => hk (abs_le.mpr (mem_Icc.mp h)))]; ring
  rw [hL, hR]
  have fa : (a ! : ℂ) ≠ 0 := by exact_mod_cast a.factorial_ne_zero
  have fb : (b ! : ℂ) ≠ 0 := by exact_mod_cast b.factorial_ne_zero
  have fc : (c ! : ℂ) ≠ 0 := by exact_mod_cast c.factorial_ne_zero
  simp only [map_mul, eval_C, map_pow, bracket, linProd, alpha, beta, map_sub, eval_X]
  field_simp

theorem formExp_inj {l1 l2 : ℕ} {K K' : ℤ × ℤ} (h : K ∈ I2 l1 l2) (h' : K' ∈ I2 l1 l2)
    (e : formExp l1 l2 K = formExp l1 l2 K') : K = K' := by
  obtain ⟨h1, h2⟩ := mem_I2.mp h
  obtain ⟨h1', h2'⟩ := mem_I2.mp h'
  rw [abs_le] at h1 h2 h1' h2'
  have e1 := DFunLike.congr_fun e 1
  have e3 := DFunLike.congr_fun e 3
  simp [formExp] at e1 e3
  ext <;> omega

theorem formExp_fac (l1 l2 : ℕ) (K : ℤ × ℤ) : ∏ i, ((formExp l1 l2 K i)! : ℂ) = (formFac l1 l2 K : ℂ) := by
  rw [Fin.prod_univ_four]
  simp [formExp, formFac, ifac, mul_assoc]

theorem barg_sum {ι : Type} (s : Finset ι) (f : ι → Form) (p : Form) : barg (∑ i ∈ s, f i) p = ∑ i ∈ s, barg (f i) p := by
  rw [barg_symm, map_sum]
  exact sum_congr rfl fun i _ => barg_symm _ _

theorem barg_forms (l1 l2 : ℕ) (f g : ℤ × ℤ → ℂ) :
    barg (∑ K ∈ I2 l1 l2, C (g K) * monomial (formExp l1 l2 K) 1) (∑ K ∈ I2 l1 l2, C (f K) * monomial (formExp l1 l2 K) 1) =
      ∑ K ∈ I2 l1 l2, f K * g K * (formFac l1 l2 K : ℂ) := by
  rw [map_sum]
  refine sum_congr rfl fun K hK => ?_
  rw [barg_C_mul_right, barg_monomial, formExp_fac, coeff_sum, sum_eq_single K]
  · rw [coeff_C_mul, coeff_monomial, if_pos rfl]; ring
  · intro K' hK' hne
    rw [coeff_C_mul, coeff_monomial, if_neg (fun e => hne (formExp_inj hK' hK e)), mul_zero]
  · exact fun h => absurd hK h

/-- The weighted product of two Racah sums with given total order. -/
def racahPair (l1 l2 l3 l3' : ℕ) (k : ℤ) : ℝ :=
  ∑ K ∈ I2 l1 l2, if K.1 + K.2 = k then racah l1 l2 l3 K.1 K.2 * racah l1 l2 l3' K.1 K.2 * formFac l1 l2 K else 0

theorem barg_coupledForm (l1 l2 l3 l3' : ℕ) (x : ℂ) :
    barg (coupledForm l1 l2 l3' 1 1) (coupledForm l1 l2 l3 x 1) =
      ∑ k ∈ Icc (-(l3 : ℤ)) l3, (if |k| ≤ l3' then (racahPair l1 l2 l3 l3' k : ℂ) else 0) * x ^ (l3 + k).toNat := by
  rw [coupledForm, coupledForm, barg_forms]
  have e : ∀ k ∈ Icc (-(l3 : ℤ)) l3, (if |k| ≤ l3' then (racahPair l1 l2 l3 l3' k : ℂ) else 0) * x ^ (l3 + k).toNat =
      ∑ K ∈ I2 l1 l2, if K.1 + K.2 = k then (if |k| ≤ l3' then
        (racah l1 l2 l3 K.1 K.2 : ℂ) * racah l1 l2 l3' K.1 K.2 * formFac l1 l2 K else 0) * x ^ (l3 + k).toNat else 0 := by
    intro k _
    by_cases hk : |k| ≤ l3'
    · rw [if_pos hk, racahPair, Complex.ofReal_sum, sum_mul]
      refine sum_congr rfl fun K _ => ?_
      by_cases hK : K.1 + K.2 = k
      · rw [if_pos hK, if_pos hK, if_pos hk]; push_cast; ring
      · rw [if_neg hK, if_neg hK]; simp
    · rw [if_neg hk, zero_mul, sum_eq_zero]
      intro K _
      simp [hk]
  rw [sum_congr rfl e, sum_comm]
  refine sum_congr rfl fun K _ => ?_
  rw [sum_ite_eq, coupledCoef, coupledCoef]
  have s1 := altSign_mul_self K.1
  have s2 := altSign_mul_self K.2
  by_cases hk : |K.1 + K.2| ≤ l3
  · rw [if_pos hk, if_pos (mem_Icc.mpr (abs_le.mp hk))]
    by_cases hk' : |K.1 + K.2| ≤ l3'
    · rw [if_pos hk', if_pos hk', one_pow, one_pow, one_pow]
      linear_combination (racah l1 l2 l3 K.1 K.2 : ℂ) * racah l1 l2 l3' K.1 K.2 * formFac l1 l2 K * x ^ (l3 + (K.1 + K.2)).toNat *
        (s1 * (altSign K.2 * altSign K.2) + s2)
    · rw [if_neg hk', if_neg hk']; ring
  · rw [if_neg hk, if_neg (fun h => hk (abs_le.mpr (mem_Icc.mp h)))]; ring

/-- Powers of one variable are linearly independent. -/
theorem pow_independent (l : ℕ) (c : ℤ → ℂ) (P : Polynomial ℂ)
    (h : ∀ x, ∑ k ∈ Icc (-(l : ℤ)) l, c k * x ^ (l + k).toNat = P.eval x) (k : ℤ) (hk : |k| ≤ l) :
    c k = P.coeff (l + k).toNat := by
  have hP : ∑ k ∈ Icc (-(l : ℤ)) l, Polynomial.C (c k) * Polynomial.X ^ (l + k).toNat = P := by
    refine Polynomial.funext fun x => ?_
    rw [← h x, Polynomial.eval_finsetSum]
    simp
  have hk' := abs_le.mp hk
  rw [← hP, Polynomial.finsetSum_coeff, sum_eq_single k]
  · simp [Polynomial.coeff_C_mul]
  · intro j hj hne
    have := mem_Icc.mp hj
    rw [Polynomial.coeff_C_mul, Polynomial.coeff_X_pow, if_neg (by omega), mul_zero]
  · exact fun h => absurd (mem_Icc.mpr hk') h

theorem racahPair_ne (l1 l2 l3 l3' : ℕ) (a b c a' b' c' : ℕ) (h : Tri l1 l2 l3 a b c) (h' : Tri l1 l2 l3' a' b' c')
    (hne : l3 ≠ l3') (k : ℤ) (hk : |k| ≤ l3) (hk' : |k| ≤ l3') : racahPair l1 l2 l3 l3' k = 0 := by
  have ha : a ≠ a' := by
    obtain ⟨e1, e2, e3⟩ := h
    obtain ⟨e1', e2', e3'⟩ := h'
    omega
  have := pow_independent l3 (fun k => if |k| ≤ (l3' : ℤ) then (racahPair l1 l2 l3 l3' k : ℂ) else 0) 0 (fun x => by
    rw [← barg_coupledForm, coupledForm_eq l1 l2 l3 a b c h, coupledForm_eq l1 l2 l3' a' b' c' h', barg_C_mul, barg_C_mul_right,
      barg_coupled_ne _ _ _ _ _ _ _ _ _ _ ha]; simp) k hk
  simp only [if_pos hk', Polynomial.coeff_zero] at this
  exact_mod_cast this

theorem racahPair_self (l1 l2 l3 : ℕ) (a b c : ℕ) (h : Tri l1 l2 l3 a b c) (k : ℤ) (hk : |k| ≤ l3) :
    racahPair l1 l2 l3 l3 k * ((a ! : ℝ) * b ! * c ! * (2 * l3 + 1)) * (ifac (l3 - k) * ifac (l3 + k)) =
      ((l1 + l2 + l3 + 1)! : ℝ) := by
  obtain ⟨e1, e2, e3⟩ := id h
  have habc : a + b + c = l1 + l2 + l3 := by omega
  have fa : (a ! : ℂ) ≠ 0 := by exact_mod_cast a.factorial_ne_zero
  have fb : (b ! : ℂ) ≠ 0 := by exact_mod_cast b.factorial_ne_zero
  have fc : (c ! : ℂ) ≠ 0 := by exact_mod_cast c.factorial_ne_zero
  have fd : ((2 * l3 + 1)! : ℂ) ≠ 0 := by exact_mod_cast (2 * l3 + 1).factorial_ne_zero
  have key := pow_independent l3 (fun k => if |k| ≤ (l3 : ℤ) then (racahPair l1 l2 l3 l3 k : ℂ) else 0)
    (Polynomial.C (((l1 + l2 + l3 + 1)! : ℂ) / ((a ! : ℂ) * b ! * c ! * (2 * l3 + 1)!)) * (Polynomial.X + 1) ^ (2 * l3))
    (fun x => by
      rw [← barg_coupledForm, coupledForm_eq l1 l2 l3 a b c h, coupledForm_eq l1 l2 l3 a b c h, barg_C_mul, barg_C_mul_right]
      have hb := barg_coupled a b c x 1 1 1
      rw [e3, habc, mul_one, mul_one] at hb
      have hs : ((-1 : ℂ) ^ (l1 + l2)) * (-1) ^ (l1 + l2) = 1 := by rw [← mul_pow]; simp
      rw [eq_div_of_mul_eq fd hb]
      simp only [Polynomial.eval_mul, Polynomial.eval_C, Polynomial.eval_pow, Polynomial.eval_add, Polynomial.eval_X,
        Polynomial.eval_one]
      field_simp
      linear_combination ((l1 + l2 + l3 + 1)! : ℂ) * (x + 1) ^ (2 * l3) * hs) k hk
  simp only [if_pos hk, Polynomial.coeff_C_mul, Polynomial.coeff_X_add_one_pow] at key
  have hk' := abs_le.mp hk
  have hch : ((2 * l3).choose (l3 + k).toNat : ℝ) * (ifac (l3 + k) * ifac (l3 - k)) = ((2 * l3)! : ℝ) := by
    have := Nat.choose_mul_factorial_mul_factorial (show (l3 + k).toNat ≤ 2 * l3 by omega)
    rw [show 2 * l3 - (l3 + k).toNat = (l3 - k).toNat by omega] at this
    unfold ifac
    rw [← this]; push_cast; ring
  have key' : racahPair l1 l2 l3 l3 k =
      ((l1 + l2 + l3 + 1)! : ℝ) / ((a ! : ℝ) * b ! * c ! * (2 * l3 + 1)!) * ((2 * l3).choose (l3 + k).toNat : ℝ) := by
    apply Complex.ofReal_injective
    rw [key]
    push_cast
    ring
  have fa' : (a ! : ℝ) ≠ 0 := by exact_mod_cast a.factorial_ne_zero
  have fb' : (b ! : ℝ) ≠ 0 := by exact_mod_cast b.factorial_ne_zero
  have fc' : (c ! : ℝ) ≠ 0 := by exact_mod_cast c.factorial_ne_zero
  have fd' : ((2 * l3 + 1)! : ℝ) ≠ 0 := by exact_mod_cast (2 * l3 + 1).factorial_ne_zero
  rw [key']
  have hf : ((2 * l3 + 1)! : ℝ) = (2 * l3 + 1) * ((2 * l3)! : ℝ) := by rw [Nat.factorial_succ]; push_cast; ring
  have : ((l1 + l2 + l3 + 1)! : ℝ) / ((a ! : ℝ) * b ! * c ! * (2 * l3 + 1)!) * ((2 * l3).choose (l3 + k).toNat : ℝ) *
      ((a ! : ℝ) * b ! * c ! * (2 * l3 + 1)) * (ifac (l3 - k) * ifac (l3 + k)) =
      ((l1 + l2 + l3 + 1)! : ℝ) / ((a ! : ℝ) * b ! * c ! * (2 * l3 + 1)!) * ((a ! : ℝ) * b ! * c ! * (2 * l3 + 1)) *
      (((2 * l3).choose (l3 + k).toNat : ℝ) * (ifac (l3 + k) * ifac (l3 - k))) := by ring
  rw [this, hch]
  field_simp
  rw [hf]

theorem sqrtFac_sq (l : ℕ) (k : ℤ) (hk : |k| ≤ l) : sqrtFac l k.natAbs * sqrtFac l k.natAbs = ifac (l - k) * ifac (l + k) := by
  rw [sqrtFac_eq l k hk]
  exact Real.mul_self_sqrt (mul_pos (ifac_pos _) (ifac_pos _)).le

/-- The complex coefficients are orthonormal. -/
theorem complexCG_orthonormal (l1 l2 l3 l3' : ℕ) (h : l3 ≤ l1 + l2 ∧ l2 ≤ l1 + l3 ∧ l1 ≤ l2 + l3)
    (h' : l3' ≤ l1 + l2 ∧ l2 ≤ l1 + l3' ∧ l1 ≤ l2 + l3') (k k' : ℤ) (hk : |k| ≤ l3) (hk' : |k'| ≤ l3') :
    ∑ K ∈ I2 l1 l2, complexCG l1 l2 l3 K.1 K.2 k * complexCG l1 l2 l3' K.1 K.2 k' = if l3 = l3' ∧ k = k' then 1 else 0 := by
  obtain ⟨a, b, c, t⟩ := exists_tri l1 l2 l3 h
  obtain ⟨a', b', c', t'⟩ := exists_tri l1 l2 l3' h'
  by_cases e : k = k'
  swap
  · rw [if_neg (fun h => e h.2)]
    refine sum_eq_zero fun K _ => ?_
    by_cases hK : k = K.1 + K.2
    · rw [complexCG_of_ne l1 l2 l3' K.1 K.2 k' (fun h => e (hK.trans h.symm)), mul_zero]
    · rw [complexCG_of_ne l1 l2 l3 K.1 K.2 k hK, zero_mul]
  subst e
  have hs : ∑ K ∈ I2 l1 l2, complexCG l1 l2 l3 K.1 K.2 k * complexCG l1 l2 l3' K.1 K.2 k =
      cgNorm l1 l2 l3 a b c * cgNorm l1 l2 l3' a' b' c' * (sqrtFac l3 k.natAbs * sqrtFac l3' k.natAbs) *
        racahPair l1 l2 l3 l3' k := by
    rw [racahPair, mul_sum]
    refine sum_congr rfl fun K hK => ?_
    obtain ⟨h1, h2⟩ := mem_I2.mp hK
    by_cases hk2 : K.1 + K.2 = k
    · rw [if_pos hk2, complexCG_eq l1 l2 l3 a b c t K.1 K.2 k h1 h2 hk hk2.symm,
        complexCG_eq l1 l2 l3' a' b' c' t' K.1 K.2 k h1 h2 hk' hk2.symm, formFac, ← sqrtFac_sq l1 K.1 h1, ← sqrtFac_sq l2 K.2 h2]
      simp only [racah]
      ring
    · rw [if_neg hk2, complexCG_of_ne l1 l2 l3 K.1 K.2 k (fun h => hk2 h.symm)]; ring
  rw [hs]
  by_cases hl : l3 = l3'
  swap
  · rw [if_neg (fun h => hl h.1), racahPair_ne l1 l2 l3 l3' a b c a' b' c' t t' hl k hk hk', mul_zero]
  subst hl
  have hab : a' = a ∧ b' = b ∧ c' = c := by
    obtain ⟨e1, e2, e3⟩ := t
    obtain ⟨e1', e2', e3'⟩ := t'
    omega
  obtain ⟨rfl, rfl, rfl⟩ := hab
  rw [if_pos ⟨rfl, rfl⟩, sqrtFac_sq l3 k hk]
  have hself := racahPair_self l1 l2 l3 a' b' c' t k hk
  have hf : ((l1 + l2 + l3 + 1)! : ℝ) ≠ 0 := by exact_mod_cast (l1 + l2 + l3 + 1).factorial_ne_zero
  have hn : cgNorm l1 l2 l3 a' b' c' * cgNorm l1 l2 l3 a' b' c' =
      (2 * l3 + 1) * (a' ! * b' ! * c' ! / (l1 + l2 + l3 + 1)! : ℝ) := by
    unfold cgNorm
    rw [mul_mul_mul_comm, Real.mul_self_sqrt (by positivity), Real.mul_self_sqrt (by positivity)]
  rw [hn]
  field_simp
  linear_combination hself

/-! ## the real coefficients -/

theorem basisU_parseval (l : ℕ) (f g : ℤ → ℂ) :
    ∑ m ∈ Icc (-(l : ℤ)) l, (∑ κ ∈ Icc (-(l : ℤ)) l, basisU m κ * f κ) *
      starRingEnd ℂ (∑ κ ∈ Icc (-(l : ℤ)) l, basisU m κ * g κ) = ∑ κ ∈ Icc (-(l : ℤ)) l, f κ * starRingEnd ℂ (g κ) := by
  have e : ∀ m ∈ Icc (-(l : ℤ)) l, (∑ κ ∈ Icc (-(l : ℤ)) l, basisU m κ * f κ) *
      starRingEnd ℂ (∑ κ ∈ Icc (-(l : ℤ)) l, basisU m κ * g κ) = ∑ κ ∈ Icc (-(l : ℤ)) l, ∑ κ' ∈ Icc (-(l : ℤ)) l,
        (f κ * starRingEnd ℂ (g κ')) * (starRingEnd ℂ (basisU m κ') * basisU m κ) := by
    intro m _
    rw [map_sum, sum_mul_sum]
    refine sum_congr rfl fun κ _ => sum_congr rfl fun κ' _ => ?_
    rw [map_mul]; ring
  rw [sum_congr rfl e, sum_comm]
  refine sum_congr rfl fun κ hκ => ?_
  rw [sum_comm]
  have e2 : ∀ κ' ∈ Icc (-(l : ℤ)) l, ∑ m ∈ Icc (-(l : ℤ)) l, (f κ * starRingEnd ℂ (g κ')) *
      (starRingEnd ℂ (basisU m κ') * basisU m κ) = if κ = κ' then f κ * starRingEnd ℂ (g κ') else 0 := by
    intro κ' hκ'
    rw [← mul_sum, conj_basisU_mul l κ' κ (abs_le.mpr (mem_Icc.mp hκ')), mul_ite, mul_one, mul_zero]
  rw [sum_congr rfl e2, sum_ite_eq, if_pos hκ]

theorem basisU_parseval2 (l1 l2 : ℕ) (f g : ℤ × ℤ → ℂ) :
    ∑ M ∈ I2 l1 l2, (∑ K ∈ I2 l1 l2, basisU M.1 K.1 * basisU M.2 K.2 * f K) *
      starRingEnd ℂ (∑ K ∈ I2 l1 l2, basisU M.1 K.1 * basisU M.2 K.2 * g K) =
      ∑ K ∈ I2 l1 l2, f K * starRingEnd ℂ (g K) := by
  have e : ∀ (f : ℤ × ℤ → ℂ) (m1 m2 : ℤ), ∑ K ∈ I2 l1 l2, basisU m1 K.1 * basisU m2 K.2 * f K =
      ∑ k1 ∈ Icc (-(l1 : ℤ)) l1, basisU m1 k1 * ∑ k2 ∈ Icc (-(l2 : ℤ)) l2, basisU m2 k2 * f (k1, k2) := by
    intro f m1 m2
    rw [I2, sum_product]
    refine sum_congr rfl fun k1 _ => ?_
    rw [mul_sum]
    exact sum_congr rfl fun k2 _ => by ring
  simp only [e]
  rw [I2, sum_product, sum_comm]
  have e2 : ∀ m2 ∈ Icc (-(l2 : ℤ)) l2, _ := fun m2 _ => basisU_parseval l1
    (fun k1 => ∑ k2 ∈ Icc (-(l2 : ℤ)) l2, basisU m2 k2 * f (k1, k2))
    (fun k1 => ∑ k2 ∈ Icc (-(l2 : ℤ)) l2, basisU m2 k2 * g (k1, k2))
  rw [sum_congr rfl e2, sum_comm, sum_product]
  exact sum_congr rfl fun k1 _ => basisU_parseval l2 (fun k2 => f (k1, k2)) (fun k2 => g (k1, k2))

/-- the mixed coefficients: complex in the first two arguments, real in the third -/
def mixedCG (l1 l2 l3 : ℕ) (m3 : ℤ) (K : ℤ × ℤ) : ℂ := Complex.I ^ ((l1 : ℤ) + l2 - l3) *
  ∑ k3 ∈ Icc (-(l3 : ℤ)) l3, starRingEnd ℂ (basisU m3 k3) * (complexCG l1 l2 l3 K.1 K.2 k3 : ℂ)

theorem symCGC_mixed (l1 l2 l3 : ℕ) (M : ℤ × ℤ) (hM : M ∈ I2 l1 l2) (m3 : ℤ) (h3 : |m3| ≤ l3) :
    (symClebschGordan l1 M.1 l2 M.2 l3 m3 : ℂ) = ∑ K ∈ I2 l1 l2, basisU M.1 K.1 * basisU M.2 K.2 * mixedCG l1 l2 l3 m3 K := by
  obtain ⟨h1, h2⟩ := mem_I2.mp hM
  have hM3 : (M.1, M.2, m3) ∈ I3 l1 l2 l3 := mem_I3.mpr ⟨h1, h2, h3⟩
  have e := symCGC_eq l1 l2 l3 (M.1, M.2, m3) hM3
  rw [← symCGC_ofReal l1 l2 l3 (M.1, M.2, m3) hM3]
  refine e.trans ?_
  rw [I3, sum_product, I2, sum_product, mul_sum]
  refine sum_congr rfl fun k1 _ => ?_
  rw [sum_product, mul_sum]
  refine sum_congr rfl fun k2 _ => ?_
  simp only [mixedCG]
  rw [mul_sum, mul_sum, mul_sum]
  exact sum_congr rfl fun k3 _ => by ring

/-- The real coefficients are orthonormal. -/
theorem symCG_orthonormal (l1 l2 l3 l3' : ℕ) (h : l3 ≤ l1 + l2 ∧ l2 ≤ l1 + l3 ∧ l1 ≤ l2 + l3)
    (h' : l3' ≤ l1 + l2 ∧ l2 ≤ l1 + l3' ∧ l1 ≤ l2 + l3') (m m' : ℤ) (hm : |m| ≤ l3) (hm' : |m'| ≤ l3') :
    ∑ M ∈ I2 l1 l2, symClebschGordan l1 M.1 l2 M.2 l3 m * symClebschGordan l1 M.1 l2 M.2 l3' m' =
      if l3 = l3' ∧ m = m' then 1 else 0 := by
  apply Complex.ofReal_injective
  have e : ∀ M ∈ I2 l1 l2, ((symClebschGordan l1 M.1 l2 M.2 l3 m * symClebschGordan l1 M.1 l2 M.2 l3' m' : ℝ) : ℂ) =
      (∑ K ∈ I2 l1 l2, basisU M.1 K.1 * basisU M.2 K.2 * mixedCG l1 l2 l3 m K) *
      starRingEnd ℂ (∑ K ∈ I2 l1 l2, basisU M.1 K.1 * basisU M.2 K.2 * mixedCG l1 l2 l3' m' K) := by
    intro M hM
    rw [← symCGC_mixed l1 l2 l3 M hM m hm, ← symCGC_mixed l1 l2 l3' M hM m' hm', Complex.conj_ofReal, Complex.ofReal_mul]
  rw [Complex.ofReal_sum, sum_congr rfl e, basisU_parseval2]
  have e2 : ∀ K ∈ I2 l1 l2, mixedCG l1 l2 l3 m K * starRingEnd ℂ (mixedCG l1 l2 l3' m' K) =
      ∑ k ∈ Icc (-(l3 : ℤ)) l3, ∑ k' ∈ Icc (-(l3' : ℤ)) l3',
        (Complex.I ^ ((l1 : ℤ) + l2 - l3) * starRingEnd ℂ (Complex.I ^ ((l1 : ℤ) + l2 - l3')) *
          (basisU m' k' * starRingEnd ℂ (basisU m k))) *
          ((complexCG l1 l2 l3 K.1 K.2 k * complexCG l1 l2 l3' K.1 K.2 k' : ℝ) : ℂ) := by
    intro K _
    rw [mixedCG, mixedCG, map_mul, mul_mul_mul_comm, map_sum, sum_mul_sum, mul_sum]
    refine sum_congr rfl fun k _ => ?_
    rw [mul_sum]
    refine sum_congr rfl fun k' _ => ?_
    rw [map_mul, Complex.conj_conj, Complex.conj_ofReal, Complex.ofReal_mul]
    ring
  rw [sum_congr rfl e2, sum_comm]
  have e3 : ∀ k ∈ Icc (-(l3 : ℤ)) l3, ∑ K ∈ I2 l1 l2, ∑ k' ∈ Icc (-(l3' : ℤ)) l3',
        (Complex.I ^ ((l1 : ℤ) + l2 - l3) * starRingEnd ℂ (Complex.I ^ ((l1 : ℤ) + l2 - l3')) *
          (basisU m' k' * starRingEnd ℂ (basisU m k))) *
          ((complexCG l1 l2 l3 K.1 K.2 k * complexCG l1 l2 l3' K.1 K.2 k' : ℝ) : ℂ) =
      ∑ k' ∈ Icc (-(l3' : ℤ)) l3', (Complex.I ^ ((l1 : ℤ) + l2 - l3) * starRingEnd ℂ (Complex.I ^ ((l1 : ℤ) + l2 - l3')) *
          (basisU m' k' * starRingEnd ℂ (basisU m k))) * (if l3 = l3' ∧ k = k' then 1 else 0) := by
    intro k hk
    rw [sum_comm]
    refine sum_congr rfl fun k' hk' => ?_
    rw [← mul_sum, ← Complex.ofReal_sum, complexCG_orthonormal l1 l2 l3 l3' h h' k k' (abs_le.mpr (mem_Icc.mp hk))
      (abs_le.mpr (mem_Icc.mp hk'))]
    split_ifs <;> simp
  rw [sum_congr rfl e3]
  by_cases hl : l3 = l3'
  · subst hl
    have hI : Complex.I ^ ((l1 : ℤ) + l2 - l3) * starRingEnd ℂ (Complex.I ^ ((l1 : ℤ) + l2 - l3)) = 1 := by
      rw [map_zpow₀, Complex.conj_I, ← mul_zpow]; simp
    have e4 : ∀ k ∈ Icc (-(l3 : ℤ)) l3, ∑ k' ∈ Icc (-(l3 : ℤ)) l3,
        (Complex.I ^ ((l1 : ℤ) + l2 - l3) * starRingEnd ℂ (Complex.I ^ ((l1 : ℤ) + l2 - l3)) *
          (basisU m' k' * starRingEnd ℂ (basisU m k))) * (if l3 = l3 ∧ k = k' then 1 else 0) =
        basisU m' k * starRingEnd ℂ (basisU m k) := by
      intro k hk
      simp only [true_and, mul_ite, mul_one, mul_zero]
      rw [sum_ite_eq, if_pos hk, hI, one_mul]
    rw [sum_congr rfl e4, basisU_mul_conj l3 m' m hm']
    simp only [true_and]
    split_ifs <;> simp
  · simp [hl]

end

/-! ## in terms of flat indices -/

noncomputable section

open Finset Spec

/-- The columns of a square matrix with orthonormal rows are orthonormal. -/
theorem square_orthonormal (P1 P2 Q : Finset ℕ) (hcard : #Q = #P1 * #P2) (f : ℕ → ℕ → ℕ → ℝ)
    (h : ∀ k ∈ Q, ∀ k' ∈ Q, ∑ i ∈ P1, ∑ j ∈ P2, f i j k * f i j k' = if k = k' then 1 else 0)
    (i i' j j' : ℕ) (hi : i ∈ P1) (hi' : i' ∈ P1) (hj : j ∈ P2) (hj' : j' ∈ P2) :
    ∑ k ∈ Q, f i j k * f i' j' k = if i = i' ∧ j = j' then 1 else 0 := by
  let A : Matrix Q (P1 × P2) ℝ := Matrix.of fun k p => f p.1.1 p.2.1 k.1
  have hAA : A * A.transpose = 1 := by
    ext k k'
    rw [Matrix.mul_apply, Fintype.sum_prod_type, Matrix.one_apply]
    have := h k.1 k.2 k'.1 k'.2
    rw [← sum_coe_sort] at this
    simp only [Subtype.ext_iff]
    rw [← this]
    refine sum_congr rfl fun p _ => ?_
    rw [← sum_coe_sort P2]
    rfl
  have hAA' := (Matrix.mul_eq_one_comm_of_card_eq _ _ _ (by simpa using hcard)).mp hAA
  have hm := congrFun (congrFun hAA' (⟨i, hi⟩, ⟨j, hj⟩)) (⟨i', hi'⟩, ⟨j', hj'⟩)
  rw [Matrix.mul_apply, Matrix.one_apply] at hm
  rw [← sum_coe_sort Q]
  refine Eq.trans ?_ (hm.trans ?_)
  · exact sum_congr rfl fun k _ => rfl
  · simp only [Prod.ext_iff, Subtype.ext_iff]

theorem degreeOf_Ico {l i : ℕ} : i ∈ Ico (l ^ 2) ((l + 1) ^ 2) ↔ degreeOf i = l := by
  rw [mem_Ico, degreeOf_eq_deg, deg_eq_iff]

theorem sum_Ico_components (cart : Bool) (l : ℕ) (g : ℤ → ℝ) :
    ∑ i ∈ Ico (l ^ 2) ((l + 1) ^ 2), g (componentOrder cart i) = ∑ m ∈ Icc (-(l : ℤ)) l, g m := by
  rw [← sum_components cart (le_refl l) (fun i => if degreeOf i = l then g (componentOrder cart i) else 0) g
    (fun i hi => if_pos hi) (fun i hi => if_neg hi), ← sum_filter]
  refine sum_congr ?_ fun _ _ => rfl
  ext i
  rw [degreeOf_Ico, mem_filter, mem_range]
  refine ⟨fun h => ⟨?_, h⟩, fun h => h.2⟩
  exact (mem_Ico.mp (degreeOf_Ico.mpr h)).2

theorem cgTensor_orthonormal (cart : Bool) (l1 l2 k k' : ℕ) (h : Triangle l1 l2 (degreeOf k))
    (h' : Triangle l1 l2 (degreeOf k')) :
    ∑ i ∈ Ico (l1 ^ 2) ((l1 + 1) ^ 2), ∑ j ∈ Ico (l2 ^ 2) ((l2 + 1) ^ 2), cgTensor cart i j k * cgTensor cart i j k' =
      if k = k' then 1 else 0 := by
  have t : ∀ l3, Triangle l1 l2 l3 → l3 ≤ l1 + l2 ∧ l2 ≤ l1 + l3 ∧ l1 ≤ l2 + l3 := by
    intro l3 h
    obtain ⟨a, b⟩ := h
    rw [abs_le] at a
    omega
  have := symCG_orthonormal l1 l2 (degreeOf k) (degreeOf k') (t _ h) (t _ h') (componentOrder cart k)
    (componentOrder cart k') (componentOrder_bounds cart k) (componentOrder_bounds cart k')
  rw [I2, sum_product] at this
  rw [show (if k = k' then (1 : ℝ) else 0) =
    if degreeOf k = degreeOf k' ∧ componentOrder cart k = componentOrder cart k' then 1 else 0 from ?_, ← this]
  · rw [← sum_Ico_components cart l1]
    refine sum_congr rfl fun i hi => ?_
    rw [← sum_Ico_components cart l2]
    refine sum_congr rfl fun j hj => ?_
    unfold cgTensor
    rw [degreeOf_Ico.mp hi, degreeOf_Ico.mp hj]
  · by_cases e : k = k'
    · subst e; simp
    · rw [if_neg e, if_neg (fun h => e (component_inj cart h.1 h.2))]

/-- The coefficients of two degrees form a square orthogonal matrix. -/
theorem cgTensor_complete (cart : Bool) (L : ℕ) (i i' j j' : ℕ) (hi : degreeOf i = degreeOf i') (hj : degreeOf j = degreeOf j')
    (hL : degreeOf i + degreeOf j ≤ L) :
    ∑ k ∈ range ((L + 1) ^ 2), cgTensor cart i j k * cgTensor cart i' j' k = if i = i' ∧ j = j' then 1 else 0 := by
  obtain ⟨l1, h1⟩ : ∃ l, degreeOf i = l := ⟨_, rfl⟩
  obtain ⟨l2, h2⟩ : ∃ l, degreeOf j = l := ⟨_, rfl⟩
  have h1' := hi.symm.trans h1
  have h2' := hj.symm.trans h2
  rw [h1, h2] at hL
  set d := (l1 - l2) + (l2 - l1) with hd
  have htri : ∀ k, Triangle l1 l2 (degreeOf k) ↔ k ∈ Ico (d ^ 2) ((l1 + l2 + 1) ^ 2) := by
    intro k
    have e1 : d ^ 2 ≤ k ↔ d ≤ degreeOf k := by unfold degreeOf; rw [Nat.le_sqrt']
    have e2 : k < (l1 + l2 + 1) ^ 2 ↔ degreeOf k ≤ l1 + l2 := (deg_le_iff k _).symm
    rw [mem_Ico, e1, e2, Triangle, abs_le]
    omega
  have hcard : #(Ico (d ^ 2) ((l1 + l2 + 1) ^ 2)) = #(Ico (l1 ^ 2) ((l1 + 1) ^ 2)) * #(Ico (l2 ^ 2) ((l2 + 1) ^ 2)) := by
    rw [Nat.card_Ico, Nat.card_Ico, Nat.card_Ico]
    have a1 : (l1 + 1) ^ 2 - l1 ^ 2 = 2 * l1 + 1 := by
      rw [show (l1 + 1) ^ 2 = 2 * l1 + 1 + l1 ^ 2 by ring]; omega
    have a2 : (l2 + 1) ^ 2 - l2 ^ 2 = 2 * l2 + 1 := by
      rw [show (l2 + 1) ^ 2 = 2 * l2 + 1 + l2 ^ 2 by ring]; omega
    rw [a1, a2]
    rcases le_total l1 l2 with hle | hle
    · obtain ⟨t, rfl⟩ := Nat.exists_eq_add_of_le hle
      have : d = t := by omega
      rw [this, show (l1 + (l1 + t) + 1) ^ 2 = (2 * l1 + 1) * (2 * (l1 + t) + 1) + t ^ 2 by ring]; omega
    · obtain ⟨t, rfl⟩ := Nat.exists_eq_add_of_le hle
      have : d = t := by omega
      rw [this, show (l2 + t + l2 + 1) ^ 2 = (2 * (l2 + t) + 1) * (2 * l2 + 1) + t ^ 2 by ring]; omega
  have hsum : ∑ k ∈ range ((L + 1) ^ 2), cgTensor cart i j k * cgTensor cart i' j' k =
      ∑ k ∈ Ico (d ^ 2) ((l1 + l2 + 1) ^ 2), cgTensor cart i j k * cgTensor cart i' j' k := by
    symm
    refine sum_subset ?_ ?_
    · intro k hk
      rw [mem_range]
      have := (mem_Ico.mp hk).2
      have : (l1 + l2 + 1) ^ 2 ≤ (L + 1) ^ 2 := Nat.pow_le_pow_left (by omega) 2
      omega
    · intro k _ hk
      have : ¬ Triangle l1 l2 (degreeOf k) := fun h => hk ((htri k).mp h)
      have : cgTensor cart i j k = 0 := by
        unfold cgTensor
        rw [h1, h2]
        exact symCG_of_not_tri _ _ _ _ _ _ (fun h' => this ⟨by rw [abs_le]; omega, by omega⟩)
      rw [this, zero_mul]
  rw [hsum]
  exact square_orthonormal _ _ _ hcard (cgTensor cart)
    (fun k hk k' hk' => cgTensor_orthonormal cart l1 l2 k k' ((htri _).mpr hk) ((htri _).mpr hk')) i i' j j'
    (degreeOf_Ico.mpr h1) (degreeOf_Ico.mpr h1') (degreeOf_Ico.mpr h2) (degreeOf_Ico.mpr h2')

theorem ofDegree_eq {L l : ℕ} (h : l ≤ L) : {i ∈ range ((L + 1) ^ 2) | degreeOf i = l} = Ico (l ^ 2) ((l + 1) ^ 2) := by
  ext i
  rw [degreeOf_Ico, mem_filter, mem_range]
  refine ⟨fun h => h.2, fun hi => ⟨?_, hi⟩⟩
  have h1 := (mem_Ico.mp (degreeOf_Ico.mpr hi)).2
  have h2 : (l + 1) ^ 2 ≤ (L + 1) ^ 2 := Nat.pow_le_pow_left (by omega) 2
  omega

theorem lt_of_Ico {L l i : ℕ} (h : l ≤ L) (hi : i ∈ Ico (l ^ 2) ((l + 1) ^ 2)) : i < (L + 1) ^ 2 := by
  rw [← ofDegree_eq h] at hi
  exact mem_range.mp (mem_filter.mp hi).1

end

end E3x
