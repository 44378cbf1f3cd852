import Verif.Spec.Sphere
import Verif.Lemmas.Addition
import Mathlib.Analysis.SpecialFunctions.Integrals.Basic
import Mathlib.Algebra.MvPolynomial.PDeriv
import Mathlib.RingTheory.MvPolynomial.EulerIdentity
import Mathlib.Topology.Algebra.MvPolynomial
import Mathlib.RingTheory.Derivation.Lie
import Mathlib.Data.Nat.Factorial.DoubleFactorial

/-!
# Integrals of polynomials over the unit sphere
-/

namespace E3x

noncomputable section

open Finset MvPolynomial intervalIntegral
open Spec (sphereIntegral spherePoint)
open scoped Nat

/-! ## one angle -/

/-- `∫₀ᵀ cosᵃ sinᵇ` -/
def trigInt (T : ℝ) (a b : ℕ) : ℝ := ∫ t in (0 : ℝ)..T, Real.cos t ^ a * Real.sin t ^ b

theorem trigInt_integrable (T : ℝ) (a b : ℕ) :
    IntervalIntegrable (fun t => Real.cos t ^ a * Real.sin t ^ b) MeasureTheory.volume 0 T :=
  (by fun_prop : Continuous fun t => Real.cos t ^ a * Real.sin t ^ b).intervalIntegrable _ _

theorem trigInt_split (T : ℝ) (a b : ℕ) : trigInt T (a + 2) b + trigInt T a (b + 2) = trigInt T a b := by
  unfold trigInt
  rw [← integral_add (trigInt_integrable _ _ _) (trigInt_integrable _ _ _)]
  refine integral_congr fun t _ => ?_
  have h := Real.sin_sq_add_cos_sq t
  simp only [pow_add]
  linear_combination (Real.cos t ^ a * Real.sin t ^ b) * h

theorem trigInt_parts (T : ℝ) (hT : Real.sin T = 0) (a b : ℕ) :
    ((b : ℝ) + 1) * trigInt T (a + 2) b = (a + 1) * trigInt T a (b + 2) := by
  have hd : ∀ t : ℝ, HasDerivAt (fun t => Real.cos t ^ (a + 1) * Real.sin t ^ (b + 1))
      (((b : ℝ) + 1) * (Real.cos t ^ (a + 2) * Real.sin t ^ b) - (a + 1) * (Real.cos t ^ a * Real.sin t ^ (b + 2))) t := by
    intro t
    have h := ((Real.hasDerivAt_cos t).pow (a + 1)).mul ((Real.hasDerivAt_sin t).pow (b + 1))
    refine h.congr_deriv ?_
    simp only [Nat.add_sub_cancel, Pi.pow_apply]
    push_cast
    ring
  have h := integral_eq_sub_of_hasDerivAt (a := 0) (b := T) (fun t _ => hd t)
    (((trigInt_integrable T (a + 2) b).const_mul _).sub ((trigInt_integrable T a (b + 2)).const_mul _))
  rw [integral_sub ((trigInt_integrable T (a + 2) b).const_mul _) ((trigInt_integrable T a (b + 2)).const_mul _),
    integral_const_mul, integral_const_mul, hT, Real.sin_zero] at h
  simp only [ne_eq, Nat.add_eq_zero_iff, one_ne_zero, and_false, not_false_eq_true, zero_pow, mul_zero, sub_zero] at h
  unfold trigInt
  linarith

theorem trigInt_cos (T : ℝ) (hT : Real.sin T = 0) (a b : ℕ) :
    ((a : ℝ) + b + 2) * trigInt T (a + 2) b = (a + 1) * trigInt T a b := by
  have h1 := trigInt_split T a b
  have h2 := trigInt_parts T hT a b
  rw [← h1]; linear_combination h2

theorem trigInt_sin (T : ℝ) (hT : Real.sin T = 0) (a b : ℕ) :
    ((a : ℝ) + b + 2) * trigInt T a (b + 2) = (b + 1) * trigInt T a b := by
  have h1 := trigInt_split T a b
  have h2 := trigInt_parts T hT a b
  rw [← h1]; linear_combination -h2

theorem trigInt_cos_one (T : ℝ) (hT : Real.sin T = 0) (b : ℕ) : trigInt T 1 b = 0 := by
  have hd : ∀ t : ℝ, HasDerivAt (fun t => Real.sin t ^ (b + 1) / ((b : ℝ) + 1)) (Real.cos t ^ 1 * Real.sin t ^ b) t := by
    intro t
    have h := ((Real.hasDerivAt_sin t).pow (b + 1)).div_const ((b : ℝ) + 1)
    refine h.congr_deriv ?_
    simp only [Nat.add_sub_cancel]
    push_cast
    field_simp
  have h := integral_eq_sub_of_hasDerivAt (a := 0) (b := T) (fun t _ => hd t) (trigInt_integrable T 1 b)
  rw [hT, Real.sin_zero] at h
  unfold trigInt
  rw [h]; simp

theorem trigInt_sin_one (T : ℝ) (hT : Real.cos T = 1) (a : ℕ) : trigInt T a 1 = 0 := by
  have hd : ∀ t : ℝ, HasDerivAt (fun t => -(Real.cos t ^ (a + 1) / ((a : ℝ) + 1))) (Real.cos t ^ a * Real.sin t ^ 1) t := by
    intro t
    have h := (((Real.hasDerivAt_cos t).pow (a + 1)).div_const ((a : ℝ) + 1)).neg
    refine h.congr_deriv ?_
    simp only [Nat.add_sub_cancel]
    push_cast
    field_simp
  have h := integral_eq_sub_of_hasDerivAt (a := 0) (b := T) (fun t _ => hd t) (trigInt_integrable T a 1)
  rw [hT, Real.cos_zero] at h
  unfold trigInt
  rw [h]; simp

/-! ## monomials -/

/-- the integral of `xᵃ yᵇ zᶜ` -/
def monoInt (a b c : ℕ) : ℝ := trigInt (2 * Real.pi) a b * trigInt Real.pi c (a + b + 1)

theorem monoInt_x (a b c : ℕ) : ((a : ℝ) + b + c + 3) * monoInt (a + 2) b c = (a + 1) * monoInt a b c := by
  have h1 := trigInt_cos (2 * Real.pi) Real.sin_two_pi a b
  have h2 := trigInt_sin Real.pi Real.sin_pi c (a + b + 1)
  unfold monoInt
  rw [show a + 2 + b + 1 = a + b + 1 + 2 by ring]
  push_cast at h2
  have h3 : (0 : ℝ) < a + b + 2 := by positivity
  apply mul_left_cancel₀ h3.ne'
  linear_combination (trigInt Real.pi c (a + b + 1 + 2) * ((a : ℝ) + b + c + 3)) * h1 +
    (((a : ℝ) + 1) * trigInt (2 * Real.pi) a b) * h2

theorem monoInt_y (a b c : ℕ) : ((a : ℝ) + b + c + 3) * monoInt a (b + 2) c = (b + 1) * monoInt a b c := by
  have h1 := trigInt_sin (2 * Real.pi) Real.sin_two_pi a b
  have h2 := trigInt_sin Real.pi Real.sin_pi c (a + b + 1)
  unfold monoInt
  rw [show a + (b + 2) + 1 = a + b + 1 + 2 by ring]
  push_cast at h2
  have h3 : (0 : ℝ) < a + b + 2 := by positivity
  apply mul_left_cancel₀ h3.ne'
  linear_combination (trigInt Real.pi c (a + b + 1 + 2) * ((a : ℝ) + b + c + 3)) * h1 +
    (((b : ℝ) + 1) * trigInt (2 * Real.pi) a b) * h2

theorem monoInt_z (a b c : ℕ) : ((a : ℝ) + b + c + 3) * monoInt a b (c + 2) = (c + 1) * monoInt a b c := by
  have h2 := trigInt_cos Real.pi Real.sin_pi c (a + b + 1)
  unfold monoInt
  push_cast at h2
  linear_combination trigInt (2 * Real.pi) a b * h2

theorem monoInt_x_one (b c : ℕ) : monoInt 1 b c = 0 := by
  rw [monoInt, trigInt_cos_one _ Real.sin_two_pi, zero_mul]

theorem monoInt_y_one (a c : ℕ) : monoInt a 1 c = 0 := by
  rw [monoInt, trigInt_sin_one _ Real.cos_two_pi, zero_mul]

theorem monoInt_z_one (a b : ℕ) : monoInt a b 1 = 0 := by
  rw [monoInt, trigInt_cos_one _ Real.sin_pi, mul_zero]

theorem monoInt_zero : monoInt 0 0 0 = 4 * Real.pi := by
  simp [monoInt, trigInt]; ring

/-! ## polynomials -/

/-- the integral of a polynomial over the sphere, as a linear map -/
def polyInt : MvPolynomial (Fin 3) ℝ →ₗ[ℝ] ℝ :=
  (basisMonomials (Fin 3) ℝ).constr ℝ fun k => monoInt (k 0) (k 1) (k 2)

theorem polyInt_monomial (k : Fin 3 →₀ ℕ) (a : ℝ) : polyInt (monomial k a) = a * monoInt (k 0) (k 1) (k 2) := by
  have h1 : monomial k a = a • basisMonomials (Fin 3) ℝ k := by simp [coe_basisMonomials, smul_monomial]
  rw [h1, map_smul, polyInt, Module.Basis.constr_basis, smul_eq_mul]

theorem eval_monomial_three (k : Fin 3 →₀ ℕ) (a : ℝ) (r : Fin 3 → ℝ) :
    eval r (monomial k a) = a * (r 0 ^ k 0 * r 1 ^ k 1 * r 2 ^ k 2) := by
  rw [eval_monomial, Finsupp.prod_fintype _ _ (by simp), Fin.prod_univ_three]

theorem continuous_spherePoint (p : MvPolynomial (Fin 3) ℝ) :
    Continuous fun x : ℝ × ℝ => eval (spherePoint x.1 x.2) p * Real.sin x.1 := by
  refine Continuous.mul ?_ (by fun_prop)
  refine (MvPolynomial.continuous_eval p).comp (continuous_pi fun i => ?_)
  fin_cases i <;> simp only [spherePoint] <;>
    simp only [Fin.zero_eta, Fin.mk_one, Fin.reduceFinMk, Matrix.cons_val] <;> fun_prop

theorem sphereIntegral_monomial (k : Fin 3 →₀ ℕ) (a : ℝ) :
    sphereIntegral (fun r => eval r (monomial k a)) = polyInt (monomial k a) := by
  rw [polyInt_monomial, sphereIntegral, monoInt, trigInt, trigInt]
  have h : ∀ θ ψ : ℝ, eval (spherePoint θ ψ) (monomial k a) * Real.sin θ =
      (a * (Real.cos θ ^ k 2 * Real.sin θ ^ (k 0 + k 1 + 1))) * (Real.cos ψ ^ k 0 * Real.sin ψ ^ k 1) := by
    intro θ ψ
    rw [eval_monomial_three]
    simp only [spherePoint, Matrix.cons_val]
    ring
  simp only [h, integral_const_mul, integral_mul_const]
  ring

theorem sphereIntegral_add (p q : MvPolynomial (Fin 3) ℝ) :
    sphereIntegral (fun r => eval r (p + q)) =
      sphereIntegral (fun r => eval r p) + sphereIntegral (fun r => eval r q) := by
  unfold sphereIntegral
  have hc := fun p => continuous_spherePoint p
  have h1 : ∀ (p : MvPolynomial (Fin 3) ℝ) (θ : ℝ), IntervalIntegrable
      (fun ψ => eval (spherePoint θ ψ) p * Real.sin θ) MeasureTheory.volume 0 (2 * Real.pi) := fun p θ =>
    ((hc p).comp (by fun_prop : Continuous fun ψ : ℝ => (θ, ψ))).intervalIntegrable _ _
  have h2 : ∀ (p : MvPolynomial (Fin 3) ℝ), IntervalIntegrable
      (fun θ => ∫ ψ in (0 : ℝ)..2 * Real.pi, eval (spherePoint θ ψ) p * Real.sin θ) MeasureTheory.volume 0 Real.pi :=
    fun p => (continuous_parametric_intervalIntegral_of_continuous' (hc p) _ _).intervalIntegrable _ _
  rw [← integral_add (h2 p) (h2 q)]
  refine integral_congr fun θ _ => ?_
  simp only [map_add, add_mul]
  rw [integral_add (h1 p θ) (h1 q θ)]

theorem sphereIntegral_poly (p : MvPolynomial (Fin 3) ℝ) : sphereIntegral (fun r => eval r p) = polyInt p := by
  induction p using MvPolynomial.monomial_add_induction_on with
  | C a => rw [← monomial_zero', sphereIntegral_monomial]
  | monomial_add k a p _ _ h => rw [sphereIntegral_add, sphereIntegral_monomial, h, map_add]

/-! ## integration by parts -/

theorem polyInt_X_mul_monomial (i : Fin 3) (k : Fin 3 →₀ ℕ) (a : ℝ) :
    ((k 0 + k 1 + k 2 : ℕ) + 2 : ℝ) * polyInt (X i * monomial k a) = polyInt (pderiv i (monomial k a)) := by
  rw [X, monomial_mul, one_mul, pderiv_monomial, polyInt_monomial, polyInt_monomial]
  simp only [Nat.cast_add]
  fin_cases i
  · simp only [Fin.zero_eta, Finsupp.add_apply, Finsupp.tsub_apply, Finsupp.single_apply, Fin.isValue, if_true,
      if_neg (show ¬ (0 : Fin 3) = 1 by decide), if_neg (show ¬ (0 : Fin 3) = 2 by decide), zero_add, Nat.sub_zero]
    rcases h : k 0 with - | n
    · rw [Nat.add_zero, monoInt_x_one]; simp
    · have := monoInt_x n (k 1) (k 2)
      rw [show 1 + (n + 1) = n + 2 by ring, Nat.add_sub_cancel]
      push_cast
      linear_combination a * this
  · simp only [Fin.mk_one, Finsupp.add_apply, Finsupp.tsub_apply, Finsupp.single_apply, Fin.isValue, if_true,
      if_neg (show ¬ (1 : Fin 3) = 0 by decide), if_neg (show ¬ (1 : Fin 3) = 2 by decide), zero_add, Nat.sub_zero]
    rcases h : k 1 with - | n
    · rw [Nat.add_zero, monoInt_y_one]; simp
    · have := monoInt_y (k 0) n (k 2)
      rw [show 1 + (n + 1) = n + 2 by ring, Nat.add_sub_cancel]
      push_cast
      linear_combination a * this
  · simp only [Fin.reduceFinMk, Finsupp.add_apply, Finsupp.tsub_apply, Finsupp.single_apply, Fin.isValue, if_true,
      if_neg (show ¬ (2 : Fin 3) = 0 by decide), if_neg (show ¬ (2 : Fin 3) = 1 by decide), zero_add, Nat.sub_zero]
    rcases h : k 2 with - | n
    · rw [Nat.add_zero, monoInt_z_one]; simp
    · have := monoInt_z (k 0) (k 1) n
      rw [show 1 + (n + 1) = n + 2 by ring, Nat.add_sub_cancel]
      push_cast
      linear_combination a * this

theorem degree_three {p : MvPolynomial (Fin 3) ℝ} {n : ℕ} (hp : p.IsHomogeneous n) {k : Fin 3 →₀ ℕ} (hk : k ∈ p.support) :
    k 0 + k 1 + k 2 = n := by
  have h1 := hp.degree_eq_sum_deg_support hk
  have h2 : ∑ i ∈ k.support, k i = ∑ i, k i :=
    sum_subset (subset_univ _) fun i _ hi => Finsupp.notMem_support_iff.mp hi
  rw [h1, h2, Fin.sum_univ_three]

theorem polyInt_X_mul (i : Fin 3) (n : ℕ) (p : MvPolynomial (Fin 3) ℝ) (hp : p.IsHomogeneous n) :
    ((n : ℝ) + 2) * polyInt (X i * p) = polyInt (pderiv i p) := by
  conv_lhs => rw [p.as_sum]
  conv_rhs => rw [p.as_sum]
  rw [mul_sum, map_sum, map_sum, map_sum, mul_sum]
  refine sum_congr rfl fun k hk => ?_
  rw [← polyInt_X_mul_monomial, degree_three hp hk]

/-! ## harmonic polynomials -/

theorem pderiv_comm (i j : Fin 3) (p : MvPolynomial (Fin 3) ℝ) : pderiv i (pderiv j p) = pderiv j (pderiv i p) := by
  have h : ⁅(pderiv i : Derivation ℝ (MvPolynomial (Fin 3) ℝ) (MvPolynomial (Fin 3) ℝ)),
      (pderiv j : Derivation ℝ (MvPolynomial (Fin 3) ℝ) (MvPolynomial (Fin 3) ℝ))⁆ = 0 := by
    refine MvPolynomial.derivation_ext fun k => ?_
    rw [Derivation.commutator_apply, pderiv_X, pderiv_X]
    simp only [Pi.single_apply]
    split_ifs <;> simp
  have := congrArg (fun d => d p) h
  simpa [Derivation.commutator_apply, sub_eq_zero] using this

theorem lap_pderiv (i : Fin 3) (p : MvPolynomial (Fin 3) ℝ) (h : lap p = 0) : lap (pderiv i p) = 0 := by
  have h1 : lap (pderiv i p) = pderiv i (lap p) := by
    simp only [lap, map_sum]
    refine sum_congr rfl fun j _ => ?_
    rw [pderiv_comm j i, pderiv_comm j i]
  rw [h1, h, map_zero]

theorem homog_pderiv {n : ℕ} (i : Fin 3) {p : MvPolynomial (Fin 3) ℝ} (h : p.IsHomogeneous (n + 1)) :
    (pderiv i p).IsHomogeneous n := by
  simpa using h.pderiv (i := i)

theorem polyInt_harmonic (l : ℕ) (q : MvPolynomial (Fin 3) ℝ) (hq : q.IsHomogeneous (l + 1)) (hl : lap q = 0) :
    polyInt q = 0 := by
  have h1 := congrArg polyInt hq.sum_X_mul_pderiv
  rw [map_sum, nsmul_eq_mul] at h1
  have h2 : ((l : ℝ) + 2) * ∑ i, polyInt (X i * pderiv i q) = 0 := by
    rw [mul_sum, sum_congr rfl fun i _ => polyInt_X_mul i l _ (homog_pderiv i hq), ← map_sum]
    rw [show ∑ i, pderiv i (pderiv i q) = lap q from rfl, hl, map_zero]
  rw [h1, show ((l + 1 : ℕ) : MvPolynomial (Fin 3) ℝ) * q = ((l : ℝ) + 1) • q by
    rw [smul_eq_C_mul]; push_cast; simp, map_smul, smul_eq_mul] at h2
  have h3 : (0 : ℝ) < l + 2 := by positivity
  have h4 : (0 : ℝ) < l + 1 := by positivity
  simpa [h3.ne', h4.ne'] using h2

/-- the monomial with exponents `k` -/
theorem exists_X_mul (k : Fin 3 →₀ ℕ) (n : ℕ) (hk : k 0 + k 1 + k 2 = n + 1) :
    ∃ (i : Fin 3) (k' : Fin 3 →₀ ℕ), k = Finsupp.single i 1 + k' ∧ k' 0 + k' 1 + k' 2 = n := by
  obtain ⟨i, hi⟩ : ∃ i, k i ≠ 0 := by
    by_contra h
    push Not at h
    rw [h 0, h 1, h 2] at hk
    omega
  have h1 : Finsupp.single i 1 ≤ k := by
    rw [Finsupp.single_le_iff]; omega
  refine ⟨i, k - Finsupp.single i 1, (add_tsub_cancel_of_le h1).symm, ?_⟩
  have h2 : ∀ j, k j = (Finsupp.single i 1 : Fin 3 →₀ ℕ) j + (k - Finsupp.single i 1 : Fin 3 →₀ ℕ) j := fun j => by
    rw [← Finsupp.add_apply, add_tsub_cancel_of_le h1]
  have h3 : (Finsupp.single i 1 : Fin 3 →₀ ℕ) 0 + (Finsupp.single i 1 : Fin 3 →₀ ℕ) 1 +
      (Finsupp.single i 1 : Fin 3 →₀ ℕ) 2 = 1 := by
    fin_cases i <;> simp
  have := h2 0
  have := h2 1
  have := h2 2
  omega

theorem monomial_homog (k : Fin 3 →₀ ℕ) (n : ℕ) (hk : k 0 + k 1 + k 2 = n) (a : ℝ) :
    (monomial k a).IsHomogeneous n := by
  apply isHomogeneous_monomial
  rw [Finsupp.degree_eq_sum, Fin.sum_univ_three, hk]

/-- polynomials of lower degree are orthogonal to harmonic polynomials -/
theorem polyInt_lower (n : ℕ) : ∀ (l : ℕ), n < l → ∀ (k : Fin 3 →₀ ℕ), k 0 + k 1 + k 2 = n →
    ∀ q : MvPolynomial (Fin 3) ℝ, q.IsHomogeneous l → lap q = 0 → polyInt (monomial k 1 * q) = 0 := by
  induction n using Nat.strong_induction_on with
  | _ n ih =>
    intro l hl k hk q hq hh
    obtain ⟨l, rfl⟩ : ∃ l', l = l' + 1 := ⟨l - 1, by omega⟩
    rcases n with - | n
    · have : k = 0 := by
        ext i
        fin_cases i <;> simp <;> omega
      rw [this, monomial_zero', C_1, one_mul]
      exact polyInt_harmonic l q hq hh
    · obtain ⟨i, k', rfl, hk'⟩ := exists_X_mul k n hk
      rw [show monomial (Finsupp.single i 1 + k') (1 : ℝ) = X i * monomial k' 1 by rw [X, monomial_mul, one_mul],
        mul_assoc]
      have h := polyInt_X_mul i (n + (l + 1)) _ ((monomial_homog k' n hk' 1).mul hq)
      rw [pderiv_mul, map_add, ih n (by omega) l (by omega) k' hk' _ (homog_pderiv i hq) (lap_pderiv i q hh), add_zero,
        pderiv_monomial] at h
      have h0 : polyInt (monomial (k' - Finsupp.single i 1) (1 * (k' i : ℝ)) * q) = 0 := by
        by_cases hz : k' i = 0
        · simp [hz]
        · obtain ⟨n', rfl⟩ : ∃ n', n = n' + 1 := by
            refine ⟨n - 1, ?_⟩
            have : k' i ≤ n := by fin_cases i <;> simp <;> omega
            omega
          have hle : Finsupp.single i 1 ≤ k' := by rw [Finsupp.single_le_iff]; omega
          have e : monomial (k' - Finsupp.single i 1) (1 * (k' i : ℝ)) = (k' i : ℝ) • monomial (k' - Finsupp.single i 1) 1 := by
            rw [smul_monomial, smul_eq_mul, one_mul, mul_one]
          rw [e, smul_mul_assoc, map_smul, ih n' (by omega) (l + 1) (by omega) _ ?_ q hq hh, smul_zero]
          have h2 : ∀ j, k' j = (Finsupp.single i 1 : Fin 3 →₀ ℕ) j + (k' - Finsupp.single i 1 : Fin 3 →₀ ℕ) j := fun j => by
            rw [← Finsupp.add_apply, add_tsub_cancel_of_le hle]
          have h3 : (Finsupp.single i 1 : Fin 3 →₀ ℕ) 0 + (Finsupp.single i 1 : Fin 3 →₀ ℕ) 1 +
              (Finsupp.single i 1 : Fin 3 →₀ ℕ) 2 = 1 := by
            fin_cases i <;> simp
          have := h2 0
          have := h2 1
          have := h2 2
          omega
      rw [h0] at h
      have h3 : (0 : ℝ) < ((n + (l + 1) : ℕ) : ℝ) + 2 := by positivity
      exact (mul_eq_zero.mp h).resolve_left h3.ne'

/-- the product of the factorials of the exponents -/
def factorials (k : Fin 3 →₀ ℕ) : ℝ := (k 0)! * (k 1)! * (k 2)!

theorem factorials_succ (i : Fin 3) (k : Fin 3 →₀ ℕ) :
    factorials (Finsupp.single i 1 + k) = ((k i : ℝ) + 1) * factorials k := by
  unfold factorials
  fin_cases i <;>
    simp [Nat.add_comm 1, Nat.factorial_succ] <;> ring

theorem polyInt_same (l : ℕ) : ∀ (k : Fin 3 →₀ ℕ), k 0 + k 1 + k 2 = l →
    ∀ q : MvPolynomial (Fin 3) ℝ, q.IsHomogeneous l → lap q = 0 →
      ((2 * l + 1)‼ : ℝ) * polyInt (monomial k 1 * q) = 4 * Real.pi * (factorials k * coeff k q) := by
  induction l with
  | zero =>
    intro k hk q hq _
    have : k = 0 := by
      ext i
      fin_cases i <;> simp <;> omega
    subst this
    have hC : q = C (coeff 0 q) := (totalDegree_eq_zero_iff_eq_C).mp (by
      have := hq.totalDegree_le
      omega)
    rw [hC]
    have h : polyInt (C (coeff 0 q)) = coeff 0 q * (4 * Real.pi) := by
      rw [← monomial_zero', polyInt_monomial]
      simp [monoInt_zero]
    rw [monomial_zero', C_1, one_mul, h]
    simp [factorials]
    ring
  | succ l ih =>
    intro k hk q hq hh
    obtain ⟨i, k', rfl, hk'⟩ := exists_X_mul k l hk
    rw [show monomial (Finsupp.single i 1 + k') (1 : ℝ) = X i * monomial k' 1 by rw [X, monomial_mul, one_mul],
      mul_assoc]
    have h := polyInt_X_mul i (l + (l + 1)) _ ((monomial_homog k' l hk' 1).mul hq)
    have h0 : polyInt (pderiv i (monomial k' (1 : ℝ)) * q) = 0 := by
      rw [pderiv_monomial]
      by_cases hz : k' i = 0
      · simp [hz]
      · have hle : Finsupp.single i 1 ≤ k' := by rw [Finsupp.single_le_iff]; omega
        have e : monomial (k' - Finsupp.single i 1) (1 * (k' i : ℝ)) = (k' i : ℝ) • monomial (k' - Finsupp.single i 1) 1 := by
          rw [smul_monomial, smul_eq_mul, one_mul, mul_one]
        rw [e, smul_mul_assoc, map_smul]
        have h2 : ∀ j, k' j = (Finsupp.single i 1 : Fin 3 →₀ ℕ) j + (k' - Finsupp.single i 1 : Fin 3 →₀ ℕ) j := fun j => by
          rw [← Finsupp.add_apply, add_tsub_cancel_of_le hle]
        have h20 := h2 0
        have h21 := h2 1
        have h22 := h2 2
        rw [polyInt_lower _ (l + 1) (by omega) (k' - Finsupp.single i 1) rfl q hq hh, smul_zero]
    rw [pderiv_mul, map_add, h0, zero_add] at h
    have hi := ih k' hk' _ (homog_pderiv i hq) (lap_pderiv i q hh)
    rw [show 2 * (l + 1) + 1 = (2 * l + 1) + 2 by ring, Nat.doubleFactorial_add_two, factorials_succ]
    have hc : coeff k' (pderiv i q) = ((k' i : ℝ) + 1) * coeff (Finsupp.single i 1 + k') q := by
      rw [coeff_pderiv, add_comm k', mul_comm]
    rw [hc] at hi
    push_cast at h ⊢
    rw [← h] at hi
    linear_combination hi

theorem polyInt_mul_lower {n l : ℕ} (hn : n < l) {p q : MvPolynomial (Fin 3) ℝ} (hp : p.IsHomogeneous n)
    (hq : q.IsHomogeneous l) (hh : lap q = 0) : polyInt (p * q) = 0 := by
  rw [p.as_sum, sum_mul, map_sum]
  refine sum_eq_zero fun k hk => ?_
  rw [show monomial k (coeff k p) = coeff k p • monomial k (1 : ℝ) by rw [smul_monomial, smul_eq_mul, mul_one],
    smul_mul_assoc, map_smul, polyInt_lower n l hn k (degree_three hp hk) q hq hh, smul_zero]

theorem polyInt_mul_same {l : ℕ} {p q : MvPolynomial (Fin 3) ℝ} (hp : p.IsHomogeneous l)
    (hq : q.IsHomogeneous l) (hh : lap q = 0) :
    ((2 * l + 1)‼ : ℝ) * polyInt (p * q) =
      4 * Real.pi * (l ! * ∑ k ∈ p.support, coeff k p * (coeff k q / trinomialCoefficient k)) := by
  have e : polyInt (p * q) = ∑ k ∈ p.support, coeff k p * polyInt (monomial k 1 * q) := by
    conv_lhs => rw [p.as_sum, sum_mul, map_sum]
    refine sum_congr rfl fun k hk => ?_
    rw [show monomial k (coeff k p) = coeff k p • monomial k (1 : ℝ) by rw [smul_monomial, smul_eq_mul, mul_one],
      smul_mul_assoc, map_smul, smul_eq_mul]
  rw [e, mul_sum, mul_sum, mul_sum]
  refine sum_congr rfl fun k hk => ?_
  have h := polyInt_same l k (degree_three hp hk) q hq hh
  have ht : (l ! : ℝ) = trinomialCoefficient k * factorials k := by
    unfold trinomialCoefficient factorials
    rw [degree_three hp hk]
    field_simp
  have h0 := trinomialCoefficient_ne k
  rw [ht]
  field_simp
  linear_combination coeff k p * h

theorem kConst_doubleFactorial (l : ℕ) : (kConst l) * (l ! : ℂ) * ((2 * l + 1 : ℕ) : ℂ) = ((2 * l + 1)‼ : ℕ) := by
  have h1 : (2 * l + 1)‼ * (2 ^ l * l !) = (2 * l + 1) * ((2 * l).choose l * (l ! * l !)) := by
    have h2 := Nat.doubleFactorial_two_mul l
    have h3 : (2 * l + 1)! = (2 * l + 1)‼ * (2 * l)‼ := Nat.factorial_eq_mul_doubleFactorial (2 * l)
    have h4 := Nat.choose_mul_factorial_mul_factorial (show l ≤ 2 * l by omega)
    rw [show 2 * l - l = l by omega] at h4
    rw [← h2, ← h3, Nat.factorial_succ, ← h4]; ring
  have h5 := congrArg (Nat.cast : ℕ → ℂ) h1
  push_cast at h5
  have h6 : (l ! : ℂ) ≠ 0 := by exact_mod_cast l.factorial_ne_zero
  unfold kConst
  rw [inv_pow]
  apply mul_right_cancel₀ (mul_ne_zero (pow_ne_zero l two_ne_zero) h6 : (2 : ℂ) ^ l * (l ! : ℂ) ≠ 0)
  push_cast
  rw [h5]
  field_simp

theorem polyInt_harmonics (l l' : ℕ) (m m' : ℤ) (hm : |m| ≤ l) (hm' : |m'| ≤ l') :
    polyInt (symSphericalHarmonics l m * symSphericalHarmonics l' m') =
      if l = l' ∧ m = m' then 4 * Real.pi / (2 * l + 1) else 0 := by
  rcases lt_trichotomy l l' with h | h | h
  · rw [if_neg (by omega), polyInt_mul_lower h (symSH_homog l m hm) (symSH_homog l' m' hm') (symSH_harmonic l' m' hm')]
  · subst h
    have h1 := polyInt_mul_same (symSH_homog l m hm) (symSH_homog l m' hm') (symSH_harmonic l m' hm')
    have h2 := fischer_symSHC l m m' hm hm'
    have h3 : fischer (symSHC l m') (symSHC l m) = ((∑ k ∈ (symSphericalHarmonics l m).support,
        coeff k (symSphericalHarmonics l m) * (coeff k (symSphericalHarmonics l m') / trinomialCoefficient k) : ℝ) : ℂ) := by
      rw [fischer_eq, symSHC, support_map_of_injective _ Complex.ofReal_injective, Complex.ofReal_sum]
      refine sum_congr rfl fun k _ => ?_
      rw [coeff_map, symSHC, coeff_map]
      push_cast
      rfl
    rw [h3, div_eq_iff (kConst_ne l)] at h2
    have h4 := congrArg (Complex.ofReal) h1
    push_cast at h4 h2
    rw [h2] at h4
    have h5 := kConst_doubleFactorial l
    have h6 : ((2 * l + 1)‼ : ℂ) ≠ 0 := by exact_mod_cast (Nat.doubleFactorial_pos _).ne'
    have h7 : (2 * (l : ℂ) + 1) ≠ 0 := by exact_mod_cast (show 2 * l + 1 ≠ 0 by omega)
    apply Complex.ofReal_injective
    apply mul_left_cancel₀ h6
    rw [h4]
    by_cases he : m = m'
    · rw [if_pos he, if_pos ⟨rfl, he⟩]
      push_cast at h5 ⊢
      rw [← h5]
      field_simp
    · rw [if_neg he, if_neg (by tauto)]; simp
  · rw [if_neg (by omega), mul_comm,
      polyInt_mul_lower h (symSH_homog l' m' hm') (symSH_homog l m hm) (symSH_harmonic l m hm)]

/-! ## the addition theorem -/

theorem eval_symSH_zero (l : ℕ) (w : Fin 3 → ℝ) : eval w (symSphericalHarmonics l 0) =
    2⁻¹ ^ l * ∑ k ∈ range (l / 2 + 1), (-1) ^ k * (l.choose k : ℝ) * ((2 * l - 2 * k).choose l : ℝ) *
      (w 2 ^ (l - 2 * k) * (∑ i, w i ^ 2) ^ k) := by
  unfold symSphericalHarmonics
  rw [if_neg (lt_irrefl _), if_neg (lt_irrefl _)]
  unfold symPi
  simp only [Nat.sub_zero, Nat.add_zero, map_mul, map_sum, map_pow, map_add, eval_C, eval_X]
  rw [div_self (by positivity), Real.sqrt_one, one_mul, mul_sum]
  refine sum_congr rfl fun k _ => ?_
  rw [Fin.sum_univ_three]
  have : ((l - 2 * k)! : ℝ) ≠ 0 := by positivity
  field_simp

theorem harmonic_addition (l : ℕ) (r s : Fin 3 → ℝ) :
    ∑ m ∈ Icc (-(l : ℤ)) l, eval r (symSphericalHarmonics l m) * eval s (symSphericalHarmonics l m) =
      2⁻¹ ^ l * ∑ k ∈ range (l / 2 + 1), (-1) ^ k * (l.choose k : ℝ) * ((2 * l - 2 * k).choose l : ℝ) *
        ((∑ i, r i * s i) ^ (l - 2 * k) * ((∑ i, r i ^ 2) * ∑ i, s i ^ 2) ^ k) := by
  obtain ⟨R, hR, hr⟩ := exists_orth s
  set n := Real.sqrt (∑ k, s k ^ 2) with hn
  have hn2 : n ^ 2 = ∑ k, s k ^ 2 := Real.sq_sqrt (sum_nonneg fun _ _ => sq_nonneg _)
  have h1 : ∀ m ∈ Icc (-(l : ℤ)) l, ((eval s (symSphericalHarmonics l m) : ℝ) : ℂ) =
      (n : ℂ) ^ l * wigC l (toC R) m 0 := by
    intro m hm
    have hm := abs_le.mpr (mem_Icc.mp hm)
    rw [← sphC_ofReal]
    have e : (fun i => (s i : ℂ)) = fun i => (n : ℂ) * cmulVec (toC R) ![0, 0, 1] i := by
      ext i
      conv_lhs => rw [hr i]
      simp [cmulVec, toC, Fin.sum_univ_three]
    rw [e, sphC_smul l m hm, sphC_mulVec l hR m hm]
    congr 1
    rw [sum_eq_single 0]
    · rw [sphC_pole l 0 (by simp)]; simp
    · intro b hb hb0
      rw [sphC_pole l b (abs_le.mpr (mem_Icc.mp hb)), if_neg hb0, mul_zero]
    · intro h; simp at h
  let w : Fin 3 → ℝ := fun i => ∑ k, R k i * r k
  have hw : ((eval w (symSphericalHarmonics l 0) : ℝ) : ℂ) =
      ∑ m ∈ Icc (-(l : ℤ)) l, wigC l (toC R) m 0 * ((eval r (symSphericalHarmonics l m) : ℝ) : ℂ) := by
    rw [← sphC_ofReal]
    have e : (fun i => (w i : ℂ)) = cmulVec (ctrans (toC R)) (fun i => (r i : ℂ)) := by
      ext i
      simp [w, cmulVec, toC, ctrans]
    rw [e, sphC_mulVec l hR.trans 0 (by simp)]
    refine sum_congr rfl fun m hm => ?_
    rw [sphC_ofReal, wigC_trans l hR m 0 (abs_le.mpr (mem_Icc.mp hm)) (by simp)]
  have hdot : n * w 2 = ∑ i, r i * s i := by
    simp only [w, mul_sum]
    refine sum_congr rfl fun k _ => ?_
    rw [hr k]; ring
  have hnorm : ∑ i, w i ^ 2 = ∑ i, r i ^ 2 := by
    have ho : ∀ i j, ∑ k, R i k * R j k = if i = j then 1 else 0 := by
      intro i j
      have := hR.trans i j
      simp only [ctrans, toC] at this
      split_ifs at this ⊢ with h <;> exact_mod_cast this
    have : ∑ i, w i ^ 2 = ∑ j, ∑ k, r j * r k * ∑ i, R j i * R k i := by
      simp only [w, Fin.sum_univ_three]; ring
    rw [this]
    simp only [ho, mul_ite, mul_one, mul_zero, sum_ite_eq, mem_univ, if_true, pow_two]
  have h2 : ∑ m ∈ Icc (-(l : ℤ)) l, eval r (symSphericalHarmonics l m) * eval s (symSphericalHarmonics l m) =
      n ^ l * eval w (symSphericalHarmonics l 0) := by
    apply Complex.ofReal_injective
    rw [Complex.ofReal_sum, Complex.ofReal_mul, hw, mul_sum]
    refine sum_congr rfl fun m hm => ?_
    rw [Complex.ofReal_mul, h1 m hm]
    push_cast
    ring
  rw [h2, eval_symSH_zero, hnorm, ← hdot, ← hn2, mul_left_comm, mul_sum]
  congr 1
  refine sum_congr rfl fun k hk => ?_
  have hk : 2 * k ≤ l := by have := mem_range.mp hk; omega
  rw [mul_pow, mul_pow, ← pow_mul]
  have : n ^ l = n ^ (l - 2 * k) * n ^ (2 * k) := by rw [← pow_add]; congr 1; omega
  rw [this]; ring

theorem addition_legendre (l : ℕ) (r s : Fin 3 → ℝ) :
    ∑ m ∈ Icc (-(l : ℤ)) l, eval r (symSphericalHarmonics l m) * eval s (symSphericalHarmonics l m) =
      (Real.sqrt (∑ i, r i ^ 2) * Real.sqrt (∑ i, s i ^ 2)) ^ l *
        Spec.legendre l ((∑ i, r i * s i) / (Real.sqrt (∑ i, r i ^ 2) * Real.sqrt (∑ i, s i ^ 2))) := by
  set N := Real.sqrt (∑ i, r i ^ 2) * Real.sqrt (∑ i, s i ^ 2) with hN
  have h1 : (∑ i, r i ^ 2) * ∑ i, s i ^ 2 = N ^ 2 := by
    rw [hN, mul_pow, Real.sq_sqrt (sum_nonneg fun _ _ => sq_nonneg _), Real.sq_sqrt (sum_nonneg fun _ _ => sq_nonneg _)]
  have h2 : (∑ i, r i * s i : ℝ) = N * ((∑ i, r i * s i) / N) := by
    by_cases h0 : N = 0
    · have h3 : (∑ i, r i * s i) ^ 2 ≤ (∑ i, r i ^ 2) * ∑ i, s i ^ 2 := sum_mul_sq_le_sq_mul_sq univ r s
      rw [h1, h0] at h3
      rw [h0, zero_mul]
      nlinarith
    · field_simp
  rw [harmonic_addition, Spec.legendre, mul_left_comm, h1]
  congr 1
  set d := ∑ i, r i * s i with hd
  rw [mul_sum]
  refine sum_congr rfl fun k hk => ?_
  have hk : 2 * k ≤ l := by have := mem_range.mp hk; omega
  have h3 : N ^ l = N ^ (l - 2 * k) * N ^ (2 * k) := by rw [← pow_add]; congr 1; omega
  have h4 : d ^ (l - 2 * k) = N ^ (l - 2 * k) * (d / N) ^ (l - 2 * k) := by rw [← mul_pow, ← h2]
  rw [h3, h4, ← pow_mul]; ring

end

end E3x
