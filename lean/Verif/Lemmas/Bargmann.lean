import Mathlib.Algebra.MvPolynomial.PDeriv
import Mathlib.RingTheory.MvPolynomial.EulerIdentity
import Mathlib.RingTheory.MvPolynomial.Basic
import Mathlib.Analysis.Complex.Basic

/-!
# The Bargmann pairing of binary forms

Polynomials in four variables `u₁, v₁, u₂, v₂` (numbers 0 to 3) with the bilinear pairing for which monomials are orthogonal and
`⟨uᵖ vᑫ, uᵖ vᑫ⟩ = p! q!`. Multiplication by a variable is adjoint to its derivative.
-/

namespace E3x

noncomputable section

open Finset MvPolynomial
open scoped Nat

abbrev Form := MvPolynomial (Fin 4) ℂ

def barg (q : Form) : Form →ₗ[ℂ] ℂ :=
  (basisMonomials (Fin 4) ℂ).constr ℂ fun k => coeff k q * ∏ i, ((k i)! : ℂ)

theorem barg_monomial (q : Form) (k : Fin 4 →₀ ℕ) (a : ℂ) :
    barg q (monomial k a) = a * (coeff k q * ∏ i, ((k i)! : ℂ)) := by
  have h1 : monomial k a = a • basisMonomials (Fin 4) ℂ k := by simp [coe_basisMonomials, smul_monomial]
  rw [h1, map_smul, barg, Module.Basis.constr_basis, smul_eq_mul]

theorem barg_add (q q' p : Form) : barg (q + q') p = barg q p + barg q' p := by
  induction p using MvPolynomial.induction_on' with
  | add p p' h h' => rw [map_add, map_add, map_add, h, h']; ring
  | monomial k a => simp only [barg_monomial, coeff_add]; ring

theorem barg_C_mul (c : ℂ) (q p : Form) : barg (C c * q) p = c * barg q p := by
  induction p using MvPolynomial.induction_on' with
  | add p p' h h' => rw [map_add, map_add, h, h']; ring
  | monomial k a => simp only [barg_monomial, coeff_C_mul]; ring

theorem barg_sub (q q' p : Form) : barg (q - q') p = barg q p - barg q' p := by
  have h := barg_add q (C (-1) * q') p
  rw [barg_C_mul] at h
  rw [show q - q' = q + C (-1) * q' by simp [sub_eq_add_neg], h]; ring

theorem barg_zero (p : Form) : barg 0 p = 0 := by
  have := barg_C_mul 0 0 p
  simpa using this

theorem barg_C_mul_right (c : ℂ) (q p : Form) : barg q (C c * p) = c * barg q p := by
  rw [C_mul', map_smul, smul_eq_mul]

theorem barg_symm (q p : Form) : barg q p = barg p q := by
  induction p using MvPolynomial.induction_on' with
  | add p p' h h' => rw [map_add, barg_add, h, h']
  | monomial k a =>
    induction q using MvPolynomial.induction_on' with
    | add p p' h h' => rw [map_add, barg_add, h, h']
    | monomial n b =>
      rw [barg_monomial, barg_monomial, coeff_monomial, coeff_monomial]
      by_cases h : n = k
      · subst h; simp only [if_true]; ring
      · rw [if_neg h, if_neg (fun e => h e.symm)]; ring

theorem barg_X_mul (q p : Form) (i : Fin 4) : barg q (X i * p) = barg (pderiv i q) p := by
  induction p using MvPolynomial.induction_on' with
  | add p p' h h' => rw [mul_add, map_add, map_add, h, h']
  | monomial k a =>
    have e : (X i * monomial k a : Form) = monomial (k + Finsupp.single i 1) a := by
      rw [X, monomial_mul, one_mul, add_comm]
    rw [e, barg_monomial, barg_monomial, coeff_pderiv]
    have hprod : ∏ j, (((k + Finsupp.single i 1 : Fin 4 →₀ ℕ) j)! : ℂ) = (k i + 1) * ∏ j, ((k j)! : ℂ) := by
      rw [← mul_prod_erase univ (fun j => (((k + Finsupp.single i 1 : Fin 4 →₀ ℕ) j)! : ℂ)) (mem_univ i),
        ← mul_prod_erase univ (fun j => ((k j)! : ℂ)) (mem_univ i), ← mul_assoc]
      congr 1
      · simp [Nat.factorial_succ]
      · refine prod_congr rfl fun j hj => ?_
        have : j ≠ i := (mem_erase.mp hj).1
        simp [this.symm]
    rw [hprod]; ring

/-! ## the bracket and its adjoint -/

/-- `v₁ u₂ - u₁ v₂` -/
def bracket : Form := X 1 * X 2 - X 0 * X 3

def omega (q : Form) : Form := pderiv 2 (pderiv 1 q) - pderiv 3 (pderiv 0 q)

theorem barg_bracket_mul (q p : Form) : barg q (bracket * p) = barg (omega q) p := by
  have : bracket * p = X 1 * (X 2 * p) - X 0 * (X 3 * p) := by unfold bracket; ring
  rw [this, map_sub, barg_X_mul, barg_X_mul, barg_X_mul, barg_X_mul, omega, barg_sub]

theorem omega_bracket_mul (q : Form) : omega (bracket * q) = bracket * omega q + (∑ i, X i * pderiv i q + 2 * q) := by
  unfold omega bracket
  rw [Fin.sum_univ_four]
  have e10 : pderiv (1 : Fin 4) (X 0 : Form) = 0 := pderiv_X_of_ne (by decide)
  have e12 : pderiv (1 : Fin 4) (X 2 : Form) = 0 := pderiv_X_of_ne (by decide)
  have e13 : pderiv (1 : Fin 4) (X 3 : Form) = 0 := pderiv_X_of_ne (by decide)
  have e01 : pderiv (0 : Fin 4) (X 1 : Form) = 0 := pderiv_X_of_ne (by decide)
  have e02 : pderiv (0 : Fin 4) (X 2 : Form) = 0 := pderiv_X_of_ne (by decide)
  have e03 : pderiv (0 : Fin 4) (X 3 : Form) = 0 := pderiv_X_of_ne (by decide)
  have e20 : pderiv (2 : Fin 4) (X 0 : Form) = 0 := pderiv_X_of_ne (by decide)
  have e21 : pderiv (2 : Fin 4) (X 1 : Form) = 0 := pderiv_X_of_ne (by decide)
  have e23 : pderiv (2 : Fin 4) (X 3 : Form) = 0 := pderiv_X_of_ne (by decide)
  have e30 : pderiv (3 : Fin 4) (X 0 : Form) = 0 := pderiv_X_of_ne (by decide)
  have e31 : pderiv (3 : Fin 4) (X 1 : Form) = 0 := pderiv_X_of_ne (by decide)
  have e32 : pderiv (3 : Fin 4) (X 2 : Form) = 0 := pderiv_X_of_ne (by decide)
  simp only [pderiv_mul, map_sub, map_add, pderiv_X_self, e10, e12, e13, e01, e02, e03, e20, e21, e23, e30, e31, e32, map_zero,
    Derivation.map_one_eq_zero]
  ring

theorem omega_smul (c : ℂ) (q : Form) : omega (C c * q) = C c * omega q := by
  unfold omega
  rw [pderiv_C_mul, pderiv_C_mul, pderiv_C_mul, pderiv_C_mul]; ring

theorem bracket_homog : (bracket : Form).IsHomogeneous 2 :=
  ((isHomogeneous_X ℂ 1).mul (isHomogeneous_X ℂ 2)).sub ((isHomogeneous_X ℂ 0).mul (isHomogeneous_X ℂ 3))

theorem omega_pow (g : Form) (d : ℕ) (hg : g.IsHomogeneous d) (h0 : omega g = 0) (n : ℕ) :
    omega (bracket ^ (n + 1) * g) = C (((n : ℂ) + 1) * (n + d + 2)) * (bracket ^ n * g) := by
  have hom : ∀ n, (bracket ^ n * g).IsHomogeneous (2 * n + d) := fun n => (bracket_homog.pow n).mul hg
  have euler : ∀ n : ℕ, ∑ i, X i * pderiv i (bracket ^ n * g) = C ((2 * n + d : ℂ)) * (bracket ^ n * g) := by
    intro n
    rw [(hom n).sum_X_mul_pderiv, nsmul_eq_mul]
    simp only [map_add, map_mul, map_natCast, map_ofNat, Nat.cast_add, Nat.cast_mul, Nat.cast_ofNat]
  induction n with
  | zero =>
    rw [pow_succ', mul_assoc, omega_bracket_mul, pow_zero, one_mul, h0, mul_zero, zero_add]
    have := euler 0
    rw [pow_zero, one_mul] at this
    rw [this]
    simp only [map_add, map_mul, map_natCast, map_ofNat, Nat.cast_zero, map_one, map_zero]
    ring
  | succ n ih =>
    rw [pow_succ', mul_assoc, omega_bracket_mul, ih, euler (n + 1)]
    simp only [map_add, map_mul, map_natCast, map_ofNat, Nat.cast_add, Nat.cast_one, map_one]
    ring

/-- `∏ₙ (n+1)(n+d+2)`, the product for `n` below `a` -/
def omegaConst (d : ℕ) : ℕ → ℂ
  | 0 => 1
  | a + 1 => omegaConst d a * (((a : ℂ) + 1) * (a + d + 2))

theorem omegaConst_eq (d a : ℕ) : omegaConst d a * ((d + 1)! : ℂ) = (a ! : ℂ) * ((a + d + 1)! : ℂ) := by
  induction a with
  | zero => simp [omegaConst]
  | succ a ih =>
    rw [omegaConst, mul_right_comm, ih, Nat.factorial_succ a, show a + 1 + d + 1 = (a + d + 1) + 1 by ring,
      Nat.factorial_succ (a + d + 1)]
    push_cast
    ring

theorem barg_bracket_pow (g p : Form) (d : ℕ) (hg : g.IsHomogeneous d) (h0 : omega g = 0) (a : ℕ) :
    barg (bracket ^ a * g) (bracket ^ a * p) = omegaConst d a * barg g p := by
  induction a with
  | zero => simp [omegaConst]
  | succ a ih =>
    rw [pow_succ' bracket a, mul_assoc bracket _ p, barg_bracket_mul, ← pow_succ', omega_pow g d hg h0, barg_C_mul, ih,
      omegaConst]
    ring

theorem barg_bracket_lt (g p : Form) (d : ℕ) (hg : g.IsHomogeneous d) (h0 : omega g = 0) (a k : ℕ) :
    barg (bracket ^ a * g) (bracket ^ (a + (k + 1)) * p) = 0 := by
  rw [pow_add, mul_assoc, barg_bracket_pow g _ d hg h0, pow_succ', mul_assoc, barg_bracket_mul, h0, barg_zero, mul_zero]

/-! ## products of linear forms -/

/-- `v₁ x - u₁ y` -/
def alpha (x y : ℂ) : Form := C x * X 1 - C y * X 0
/-- `u₂ y - v₂ x` -/
def beta (x y : ℂ) : Form := C y * X 2 - C x * X 3

theorem barg_alpha_mul (x y : ℂ) (q p : Form) : barg q (alpha x y * p) = barg (C x * pderiv 1 q - C y * pderiv 0 q) p := by
  rw [show alpha x y * p = C x * (X 1 * p) - C y * (X 0 * p) by unfold alpha; ring, map_sub, barg_C_mul_right,
    barg_C_mul_right, barg_X_mul, barg_X_mul, barg_sub, barg_C_mul, barg_C_mul]

theorem barg_beta_mul (x y : ℂ) (q p : Form) : barg q (beta x y * p) = barg (C y * pderiv 2 q - C x * pderiv 3 q) p := by
  rw [show beta x y * p = C y * (X 2 * p) - C x * (X 3 * p) by unfold beta; ring, map_sub, barg_C_mul_right,
    barg_C_mul_right, barg_X_mul, barg_X_mul, barg_sub, barg_C_mul, barg_C_mul]

section
variable (x y : ℂ)
theorem pderiv_alpha0 : pderiv 0 (alpha x y) = -C y := by
  simp [alpha, pderiv_X_of_ne (show (1 : Fin 4) ≠ 0 by decide)]
theorem pderiv_alpha1 : pderiv 1 (alpha x y) = C x := by
  simp [alpha, pderiv_X_of_ne (show (0 : Fin 4) ≠ 1 by decide)]
theorem pderiv_alpha2 : pderiv 2 (alpha x y) = 0 := by
  simp [alpha, pderiv_X_of_ne (show (0 : Fin 4) ≠ 2 by decide), pderiv_X_of_ne (show (1 : Fin 4) ≠ 2 by decide)]
theorem pderiv_alpha3 : pderiv 3 (alpha x y) = 0 := by
  simp [alpha, pderiv_X_of_ne (show (0 : Fin 4) ≠ 3 by decide), pderiv_X_of_ne (show (1 : Fin 4) ≠ 3 by decide)]
theorem pderiv_beta0 : pderiv 0 (beta x y) = 0 := by
  simp [beta, pderiv_X_of_ne (show (2 : Fin 4) ≠ 0 by decide), pderiv_X_of_ne (show (3 : Fin 4) ≠ 0 by decide)]
theorem pderiv_beta1 : pderiv 1 (beta x y) = 0 := by
  simp [beta, pderiv_X_of_ne (show (2 : Fin 4) ≠ 1 by decide), pderiv_X_of_ne (show (3 : Fin 4) ≠ 1 by decide)]
theorem pderiv_beta2 : pderiv 2 (beta x y) = C y := by
  simp [beta, pderiv_X_of_ne (show (3 : Fin 4) ≠ 2 by decide)]
theorem pderiv_beta3 : pderiv 3 (beta x y) = -C x := by
  simp [beta, pderiv_X_of_ne (show (2 : Fin 4) ≠ 3 by decide)]

theorem alpha_homog : (alpha x y).IsHomogeneous 1 :=
  (IsHomogeneous.C_mul (isHomogeneous_X ℂ _) _).sub (IsHomogeneous.C_mul (isHomogeneous_X ℂ _) _)
theorem beta_homog : (beta x y).IsHomogeneous 1 :=
  (IsHomogeneous.C_mul (isHomogeneous_X ℂ _) _).sub (IsHomogeneous.C_mul (isHomogeneous_X ℂ _) _)
end

def linProd (b c : ℕ) (x y : ℂ) : Form := alpha x y ^ b * beta x y ^ c

theorem linProd_homog (b c : ℕ) (x y : ℂ) : (linProd b c x y).IsHomogeneous (b + c) := by
  have := ((alpha_homog x y).pow b).mul ((beta_homog x y).pow c)
  simpa [linProd] using this

theorem omega_linProd (b c : ℕ) (x y : ℂ) : omega (linProd b c x y) = 0 := by
  unfold omega linProd
  simp only [pderiv_mul, pderiv_pow, pderiv_alpha0, pderiv_alpha1, pderiv_alpha2, pderiv_alpha3, pderiv_beta0, pderiv_beta1,
    pderiv_beta2, pderiv_beta3, mul_zero, zero_mul, add_zero, zero_add, map_neg, pderiv_C, neg_zero,
    Derivation.map_natCast]
  ring

theorem barg_one_one : barg 1 1 = 1 := by
  have h := barg_monomial 1 0 1
  rw [monomial_zero', map_one] at h
  rw [h]; simp

theorem barg_linProd (b c : ℕ) (x y x' y' : ℂ) :
    barg (linProd b c x' y') (linProd b c x y) = b ! * c ! * (x * x' + y * y') ^ (b + c) := by
  induction b with
  | zero =>
    induction c with
    | zero => simp [linProd, barg_one_one]
    | succ c ih =>
      have e : linProd 0 (c + 1) x y = beta x y * linProd 0 c x y := by unfold linProd; rw [pow_succ' (beta x y)]; ring
      have e2 : C y * pderiv 2 (linProd 0 (c + 1) x' y') - C x * pderiv 3 (linProd 0 (c + 1) x' y') =
          C ((c + 1) * (x * x' + y * y')) * linProd 0 c x' y' := by
        unfold linProd
        simp only [pow_zero, one_mul, pderiv_pow, pderiv_beta2, pderiv_beta3, Nat.add_sub_cancel, map_mul, map_add,
          map_natCast, map_one]
        push_cast
        ring
      rw [e, barg_beta_mul, e2, barg_C_mul, ih, Nat.factorial_succ c]
      push_cast
      ring
  | succ b ih =>
    have e : linProd (b + 1) c x y = alpha x y * linProd b c x y := by unfold linProd; rw [pow_succ' (alpha x y)]; ring
    have e2 : C x * pderiv 1 (linProd (b + 1) c x' y') - C y * pderiv 0 (linProd (b + 1) c x' y') =
        C ((b + 1) * (x * x' + y * y')) * linProd b c x' y' := by
      unfold linProd
      simp only [pderiv_mul, pderiv_pow, pderiv_alpha0, pderiv_alpha1, pderiv_beta0, pderiv_beta1, Nat.add_sub_cancel, map_mul,
        map_add, map_natCast, map_one]
      push_cast
      ring
    rw [e, barg_alpha_mul, e2, barg_C_mul, ih, Nat.factorial_succ b]
    push_cast
    ring

/-- The pairing of two coupled forms. -/
theorem barg_coupled (a b c : ℕ) (x y x' y' : ℂ) :
    barg (bracket ^ a * linProd b c x' y') (bracket ^ a * linProd b c x y) * ((b + c + 1)! : ℂ) =
      a ! * b ! * c ! * ((a + b + c + 1)! : ℂ) * (x * x' + y * y') ^ (b + c) := by
  rw [barg_bracket_pow _ _ _ (linProd_homog b c x' y') (omega_linProd b c x' y'), barg_linProd, mul_right_comm,
    omegaConst_eq, ← add_assoc a b c]
  ring

theorem barg_coupled_ne (a b c a' b' c' : ℕ) (x y x' y' : ℂ) (h : a ≠ a') :
    barg (bracket ^ a' * linProd b' c' x' y') (bracket ^ a * linProd b c x y) = 0 := by
  rcases Nat.lt_or_gt_of_ne h with h | h
  · obtain ⟨k, rfl⟩ := Nat.exists_eq_add_of_lt h
    rw [barg_symm, show a + k + 1 = a + (k + 1) by ring]
    exact barg_bracket_lt _ _ _ (linProd_homog b c x y) (omega_linProd b c x y) a k
  · obtain ⟨k, rfl⟩ := Nat.exists_eq_add_of_lt h
    rw [show a' + k + 1 = a' + (k + 1) by ring]
    exact barg_bracket_lt _ _ _ (linProd_homog b' c' x' y') (omega_linProd b' c' x' y') a' k

end

end E3x
