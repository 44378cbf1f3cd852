import Mathlib.Algebra.MvPolynomial.Degrees
import Mathlib.Data.List.Perm.Basic
import Verif.Spec.Sphere

/-!
# Specification: quadrature on the unit sphere
-/

namespace E3x.Spec

noncomputable section

/-- What the docstring tells a user to compute with grid points `r` and weights `w`: `4π ∑ⱼ wⱼ f(rⱼ)`. -/
def quadrature (grid : List ((Fin 3 → ℝ) × ℝ)) (f : (Fin 3 → ℝ) → ℝ) : ℝ :=
  4 * Real.pi * (grid.map fun p => p.2 * f p.1).sum

/-- The sum of the absolute values of the coefficients of a polynomial in `x`, `y`, `z`. -/
def coeffSum (P : MvPolynomial (Fin 3) ℝ) : ℝ := ∑ k ∈ P.support, |P.coeff k|

/-- The grid has the same points and weights as the table, in some order, where each coordinate is off by at most `δ`
and each weight by at most the fraction `δ` (for example by rounding to `float32`). -/
def SameUpTo (δ : ℝ) (grid table : List ((Fin 3 → ℝ) × ℝ)) : Prop :=
  ∃ l, l.Perm table ∧ List.Forall₂ (fun p q => (∀ i, |p.1 i - q.1 i| ≤ δ) ∧ |p.2 - q.2| ≤ δ * |q.2|) grid l

end

end E3x.Spec
