import Verif.Spec.LookupTables
import Verif.Model.FloatArith
import Verif.Model.Irreps

/-!
# Specification of rounding errors of spherical harmonics
-/

namespace E3x.Spec

noncomputable section

/-- A lookup table with the right monomials whose coefficients have relative errors of at most `τ`. -/
def AccurateTable (τ : ℝ) (L : ℕ) (table : SHTable) : Prop :=
  table.ls = (shTable sphTerms L).ls ∧
    ∀ i j, |table.cm (i, j) - (shTable sphTerms L).cm (i, j)| ≤ τ * |(shTable sphTerms L).cm (i, j)|

/-- A bound for the harmonics of degree `l` of unit vectors (without the constant of the normalisation). -/
def harmonicScale (l : ℕ) : ℝ := Real.sqrt (((2 * l).choose l : ℝ) / 2 ^ l)

/-- A bound for the sum of the absolute values of all factors and products for vectors of length at most `B`: there are
`totalCartMonomials L` products, the factors of which are at most `B ^ L`, the coefficients, and the constant `c`. -/
def harmonicSize (τ : ℝ) (L l : ℕ) (B c : ℝ) : ℝ :=
  (max 1 B) ^ L * ((totalCartMonomials L + (1 + τ) * (harmonicScale l * Real.sqrt 3 ^ l)) * max 1 c)

end

end E3x.Spec
