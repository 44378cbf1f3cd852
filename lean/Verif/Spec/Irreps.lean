import Verif.Spec.LookupTables
import Mathlib.Analysis.SpecialFunctions.Trigonometric.Basic

/-!
# Specification vocabulary for spherical harmonics, Wigner-D matrices and Clebsch-Gordan coefficients
-/

namespace E3x.Spec

open Finset (range)

/-- The order of the component with flat index `i` when components are in Cartesian order: within degree `l` the orders
are `l, -l, l - 1, -(l - 1), …, 1, -1, 0`. -/
def cartesianOrderOf (i : Nat) : ℤ :=
  let l := degreeOf i
  let k := i - l ^ 2
  if k = 2 * l then 0 else if k % 2 = 0 then (l : ℤ) - (k / 2 : ℕ) else -((l : ℤ) - (k / 2 : ℕ))

/-- The order of the component with flat index `i`. -/
def componentOrder (cartesianOrder : Bool) (i : Nat) : ℤ := if cartesianOrder then cartesianOrderOf i else orderOf i

/-- `Rᵀ R = 1` -/
def IsOrthogonal (R : Fin 3 → Fin 3 → ℝ) : Prop := ∀ i j, ∑ k, R k i * R k j = if i = j then 1 else 0

/-- the determinant of a 3 × 3 matrix -/
noncomputable def det3x3 (R : Fin 3 → Fin 3 → ℝ) : ℝ :=
  R 0 0 * (R 1 1 * R 2 2 - R 1 2 * R 2 1) - R 0 1 * (R 1 0 * R 2 2 - R 1 2 * R 2 0) +
    R 0 2 * (R 1 0 * R 2 1 - R 1 1 * R 2 0)

/-- the row vector `r @ R` -/
noncomputable def vecMul (r : Fin 3 → ℝ) (R : Fin 3 → Fin 3 → ℝ) : Fin 3 → ℝ := fun j => ∑ k, r k * R k j

/-- the matrix `R @ S` -/
noncomputable def matMul (R S : Fin 3 → Fin 3 → ℝ) : Fin 3 → Fin 3 → ℝ := fun i j => ∑ k, R i k * S k j

/-- the identity matrix -/
def identity3 : Fin 3 → Fin 3 → ℝ := fun i j => if i = j then 1 else 0

/-- the transposed matrix -/
def transpose3 (R : Fin 3 → Fin 3 → ℝ) : Fin 3 → Fin 3 → ℝ := fun i j => R j i

/-- The documented normalisation constants. -/
noncomputable def normConstant : String → Nat → ℝ
  | "4pi", l => Real.sqrt (2 * l + 1)
  | "orthonormal", l => Real.sqrt ((2 * l + 1) / (4 * Real.pi))
  | _, _ => 1

/-- The documented names of normalisations. -/
def normNames : List String := ["4pi", "orthonormal", "racah", "schmidt"]

/-- The square of the length of a vector. -/
noncomputable def normSq (r : Fin 3 → ℝ) : ℝ := ∑ k, r k ^ 2

/-- the triangle rule `|l1 - l2| ≤ l3 ≤ l1 + l2` -/
def Triangle (l1 l2 l3 : ℕ) : Prop := |(l1 : ℤ) - l2| ≤ l3 ∧ l3 ≤ l1 + l2

instance (l1 l2 l3 : ℕ) : Decidable (Triangle l1 l2 l3) := inferInstanceAs (Decidable (_ ∧ _))

end E3x.Spec
