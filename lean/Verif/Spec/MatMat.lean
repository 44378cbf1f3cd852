import Verif.Model.MatMat
import Verif.Spec.Irreps

/-!
# Specification vocabulary for matrices of matrices

A big matrix is made of rectangles. Rows are addressed by triples `(A, p, i)`: the position `A` of a degree in the list
`degrees`, the number `p` of its copy (of `mult`), and the row `i` inside of the `(2l+1) × …` rectangle.
-/

namespace E3x.Spec

open Finset (range)

/-- The degree at position `A`. -/
def degreeAt (degrees : List ℕ) (A : ℕ) : ℕ := degrees.getD A 0

/-- The number of rows (or columns) before the rectangles of position `A`. -/
def blockStart (degrees : List ℕ) (mult A : ℕ) : ℕ := ∑ B ∈ range A, (2 * degreeAt degrees B + 1) * mult

/-- The row (or column) number of `(A, p, i)`. -/
def position (degrees : List ℕ) (mult A p i : ℕ) : ℕ :=
  blockStart degrees mult A + p * (2 * degreeAt degrees A + 1) + i

/-- The irreps `irreps[l]` of degrees `0, …, K` have `2l+1` components each. -/
def IsIrreps (irreps : List Arr2) (K : ℕ) : Prop :=
  irreps.length = K + 1 ∧ ∀ l, (h : l < irreps.length) → irreps[l].rows = 2 * l + 1

/-- The array of irreps of degree `l`. -/
def irrepsAt (irreps : List Arr2) (l : ℕ) : Arr2 := irreps.getD l ⟨0, 0, fun _ _ => 0⟩

/-- The rectangle for the degrees `la` and `lb` made of the columns `col l` of the irreps of degrees `l`. -/
noncomputable def coupledEntry (CG : ℕ → ℕ → ℕ → ℝ) (irreps : List Arr2) (K la lb : ℕ) (col : ℕ → ℕ) (i j : ℕ) : ℝ :=
  ∑ l ∈ range (K + 1) with Triangle la lb l,
    ∑ m ∈ range (2 * l + 1), (irrepsAt irreps l).val m (col l) * CG (la ^ 2 + i) (lb ^ 2 + j) (l ^ 2 + m)

/-- All irreps are rotated by `D`, the Wigner-D matrix for all degrees. -/
def RotatedIrreps (D : ℕ → ℕ → ℝ) (irreps irreps' : List Arr2) (K : ℕ) : Prop :=
  ∀ l ≤ K, ∀ m < 2 * l + 1, ∀ c < (irrepsAt irreps l).cols, (irrepsAt irreps' l).val m c =
    ∑ m' ∈ range (2 * l + 1), (irrepsAt irreps l).val m' c * D (l ^ 2 + m') (l ^ 2 + m)

/-- `B` is the block diagonal matrix that contains, for each position and each of the copies, the block of `D` for the
degree at this position. -/
def IsBlockRotation (D : ℕ → ℕ → ℝ) (degrees : List ℕ) (mult : ℕ) (B : ℕ → ℕ → ℝ) : Prop :=
  ∀ A < degrees.length, ∀ p < mult, ∀ i < 2 * degreeAt degrees A + 1,
    ∀ A' < degrees.length, ∀ p' < mult, ∀ i' < 2 * degreeAt degrees A' + 1,
      B (position degrees mult A p i) (position degrees mult A' p' i') =
        if A = A' ∧ p = p' then D (degreeAt degrees A ^ 2 + i) (degreeAt degrees A ^ 2 + i') else 0

end E3x.Spec
