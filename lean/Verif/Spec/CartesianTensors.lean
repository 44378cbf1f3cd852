import Verif.Model.CartesianTensors

/-!
# Specification of C69: Cartesian tensors
-/

namespace E3x.Spec

/-- The tensor multiplied by the matrix `R` (as positions are, `x ↦ x R`) in all of its indices. -/
def rotatedTensor {n : ℕ} (R : Fin 3 → Fin 3 → ℝ) (T : (Fin n → Fin 3) → ℝ) : (Fin n → Fin 3) → ℝ :=
  fun i => ∑ j : Fin n → Fin 3, (∏ k, R (j k) (i k)) * T j

/-- An irrep of degree `l` multiplied by the block of degree `l` of a Wigner-D matrix. -/
noncomputable def rotatedIrrep (D : ℕ → ℕ → ℝ) (l : ℕ) (a : ℕ → ℝ) : ℕ → ℝ :=
  fun p => ∑ q ∈ Finset.range (2 * l + 1), a q * D (l ^ 2 + q) (l ^ 2 + p)

/-- A family of irreps: `2 l + 1` numbers for each coupling path that ends with degree `l`. -/
def IsFamily (n : ℕ) (a : List ℕ → ℕ → ℝ) : Prop :=
  ∀ path m, a path m ≠ 0 → path ∈ couplingPaths n ∧ m < 2 * path.headD 0 + 1

end E3x.Spec
