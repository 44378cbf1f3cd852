import Verif.Model.TensorConversion
import Verif.Spec.Irreps

/-!
# Specification vocabulary for traceless symmetric tensors

A tensor of degree `l` is stored in the last axes of an array: in `l` axes of size `3`, or in one axis of size `1` for
`l = 0`. The axes before are batch axes.
-/

namespace E3x.Spec

open Finset (range)

/-- The last axes of an array with tensors of degree `l`. -/
def tensorAxes (l : ℕ) : List ℕ := if l = 0 then [1] else List.replicate l 3

/-- Two arrays have the same shape and the same entries. -/
def SameEntries (a b : NdArray) : Prop := a.shape = b.shape ∧ ∀ idx, InBounds idx a.shape → a.val idx = b.val idx

/-- All tensors of degree `l` in the array are invariant under permutations of their indices. -/
def IsSymmetric (batch : List ℕ) (l : ℕ) (x : NdArray) : Prop :=
  ∀ b, InBounds b batch → ∀ α β, InBounds α (List.replicate l 3) → α.Perm β → x.val (b ++ α) = x.val (b ++ β)

/-- The trace over any pair of indices of the tensors of degree `l` in the array vanishes. -/
def IsTraceless (batch : List ℕ) (l : ℕ) (x : NdArray) : Prop :=
  ∀ b, InBounds b batch → ∀ α β γ, α.length + β.length + γ.length + 2 = l →
    InBounds (α ++ β ++ γ) (List.replicate (l - 2) 3) → ∑ k ∈ range 3, x.val (b ++ (α ++ [k] ++ β ++ [k] ++ γ)) = 0

/-- All tensors of degree `l` in the array with all indices rotated:
`∑ x[…, j₁, …, jₗ] R[j₁, i₁] ⋯ R[jₗ, iₗ]`. -/
noncomputable def rotatedEntry (R : Fin 3 → Fin 3 → ℝ) (l : ℕ) (x : NdArray) (b : List ℕ) (i : Fin l → Fin 3) : ℝ :=
  ∑ j : Fin l → Fin 3, x.val (b ++ List.ofFn fun k => (j k : ℕ)) * ∏ k, R (j k) (i k)

end E3x.Spec
