import Mathlib.Data.List.Forall2
import Mathlib.Algebra.BigOperators.Group.List.Basic

/-!
# Arrays of any rank

An array is a shape and the entries in row-major order (the last index runs fastest), as in NumPy and JAX.
-/

namespace E3x

/-- An array: `shape` and entries in row-major order. (Only the first `shape.prod` values of `data` are entries.) -/
structure NDArray (α : Type) where
  shape : List ℕ
  data : ℕ → α

namespace Spec

/-- `idx` is a multi-index of an array of shape `shape`. -/
def InShape (idx shape : List ℕ) : Prop := List.Forall₂ (· < ·) idx shape

/-- The position of a multi-index in row-major order. -/
def ravel : List ℕ → List ℕ → ℕ
  | _ :: s, i :: is => i * s.prod + ravel s is
  | _, _ => 0

/-- The entry `x[i, j, ...]`. -/
def entry {α : Type} (x : NDArray α) (idx : List ℕ) : α := x.data (ravel x.shape idx)

/-- Example: the entry `x[1, 2]` of an array with three columns is number `1 * 3 + 2`. -/
example {α : Type} (f : ℕ → α) : entry ⟨[2, 3], f⟩ [1, 2] = f 5 := rfl

/-- The values of the edges that end in node `i` in the dense format: `inputs[b, i, m, t]` for the columns `m` where the
mask holds. (`b` are batch indices, `t` are feature indices.) -/
def denseValues {α : Type} (inputs : NDArray α) (mask : NDArray Bool) (M : ℕ) (b : List ℕ) (i : ℕ) (t : List ℕ) : List α :=
  ((List.range M).filter fun m => entry mask (b ++ [i, m])).map fun m => entry inputs (b ++ [i, m] ++ t)

/-- The values of the edges that end in node `i` in the sparse format: `inputs[b, p, t]` for the positions `p` with
`dst[b, p] = i`. -/
def sparseValues {α : Type} (inputs : NDArray α) (dst : NDArray ℕ) (P : ℕ) (b : List ℕ) (i : ℕ) (t : List ℕ) : List α :=
  ((List.range P).filter fun p => decide (entry dst (b ++ [p]) = i)).map fun p => entry inputs (b ++ [p] ++ t)

/-- The edges `(i, j)` of batch entry `b` of a dense index list of shape `(..., N, M)`; entries `≥ n` are padding. -/
def denseGraph (adj : NDArray ℕ) (n N M : ℕ) (b : List ℕ) : List (ℕ × ℕ) :=
  (List.range N).flatMap fun i => (((List.range M).map fun m => entry adj (b ++ [i, m])).filter (· < n)).map fun j => (i, j)

/-- The edges `(i, j)` of batch entry `b` of a sparse index list of shape `(..., P)`; destinations `≥ N` are padding. -/
def sparseGraph (dst src : NDArray ℕ) (N P : ℕ) (b : List ℕ) : List (ℕ × ℕ) :=
  ((List.range P).map fun p => (entry dst (b ++ [p]), entry src (b ++ [p]))).filter fun e => e.1 < N

/-- The values `x[b, j, t]` of the neighbours `j` of node `i` in a graph. -/
def neighbourValues {α : Type} (x : NDArray α) (edges : List (ℕ × ℕ)) (b : List ℕ) (i : ℕ) (t : List ℕ) : List α :=
  (edges.filter fun e => e.1 = i).map fun e => entry x (b ++ [e.2] ++ t)

end Spec

end E3x
