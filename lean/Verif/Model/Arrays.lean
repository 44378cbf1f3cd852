import Verif.Model.Basic
import Verif.Spec.Arrays

/-!
# The JAX array operations used in ops/indexed.py, for arrays of any rank

These definitions model the library functions `jnp.reshape`, `jnp.expand_dims`, indexing by an integer array, `jax.vmap`,
axis reductions with `where`/`initial`, `jax.ops.segment_*` and elementwise arithmetic; they are part of the trusted base.
-/

namespace E3x

variable {α β γ : Type}

namespace NDArray

/-- The multi-index with a given row-major position. -/
def unravel : List ℕ → ℕ → List ℕ
  | [], _ => []
  | _ :: s, k => k / s.prod :: unravel s (k % s.prod)

/-- The array with given entries. -/
def ofFn (shape : List ℕ) (f : List ℕ → α) : NDArray α := ⟨shape, fun k => f (unravel shape k)⟩

/-- `x.ndim`. -/
def ndim (x : NDArray α) : ℕ := x.shape.length

/-- `jnp.reshape(x, s)` without unknown extents: the row-major order of the entries does not change. -/
def reshape (x : NDArray α) (s : List ℕ) : Except Err (NDArray α) :=
  if s.prod = x.shape.prod then .ok ⟨s, x.data⟩ else .error .typeError

/-- `jnp.reshape(x, (-1, *s))`. The first extent is the quotient of the sizes. Simplification: it is undetermined if
an extent in `s` is zero, this is an error here. -/
def reshapeHead (x : NDArray α) (s : List ℕ) : Except Err (NDArray α) :=
  if s.prod = 0 then .error .typeError else reshape x (x.shape.prod / s.prod :: s)

/-- `jnp.expand_dims(x, axis)`. -/
def expandDims (x : NDArray α) (axis : ℕ) : Except Err (NDArray α) :=
  if axis ≤ x.ndim then .ok ⟨x.shape.take axis ++ 1 :: x.shape.drop axis, x.data⟩ else .error .valueError

/-- `x[i]` for an array `i` of (non-negative) integers: indices beyond the end are clamped (JAX convention). A scalar
cannot be indexed and nothing can be gathered from an axis of extent zero. -/
def take (x : NDArray α) (i : NDArray ℕ) : Except Err (NDArray α) :=
  match x.shape with
  | [] => .error .indexError
  | n :: rest =>
    if n = 0 ∧ i.shape.prod ≠ 0 then .error .indexError
    else .ok (ofFn (i.shape ++ rest) fun idx =>
      Spec.entry x (min (Spec.entry i (idx.take i.ndim)) (n - 1) :: idx.drop i.ndim))

/-- `x[b]` for a number `b`: one slice along the first axis. -/
def slice (x : NDArray α) (b : ℕ) : NDArray α := ⟨x.shape.tail, fun k => x.data (b * x.shape.tail.prod + k)⟩

/-- `jax.vmap(f, in_axes=(0, 0), out_axes=0)(x, y)`. The shape of the result is found from the slices number 0 (shapes
and errors of array operations do not depend on entries). -/
def vmap (f : NDArray α → NDArray β → Except Err (NDArray γ)) (x : NDArray α) (y : NDArray β) :
    Except Err (NDArray γ) :=
  if x.shape.head? = none ∨ x.shape.head? ≠ y.shape.head? then .error .valueError
  else
    match f (x.slice 0) (y.slice 0) with
    | .error e => .error e
    | .ok r0 => .ok ⟨x.shape.headI :: r0.shape, fun k =>
        match f (x.slice (k / r0.shape.prod)) (y.slice (k / r0.shape.prod)) with
        | .ok r => r.data (k % r0.shape.prod)
        | .error _ => r0.data (k % r0.shape.prod)⟩

/-- The entry of an array that is broadcast to a larger shape of the same rank: axes of extent one are stretched. -/
def stretched (w : NDArray β) (idx : List ℕ) : β :=
  Spec.entry w (List.zipWith (fun n i => if n = 1 then 0 else i) w.shape idx)

/-- `jnp.sum/min/max(x, axis=axis, where=w, initial=init, keepdims=keepdims)` for `axis < x.ndim` and `w` of the rank of
`x`: fold over the entries along the axis where `w` holds. -/
def reduceAxis (op : α → α → α) (init : α) (x : NDArray α) (axis : ℕ) (w : NDArray Bool) (keepdims : Bool) : NDArray α :=
  ofFn (x.shape.take axis ++ (if keepdims then [1] else []) ++ x.shape.drop (axis + 1)) fun idx =>
    (List.range (x.shape.getD axis 0)).foldl (fun acc m =>
      let full := idx.take axis ++ m :: idx.drop (axis + if keepdims then 1 else 0)
      if stretched w full then op acc (Spec.entry x full) else acc) init

/-- `jax.ops.segment_sum/min/max(x, dst, num_segments=num)` for a vector `dst`: segment `i` is the fold of the rows `p`
with `dst[p] == i`, in order; rows with other destinations are dropped. -/
def segment (op : α → α → α) (init : α) (num : ℕ) (x : NDArray α) (dst : NDArray ℕ) : NDArray α :=
  ofFn (num :: x.shape.tail) fun idx =>
    (List.range (x.shape.headD 0)).foldl (fun acc p =>
      if Spec.entry dst [p] = idx.headD 0 then op acc (Spec.entry x (p :: idx.tail)) else acc) init

/-- Elementwise operation on arrays of the same rank; axes of extent one are stretched. -/
def zip (f : α → β → γ) (x : NDArray α) (y : NDArray β) : Except Err (NDArray γ) :=
  if x.ndim = y.ndim ∧ ((x.shape.zip y.shape).all fun p => p.1 == p.2 || p.1 == 1 || p.2 == 1) then
    .ok (ofFn (List.zipWith (fun a b => if a = 1 then b else a) x.shape y.shape) fun idx =>
      f (stretched x idx) (stretched y idx))
  else .error .valueError

end NDArray

end E3x
