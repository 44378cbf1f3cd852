import Verif.Model.FeatureArrays

/-!
# Model of `Embed` on arrays of any integers

nn/modules.py:54-109. (`embed` in Model/Dense.lean is the same for one integer in range.) A missing number (NaN) is `none`.
-/

namespace E3x

open NDArray

/-- An array of numbers with the answer to `jnp.issubdtype(dtype, jnp.integer)`. -/
structure IndexInput where
  isInteger : Bool
  array : NDArray ℤ

/-- `jnp.take(a, indices, axis=0)`: each index is replaced by the part of `a` with this index in the first axis. With the
default mode of JAX a negative index counts from the end, and an index out of range gives NaN. (Trusted base.
Simplifications: the first axis of `a` is not empty, and its extent can be represented in the type of the indices.) -/
def takeFill (a : NDArray ℝ) (indices : NDArray ℤ) : NDArray (Option ℝ) :=
  ofFn (indices.shape ++ a.shape.tail) fun idx =>
    let n : ℤ := a.shape.headD 0
    let i := Spec.entry indices (idx.take indices.ndim)
    let i := if i < 0 then i + n else i
    if 0 ≤ i ∧ i < n then some (Spec.entry a (i.toNat :: idx.drop indices.ndim)) else none

/-- `Embed.setup`, nn/modules.py:81-87: the initializer is called with this shape. -/
def embedSetup (init : List ℕ → NDArray ℝ) (numEmbeddings features : ℕ) : NDArray ℝ :=
  init [numEmbeddings, 1, 1, features]

/-- `Embed.__call__`, nn/modules.py:89-109. (`promote_dtype` does not change real numbers.) -/
def embedArray (embedding : NDArray ℝ) (inputs : IndexInput) : Except Err (NDArray (Option ℝ)) :=
  if !inputs.isInteger then .error .valueError else .ok (takeFill embedding inputs.array)

end E3x
