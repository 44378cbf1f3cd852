import Verif.Model.Arrays
import Verif.Model.Indexed
import Mathlib.Analysis.Complex.Exponential

/-!
# Model of the gather and reduce functions of ops/indexed.py on arrays of any rank

`Model/Indexed.lean` models one entry of the batch axes; here the batch axes, the trailing feature axes, the reshapes and
the calls of `jax.vmap` are explicit. Simplification: indices are natural numbers and index arrays have at least one axis.
-/

namespace E3x

variable {α : Type}

open NDArray

/-- `_gather_dense`, ops/indexed.py:262-306. -/
def gatherDenseND (inputs : NDArray α) (idx : NDArray ℕ) : Except Err (NDArray α) := do
  if idx.ndim < 2 then .error .valueError
  else if inputs.ndim < idx.ndim - 1 then .error .valueError
  else if idx.shape.take (idx.ndim - 2) ≠ inputs.shape.take (idx.ndim - 2) then .error .valueError
  else if idx.ndim > 2 then
    let reshapedInputs ← inputs.reshapeHead (inputs.shape.drop (idx.ndim - 2))
    let reshapedIdx ← idx.reshapeHead (idx.shape.drop (idx.ndim - 2))
    let gathered ← vmap NDArray.take reshapedInputs reshapedIdx
    gathered.reshape (idx.shape.take (idx.ndim - 2) ++ gathered.shape.tail)
  else inputs.take idx

/-- `_gather_sparse`, ops/indexed.py:309-354. -/
def gatherSparseND (inputs : NDArray α) (idx : NDArray ℕ) : Except Err (NDArray α) := do
  if idx.ndim < 1 then .error .valueError
  else if inputs.ndim < idx.ndim then .error .valueError
  else if idx.shape.take (idx.ndim - 1) ≠ inputs.shape.take (idx.ndim - 1) then .error .valueError
  else if idx.ndim > 1 then
    let reshapedInputs ← inputs.reshapeHead (inputs.shape.drop (idx.ndim - 1))
    let reshapedIdx ← idx.reshapeHead (idx.shape.drop (idx.ndim - 1))
    let gathered ← vmap NDArray.take reshapedInputs reshapedIdx
    gathered.reshape (idx.shape.take (idx.ndim - 1) ++ gathered.shape.tail)
  else inputs.take idx

/-- `gather_src`, ops/indexed.py:357-388. -/
def gatherSrcND (inputs : NDArray α) (adj src : Option (NDArray ℕ)) : Except Err (NDArray α) := do
  let t ← determineIndexType (adj.map (·.shape)) none (src.map (·.shape))
  match t, adj, src with
  | .dense, some a, _ => gatherDenseND inputs a
  | .sparse, _, some s => gatherSparseND inputs s
  | _, _, _ => .error .assertion

/-- `gather_dst`, ops/indexed.py:391-422. -/
def gatherDstND (inputs : NDArray α) (adj dst : Option (NDArray ℕ)) : Except Err (NDArray α) := do
  let t ← determineIndexType (adj.map (·.shape)) (dst.map (·.shape)) none
  match t, adj, dst with
  | .dense, some a, _ => inputs.expandDims (a.ndim - 1)
  | .sparse, _, some d => gatherSparseND inputs d
  | _, _, _ => .error .assertion

/-- `ReductionMode`, ops/indexed.py:425-426. -/
inductive Reduction where
  | sum
  | min
  | max

/-- The dtype of an array: whether it is an integer or floating point dtype (anything else is rejected), the limits
`jnp.iinfo/finfo(dtype).min`/`.max` and the values with which `jax.ops.segment_max`/`segment_min` start (these limits for
integers, `-inf`/`inf` for floating point numbers). -/
structure Dtype (α : Type) where
  isInteger : Bool
  isFloating : Bool
  min : α
  max : α
  segmentMaxInit : α
  segmentMinInit : α

section
variable [Add α] [Zero α] [Max α] [Min α]

/-- The operation of a reduction mode. -/
def Reduction.op : Reduction → α → α → α
  | .sum => (· + ·)
  | .min => Min.min
  | .max => Max.max

/-- The initial value of the dense reductions, ops/indexed.py:500-519. -/
def Reduction.denseInit (dt : Dtype α) : Reduction → α
  | .sum => 0
  | .min => dt.max
  | .max => dt.min

/-- The initial value of the segment reductions, ops/indexed.py:547-553. -/
def Reduction.segmentInit (dt : Dtype α) : Reduction → α
  | .sum => 0
  | .min => dt.segmentMinInit
  | .max => dt.segmentMaxInit

/-- `_indexed_reduce`, ops/indexed.py:429-594. (`indices_are_sorted` only affects performance and is left out;
`keepdims=None` means `False`.) -/
def indexedReduceND (mode : Reduction) (dt : Dtype α) (inputs : NDArray α) (keepdims : Bool) (adj : Option (NDArray ℕ))
    (mask : Option (NDArray Bool)) (dst : Option (NDArray ℕ)) (num : Option ℕ) : Except Err (NDArray α) := do
  let t ← determineIndexType (adj.map (·.shape)) (dst.map (·.shape)) none
  if !dt.isInteger && !dt.isFloating then .error .typeError
  else match t, adj, dst with
  | .dense, some a, _ =>
    match mask with
    | none => .error .typeError
    | some w =>
      if inputs.ndim < a.ndim then .error .valueError
      else if a.shape ≠ inputs.shape.take a.ndim then .error .valueError
      else do
        let w ← w.reshape (a.shape ++ List.replicate (inputs.ndim - a.ndim) 1)
        .ok (reduceAxis mode.op (mode.denseInit dt) inputs (a.ndim - 1) w keepdims)
  | .sparse, _, some d =>
    match num with
    | none => .error .typeError
    | some n =>
      if inputs.ndim < d.ndim then .error .valueError
      else if d.shape ≠ inputs.shape.take d.ndim then .error .valueError
      else do
        let outputs ←
          if d.ndim > 1 then do
            let reshapedInputs ← inputs.reshapeHead (inputs.shape.drop (d.ndim - 1))
            let reshapedDst ← d.reshapeHead (d.shape.drop (d.ndim - 1))
            let outputs ← vmap (fun x i => .ok (segment mode.op (mode.segmentInit dt) n x i)) reshapedInputs reshapedDst
            outputs.reshape (d.shape.take (d.ndim - 1) ++ outputs.shape.tail)
          else .ok (segment mode.op (mode.segmentInit dt) n inputs d)
        if keepdims then gatherSrcND outputs none (some d) else .ok outputs
  | _, _, _ => .error .assertion

end

/-- `indexed_sum`, ops/indexed.py:597-642. -/
def indexedSumND [Add α] [Zero α] [Max α] [Min α] (dt : Dtype α) (inputs : NDArray α) (keepdims : Bool)
    (adj : Option (NDArray ℕ)) (mask : Option (NDArray Bool)) (dst : Option (NDArray ℕ)) (num : Option ℕ) :
    Except Err (NDArray α) :=
  indexedReduceND .sum dt inputs keepdims adj mask dst num

/-- `indexed_min`, ops/indexed.py:645-690. -/
def indexedMinND [Add α] [Zero α] [Max α] [Min α] (dt : Dtype α) (inputs : NDArray α) (keepdims : Bool)
    (adj : Option (NDArray ℕ)) (mask : Option (NDArray Bool)) (dst : Option (NDArray ℕ)) (num : Option ℕ) :
    Except Err (NDArray α) :=
  indexedReduceND .min dt inputs keepdims adj mask dst num

/-- `indexed_max`, ops/indexed.py:693-738. -/
def indexedMaxND [Add α] [Zero α] [Max α] [Min α] (dt : Dtype α) (inputs : NDArray α) (keepdims : Bool)
    (adj : Option (NDArray ℕ)) (mask : Option (NDArray Bool)) (dst : Option (NDArray ℕ)) (num : Option ℕ) :
    Except Err (NDArray α) :=
  indexedReduceND .max dt inputs keepdims adj mask dst num

/-- `indexed_softmax`, ops/indexed.py:741-815, over the reals (`stop_gradient` is the identity on values). -/
noncomputable def indexedSoftmaxND (dt : Dtype ℝ) (inputs : NDArray ℝ) (mult : Option (NDArray ℝ))
    (adj : Option (NDArray ℕ)) (mask : Option (NDArray Bool)) (dst : Option (NDArray ℕ)) (num : Option ℕ) :
    Except Err (NDArray ℝ) := do
  if mult.any fun m => m.shape != inputs.shape then .error .valueError
  else if !dt.isFloating then .error .valueError
  else
    let maximum ← indexedMaxND dt inputs true adj mask dst num
    let numerator ← NDArray.zip (fun x m => Real.exp (x - m)) inputs maximum
    let numerator ←
      match mult with
      | some m => NDArray.zip (· * ·) numerator m
      | none => .ok numerator
    let denominator ← indexedSumND dt numerator true adj mask dst num
    NDArray.zip (· / ·) numerator denominator

end E3x

namespace E3x

/-! ## Conversions on arrays of any rank -/

/-- The entries of an array with three axes as nested lists. -/
def nested3 (x : NDArray ℕ) : List (List (List ℕ)) :=
  (List.range (x.shape.getD 0 0)).map fun b => (List.range (x.shape.getD 1 0)).map fun i =>
    (List.range (x.shape.getD 2 0)).map fun m => Spec.entry x [b, i, m]

/-- The entries of an array with two axes as nested lists. -/
def nested2 (x : NDArray ℕ) : List (List ℕ) :=
  (List.range (x.shape.getD 0 0)).map fun b => (List.range (x.shape.getD 1 0)).map fun p => Spec.entry x [b, p]

/-- `jnp.stack` of vectors of equal length. -/
def stack2 (l : List (List ℕ)) : NDArray ℕ :=
  NDArray.ofFn [l.length, (l.headD []).length] fun idx => (l.getD (idx.getD 0 0) []).getD (idx.getD 1 0) 0

/-- The array with the entries of equally shaped lists of rows (filled in the loops ops/indexed.py:247-254). -/
def stack3 (l : List (List (List ℕ))) : NDArray ℕ :=
  NDArray.ofFn [l.length, (l.headD []).length, ((l.headD []).headD []).length] fun idx =>
    ((l.getD (idx.getD 0 0) []).getD (idx.getD 1 0) []).getD (idx.getD 2 0) 0

/-- `dense_to_sparse_indices`, ops/indexed.py:146-203, with batch axes. -/
def denseToSparseND (adj : NDArray ℕ) (pad : Option ℕ) : Except Err (NDArray ℕ × NDArray ℕ) := do
  if adj.ndim < 2 then .error .valueError
  else if adj.shape.prod = 0 then
    let dst : NDArray ℕ := ⟨adj.shape.take (adj.ndim - 2) ++ [0], adj.data⟩
    .ok (dst, dst)
  else
    let flat ← adj.reshapeHead (adj.shape.drop (adj.ndim - 2))
    let dst := stack2 (denseToSparse (nested3 flat) pad).1
    let src := stack2 (denseToSparse (nested3 flat) pad).2
    let dst ← dst.reshape (adj.shape.take (adj.ndim - 2) ++ [dst.shape.getD 1 0])
    let src ← src.reshape (adj.shape.take (adj.ndim - 2) ++ [src.shape.getD 1 0])
    .ok (dst, src)

/-- `sparse_to_dense_indices`, ops/indexed.py:206-259, with batch axes. -/
def sparseToDenseND (dst src : NDArray ℕ) (pad : Option ℕ) : Except Err (NDArray ℕ) := do
  if dst.shape ≠ src.shape then .error .valueError
  else if dst.shape.prod = 0 then .ok ⟨dst.shape.take (dst.ndim - 1) ++ [0, 0], dst.data⟩
  else if dst.ndim = 0 then .error .indexError   -- `dst_idx.shape[-1]`, line 239
  else
    let flatDst ← dst.reshapeHead (dst.shape.drop (dst.ndim - 1))
    let flatSrc ← src.reshapeHead (src.shape.drop (src.ndim - 1))
    let adj ← sparseToDense (nested2 flatDst) (nested2 flatSrc) pad
    let adj := stack3 adj
    adj.reshape (dst.shape.take (dst.ndim - 1) ++ [adj.shape.getD 1 0, adj.shape.getD 2 0])

end E3x
