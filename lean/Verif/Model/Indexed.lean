import Verif.Model.Basic

/-!
# Model of `e3x/ops/indexed.py` and `e3x/util.py`

Index lists are `List ℕ` (sparse) or `List (List ℕ)` (dense, one row per destination node); several
batch entries are a list of those (the code flattens all batch dimensions into one, lines
176, 239-240, and restores them afterwards, lines 201-202, 256-258). Here indices are
natural numbers; lists with negative entries are modelled in Model/SignedIndices.lean.
-/

namespace E3x

/-! ## NumPy list primitives -/

/-- `jnp.tile(xs, n)` for a vector. -/
def tile {α : Type _} (xs : List α) (n : Nat) : List α := (List.replicate n xs).flatten

/-- `jnp.repeat(xs, n)` for a vector. -/
def repeatEach {α : Type _} (xs : List α) (n : Nat) : List α := xs.flatMap (List.replicate n)

/-- `jnp.delete(xs, slice(start, stop, step))` for a vector: removes the positions
`start, start+step, ...` below `stop`. -/
def deleteSlice {α : Type _} (xs : List α) (start stop step : Nat) : List α :=
  (xs.zipIdx.filter fun p => !(start ≤ p.2 && p.2 < stop && (p.2 - start) % step == 0)).map (·.1)

/-- `jnp.reshape(xs, (rows, -1))` for a vector whose size is a multiple of `rows > 0`. -/
def reshapeRows {α : Type _} (xs : List α) (rows : Nat) : List (List α) :=
  (List.range rows).map fun i =>
    (xs.drop (i * (xs.length / rows))).take (xs.length / rows)

/-! ## Pairwise index lists -/

/-- `dense_pairwise_indices`, ops/indexed.py:100-118. -/
def densePairwiseIndices (num : Int) (maskSelf : Bool := true) : Except Err (List (List Nat)) :=
  if num < 1 then .error .valueError
  else
    let n := num.toNat
    let adj := tile (List.range n) n
    let adj := if maskSelf then deleteSlice adj 0 (n * n) (n + 1) else adj
    .ok (reshapeRows adj n)

/-- `sparse_pairwise_indices`, ops/indexed.py:121-143. -/
def sparsePairwiseIndices (num : Int) (maskSelf : Bool := true) :
    Except Err (List Nat × List Nat) :=
  if num < 1 then .error .valueError
  else
    let n := num.toNat
    let dst := repeatEach (List.range n) n
    let src := tile (List.range n) n
    if maskSelf then
      .ok (deleteSlice dst 0 (n * n) (n + 1), deleteSlice src 0 (n * n) (n + 1))
    else .ok (dst, src)

/-! ## Conversions -/

/-- `jnp.max` of a non-empty list of naturals (0 for the empty list, which the callers exclude by
their size-0 branch). -/
def listMax (xs : List Nat) : Nat := xs.foldl max 0

/-- `jnp.pad(xs, (0, size - len(xs)), constant_values=v)`. -/
def padTo {α : Type _} (size : Nat) (v : α) (xs : List α) : List α :=
  xs ++ List.replicate (size - xs.length) v

/-- The loop body over one batch entry, ops/indexed.py:182-191: row by row, keep the entries
`< pad_idx`; the destination index is the row number. -/
def denseToSparseOne (pad : Nat) (adj : List (List Nat)) : List Nat × List Nat :=
  let src := adj.map fun row => row.filter (· < pad)
  let dst := src.zipIdx.map fun p => List.replicate p.1.length p.2
  (dst.flatten, src.flatten)

/-- `dense_to_sparse_indices`, ops/indexed.py:146-203, on a batch of dense index lists. The
`ndim < 2` check (lines 164-165) is enforced by the type. Result: one `(dst, src)` pair of equally
long vectors per batch entry. -/
def denseToSparse (adj : List (List (List Nat))) (padIdx : Option Nat := none) :
    List (List Nat) × List (List Nat) :=
  if adj.flatten.flatten = [] then                       -- size 0, lines 167-170
    (adj.map fun _ => [], adj.map fun _ => [])
  else
    let pad := padIdx.getD (listMax adj.flatten.flatten + 1)   -- line 172
    let ds := adj.map (denseToSparseOne pad)
    let maxSize := listMax (ds.map fun p => p.1.length)        -- lines 180, 192
    (ds.map fun p => padTo maxSize pad p.1, ds.map fun p => padTo maxSize pad p.2)

/-- Sources of the edges with destination `i`: `src_idx[b, dst_idx[b] == i]`,
ops/indexed.py:252-254. -/
def sourcesOf (dst src : List Nat) (i : Nat) : List Nat :=
  ((dst.zip src).filter fun p => p.1 == i).map (·.2)

/-- `sparse_to_dense_indices`, ops/indexed.py:206-259, on a batch. A `pad_idx` of zero leaves
no rows, on which `jnp.max(counts)` (line 245) raises. -/
def sparseToDense (dst src : List (List Nat)) (padIdx : Option Nat := none) :
    Except Err (List (List (List Nat))) :=
  if dst.map List.length ≠ src.map List.length then .error .valueError   -- lines 226-230
  else if dst.flatten = [] then .ok (dst.map fun _ => [])                 -- lines 232-233
  else
    let pad := padIdx.getD (listMax dst.flatten + 1)                      -- line 235
    if pad = 0 then .error .valueError
    else
      let counts := dst.map fun d => (List.range pad).map fun i => d.count i   -- lines 242-244
      let width := listMax counts.flatten                                      -- line 245
      .ok ((dst.zip src).map fun p =>
        (List.range pad).map fun i => padTo width pad (sourcesOf p.1 p.2 i))   -- lines 247-254

/-! ## Determining the index type -/

inductive IndexType where
  | dense
  | sparse
  deriving DecidableEq, Repr

/-- `_determine_index_type`, ops/indexed.py:39-97. Only presence and shapes of the arguments
matter, so arguments are optional shapes. -/
def determineIndexType (adj dst src : Option (List Nat)) : Except Err IndexType :=
  let dense := adj.isSome
  let sparse := src.isSome || dst.isSome
  if !(dense || sparse) then .error .runtimeError
  else if dense && sparse then .error .runtimeError
  else
    match dst, src with
    | some d, some s =>
      if sparse && d != s then .error .valueError
      else if dense then .ok .dense else .ok .sparse
    | _, _ => if dense then .ok .dense else .ok .sparse

/-! ## Gather -/

/-- JAX indexing `xs[i]` with a non-negative index: out-of-range indices are clamped.
`none` only for an empty axis. -/
def clampGet {α : Type _} (xs : List α) (i : Nat) : Option α := xs[min i (xs.length - 1)]?

/-- `gather_src` / `_gather_sparse` without batch axes, ops/indexed.py:309-354, 384: entries along the
first axis, selected by a vector of indices. -/
def gatherSparse {α : Type _} (xs : List α) (idx : List Nat) : Option (List α) :=
  idx.mapM (clampGet xs)

/-- `_gather_dense` without batch axes, ops/indexed.py:262-306. -/
def gatherDense {α : Type _} (xs : List α) (idx : List (List Nat)) : Option (List (List α)) :=
  idx.mapM (gatherSparse xs)

/-! ## Reductions -/

/-- One row of a dense masked reduction `jnp.<op>(x, axis, where=mask, initial=init)`. -/
def maskedFold {α : Type _} (op : α → α → α) (init : α) (x : List α) (mask : List Bool) : α :=
  ((x.zip mask).filter (·.2)).foldl (fun acc p => op acc p.1) init

/-- Dense branch of `_indexed_reduce`, ops/indexed.py:482-519 (per node; trailing axes are part
of `α`). -/
def denseReduce {α : Type _} (op : α → α → α) (init : α) (x : List (List α))
    (mask : List (List Bool)) : List α :=
  List.zipWith (maskedFold op init) x mask

/-- `jax.ops.segment_<op>`: scatter the values into an array of `num` initial values; updates to
out-of-range segments are dropped. ops/indexed.py:547-585. -/
def segmentReduce {α : Type _} (op : α → α → α) (init : α) (x : List α) (dst : List Nat)
    (num : Nat) : List α :=
  (dst.zip x).foldl (fun acc p => acc.modify p.1 (fun a => op a p.2)) (List.replicate num init)

/-- Argument checks of `_indexed_reduce`, ops/indexed.py:468-544: index type, dtype (`isNumeric`),
presence of `where`/`num_segments`, shapes. -/
def indexedReduceCheck (isNumeric : Bool) (inputs : List Nat) (adj dst : Option (List Nat))
    (hasWhere hasNumSegments : Bool) : Except Err IndexType := do
  let t ← determineIndexType adj dst none
  if !isNumeric then .error .typeError
  else match t, adj, dst with
    | .dense, some a, _ =>
      if !hasWhere then .error .typeError
      else if inputs.length < a.length then .error .valueError
      else if a ≠ inputs.take a.length then .error .valueError
      else .ok .dense
    | .sparse, _, some d =>
      if !hasNumSegments then .error .typeError
      else if inputs.length < d.length then .error .valueError
      else if d ≠ inputs.take d.length then .error .valueError
      else .ok .sparse
    | _, _, _ => .error .assertion

/-! ## Broadcastability, util.py -/

/-- `is_broadcastable`, util.py:22-35. -/
def isBroadcastable (s t : List Nat) : Bool :=
  (s.reverse.zip t.reverse).all fun p => p.1 == p.2 || p.1 == 1 || p.2 == 1

end E3x
