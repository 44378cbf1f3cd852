import Verif.Model.Message

/-!
# Model of index lists with negative entries

The other models of ops/indexed.py and nn/modules.py use natural numbers as indices. Nothing in the code rejects negative
indices, and padding with `-1` is a common convention, so here the same functions are modelled for lists of integers. The
two library operations that see the sign are indexing `x[i]`, where JAX counts negative indices from the end and then
clamps, and `jax.ops.segment_*`, which drops all values whose segment is not in `range(num_segments)`.
-/

namespace E3x

noncomputable section

/-- JAX indexing `xs[i]`: a negative index is counted from the end, then the index is clamped. -/
def wrapGet {α : Type} (xs : List α) (i : ℤ) : Option α :=
  let n : ℤ := xs.length
  let j := if i < 0 then i + n else i
  xs[(max 0 (min j (n - 1))).toNat]?

/-- `_gather_sparse` without batch axes, ops/indexed.py:309-354. -/
def gatherSparseZ {α : Type} (xs : List α) (idx : List ℤ) : Option (List α) := idx.mapM (wrapGet xs)

/-- `_gather_dense` without batch axes, ops/indexed.py:262-306. -/
def gatherDenseZ {α : Type} (xs : List α) (idx : List (List ℤ)) : Option (List (List α)) := idx.mapM (gatherSparseZ xs)

/-- `jax.ops.segment_<op>`, ops/indexed.py:547-585: values of segments outside `range(num)` are dropped. -/
def segmentReduceZ {α : Type} (op : α → α → α) (init : α) (x : List α) (dst : List ℤ) (num : ℕ) : List α :=
  (dst.zip x).foldl (fun acc (p : ℤ × α) => if 0 ≤ p.1 ∧ p.1 < (num : ℤ) then acc.modify p.1.toNat (fun a => op a p.2) else acc)
    (List.replicate num init)

/-! ## Conversions -/

/-- `jnp.max` of a non-empty list of integers. -/
def listMaxZ : List ℤ → ℤ
  | [] => 0
  | x :: xs => xs.foldl max x

/-- The loop body over one batch entry, ops/indexed.py:182-191. -/
def denseToSparseOneZ (pad : ℤ) (adj : List (List ℤ)) : List ℤ × List ℤ :=
  let src := adj.map fun row => row.filter (· < pad)
  let dst := src.zipIdx.map fun p => List.replicate p.1.length (p.2 : ℤ)
  (dst.flatten, src.flatten)

/-- `dense_to_sparse_indices`, ops/indexed.py:146-203, on a batch. -/
def denseToSparseZ (adj : List (List (List ℤ))) (padIdx : Option ℤ := none) : List (List ℤ) × List (List ℤ) :=
  if adj.flatten.flatten = [] then (adj.map fun _ => [], adj.map fun _ => [])
  else
    let pad := padIdx.getD (listMaxZ adj.flatten.flatten + 1)
    let ds := adj.map (denseToSparseOneZ pad)
    let maxSize := listMax (ds.map fun p => p.1.length)
    (ds.map fun p => padTo maxSize pad p.1, ds.map fun p => padTo maxSize pad p.2)

/-- `src_idx[b, dst_idx[b] == i]`, ops/indexed.py:252-254. -/
def sourcesOfZ (dst src : List ℤ) (i : ℕ) : List ℤ := ((dst.zip src).filter fun p => p.1 == (i : ℤ)).map (·.2)

/-- `sparse_to_dense_indices`, ops/indexed.py:206-259, on a batch. For `pad_idx ≤ 0` the list `counts` is empty, and
`jnp.max(counts)` (line 245) raises. -/
def sparseToDenseZ (dst src : List (List ℤ)) (padIdx : Option ℤ := none) : Except Err (List (List (List ℤ))) :=
  if dst.map List.length ≠ src.map List.length then .error .valueError
  else if dst.flatten = [] then .ok (dst.map fun _ => [])
  else
    let pad := padIdx.getD (listMaxZ dst.flatten + 1)
    if pad ≤ 0 then .error .valueError
    else
      let counts := dst.map fun d => (List.range pad.toNat).map fun i => d.count (i : ℤ)
      let width := listMax counts.flatten
      .ok ((dst.zip src).map fun p =>
        (List.range pad.toNat).map fun i => padTo width pad (sourcesOfZ p.1 p.2 i))

/-! ## Layers -/

/-- The arguments `adj_idx`, `where`, `dst_idx`, `src_idx`, `num_segments`. -/
structure SignedArgs where
  adj : Option (List (List ℤ)) := none
  mask : Option (List (List Bool)) := none
  dst : Option (List ℤ) := none
  src : Option (List ℤ) := none
  num : Option ℕ := none

/-- `gather_src`, ops/indexed.py:357-388. -/
def gatherSrcZ {α : Type} (xs : List α) (ix : SignedArgs) : Except Err (Lead α) :=
  match determineIndexType (ix.adj.map fun a => a.map List.length) none (ix.src.map fun s => [s.length]), ix.adj,
    ix.src with
  | .error e, _, _ => .error e
  | .ok .dense, some a, _ =>
    match gatherDenseZ xs a with
    | some g => .ok (.mat g)
    | none => .error .indexError
  | .ok .sparse, _, some s =>
    match gatherSparseZ xs s with
    | some g => .ok (.vec g)
    | none => .error .indexError
  | _, _, _ => .error .assertion

/-- `gather_dst`, ops/indexed.py:391-422 (the dense case does not look at the entries of `adj_idx`; compare
`gatherDst`). -/
def gatherDstZ {α : Type} (xs : List α) (ix : SignedArgs) : Except Err (Lead α) :=
  match determineIndexType (ix.adj.map fun a => a.map List.length) (ix.dst.map fun s => [s.length]) none, ix.adj,
    ix.dst with
  | .error e, _, _ => .error e
  | .ok .dense, some a, _ =>
    if xs.length = a.length then .ok (.mat (List.zipWith (fun x row => row.map fun _ => x) xs a))
    else .error .valueError
  | .ok .sparse, _, some d =>
    match gatherSparseZ xs d with
    | some g => .ok (.vec g)
    | none => .error .indexError
  | _, _, _ => .error .assertion

/-- `indexed_sum`, ops/indexed.py:597-642. -/
def indexedSumZ {α : Type} [Add α] [Zero α] (x : Lead α) (ix : SignedArgs) : Except Err (List α) :=
  match determineIndexType (ix.adj.map fun a => a.map List.length) (ix.dst.map fun s => [s.length]) none, ix.adj,
    ix.dst, x with
  | .error e, _, _, _ => .error e
  | .ok .dense, some a, _, .mat x =>
    match ix.mask with
    | none => .error .typeError
    | some m =>
      if a.map List.length ≠ x.map List.length then .error .valueError
      else .ok (denseReduce (· + ·) 0 x m)
  | .ok .sparse, _, some d, .vec x =>
    match ix.num with
    | none => .error .typeError
    | some n => if d.length ≠ x.length then .error .valueError else .ok (segmentReduceZ (· + ·) 0 x d n)
  | _, _, _, _ => .error .valueError

/-- `_Conv.__call__`, nn/modules.py:1254-1351. -/
def convZ (cfg : ConvCfg) (P : ConvParams) (cg : ℕ → ℕ → ℕ → ℝ) (inputs : Edges) (basis : Option Edges)
    (ix : SignedArgs) : Except Err Nodes :=
  match convProducts cfg P cg inputs basis with
  | .error e => .error e
  | .ok p =>
    match indexedSumZ p.rows ix with
    | .error e => .error e
    | .ok r => .ok { pseudo := p.pseudo, L := p.L, F := p.F, rows := r }

/-- `num_segments` and `where` as determined in nn/modules.py:1475-1479 and 1783-1787. -/
def autoSignedArgs (ix : SignedArgs) (numDst numSrc : ℕ) : SignedArgs :=
  { ix with
    num := some (ix.num.getD numDst)
    mask := match ix.mask, ix.adj with
      | some m, _ => some m
      | none, some a => some (a.map fun row => row.map fun j => decide (j < (numSrc : ℤ)))
      | none, none => none }

/-- `MessagePass.__call__`, nn/modules.py:1379-1489. -/
def messagePassZ (cfg : ConvCfg) (P : ConvParams) (cg : ℕ → ℕ → ℕ → ℝ) (x : Nodes) (basis : Edges)
    (weights : Option (Lead Ent)) (ix : SignedArgs) : Except Err Nodes :=
  match gatherSrcZ x.rows ix with
  | .error e => .error e
  | .ok g =>
    match weighted weights g with
    | none => .error .valueError
    | some g => convZ cfg P cg { pseudo := x.pseudo, L := x.L, F := x.F, rows := g } (some basis)
        (autoSignedArgs ix x.rows.length x.rows.length)

/-- `indexed_softmax`, sparse branch, ops/indexed.py:793-815 (compare `softmaxSparse`). -/
def softmaxSparseZ (ninf : ℝ) (xs : List ℝ) (mult : Option (List ℝ)) (dst : List ℤ) (num : ℕ) : Option (List ℝ) := do
  let mx ← gatherSparseZ (segmentReduceZ max ninf xs dst num) dst
  let numerator := applyMult mult (List.zipWith (fun x m => Real.exp (x - m)) xs mx)
  let den ← gatherSparseZ (segmentReduceZ (· + ·) 0 numerator dst num) dst
  return List.zipWith (· / ·) numerator den

/-- `indexed_softmax` on an array over edges, ops/indexed.py:741-815 (compare `softmaxLead`). -/
def softmaxLeadZ (lo ninf : ℝ) (xs : Lead ℝ) (mult : Option (Lead ℝ)) (ix : SignedArgs) : Except Err (Lead ℝ) :=
  match determineIndexType (ix.adj.map fun a => a.map List.length) (ix.dst.map fun s => [s.length]) none, ix.adj,
    ix.dst, xs with
  | .error e, _, _, _ => .error e
  | .ok .dense, some a, _, .mat x =>
    match mult, ix.mask with
    | _, none => .error .typeError
    | none, some m =>
      if a.map List.length ≠ x.map List.length then .error .valueError else .ok (.mat (softmaxDense lo x none m))
    | some (.mat w), some m =>
      if w.map List.length ≠ x.map List.length then .error .valueError
      else if a.map List.length ≠ x.map List.length then .error .valueError
      else .ok (.mat (softmaxDense lo x (some w) m))
    | some (.vec _), _ => .error .valueError
  | .ok .sparse, _, some d, .vec x =>
    match mult, ix.num with
    | _, none => .error .typeError
    | none, some n =>
      if d.length ≠ x.length then .error .valueError
      else match softmaxSparseZ ninf x none d n with
        | some y => .ok (.vec y)
        | none => .error .indexError
    | some (.vec w), some n =>
      if w.length ≠ x.length then .error .valueError
      else if d.length ≠ x.length then .error .valueError
      else match softmaxSparseZ ninf x (some w) d n with
        | some y => .ok (.vec y)
        | none => .error .indexError
    | some (.mat _), _ => .error .valueError
  | _, _, _, _ => .error .valueError

/-- Dot products of all edges and heads, nn/modules.py:1720-1781 (compare `attnDots`). -/
def attnDotsZ (cfg : AttnCfg) (P : AttnParams) (F : ℕ) (q kv : Nodes) (basis : Option Edges) (ix : SignedArgs) :
    Except Err (Lead (ℕ → ℝ)) :=
  let S := chan (q.pseudo && kv.pseudo)
  let L := min q.L kv.L
  match gatherDstZ (attnQuery cfg P F q kv) ix, gatherSrcZ (attnKey cfg P F q kv) ix with
  | .error e, _ => .error e
  | _, .error e => .error e
  | .ok gq, .ok gk =>
    match Lead.zipWith? Prod.mk gq gk with
    | none => .error .valueError
    | some qk =>
      match cfg.relQK, basis with
      | true, some b =>
        match Lead.zipWith? (fun (qk : Ent × Ent) b' => attnDot S L F cfg.numHeads qk.1 qk.2
            (relPos cfg.conv.useBasisBias P b.F L F b')) qk b.rows with
        | none => .error .valueError
        | some d => .ok d
      | _, _ => .ok (qk.map fun qk => attnDot S L F cfg.numHeads qk.1 qk.2 fun _ _ _ => 1)

/-- Attention weights of all edges and heads, nn/modules.py:1783-1802. -/
def attnWeightsZ (lo ninf : ℝ) (cfg : AttnCfg) (P : AttnParams) (F : ℕ) (q kv : Nodes) (basis : Option Edges)
    (cutoff : Option (Lead ℝ)) (ix : SignedArgs) : Except Err (Lead (ℕ → ℝ)) :=
  match attnDotsZ cfg P F q kv basis ix with
  | .error e => .error e
  | .ok dot => vmapHeads (fun d => softmaxLeadZ lo ninf d cutoff (autoSignedArgs ix q.rows.length kv.rows.length)) dot

/-- `MultiHeadAttention.__call__`, nn/modules.py:1568-1836 (compare `attention`). -/
def attentionZ (lo ninf : ℝ) (cfg : AttnCfg) (P : AttnParams) (cg : ℕ → ℕ → ℕ → ℝ) (q kv : Nodes)
    (basis : Option Edges) (cutoff : Option (Lead ℝ)) (ix : SignedArgs) : Except Err Nodes :=
  if (cfg.relQK || cfg.relV) && basis.isNone then .error .typeError
  else
    let outF := cfg.outFeatures.getD q.F
    let F := cfg.qkvFeatures.getD q.F
    if cfg.numHeads = 0 ∨ F % cfg.numHeads ≠ 0 then .error .valueError
    else
      match attnWeightsZ lo ninf cfg P F q kv basis cutoff ix with
      | .error e => .error e
      | .ok w =>
        let value := kv.apply (dense F cfg.vBias P.value)
        match gatherSrcZ value.rows ix with
        | .error e => .error e
        | .ok g =>
          match Lead.zipWith? (fun (w : ℕ → ℝ) (v : Ent) p i f => w (f / (F / cfg.numHeads)) * v p i f) w g with
          | none => .error .valueError
          | some wv =>
            match convZ cfg.conv P.conv cg { pseudo := value.pseudo, L := value.L, F := value.F, rows := wv }
                (if cfg.relV then basis else none) (autoSignedArgs ix q.rows.length kv.rows.length) with
            | .error e => .error e
            | .ok z => .ok (z.apply (dense outF cfg.oBias P.out))

end

end E3x
