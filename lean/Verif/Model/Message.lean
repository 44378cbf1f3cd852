import Verif.Model.Tensor
import Verif.Model.Softmax

/-!
# Model of `_Conv`, `MessagePass`, `MultiHeadAttention`, `SelfAttention` (nn/modules.py)

One entry of the batch axes is modelled (`...` in the annotations; the code maps over them).  The axes which enumerate
nodes (`N`) or edges (`P`, or `N M` in the dense format) are lists.  All nodes (edges) share their extents.
-/

namespace E3x

noncomputable section

/-- The entries of one feature array (parity channel, component, feature). -/
abbrev Ent := ℕ → ℕ → ℕ → ℝ

/-- An array over edges: shape `(P,)` or `(N, M)`. -/
inductive Lead (α : Type) where
  | vec (xs : List α)
  | mat (xs : List (List α))

namespace Lead

variable {α β γ : Type}

def map (g : α → β) : Lead α → Lead β
  | vec xs => vec (xs.map g)
  | mat xs => mat (xs.map (List.map g))

/-- Elementwise operation on two arrays, `none` if their shapes differ. -/
def zipWith? (g : α → β → γ) : Lead α → Lead β → Option (Lead γ)
  | vec xs, vec ys => if xs.length = ys.length then some (vec (List.zipWith g xs ys)) else none
  | mat xs, mat ys =>
    if xs.map List.length = ys.map List.length then some (mat (List.zipWith (List.zipWith g) xs ys)) else none
  | _, _ => none

/-- The entry at position `(e, k)` (`(e, 0)` for shape `(P,)`). -/
def at? : Lead α → ℕ × ℕ → Option α
  | vec xs, (e, _) => xs[e]?
  | mat xs, (e, k) => (xs[e]?).bind (·[k]?)

/-- Replaces every entry by a function of its position. -/
def mapPos (g : ℕ × ℕ → β) : Lead α → Lead β
  | vec xs => vec (xs.mapIdx fun e _ => g (e, 0))
  | mat xs => mat (xs.mapIdx fun e row => row.mapIdx fun k _ => g (e, k))

end Lead

/-- Features of all nodes. -/
structure Nodes where
  pseudo : Bool
  L : ℕ
  F : ℕ
  rows : List Ent

/-- Features of all edges. -/
structure Edges where
  pseudo : Bool
  L : ℕ
  F : ℕ
  rows : Lead Ent

/-- The array of one node. -/
def Nodes.feat (x : Nodes) (v : Ent) : Feat := ⟨x.pseudo, x.L, x.F, v⟩

/-- The array of one edge. -/
def Edges.feat (x : Edges) (v : Ent) : Feat := ⟨x.pseudo, x.L, x.F, v⟩

/-- A layer applied to all nodes. The extents of the result do not depend on the entries; they are read off the result
for a zero array (what `jax.eval_shape` does). -/
def Nodes.apply (g : Feat → Feat) (x : Nodes) : Nodes :=
  let h := g (x.feat 0)
  { pseudo := h.pseudo, L := h.L, F := h.F, rows := x.rows.map fun v => (g (x.feat v)).val }

/-- A layer applied to all edges. -/
def Edges.apply (g : Feat → Feat) (x : Edges) : Edges :=
  let h := g (x.feat 0)
  { pseudo := h.pseudo, L := h.L, F := h.F, rows := x.rows.map fun v => (g (x.feat v)).val }

/-- The arguments `adj_idx`, `where`, `dst_idx`, `src_idx`, `num_segments`. -/
structure IndexArgs where
  adj : Option (List (List ℕ)) := none
  mask : Option (List (List Bool)) := none
  dst : Option (List ℕ) := none
  src : Option (List ℕ) := none
  num : Option ℕ := none

/-- `gather_src`, ops/indexed.py:357-388. Gathering from an empty axis is an `IndexError`. -/
def gatherSrc {α : Type} (xs : List α) (ix : IndexArgs) : Except Err (Lead α) :=
  match determineIndexType (ix.adj.map fun a => a.map List.length) none (ix.src.map fun s => [s.length]), ix.adj,
    ix.src with
  | .error e, _, _ => .error e
  | .ok .dense, some a, _ =>
    match gatherDense xs a with
    | some g => .ok (.mat g)
    | none => .error .indexError
  | .ok .sparse, _, some s =>
    match gatherSparse xs s with
    | some g => .ok (.vec g)
    | none => .error .indexError
  | _, _, _ => .error .assertion

/-- `gather_dst`, ops/indexed.py:391-422. In the dense format the code inserts an axis of extent one, which is broadcast
to the number of columns when combined with the result of `gather_src`; here the broadcasting is done at once.
Simplification: broadcasting a single node against several rows is not modelled (`ValueError`). -/
def gatherDst {α : Type} (xs : List α) (ix : IndexArgs) : Except Err (Lead α) :=
  match determineIndexType (ix.adj.map fun a => a.map List.length) (ix.dst.map fun s => [s.length]) none, ix.adj,
    ix.dst with
  | .error e, _, _ => .error e
  | .ok .dense, some a, _ =>
    if xs.length = a.length then .ok (.mat (List.zipWith (fun x row => row.map fun _ => x) xs a))
    else .error .valueError
  | .ok .sparse, _, some d =>
    match gatherSparse xs d with
    | some g => .ok (.vec g)
    | none => .error .indexError
  | _, _, _ => .error .assertion

/-- `indexed_sum`, ops/indexed.py:597-642 (`_indexed_reduce`, 437-589). -/
def indexedSum {α : Type} [Add α] [Zero α] (x : Lead α) (ix : IndexArgs) : Except Err (List α) :=
  match determineIndexType (ix.adj.map fun a => a.map List.length) (ix.dst.map fun s => [s.length]) none, ix.adj,
    ix.dst, x with
  | .error e, _, _, _ => .error e
  | .ok .dense, some a, _, .mat x =>
    match ix.mask with
    | none => .error .typeError
    | some m =>
      if a.map List.length ≠ x.map List.length then .error .valueError
      else .ok (denseReduce (· + ·) 0 x m)
  | .ok .sparse, _, some d, .vec x =>
    match ix.num with
    | none => .error .typeError
    | some n => if d.length ≠ x.length then .error .valueError else .ok (segmentReduce (· + ·) 0 x d n)
  | _, _, _, _ => .error .valueError

/-! ## `_Conv` and `MessagePass` -/

/-- Attributes of `_Conv`, nn/modules.py:1239-1252. -/
structure ConvCfg where
  tens : TensorCfg
  useBasisBias : Bool

/-- Parameters of `_Conv`: submodule `'filter'` and the tensor product. -/
structure ConvParams where
  filter : DenseParams
  tens : TensorParams

/-- Entries of the result of a tensor product layer (the error case does not occur where this is used, see
`tensorRows`). -/
def tensorVal (cfg : TensorCfg) (T : TensorParams) (cg : ℕ → ℕ → ℕ → ℝ) (x y : Feat) : Ent :=
  match anyTensor cfg T cg x y with
  | .ok z => z.val
  | .error _ => 0

/-- A tensor product layer applied to all edges. Exceptions and extents do not depend on the entries
(`anyTensor_header` in Lemmas/Message.lean). -/
def tensorRows (cfg : TensorCfg) (T : TensorParams) (cg : ℕ → ℕ → ℕ → ℝ) (x y : Edges) : Except Err Edges :=
  match anyTensor cfg T cg (x.feat 0) (y.feat 0) with
  | .error e => .error e
  | .ok h =>
    match Lead.zipWith? (fun a b => tensorVal cfg T cg (x.feat a) (y.feat b)) x.rows y.rows with
    | none => .error .valueError
    | some r => .ok { pseudo := h.pseudo, L := h.L, F := h.F, rows := r }

/-- The products formed in `_Conv.__call__`, nn/modules.py:1310-1342. A `basis` of another shape raises `ValueError`
(line 1312). -/
def convProducts (cfg : ConvCfg) (P : ConvParams) (cg : ℕ → ℕ → ℕ → ℝ) (inputs : Edges) (basis : Option Edges) :
    Except Err Edges :=
  match basis with
  | none => .ok inputs
  | some b =>
    match Lead.zipWith? (fun _ _ => ()) inputs.rows b.rows with
    | none => .error .valueError
    | some _ => tensorRows cfg.tens P.tens cg (b.apply (dense inputs.F cfg.useBasisBias P.filter)) inputs

/-- `_Conv.__call__`, nn/modules.py:1254-1351. -/
def conv (cfg : ConvCfg) (P : ConvParams) (cg : ℕ → ℕ → ℕ → ℝ) (inputs : Edges) (basis : Option Edges)
    (ix : IndexArgs) : Except Err Nodes :=
  match convProducts cfg P cg inputs basis with
  | .error e => .error e
  | .ok p =>
    match indexedSum p.rows ix with
    | .error e => .error e
    | .ok r => .ok { pseudo := p.pseudo, L := p.L, F := p.F, rows := r }

/-- `num_segments` and `where` as determined in nn/modules.py:1475-1479 and 1783-1787. -/
def autoIndexArgs (ix : IndexArgs) (numDst numSrc : ℕ) : IndexArgs :=
  { ix with
    num := some (ix.num.getD numDst)
    mask := match ix.mask, ix.adj with
      | some m, _ => some m
      | none, some a => some (a.map fun row => row.map fun j => decide (j < numSrc))
      | none, none => none }

/-- `x *= weights` if weights are given, nn/modules.py:1465-1473 (broadcasting is not modelled: `weights` has an entry for
every entry of `x`; `none` if the shapes of the edge axes differ). -/
def weighted (weights : Option (Lead Ent)) (g : Lead Ent) : Option (Lead Ent) :=
  match weights with
  | none => some g
  | some w => Lead.zipWith? (fun a b p i f => a p i f * b p i f) g w

/-- `MessagePass.__call__`, nn/modules.py:1379-1489. `weights` are given after broadcasting to the shape of the gathered
inputs; if this is impossible a `ValueError` is raised (1466-1473). -/
def messagePass (cfg : ConvCfg) (P : ConvParams) (cg : ℕ → ℕ → ℕ → ℝ) (x : Nodes) (basis : Edges)
    (weights : Option (Lead Ent)) (ix : IndexArgs) : Except Err Nodes :=
  match gatherSrc x.rows ix with
  | .error e => .error e
  | .ok g =>
    match weighted weights g with
    | none => .error .valueError
    | some g => conv cfg P cg { pseudo := x.pseudo, L := x.L, F := x.F, rows := g } (some basis)
        (autoIndexArgs ix x.rows.length x.rows.length)

/-! ## Attention -/

/-- Attributes of `MultiHeadAttention`, nn/modules.py:1549-1566. -/
structure AttnCfg where
  conv : ConvCfg
  numHeads : ℕ
  qkvFeatures : Option ℕ
  outFeatures : Option ℕ
  relQK : Bool
  relV : Bool
  qBias : Bool
  kBias : Bool
  vBias : Bool
  oBias : Bool

/-- Parameters of `MultiHeadAttention`. -/
structure AttnParams where
  query : DenseParams
  key : DenseParams
  value : DenseParams
  out : DenseParams
  relKernel : ℕ → ℕ → ℝ
  relBias : ℕ → ℝ
  conv : ConvParams

/-- The relative positional encoding of one edge, nn/modules.py:1725-1762: a flax Dense layer on the `p = 0, l = 0`
component of the basis, reshaped to `(num_parity_channels, max_degree + 1, qkv_features)`, and with degrees repeated. -/
def relPos (useBias : Bool) (P : AttnParams) (nBasis L F : ℕ) (b : Ent) : Ent := fun p i f =>
  nnDense nBasis P.relKernel (if useBias then some P.relBias else none) (fun k => b 0 0 k)
    ((p * (L + 1) + dup L i) * F + f)

/-- The dot products of one edge, nn/modules.py:1764-1781: head `h` uses the features `f * num_heads + h` (the features
are reshaped to `(-1, num_heads)`, 1712-1714, 1759-1762). -/
def attnDot (S L F H : ℕ) (query key rel : Ent) (h : ℕ) : ℝ :=
  ∑ p ∈ Finset.range S, ∑ i ∈ Finset.range ((L + 1) ^ 2), ∑ f ∈ Finset.range (F / H),
    query p i (f * H + h) * key p i (f * H + h) * rel p i (f * H + h)

/-- `indexed_softmax` on an array over edges, ops/indexed.py:741-815. `lo`, `ninf` are the initial values of the maxima in
the dense and in the sparse format. -/
def softmaxLead (lo ninf : ℝ) (xs : Lead ℝ) (mult : Option (Lead ℝ)) (ix : IndexArgs) : Except Err (Lead ℝ) :=
  match determineIndexType (ix.adj.map fun a => a.map List.length) (ix.dst.map fun s => [s.length]) none, ix.adj,
    ix.dst, xs with
  | .error e, _, _, _ => .error e
  | .ok .dense, some a, _, .mat x =>
    match mult, ix.mask with
    | _, none => .error .typeError
    | none, some m =>
      if a.map List.length ≠ x.map List.length then .error .valueError else .ok (.mat (softmaxDense lo x none m))
    | some (.mat w), some m =>
      if w.map List.length ≠ x.map List.length then .error .valueError
      else if a.map List.length ≠ x.map List.length then .error .valueError
      else .ok (.mat (softmaxDense lo x (some w) m))
    | some (.vec _), _ => .error .valueError
  | .ok .sparse, _, some d, .vec x =>
    match mult, ix.num with
    | _, none => .error .typeError
    | none, some n =>
      if d.length ≠ x.length then .error .valueError
      else match softmaxSparse ninf x none d n with
        | some y => .ok (.vec y)
        | none => .error .indexError
    | some (.vec w), some n =>
      if w.length ≠ x.length then .error .valueError
      else if d.length ≠ x.length then .error .valueError
      else match softmaxSparse ninf x (some w) d n with
        | some y => .ok (.vec y)
        | none => .error .indexError
    | some (.mat _), _ => .error .valueError
  | _, _, _, _ => .error .valueError

/-- `jax.vmap(f, in_axes=-1, out_axes=-1)`: output head `h` is `f` of input head `h`; exceptions depend on shapes only, so
they are those of the first head. -/
def vmapHeads (f : Lead ℝ → Except Err (Lead ℝ)) (dot : Lead (ℕ → ℝ)) : Except Err (Lead (ℕ → ℝ)) :=
  match f (dot.map (· 0)) with
  | .error e => .error e
  | .ok _ => .ok (dot.mapPos fun pos h =>
      match f (dot.map (· h)) with
      | .ok y => (y.at? pos).getD 0
      | .error _ => 0)

/-- The arrays whose entries are used for queries and keys: `min` of the degrees, pseudotensors iff both have them,
nn/modules.py:1660-1678. -/
def qkInputs (other x : Nodes) : Feat → Feat := fun z =>
  changeMaxDegreeOrType z (some (min x.L other.L)) (some (x.pseudo && other.pseudo))

/-- Queries, scaled by `1/sqrt(depth)`, nn/modules.py:1681-1690, 1712-1718. -/
def attnQuery (cfg : AttnCfg) (P : AttnParams) (F : ℕ) (q kv : Nodes) : List Ent :=
  let depth : ℕ := chan (q.pseudo && kv.pseudo) * (min q.L kv.L + 1) ^ 2 * (F / cfg.numHeads)
  q.rows.map fun v p i f => (dense F cfg.qBias P.query (qkInputs kv q (q.feat v))).val p i f / Real.sqrt (depth : ℝ)

/-- Keys, nn/modules.py:1691-1700. -/
def attnKey (cfg : AttnCfg) (P : AttnParams) (F : ℕ) (q kv : Nodes) : List Ent :=
  kv.rows.map fun v => (dense F cfg.kBias P.key (qkInputs q kv (kv.feat v))).val

/-- Dot products of all edges and heads, nn/modules.py:1720-1781. -/
def attnDots (cfg : AttnCfg) (P : AttnParams) (F : ℕ) (q kv : Nodes) (basis : Option Edges) (ix : IndexArgs) :
    Except Err (Lead (ℕ → ℝ)) :=
  let S := chan (q.pseudo && kv.pseudo)
  let L := min q.L kv.L
  match gatherDst (attnQuery cfg P F q kv) ix, gatherSrc (attnKey cfg P F q kv) ix with
  | .error e, _ => .error e
  | _, .error e => .error e
  | .ok gq, .ok gk =>
    match Lead.zipWith? Prod.mk gq gk with
    | none => .error .valueError
    | some qk =>
      match cfg.relQK, basis with
      | true, some b =>
        match Lead.zipWith? (fun (qk : Ent × Ent) b' => attnDot S L F cfg.numHeads qk.1 qk.2
            (relPos cfg.conv.useBasisBias P b.F L F b')) qk b.rows with
        | none => .error .valueError
        | some d => .ok d
      | _, _ => .ok (qk.map fun qk => attnDot S L F cfg.numHeads qk.1 qk.2 fun _ _ _ => 1)

/-- Attention weights of all edges and heads, nn/modules.py:1783-1802. -/
def attnWeights (lo ninf : ℝ) (cfg : AttnCfg) (P : AttnParams) (F : ℕ) (q kv : Nodes) (basis : Option Edges)
    (cutoff : Option (Lead ℝ)) (ix : IndexArgs) : Except Err (Lead (ℕ → ℝ)) :=
  match attnDots cfg P F q kv basis ix with
  | .error e => .error e
  | .ok dot => vmapHeads (fun d => softmaxLead lo ninf d cutoff (autoIndexArgs ix q.rows.length kv.rows.length)) dot

/-- `MultiHeadAttention.__call__`, nn/modules.py:1568-1836. `jnp.repeat(weight, qkv_features // num_heads, axis=-1)`
(1805) gives feature `f` the weight of head `f // (qkv_features // num_heads)`. (`num_heads = 0` raises
`ZeroDivisionError` in Python; modelled as `ValueError`.) -/
def attention (lo ninf : ℝ) (cfg : AttnCfg) (P : AttnParams) (cg : ℕ → ℕ → ℕ → ℝ) (q kv : Nodes)
    (basis : Option Edges) (cutoff : Option (Lead ℝ)) (ix : IndexArgs) : Except Err Nodes :=
  if (cfg.relQK || cfg.relV) && basis.isNone then .error .typeError
  else
    let outF := cfg.outFeatures.getD q.F
    let F := cfg.qkvFeatures.getD q.F
    if cfg.numHeads = 0 ∨ F % cfg.numHeads ≠ 0 then .error .valueError
    else
      match attnWeights lo ninf cfg P F q kv basis cutoff ix with
      | .error e => .error e
      | .ok w =>
        let value := kv.apply (dense F cfg.vBias P.value)
        match gatherSrc value.rows ix with
        | .error e => .error e
        | .ok g =>
          match Lead.zipWith? (fun (w : ℕ → ℝ) (v : Ent) p i f => w (f / (F / cfg.numHeads)) * v p i f) w g with
          | none => .error .valueError
          | some wv =>
            match conv cfg.conv P.conv cg { pseudo := value.pseudo, L := value.L, F := value.F, rows := wv }
                (if cfg.relV then basis else none) (autoIndexArgs ix q.rows.length kv.rows.length) with
            | .error e => .error e
            | .ok z => .ok (z.apply (dense outF cfg.oBias P.out))

/-- `SelfAttention.__call__`, nn/modules.py:1897-1968. -/
def selfAttention (lo ninf : ℝ) (cfg : AttnCfg) (P : AttnParams) (cg : ℕ → ℕ → ℕ → ℝ) (x : Nodes)
    (basis : Option Edges) (cutoff : Option (Lead ℝ)) (ix : IndexArgs) : Except Err Nodes :=
  attention lo ninf cfg P cg x x basis cutoff ix

end

end E3x
