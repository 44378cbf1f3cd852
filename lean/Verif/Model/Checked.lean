import Verif.Model.Message

/-!
# Division by zero in `indexed_softmax` and `MultiHeadAttention`

The model in Model/Softmax.lean uses real numbers, where `x / 0 = 0`. The code divides floating point numbers, where
`0 / 0` is NaN. Here the denominators are modelled as well; an output of an attention layer is `none` (NaN) if it is
computed from a quotient whose denominator is zero.
-/

namespace E3x

noncomputable section

/-- `denominator` in `indexed_softmax`, sparse format, ops/indexed.py:793-814. -/
def softmaxSparseDen (ninf : ℝ) (xs : List ℝ) (mult : Option (List ℝ)) (dst : List Nat) (num : Nat) :
    Option (List ℝ) := do
  let mx ← gatherSparse (segmentReduce max ninf xs dst num) dst
  let numerator := applyMult mult (List.zipWith (fun x m => Real.exp (x - m)) xs mx)
  gatherSparse (segmentReduce (· + ·) 0 numerator dst num) dst

/-- `denominator` in `indexed_softmax`, one row of the dense format, ops/indexed.py:793-814; it is the same number for all
entries of the row (`keepdims=True`). -/
def softmaxDenseRowDen (lo : ℝ) (xs : List ℝ) (mult : Option (List ℝ)) (mask : List Bool) : List ℝ :=
  let mx := maskedFold max lo xs mask
  let numerator := applyMult mult (xs.map fun x => Real.exp (x - mx))
  xs.map fun _ => maskedFold (· + ·) 0 numerator mask

/-- All rows of the dense format. -/
def softmaxDenseDen (lo : ℝ) (xs : List (List ℝ)) (mult : Option (List (List ℝ)))
    (mask : List (List Bool)) : List (List ℝ) :=
  match mult with
  | none => List.zipWith (fun x m => softmaxDenseRowDen lo x none m) xs mask
  | some w => List.zipWith (fun x (wm : List ℝ × List Bool) => softmaxDenseRowDen lo x (some wm.1) wm.2) xs (w.zip mask)

/-- `denominator` in `indexed_softmax` for an array over edges, with the checks of ops/indexed.py:779-813
(compare `softmaxLead`). -/
def softmaxLeadDen (lo ninf : ℝ) (xs : Lead ℝ) (mult : Option (Lead ℝ)) (ix : IndexArgs) : Except Err (Lead ℝ) :=
  match determineIndexType (ix.adj.map fun a => a.map List.length) (ix.dst.map fun s => [s.length]) none, ix.adj,
    ix.dst, xs with
  | .error e, _, _, _ => .error e
  | .ok .dense, some a, _, .mat x =>
    match mult, ix.mask with
    | _, none => .error .typeError
    | none, some m =>
      if a.map List.length ≠ x.map List.length then .error .valueError else .ok (.mat (softmaxDenseDen lo x none m))
    | some (.mat w), some m =>
      if w.map List.length ≠ x.map List.length then .error .valueError
      else if a.map List.length ≠ x.map List.length then .error .valueError
      else .ok (.mat (softmaxDenseDen lo x (some w) m))
    | some (.vec _), _ => .error .valueError
  | .ok .sparse, _, some d, .vec x =>
    match mult, ix.num with
    | _, none => .error .typeError
    | none, some n =>
      if d.length ≠ x.length then .error .valueError
      else match softmaxSparseDen ninf x none d n with
        | some y => .ok (.vec y)
        | none => .error .indexError
    | some (.vec w), some n =>
      if w.length ≠ x.length then .error .valueError
      else if d.length ≠ x.length then .error .valueError
      else match softmaxSparseDen ninf x (some w) d n with
        | some y => .ok (.vec y)
        | none => .error .indexError
    | some (.mat _), _ => .error .valueError
  | _, _, _, _ => .error .valueError

/-- The denominators of the attention weights of all edges and heads, nn/modules.py:1783-1802. -/
def attnDens (lo ninf : ℝ) (cfg : AttnCfg) (P : AttnParams) (F : ℕ) (q kv : Nodes) (basis : Option Edges)
    (cutoff : Option (Lead ℝ)) (ix : IndexArgs) : Except Err (Lead (ℕ → ℝ)) :=
  match attnDots cfg P F q kv basis ix with
  | .error e => .error e
  | .ok dot => vmapHeads (fun d => softmaxLeadDen lo ninf d cutoff (autoIndexArgs ix q.rows.length kv.rows.length)) dot

open Classical in
/-- Which sums over edges are NaN, given which summands are: `indexed_sum`, ops/indexed.py:597-642, skips padding entries
(dense format) and entries whose destination is not a node (sparse format). -/
def indexedNaN (bad : Lead Bool) (ix : IndexArgs) : List Bool :=
  match bad, ix.dst, ix.mask, ix.num with
  | .vec b, some d, _, some n => segmentReduce (· || ·) false b d n
  | .mat b, _, some m, _ => denseReduce (· || ·) false b m
  | _, _, _, _ => []

open Classical in
/-- `MultiHeadAttention.__call__`, nn/modules.py:1568-1836, where a row is `none` if it is NaN. The attention weight of an
edge is NaN in a head if its denominator is zero (`0 / 0`); it is multiplied with values and filters and summed over the
edges that end in a node (1804-1822), and the output layer (1824-1834) combines the features of all heads. NaN arises from
this division only (no overflow in real arithmetic), and every operation on a NaN gives a NaN. -/
def attentionNaN (lo ninf : ℝ) (cfg : AttnCfg) (P : AttnParams) (cg : ℕ → ℕ → ℕ → ℝ) (q kv : Nodes)
    (basis : Option Edges) (cutoff : Option (Lead ℝ)) (ix : IndexArgs) : Except Err (List (Option Ent)) :=
  match attention lo ninf cfg P cg q kv basis cutoff ix with
  | .error e => .error e
  | .ok z =>
    match attnDens lo ninf cfg P (cfg.qkvFeatures.getD q.F) q kv basis cutoff ix with
    | .error e => .error e
    | .ok den =>
      let bad := indexedNaN (den.map fun d => decide (∃ h < cfg.numHeads, d h = 0))
        (autoIndexArgs ix q.rows.length kv.rows.length)
      .ok (List.zipWith (fun v b => if b then none else some v) z.rows bad)

end

end E3x
