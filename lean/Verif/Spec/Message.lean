import Verif.Model.Message
import Verif.Spec.Softmax

/-!
# Specification of message passing on a graph

Independent of index lists: a graph is a list of edges with their features.
-/

namespace E3x.Spec

/-- An edge: destination, source, basis functions and weights. -/
structure Edge where
  dst : ℕ
  src : ℕ
  basis : Ent
  weight : Ent

/-- The edges that end in node `i`. -/
def edgesInto (E : List Edge) (i : ℕ) : List Edge := E.filter fun e => e.dst = i

/-- The message sent along one edge (documentation of `MessagePass`): the tensor product of the filter (a dense layer
applied to the basis functions) and the weighted features of the source. -/
noncomputable def message (cfg : ConvCfg) (P : ConvParams) (cg : ℕ → ℕ → ℕ → ℝ) (x : Nodes) (bPseudo : Bool) (bL bF : ℕ)
    (e : Edge) : Ent :=
  match anyTensor cfg.tens P.tens cg (dense x.F cfg.useBasisBias P.filter ⟨bPseudo, bL, bF, e.basis⟩)
    (x.feat fun p i f => x.rows.getD e.src 0 p i f * e.weight p i f) with
  | .ok z => z.val
  | .error _ => 0

/-- The same edge after relabelling nodes with `σ`. -/
def relabel (σ : ℕ → ℕ) (e : Edge) : Edge := { e with dst := σ e.dst, src := σ e.src }

end E3x.Spec

namespace E3x.Spec

/-- An edge of an attention layer: destination, source, basis functions and cutoff value. -/
structure AttnEdge where
  dst : ℕ
  src : ℕ
  basis : Ent
  cut : ℝ

/-- The edges that end in node `i`. -/
def attnInto (E : List AttnEdge) (i : ℕ) : List AttnEdge := E.filter fun e => e.dst = i

/-- The logit of an edge in head `h`: product of the query of the destination, the key of the source, and the relative
positional encoding of the edge. -/
noncomputable def attnLogit (cfg : AttnCfg) (P : AttnParams) (F : ℕ) (q kv : Nodes) (bF : ℕ) (e : AttnEdge) (h : ℕ) : ℝ :=
  attnDot (chan (q.pseudo && kv.pseudo)) (min q.L kv.L) F cfg.numHeads
    ((attnQuery cfg P F q kv).getD e.dst 0) ((attnKey cfg P F q kv).getD e.src 0)
    (if cfg.relQK then relPos cfg.conv.useBasisBias P bF (min q.L kv.L) F e.basis else fun _ _ _ => 1) h

/-- The attention weight of an edge in head `h`: softmax of the logits over the edges which end in the same node,
multiplied with the cutoff. -/
noncomputable def attnWeight (cfg : AttnCfg) (P : AttnParams) (F : ℕ) (q kv : Nodes) (bF : ℕ) (E : List AttnEdge)
    (e : AttnEdge) (h : ℕ) : ℝ :=
  softmaxValue ((attnInto E e.dst).map fun e' => (attnLogit cfg P F q kv bF e' h, e'.cut))
    (attnLogit cfg P F q kv bF e h, e.cut)

/-- The message of an edge, given its attention weights: the weighted values of the source, tensor-multiplied with the filter
if `use_relative_positional_encoding_v`. -/
noncomputable def attnMessage (cfg : AttnCfg) (P : AttnParams) (cg : ℕ → ℕ → ℕ → ℝ) (F : ℕ) (kv : Nodes)
    (bp : Bool) (bL bF : ℕ) (w : ℕ → ℝ) (e : AttnEdge) : Ent :=
  let v : Ent := fun p i f =>
    w (f / (F / cfg.numHeads)) * (dense F cfg.vBias P.value (kv.feat (kv.rows.getD e.src 0))).val p i f
  if cfg.relV then
    match anyTensor cfg.conv.tens P.conv.tens cg (dense F cfg.conv.useBasisBias P.conv.filter ⟨bp, bL, bF, e.basis⟩)
      ⟨kv.pseudo, kv.L, F, v⟩ with
    | .ok z => z.val
    | .error _ => 0
  else v

/-- The same edge after relabelling query nodes with `σ` and key nodes with `τ`. -/
def AttnEdge.relabel (σ τ : ℕ → ℕ) (e : AttnEdge) : AttnEdge := { e with dst := σ e.dst, src := τ e.src }

end E3x.Spec

namespace E3x.Spec

/-- Maximum degree of the output of an attention layer. -/
def attnOutL (cfg : AttnCfg) (kv : Nodes) (bL : ℕ) : ℕ :=
  if cfg.relV then cfg.conv.tens.maxDegree.getD (max bL kv.L) else kv.L

/-- Whether the output of an attention layer has pseudotensors. -/
def attnOutPseudo (cfg : AttnCfg) (kv : Nodes) (bp : Bool) (bL : ℕ) : Bool :=
  if cfg.relV then cfg.conv.tens.includePseudo && !(!bp && !kv.pseudo &&
    (bL == 0 || kv.L == 0 || cfg.conv.tens.maxDegree.getD (max bL kv.L) == 0)) else kv.pseudo

/-- `z` is the result of an attention layer on the graph `E` with `n` nodes: the output of node `i` is the output layer
applied to the sum of the messages of the edges that end in `i`, each weighted with its attention weight. -/
def IsAttention (cfg : AttnCfg) (P : AttnParams) (cg : ℕ → ℕ → ℕ → ℝ) (q kv : Nodes) (bp : Bool)
    (bL bF : ℕ) (E : List AttnEdge) (n : ℕ) (z : Nodes) : Prop :=
  z.pseudo = attnOutPseudo cfg kv bp bL ∧ z.L = attnOutL cfg kv bL ∧ z.F = cfg.outFeatures.getD q.F ∧ z.rows.length = n ∧
    ∀ i < n, z.rows[i]? = some (dense (cfg.outFeatures.getD q.F) cfg.oBias P.out
      ⟨attnOutPseudo cfg kv bp bL, attnOutL cfg kv bL, cfg.qkvFeatures.getD q.F,
        ((attnInto E i).map fun e => attnMessage cfg P cg (cfg.qkvFeatures.getD q.F) kv bp bL bF
          (attnWeight cfg P (cfg.qkvFeatures.getD q.F) q kv bF E e) e).sum⟩).val

end E3x.Spec
