import Verif.Spec.Batch

/-!
# Specification of C61: what a node sees of its graph

A map `σ` of the nodes of one graph to the nodes of another is a *covering* if for every node `i` the edges that end in `i`
correspond one by one to the edges that end in `σ i`, with the same features and with corresponding sources. Special cases:
renumbering the nodes (`σ` is a permutation), taking one structure out of a batch (`σ` adds an offset), repeating a structure
(`σ i = i % n`), in particular replacing the unit cell of a periodic structure by a supercell.
-/

namespace E3x.Spec

/-- `σ` is a covering of the graph `E` (with `n` nodes) by the graph `E'` (with `n'` nodes). -/
def Covers (σ : ℕ → ℕ) (n' n : ℕ) (E' E : List Edge) : Prop :=
  (∀ i < n', σ i < n) ∧ ∀ i < n', (edgesInto E (σ i)).Perm ((edgesInto E' i).map (relabel σ))

/-- The same for the graphs of attention layers. -/
def CoversAttn (σ : ℕ → ℕ) (n' n : ℕ) (E' E : List AttnEdge) : Prop :=
  (∀ i < n', σ i < n) ∧ ∀ i < n', (attnInto E (σ i)).Perm ((attnInto E' i).map (AttnEdge.relabel σ σ))

/-- The array over `n'` nodes whose node `i` has the entries of node `σ i` of `x`. -/
def pullback (σ : ℕ → ℕ) (n' : ℕ) (x : Nodes) : Nodes := { x with rows := (List.range n').map fun i => x.rows.getD (σ i) 0 }

/-- The same layer on both graphs. -/
inductive CoverInstr (σ : ℕ → ℕ) (n' n : ℕ) (bs' bs : List Edges) : Instr → Instr → Prop where
  | dense (x features : ℕ) (useBias : Bool) (P : DenseParams) :
    CoverInstr σ n' n bs' bs (.dense x features useBias P) (.dense x features useBias P)
  | gated (x : ℕ) (g : ℝ → ℝ) : CoverInstr σ n' n bs' bs (.gated x g) (.gated x g)
  | change (x : ℕ) (L : Option ℕ) (ps : Option Bool) : CoverInstr σ n' n bs' bs (.change x L ps) (.change x L ps)
  | add (x y : ℕ) : CoverInstr σ n' n bs' bs (.add x y) (.add x y)
  | tensor (x y : ℕ) (cfg : TensorCfg) (T : TensorParams) :
    CoverInstr σ n' n bs' bs (.tensor x y cfg T) (.tensor x y cfg T)
  | tensorDense (x : ℕ) (features : Option ℕ) (useBias : Bool) (cfg : TensorCfg) (P : DenseParams) (T : TensorParams) :
    CoverInstr σ n' n bs' bs (.tensorDense x features useBias cfg P T) (.tensorDense x features useBias cfg P T)
  | messagePass (x b : ℕ) (cfg : ConvCfg) (P : ConvParams) (w' w : Option (Lead Ent)) (bp : Bool) (bL bF : ℕ)
      (E' E : List Edge) (h : Covers σ n' n E' E)
      (hb' : bs'[b]? = some ⟨bp, bL, bF, .vec (E'.map Edge.basis)⟩)
      (hb : bs[b]? = some ⟨bp, bL, bF, .vec (E.map Edge.basis)⟩)
      (hw' : w' = some (.vec (E'.map Edge.weight)) ∨ (w' = none ∧ ∀ e ∈ E', e.weight = fun _ _ _ => 1))
      (hw : w = some (.vec (E.map Edge.weight)) ∨ (w = none ∧ ∀ e ∈ E, e.weight = fun _ _ _ => 1))
      (hE' : ∀ e ∈ E', e.dst < n' → e.src < n') (hE : ∀ e ∈ E, e.dst < n → e.src < n) :
    CoverInstr σ n' n bs' bs (.messagePass x b cfg P w' (edgeIx E')) (.messagePass x b cfg P w (edgeIx E))
  | attention (q kv b : ℕ) (lo ninf : ℝ) (cfg : AttnCfg) (P : AttnParams) (bp : Bool) (bL bF : ℕ)
      (E' E : List AttnEdge) (h : CoversAttn σ n' n E' E)
      (hb' : bs'[b]? = some ⟨bp, bL, bF, .vec (E'.map AttnEdge.basis)⟩)
      (hb : bs[b]? = some ⟨bp, bL, bF, .vec (E.map AttnEdge.basis)⟩)
      (hE' : ∀ e ∈ E', e.dst < n' → e.src < n') (hE : ∀ e ∈ E, e.dst < n → e.src < n) :
    CoverInstr σ n' n bs' bs (.attention q kv (some b) lo ninf cfg P (some (.vec (E'.map AttnEdge.cut))) (attnIx E'))
      (.attention q kv (some b) lo ninf cfg P (some (.vec (E.map AttnEdge.cut))) (attnIx E))

end E3x.Spec
