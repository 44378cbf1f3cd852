import Verif.Spec.Locality

/-!
# Specification of C60: several structures in one batch

Two structures are put into one batch by appending their node arrays and edge lists, with the node numbers of the second
structure increased by the number of nodes of the first. (Batches of more structures are made by repetition.)
-/

namespace E3x.Spec

/-- Two arrays over nodes with the same extents. -/
def SameShape (x y : Nodes) : Prop := x.pseudo = y.pseudo ∧ x.L = y.L ∧ x.F = y.F

/-- The nodes of both arrays. -/
def join (x y : Nodes) : Nodes := { x with rows := x.rows ++ y.rows }

/-- The edges of both structures, in any order; `n` is the number of nodes of the first. -/
def IsBatch (n : ℕ) (E₁ E₂ E : List Edge) : Prop := E.Perm (E₁ ++ E₂.map (relabel (· + n)))

/-- The same for attention layers; `n`, `m` are the numbers of query and key nodes of the first structure. -/
def IsBatchAttn (n m : ℕ) (E₁ E₂ E : List AttnEdge) : Prop := E.Perm (E₁ ++ E₂.map (AttnEdge.relabel (· + n) (· + m)))

/-- The same layer for the first structure, the second structure, and the batch. `n₁`, `n₂` are the numbers of nodes. The
edge list of the first structure must not contain padding: entries with indices `≥ n₁` would belong to the second structure. -/
inductive BatchInstr (n₁ n₂ : ℕ) (bs₁ bs₂ bs : List Edges) : Instr → Instr → Instr → Prop where
  | dense (x features : ℕ) (useBias : Bool) (P : DenseParams) :
    BatchInstr n₁ n₂ bs₁ bs₂ bs (.dense x features useBias P) (.dense x features useBias P) (.dense x features useBias P)
  | gated (x : ℕ) (g : ℝ → ℝ) : BatchInstr n₁ n₂ bs₁ bs₂ bs (.gated x g) (.gated x g) (.gated x g)
  | change (x : ℕ) (L : Option ℕ) (ps : Option Bool) :
    BatchInstr n₁ n₂ bs₁ bs₂ bs (.change x L ps) (.change x L ps) (.change x L ps)
  | add (x y : ℕ) : BatchInstr n₁ n₂ bs₁ bs₂ bs (.add x y) (.add x y) (.add x y)
  | tensor (x y : ℕ) (cfg : TensorCfg) (T : TensorParams) :
    BatchInstr n₁ n₂ bs₁ bs₂ bs (.tensor x y cfg T) (.tensor x y cfg T) (.tensor x y cfg T)
  | tensorDense (x : ℕ) (features : Option ℕ) (useBias : Bool) (cfg : TensorCfg) (P : DenseParams) (T : TensorParams) :
    BatchInstr n₁ n₂ bs₁ bs₂ bs (.tensorDense x features useBias cfg P T) (.tensorDense x features useBias cfg P T)
      (.tensorDense x features useBias cfg P T)
  | messagePass (x b : ℕ) (cfg : ConvCfg) (P : ConvParams) (w₁ w₂ w : Option (Lead Ent)) (bp : Bool) (bL bF : ℕ)
      (E₁ E₂ E : List Edge) (hE : IsBatch n₁ E₁ E₂ E)
      (hb₁ : bs₁[b]? = some ⟨bp, bL, bF, .vec (E₁.map Edge.basis)⟩)
      (hb₂ : bs₂[b]? = some ⟨bp, bL, bF, .vec (E₂.map Edge.basis)⟩)
      (hb : bs[b]? = some ⟨bp, bL, bF, .vec (E.map Edge.basis)⟩)
      (hw₁ : w₁ = some (.vec (E₁.map Edge.weight)) ∨ (w₁ = none ∧ ∀ e ∈ E₁, e.weight = fun _ _ _ => 1))
      (hw₂ : w₂ = some (.vec (E₂.map Edge.weight)) ∨ (w₂ = none ∧ ∀ e ∈ E₂, e.weight = fun _ _ _ => 1))
      (hw : w = some (.vec (E.map Edge.weight)) ∨ (w = none ∧ ∀ e ∈ E, e.weight = fun _ _ _ => 1))
      (hE₁ : ∀ e ∈ E₁, e.dst < n₁ ∧ e.src < n₁) (hE₂ : ∀ e ∈ E₂, e.dst < n₂ → e.src < n₂) :
    BatchInstr n₁ n₂ bs₁ bs₂ bs (.messagePass x b cfg P w₁ (edgeIx E₁)) (.messagePass x b cfg P w₂ (edgeIx E₂))
      (.messagePass x b cfg P w (edgeIx E))
  | attention (q kv b : ℕ) (lo ninf : ℝ) (cfg : AttnCfg) (P : AttnParams) (bp : Bool) (bL bF : ℕ)
      (E₁ E₂ E : List AttnEdge) (hE : IsBatchAttn n₁ n₁ E₁ E₂ E)
      (hb₁ : bs₁[b]? = some ⟨bp, bL, bF, .vec (E₁.map AttnEdge.basis)⟩)
      (hb₂ : bs₂[b]? = some ⟨bp, bL, bF, .vec (E₂.map AttnEdge.basis)⟩)
      (hb : bs[b]? = some ⟨bp, bL, bF, .vec (E.map AttnEdge.basis)⟩)
      (hE₁ : ∀ e ∈ E₁, e.dst < n₁ ∧ e.src < n₁) (hE₂ : ∀ e ∈ E₂, e.dst < n₂ → e.src < n₂) :
    BatchInstr n₁ n₂ bs₁ bs₂ bs (.attention q kv (some b) lo ninf cfg P (some (.vec (E₁.map AttnEdge.cut))) (attnIx E₁))
      (.attention q kv (some b) lo ninf cfg P (some (.vec (E₂.map AttnEdge.cut))) (attnIx E₂))
      (.attention q kv (some b) lo ninf cfg P (some (.vec (E.map AttnEdge.cut))) (attnIx E))

/-- The same program for the first structure, the second structure, and the batch. -/
inductive BatchProg (n₁ n₂ : ℕ) (bs₁ bs₂ bs : List Edges) : List Instr → List Instr → List Instr → Prop where
  | nil : BatchProg n₁ n₂ bs₁ bs₂ bs [] [] []
  | cons {i₁ i₂ i : Instr} {p₁ p₂ p : List Instr} (h : BatchInstr n₁ n₂ bs₁ bs₂ bs i₁ i₂ i)
      (hp : BatchProg n₁ n₂ bs₁ bs₂ bs p₁ p₂ p) : BatchProg n₁ n₂ bs₁ bs₂ bs (i₁ :: p₁) (i₂ :: p₂) (i :: p)

end E3x.Spec
