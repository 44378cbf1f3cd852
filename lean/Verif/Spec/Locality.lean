import Verif.Spec.Message
import Verif.Model.Energy
import Verif.Props.Safe

/-!
# Specification of C59: edges that contribute nothing
-/

namespace E3x.Spec

/-- An edge of a message-passing layer that contributes nothing: its basis functions are zero (and the filter has no bias),
or its weight is zero. -/
def Vanishes (useBasisBias : Bool) (e : Edge) : Prop :=
  (useBasisBias = false ∧ e.basis = fun _ _ _ => 0) ∨ e.weight = fun _ _ _ => 0

open Classical in
/-- The edges that contribute something. -/
noncomputable def liveEdges (useBasisBias : Bool) (E : List Edge) : List Edge :=
  E.filter fun e => ¬ Vanishes useBasisBias e

open Classical in
/-- The edges of an attention layer whose cutoff value is not zero. -/
noncomputable def liveAttn (E : List AttnEdge) : List AttnEdge := E.filter fun e => e.cut ≠ 0

/-- The two edge lists contain the same edges that contribute something, in any order. -/
def SameLive (useBasisBias : Bool) (E E' : List Edge) : Prop :=
  (liveEdges useBasisBias E).Perm (liveEdges useBasisBias E')

/-- The two edge lists contain the same edges with a non-zero cutoff value, in any order. -/
def SameLiveAttn (E E' : List AttnEdge) : Prop := (liveAttn E).Perm (liveAttn E')

/-- Every node in which an edge ends has an edge with a positive cutoff value (otherwise its output is NaN, C58). -/
def NoNaN (E : List AttnEdge) : Prop := ∀ e ∈ E, ∃ e' ∈ E, e'.dst = e.dst ∧ 0 < e'.cut

/-- The index lists of a graph. -/
def edgeIx (E : List Edge) : IndexArgs := { dst := some (E.map Edge.dst), src := some (E.map Edge.src) }

/-- The index lists of the graph of an attention layer. -/
def attnIx (E : List AttnEdge) : IndexArgs := { dst := some (E.map AttnEdge.dst), src := some (E.map AttnEdge.src) }

/-- Two layers which are equal up to edges that contribute nothing. `n` is the number of nodes; `bs`, `bs'` are the basis
functions of the two programs. -/
inductive SameUpToEdges (n : ℕ) (bs bs' : List Edges) : Instr → Instr → Prop where
  | dense (x features : ℕ) (useBias : Bool) (P : DenseParams) :
    SameUpToEdges n bs bs' (.dense x features useBias P) (.dense x features useBias P)
  | gated (x : ℕ) (g : ℝ → ℝ) : SameUpToEdges n bs bs' (.gated x g) (.gated x g)
  | change (x : ℕ) (L : Option ℕ) (ps : Option Bool) : SameUpToEdges n bs bs' (.change x L ps) (.change x L ps)
  | add (x y : ℕ) : SameUpToEdges n bs bs' (.add x y) (.add x y)
  | tensor (x y : ℕ) (cfg : TensorCfg) (T : TensorParams) : SameUpToEdges n bs bs' (.tensor x y cfg T) (.tensor x y cfg T)
  | tensorDense (x : ℕ) (features : Option ℕ) (useBias : Bool) (cfg : TensorCfg) (P : DenseParams) (T : TensorParams) :
    SameUpToEdges n bs bs' (.tensorDense x features useBias cfg P T) (.tensorDense x features useBias cfg P T)
  | messagePass (x b b' : ℕ) (cfg : ConvCfg) (P : ConvParams) (w w' : Option (Lead Ent)) (bp : Bool) (bL bF : ℕ)
      (E E' : List Edge) (hb : bs[b]? = some ⟨bp, bL, bF, .vec (E.map Edge.basis)⟩)
      (hb' : bs'[b']? = some ⟨bp, bL, bF, .vec (E'.map Edge.basis)⟩)
      (hw : w = some (.vec (E.map Edge.weight)) ∨ (w = none ∧ ∀ e ∈ E, e.weight = fun _ _ _ => 1))
      (hw' : w' = some (.vec (E'.map Edge.weight)) ∨ (w' = none ∧ ∀ e ∈ E', e.weight = fun _ _ _ => 1))
      (hE : ∀ e ∈ E, e.dst < n → e.src < n) (hE' : ∀ e ∈ E', e.dst < n → e.src < n)
      (h : SameLive cfg.useBasisBias E E') :
    SameUpToEdges n bs bs' (.messagePass x b cfg P w (edgeIx E)) (.messagePass x b' cfg P w' (edgeIx E'))
  | attention (q kv b b' : ℕ) (lo ninf : ℝ) (cfg : AttnCfg) (P : AttnParams) (bp : Bool) (bL bF : ℕ)
      (E E' : List AttnEdge) (hb : bs[b]? = some ⟨bp, bL, bF, .vec (E.map AttnEdge.basis)⟩)
      (hb' : bs'[b']? = some ⟨bp, bL, bF, .vec (E'.map AttnEdge.basis)⟩)
      (hE : ∀ e ∈ E, e.dst < n → e.src < n) (hE' : ∀ e ∈ E', e.dst < n → e.src < n)
      (hN : NoNaN E) (hN' : NoNaN E') (h : SameLiveAttn E E') :
    SameUpToEdges n bs bs' (.attention q kv (some b) lo ninf cfg P (some (.vec (E.map AttnEdge.cut))) (attnIx E))
      (.attention q kv (some b') lo ninf cfg P (some (.vec (E'.map AttnEdge.cut))) (attnIx E'))

/-- An edge of a structure: destination, source and displacement vector. -/
structure GeoEdge where
  dst : ℕ
  src : ℕ
  disp : Fin 3 → ℝ

open Classical in
/-- The edges which are shorter than the cutoff radius. -/
noncomputable def near (radius : ℝ) (G : List GeoEdge) : List GeoEdge := G.filter fun e => Spec.length e.disp < radius

/-- `basis(r, ...)` for the displacements of all edges, with functions that act on every entry: radial function `g`,
cutoff function `f`, damping function `d`. -/
noncomputable def graphBasis (tiny : ℝ) (disk : Disk SHCompressed) (o : SaveOutcome) (G : List GeoEdge) (L num : ℕ)
    (g : ℝ → ℕ → ℕ → ℝ) (f : ℝ → ℝ) (d : Option (ℝ → ℝ)) (cart : Bool) : Except Err (BasisResult (Fin G.length)) :=
  basis tiny (fun b => G[b].disp) L num (fun x n => .ok fun b => g (x b) n) (defaultAngularFn tiny disk o)
    (some fun x => .ok fun b => f (x b)) true false (d.map fun d x => .ok fun b => d (x b)) cart

end E3x.Spec
