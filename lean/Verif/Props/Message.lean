import Verif.Lemmas.Message
import Verif.Spec.Message
import Verif.Props.Softmax

/-!
# C18: MessagePass
-/

namespace E3x

open Spec
open Finset (range)

section

variable {cg cg' : ℕ → ℕ → ℕ → ℝ} {A : Feat → Feat} (hA : SymFacts cg cg' A)

include hA

theorem tensorRows_tr (cfg : TensorCfg) (T : TensorParams) {x x' y y' : Edges} (hx : EdgesTr A x x')
    (hy : EdgesTr A y y') : ExRel (EdgesTr A) (tensorRows cfg T cg x y) (tensorRows cfg T cg' x' y') := by
  obtain ⟨x1, x2, x3, x4⟩ := hx
  obtain ⟨y1, y2, y3, y4⟩ := hy
  unfold tensorRows
  have hh := anyTensor_header cfg T cg cg' (x := x.feat 0) (y := y.feat 0) (x' := x'.feat 0) (y' := y'.feat 0)
    ⟨x1, x2, x3⟩ ⟨y1, y2, y3⟩
  cases h0 : anyTensor cfg T cg (x.feat 0) (y.feat 0) with
  | error e =>
    rw [h0] at hh
    cases hh' : anyTensor cfg T cg' (x'.feat 0) (y'.feat 0) with
    | error e' => rw [hh'] at hh; cases hh; exact .error _
    | ok z => rw [hh'] at hh; cases hh
  | ok z =>
    rw [h0] at hh
    cases hh' : anyTensor cfg T cg' (x'.feat 0) (y'.feat 0) with
    | error e' => rw [hh'] at hh; cases hh
    | ok z' =>
      rw [hh'] at hh; cases hh
      rename_i hz
      dsimp only
      have key : ∀ a a' b b', Tr A x.pseudo x.L x.F a a' → Tr A y.pseudo y.L y.F b b' →
          Tr A z.pseudo z.L z.F (tensorVal cfg T cg (x.feat a) (y.feat b))
            (tensorVal cfg T cg' (x'.feat a') (y'.feat b')) := by
        intro a a' b b' ha hb
        have e1 : x'.feat a' = x.feat a' := by unfold Edges.feat; rw [x1, x2, x3]
        have e2 : y'.feat b' = y.feat b' := by unfold Edges.feat; rw [y1, y2, y3]
        rw [e1, e2]
        have g1 := anyTensor_header cfg T cg cg (x := x.feat 0) (y := y.feat 0) (x' := x.feat a) (y' := y.feat b)
          ⟨rfl, rfl, rfl⟩ ⟨rfl, rfl, rfl⟩
        rw [h0] at g1
        cases h1 : anyTensor cfg T cg (x.feat a) (y.feat b) with
        | error e => rw [h1] at g1; cases g1
        | ok z1 =>
          rw [h1] at g1; cases g1
          rename_i g1
          obtain ⟨z2, h2, h3⟩ := hA.tensor cfg T _ _ _ h1
          have ha' : (A (x.feat a)).Same (x.feat a') := Feat.Same.symm ha
          have hb' : (A (y.feat b)).Same (y.feat b') := Feat.Same.symm hb
          obtain ⟨z3, h4, h5⟩ := anyTensor_same cfg T cg' ha' hb' h2
          unfold tensorVal Tr
          rw [h1, h4]
          dsimp only
          have f1 : z3.Same (A z1) := h5.symm.trans h3
          have f2 : (⟨z.pseudo, z.L, z.F, z1.val⟩ : Feat) = z1 := by rw [g1.1, g1.2.1, g1.2.2]
          have f3 : (⟨z.pseudo, z.L, z.F, z3.val⟩ : Feat) = z3 := by
            obtain ⟨k1, k2, k3⟩ := hA.hdr z1
            rw [g1.1, g1.2.1, g1.2.2, ← k1, ← k2, ← k3, ← f1.1, ← f1.2.1, ← f1.2.2.1]
          rw [f2, f3]
          exact f1
      have hr := zipWith?_rel key x4 y4
      generalize Lead.zipWith? (fun a b => tensorVal cfg T cg (x.feat a) (y.feat b)) x.rows y.rows = u at hr
      generalize Lead.zipWith? (fun a b => tensorVal cfg T cg' (x'.feat a) (y'.feat b)) x'.rows y'.rows = w at hr
      cases hr with
      | none => exact .error _
      | some hr => exact .ok ⟨hz.1, hz.2.1, hz.2.2, hr⟩

omit hA in
theorem edgesApply_tr {g : Feat → Feat} (hg : ∀ x, (g (A x)).Same (A (g x)))
    (hs : ∀ {x y : Feat}, x.Same y → (g x).Same (g y))
    (hh : ∀ ps L F (v w : Ent), (g ⟨ps, L, F, v⟩).pseudo = (g ⟨ps, L, F, w⟩).pseudo ∧
      (g ⟨ps, L, F, v⟩).L = (g ⟨ps, L, F, w⟩).L ∧ (g ⟨ps, L, F, v⟩).F = (g ⟨ps, L, F, w⟩).F)
    {x x' : Edges} (hx : EdgesTr A x x') : EdgesTr A (x.apply g) (x'.apply g) := by
  obtain ⟨ps, L, F, rows⟩ := x
  obtain ⟨ps', L', F', rows'⟩ := x'
  obtain ⟨h1, h2, h3, h4⟩ := hx
  dsimp only at h1 h2 h3 h4
  subst h1; subst h2; subst h3
  exact ⟨rfl, rfl, rfl, h4.map fun v v' hv => Tr.apply hg hs hh hv⟩

omit hA in
theorem nodesApply_tr {g : Feat → Feat} (hg : ∀ x, (g (A x)).Same (A (g x)))
    (hs : ∀ {x y : Feat}, x.Same y → (g x).Same (g y))
    (hh : ∀ ps L F (v w : Ent), (g ⟨ps, L, F, v⟩).pseudo = (g ⟨ps, L, F, w⟩).pseudo ∧
      (g ⟨ps, L, F, v⟩).L = (g ⟨ps, L, F, w⟩).L ∧ (g ⟨ps, L, F, v⟩).F = (g ⟨ps, L, F, w⟩).F)
    {x x' : Nodes} (hx : NodesTr A x x') : NodesTr A (x.apply g) (x'.apply g) := by
  obtain ⟨ps, L, F, rows⟩ := x
  obtain ⟨ps', L', F', rows'⟩ := x'
  obtain ⟨h1, h2, h3, h4⟩ := hx
  dsimp only at h1 h2 h3 h4
  subst h1; subst h2; subst h3
  exact ⟨rfl, rfl, rfl, forall2_map h4 fun v v' hv => Tr.apply hg hs hh hv⟩

theorem convProducts_tr (cfg : ConvCfg) (P : ConvParams) {x x' : Edges} {b b' : Option Edges} (hx : EdgesTr A x x')
    (hb : OptRel (EdgesTr A) b b') : ExRel (EdgesTr A) (convProducts cfg P cg x b) (convProducts cfg P cg' x' b') := by
  cases hb with
  | none => exact .ok hx
  | some hb =>
    rename_i b b'
    unfold convProducts
    dsimp only
    have hr := zipWith?_rel (T := fun _ _ => True) (f := fun _ _ => ()) (f' := fun _ _ => ())
      (fun _ _ _ _ _ _ => trivial) hx.2.2.2 hb.2.2.2
    generalize Lead.zipWith? (fun _ _ => ()) x.rows b.rows = u at hr
    generalize Lead.zipWith? (fun _ _ => ()) x'.rows b'.rows = w at hr
    cases hr with
    | none => exact .error _
    | some _ =>
      dsimp only
      rw [← hx.2.2.1]
      exact tensorRows_tr hA cfg.tens P.tens
        (edgesApply_tr (hA.dense _ _ _) (fun h => dense_same h _ _ _) (dense_hdr _ _ _) hb) hx

theorem conv_tr (cfg : ConvCfg) (P : ConvParams) {x x' : Edges} {b b' : Option Edges} (hx : EdgesTr A x x')
    (hb : OptRel (EdgesTr A) b b') (ix : IndexArgs) :
    ExRel (NodesTr A) (conv cfg P cg x b ix) (conv cfg P cg' x' b' ix) := by
  have h := convProducts_tr hA cfg P hx hb
  unfold conv
  generalize convProducts cfg P cg x b = u at h
  generalize convProducts cfg P cg' x' b' = w at h
  cases h with
  | error e => exact .error _
  | ok h =>
    rename_i p p'
    obtain ⟨h1, h2, h3, h4⟩ := h
    have hr := indexedSum_rel (Tr.zero hA p.pseudo p.L p.F) (fun _ _ _ _ => Tr.add hA) h4 ix
    dsimp only
    generalize indexedSum p.rows ix = u at hr
    generalize indexedSum p'.rows ix = w at hr
    cases hr with
    | error e => exact .error _
    | ok hr => exact .ok ⟨h1, h2, h3, hr⟩

/-- Weights that do not distinguish components: they depend on the edge and the feature only. -/
def ScalarWeights (w : Option (Lead Ent)) : Prop :=
  ∀ l, w = some l → Lead.Rel (fun v v' : Ent => v = v' ∧ ∀ p i f, v p i f = v 0 0 f) l l

theorem messagePass_tr (cfg : ConvCfg) (P : ConvParams) {x x' : Nodes} {b b' : Edges} (hx : NodesTr A x x')
    (hb : EdgesTr A b b') (w : Option (Lead Ent)) (hw : ScalarWeights w) (ix : IndexArgs) :
    ExRel (NodesTr A) (messagePass cfg P cg x b w ix) (messagePass cfg P cg' x' b' w ix) := by
  obtain ⟨h1, h2, h3, h4⟩ := hx
  unfold messagePass
  have hg := gatherSrc_rel h4 ix
  generalize gatherSrc x.rows ix = u at hg
  generalize gatherSrc x'.rows ix = u' at hg
  cases hg with
  | error e => exact .error _
  | ok hg =>
    rename_i g g'
    dsimp only
    have hw' : OptRel (Lead.Rel (Tr A x.pseudo x.L x.F)) (weighted w g) (weighted w g') := by
      unfold weighted
      cases w with
      | none => exact .some hg
      | some l =>
        refine zipWith?_rel ?_ hg (hw l rfl)
        rintro a a' b b' ha ⟨rfl, hb⟩
        have := Tr.scale hA (fun f => b 0 0 f) (fun f => b 0 0 f) (fun _ _ => rfl) ha
        have e : ∀ v : Ent, (fun p i f => v p i f * b p i f) = fun p i f => b 0 0 f * v p i f := by
          intro v; funext p i f; rw [hb p i f]; ring
        rw [e a, e a']
        exact this
    revert hw'
    generalize weighted w g = u
    generalize weighted w g' = u'
    intro hw'
    cases hw' with
    | none => exact .error _
    | some hw' =>
      dsimp only
      rw [h4.length_eq]
      refine conv_tr hA cfg P ⟨h1, h2, h3, hw'⟩ (.some hb) _

end

theorem nodesTr_act {cg cg' : ℕ → ℕ → ℕ → ℝ} {A : Feat → Feat} (hA : SymFacts cg cg' A) (x : Nodes) :
    NodesTr A x (actNodes A x) := by
  refine ⟨rfl, rfl, rfl, ?_⟩
  unfold actNodes
  dsimp only
  induction x.rows with
  | nil => exact .nil
  | cons v l ih =>
    refine .cons ?_ ih
    obtain ⟨h1, h2, h3⟩ := hA.hdr (x.feat v)
    refine ⟨h1.symm, h2.symm, h3.symm, ?_⟩
    intro p i f _ _ _; rfl

theorem edgesTr_act {cg cg' : ℕ → ℕ → ℕ → ℝ} {A : Feat → Feat} (hA : SymFacts cg cg' A) (x : Edges) :
    EdgesTr A x (actEdges A x) := by
  refine ⟨rfl, rfl, rfl, ?_⟩
  have h : ∀ v, Tr A x.pseudo x.L x.F v (A (x.feat v)).val := by
    intro v
    obtain ⟨h1, h2, h3⟩ := hA.hdr (x.feat v)
    refine ⟨h1.symm, h2.symm, h3.symm, ?_⟩
    intro p i f _ _ _; rfl
  have hl : ∀ l : List Ent, List.Forall₂ (Tr A x.pseudo x.L x.F) l (l.map fun v => (A (x.feat v)).val) := by
    intro l; induction l with
    | nil => exact .nil
    | cons v l ih => exact .cons (h v) ih
  unfold actEdges Lead.map
  dsimp only
  cases x.rows with
  | vec xs => exact .vec (hl xs)
  | mat xs =>
    refine .mat ?_
    induction xs with
    | nil => exact .nil
    | cons a l ih => exact .cons (hl a) ih

theorem sameNodes_of_tr {cg cg' : ℕ → ℕ → ℕ → ℝ} {A : Feat → Feat} (hA : SymFacts cg cg' A) {x x' : Nodes}
    (h : NodesTr A x x') : SameNodes x' (actNodes A x) := by
  obtain ⟨h1, h2, h3, h4⟩ := h
  refine ⟨h1.symm, h2.symm, h3.symm, ?_⟩
  unfold actNodes Nodes.feat
  dsimp only
  rw [← h1, ← h2, ← h3]
  generalize x.rows = l at h4
  generalize x'.rows = l' at h4
  induction h4 with
  | nil => exact .nil
  | cons hv _ ih =>
    refine .cons ?_ ih
    obtain ⟨k1, k2, k3⟩ := hA.hdr ⟨x.pseudo, x.L, x.F, _⟩
    refine Feat.Same.trans hv ⟨k1, k2, k3, ?_⟩
    intro p i f _ _ _; rfl

/-- **C18 (rotations, reflections).** Transforming node and edge features by a rotation or a reflection transforms the
output, whatever the index lists are; exceptions are the same. Weights, if given, must not distinguish components. -/
theorem C18_message_pass {cg : ℕ → ℕ → ℕ → ℝ} {A : Feat → Feat} (hA : IsSymmetry cg A) (cfg : ConvCfg)
    (P : ConvParams) (x : Nodes) (b : Edges) (w : Option (Lead Ent)) (hw : ScalarWeights w) (ix : IndexArgs) :
    (∀ z, messagePass cfg P cg x b w ix = .ok z →
      ∃ z', messagePass cfg P cg (actNodes A x) (actEdges A b) w ix = .ok z' ∧ SameNodes z' (actNodes A z)) ∧
    (∀ e, messagePass cfg P cg x b w ix = .error e →
      messagePass cfg P cg (actNodes A x) (actEdges A b) w ix = .error e) := by
  have hA := symFacts_of_isSymmetry hA
  have h := messagePass_tr hA cfg P (nodesTr_act hA x) (edgesTr_act hA b) w hw ix
  generalize messagePass cfg P cg x b w ix = u at h
  generalize messagePass cfg P cg (actNodes A x) (actEdges A b) w ix = u' at h
  cases h with
  | ok h =>
    refine ⟨?_, by intro e he; cases he⟩
    intro z hz
    injection hz with hz; subst hz
    exact ⟨_, rfl, sameNodes_of_tr hA h⟩
  | error e =>
    refine ⟨?_, ?_⟩
    · intro z hz; cases hz
    · intro e' he; exact he

/-! ## Graphs -/

/-- The weights argument for a graph given as a list of edges: an array, or absent if all weights are one. -/
def WeightsOf (w : Option (Lead Ent)) (arr : Lead Ent) (all : List Edge) : Prop :=
  w = some arr ∨ (w = none ∧ ∀ e ∈ all, e.weight = fun _ _ _ => 1)

theorem filterFeat_hdr (cfg : ConvCfg) (P : ConvParams) (F : ℕ) (b : Edges) (v : Ent) :
    (b.apply (dense F cfg.useBasisBias P.filter)).feat (dense F cfg.useBasisBias P.filter (b.feat v)).val =
      dense F cfg.useBasisBias P.filter (b.feat v) := by
  obtain ⟨h1, h2, h3⟩ := dense_hdr F cfg.useBasisBias P.filter b.pseudo b.L b.F 0 v
  unfold Edges.apply Edges.feat at *
  dsimp only
  rw [h1, h2, h3]

/-- An edge whose source index is clamped. -/
def clampEdge (n : ℕ) (e : Edge) : Edge := { e with src := min e.src (n - 1) }

theorem clampEdge_of_lt {n : ℕ} {e : Edge} (h : e.src < n) : clampEdge n e = e := by
  unfold clampEdge
  have : min e.src (n - 1) = e.src := by omega
  rw [this]

/-- The products computed for a list of slots. -/
theorem products_eq (cfg : ConvCfg) (P : ConvParams) (cg : ℕ → ℕ → ℕ → ℝ) (x : Nodes) (bp : Bool) (bL bF : ℕ)
    (rows : Lead Ent) (E : List Edge) :
    List.zipWith (fun a b => tensorVal cfg.tens P.tens cg
        (((⟨bp, bL, bF, rows⟩ : Edges).apply (dense x.F cfg.useBasisBias P.filter)).feat a) (x.feat b))
      ((E.map Edge.basis).map fun v => (dense x.F cfg.useBasisBias P.filter ⟨bp, bL, bF, v⟩).val)
      (E.map fun e p i f => x.rows.getD (min e.src (x.rows.length - 1)) 0 p i f * e.weight p i f) =
    E.map fun e => message cfg P cg x bp bL bF (clampEdge x.rows.length e) := by
  rw [List.map_map, List.zipWith_map, List.zipWith_self]
  apply List.map_congr_left
  intro e _
  have := filterFeat_hdr cfg P x.F ⟨bp, bL, bF, rows⟩ e.basis
  unfold message tensorVal
  simp only [Function.comp]
  unfold Edges.feat at this ⊢
  dsimp only at this ⊢
  rw [this]
  rfl

theorem tensor_possible (cfg : ConvCfg) (P : ConvParams) (cg : ℕ → ℕ → ℕ → ℝ) (x : Nodes) (bp : Bool) (bL bF : ℕ)
    (rows : Lead Ent) :
    (∀ e, anyTensor cfg.tens P.tens cg
        (((⟨bp, bL, bF, rows⟩ : Edges).apply (dense x.F cfg.useBasisBias P.filter)).feat 0) (x.feat 0) = .error e →
      e = .valueError ∧ bL + x.L < cfg.tens.maxDegree.getD (max bL x.L)) ∧
    (∀ z, anyTensor cfg.tens P.tens cg
        (((⟨bp, bL, bF, rows⟩ : Edges).apply (dense x.F cfg.useBasisBias P.filter)).feat 0) (x.feat 0) = .ok z →
      cfg.tens.maxDegree.getD (max bL x.L) ≤ bL + x.L ∧ z.L = cfg.tens.maxDegree.getD (max bL x.L) ∧ z.F = x.F ∧
      (z.pseudo = true ↔ cfg.tens.includePseudo = true ∧ ¬ (bp = false ∧ x.pseudo = false ∧
        (bL = 0 ∨ x.L = 0 ∨ cfg.tens.maxDegree.getD (max bL x.L) = 0)))) := by
  obtain ⟨h1, h2, h3, -⟩ := C12_dense x.F cfg.useBasisBias P.filter ⟨bp, bL, bF, 0⟩
  set u : Feat := ((⟨bp, bL, bF, rows⟩ : Edges).apply (dense x.F cfg.useBasisBias P.filter)).feat 0 with hu
  have e1 : u.pseudo = bp := h1
  have e2 : u.L = bL := h2
  have e3 : u.F = x.F := h3
  have e4 : (x.feat 0).F = x.F := rfl
  have e5 : (x.feat 0).L = x.L := rfl
  cases P.tens with
  | tensor k =>
    constructor
    · intro e he
      have := (C15_tensor_error cfg.tens k cg u (x.feat 0) e).1 he
      rw [e2, e3, e4, e5] at this
      simpa using this
    · intro z hz
      have hok : cfg.tens.maxDegree.getD (max u.L (x.feat 0).L) ≤ u.L + (x.feat 0).L := by
        by_contra hc
        have := (C15_tensor_error cfg.tens k cg u (x.feat 0) .valueError).2 ⟨rfl, Or.inl (by omega)⟩
        have hz' : tensor cfg.tens k cg u (x.feat 0) = .ok z := hz
        rw [hz'] at this; cases this
      obtain ⟨z', h0, h1, h2, h3, _⟩ := C15_tensor cfg.tens k cg u (x.feat 0) hok e3
      have hz' : tensor cfg.tens k cg u (x.feat 0) = .ok z := hz
      rw [hz'] at h0; injection h0 with h0; subst h0
      rw [e2, e5] at hok h1 h3
      rw [e1] at h3
      exact ⟨hok, h1, h2.trans e3, h3⟩
  | fused k =>
    constructor
    · intro e he
      have := (C16_fused_error cfg.tens k cg u (x.feat 0) e).1 he
      rw [e2, e3, e4, e5] at this
      simpa using this
    · intro z hz
      have hz' : fusedTensor cfg.tens k cg u (x.feat 0) = .ok z := hz
      have hok := fused_ok hz'
      obtain ⟨z', h0, h1, h2, h3, _⟩ := C16_fused cfg.tens k cg u (x.feat 0) hok.1 hok.2
      rw [hz'] at h0; injection h0 with h0; subst h0
      rw [e2, e5] at hok h1 h3
      rw [e1] at h3
      exact ⟨hok.1, h1, h2.trans e3, h3⟩

theorem weighted_vec (x : Nodes) (E : List Edge) (w : Option (Lead Ent))
    (hw : WeightsOf w (.vec (E.map Edge.weight)) E) :
    weighted w (.vec ((E.map Edge.src).map fun i => (x.rows[min i (x.rows.length - 1)]?).getD 0)) =
      some (.vec (E.map fun e p i f => x.rows.getD (min e.src (x.rows.length - 1)) 0 p i f * e.weight p i f)) := by
  rcases hw with rfl | ⟨rfl, h⟩
  · unfold weighted Lead.zipWith?
    dsimp only
    rw [if_pos (by simp), List.map_map, List.zipWith_map, List.zipWith_self]
    simp only [Function.comp, List.getD_eq_getElem?_getD]
  · unfold weighted
    dsimp only
    congr 2
    rw [List.map_map]
    apply List.map_congr_left
    intro e he
    rw [h e he]
    funext p i f
    simp only [Function.comp, List.getD_eq_getElem?_getD, mul_one]

theorem indexedSum_vec {α : Type} [Add α] [Zero α] (xs : List α) (ix : IndexArgs) (d : List ℕ) (n : ℕ) (ha : ix.adj = none)
    (hd : ix.dst = some d) (hnum : ix.num = some n) (hl : d.length = xs.length) :
    indexedSum (.vec xs) ix = .ok (segmentReduce (· + ·) 0 xs d n) := by
  unfold indexedSum
  rw [ha, hd]
  simp [determineIndexType, hnum, hl]

theorem indexedSum_mat {α : Type} [Add α] [Zero α] (xs : List (List α)) (ix : IndexArgs) (a : List (List ℕ))
    (m : List (List Bool)) (ha : ix.adj = some a) (hd : ix.dst = none) (hm : ix.mask = some m)
    (hl : a.map List.length = xs.map List.length) :
    indexedSum (.mat xs) ix = .ok (denseReduce (· + ·) 0 xs m) := by
  unfold indexedSum
  rw [ha, hd]
  simp [determineIndexType, hm, hl]

/-- The whole layer, sparse format. -/
theorem messagePass_sparse (cfg : ConvCfg) (P : ConvParams) (cg : ℕ → ℕ → ℕ → ℝ) (x : Nodes) (bp : Bool) (bL bF : ℕ)
    (E : List Edge) (w : Option (Lead Ent)) (hw : WeightsOf w (.vec (E.map Edge.weight)) E) (num : Option ℕ)
    (hn : 0 < x.rows.length) :
    (bL + x.L < cfg.tens.maxDegree.getD (max bL x.L) →
      messagePass cfg P cg x ⟨bp, bL, bF, .vec (E.map Edge.basis)⟩ w
        { dst := some (E.map Edge.dst), src := some (E.map Edge.src), num := num } = .error .valueError) ∧
    (cfg.tens.maxDegree.getD (max bL x.L) ≤ bL + x.L → ∃ ps : Bool,
      (ps = true ↔ cfg.tens.includePseudo = true ∧ ¬ (bp = false ∧ x.pseudo = false ∧
        (bL = 0 ∨ x.L = 0 ∨ cfg.tens.maxDegree.getD (max bL x.L) = 0))) ∧
      messagePass cfg P cg x ⟨bp, bL, bF, .vec (E.map Edge.basis)⟩ w
        { dst := some (E.map Edge.dst), src := some (E.map Edge.src), num := num } =
      .ok ⟨ps, cfg.tens.maxDegree.getD (max bL x.L), x.F,
        segmentReduce (· + ·) 0 (E.map fun e => message cfg P cg x bp bL bF (clampEdge x.rows.length e))
          (E.map Edge.dst) (num.getD x.rows.length)⟩) := by
  have hne : x.rows ≠ [] := List.ne_nil_of_length_pos hn
  obtain ⟨p1, p2⟩ := tensor_possible cfg P cg x bp bL bF (.vec (E.map Edge.basis))
  unfold messagePass gatherSrc
  simp only [determineIndexType, Option.map_none, Option.map_some, Option.isSome_none, Option.isSome_some,
    Bool.true_or, Bool.or_false, Bool.false_or, Bool.not_true, Bool.false_and, Bool.and_false, if_false,
    Bool.false_eq_true, gatherSparse_eq (0 : Ent) x.rows hne, weighted_vec x E w hw]
  unfold conv convProducts
  simp only [Lead.zipWith?, List.length_map, if_true]
  unfold tensorRows
  simp only [Edges.apply, Lead.map, Lead.zipWith?, List.length_map, if_true]
  have pe := products_eq cfg P cg x bp bL bF (.vec (E.map Edge.basis)) E
  unfold Edges.apply Lead.map at pe p1 p2
  unfold Edges.feat Nodes.feat at *
  dsimp only at pe p1 p2 ⊢
  rw [pe]
  generalize anyTensor _ _ _ _ _ = t at p1 p2
  cases t with
  | error e =>
    obtain ⟨rfl, h⟩ := p1 e rfl
    refine ⟨fun _ => rfl, fun h' => by omega⟩
  | ok z =>
    obtain ⟨h, hL, hF, hps⟩ := p2 z rfl
    refine ⟨fun h' => by omega, fun _ => ⟨z.pseudo, hps, ?_⟩⟩
    dsimp only
    rw [indexedSum_vec _ _ (E.map Edge.dst) (num.getD x.rows.length) rfl rfl rfl (by simp), ← hL, ← hF]

theorem weighted_mat (x : Nodes) (G : List (List Edge)) (w : Option (Lead Ent))
    (hw : WeightsOf w (.mat (G.map fun r => r.map Edge.weight)) G.flatten) :
    weighted w (.mat (G.map fun r => (r.map Edge.src).map fun i => (x.rows[min i (x.rows.length - 1)]?).getD 0)) =
      some (.mat (G.map fun r => r.map fun e p i f =>
        x.rows.getD (min e.src (x.rows.length - 1)) 0 p i f * e.weight p i f)) := by
  rcases hw with rfl | ⟨rfl, h⟩
  · unfold weighted Lead.zipWith?
    dsimp only
    rw [if_pos (by simp), List.zipWith_map, List.zipWith_self]
    congr 2
    apply List.map_congr_left
    intro r _
    rw [List.map_map, List.zipWith_map, List.zipWith_self]
    simp only [Function.comp, List.getD_eq_getElem?_getD]
  · unfold weighted
    dsimp only
    congr 2
    apply List.map_congr_left
    intro r hr
    rw [List.map_map]
    apply List.map_congr_left
    intro e he
    rw [h e (List.mem_flatten.2 ⟨r, hr, he⟩)]
    funext p i f
    simp only [Function.comp, List.getD_eq_getElem?_getD, mul_one]

theorem gatherDense_eq {α : Type} (d : α) (l : List α) (hl : l ≠ []) (idx : List (List ℕ)) :
    gatherDense l idx = some (idx.map fun r => r.map fun i => (l[min i (l.length - 1)]?).getD d) := by
  unfold gatherDense
  have h := gatherSparse_eq d l hl
  induction idx with
  | nil => simp
  | cons a idx ih => simp [h, ih]

/-- The whole layer, dense format. -/
theorem messagePass_dense (cfg : ConvCfg) (P : ConvParams) (cg : ℕ → ℕ → ℕ → ℝ) (x : Nodes) (bp : Bool) (bL bF : ℕ)
    (G : List (List Edge)) (w : Option (Lead Ent))
    (hw : WeightsOf w (.mat (G.map fun r => r.map Edge.weight)) G.flatten) (num : Option ℕ)
    (hn : 0 < x.rows.length) :
    (bL + x.L < cfg.tens.maxDegree.getD (max bL x.L) →
      messagePass cfg P cg x ⟨bp, bL, bF, .mat (G.map fun r => r.map Edge.basis)⟩ w
        { adj := some (G.map fun r => r.map Edge.src), num := num } = .error .valueError) ∧
    (cfg.tens.maxDegree.getD (max bL x.L) ≤ bL + x.L → ∃ ps : Bool,
      (ps = true ↔ cfg.tens.includePseudo = true ∧ ¬ (bp = false ∧ x.pseudo = false ∧
        (bL = 0 ∨ x.L = 0 ∨ cfg.tens.maxDegree.getD (max bL x.L) = 0))) ∧
      messagePass cfg P cg x ⟨bp, bL, bF, .mat (G.map fun r => r.map Edge.basis)⟩ w
        { adj := some (G.map fun r => r.map Edge.src), num := num } =
      .ok ⟨ps, cfg.tens.maxDegree.getD (max bL x.L), x.F,
        denseReduce (· + ·) 0
          (G.map fun r => r.map fun e => message cfg P cg x bp bL bF (clampEdge x.rows.length e))
          (G.map fun r => r.map fun e => decide (e.src < x.rows.length))⟩) := by
  have hne : x.rows ≠ [] := List.ne_nil_of_length_pos hn
  obtain ⟨p1, p2⟩ := tensor_possible cfg P cg x bp bL bF (.mat (G.map fun r => r.map Edge.basis))
  have hg : (G.map fun r => r.map Edge.src).map (fun r => r.map fun i => (x.rows[min i (x.rows.length - 1)]?).getD 0) =
      G.map fun r => (r.map Edge.src).map fun i => (x.rows[min i (x.rows.length - 1)]?).getD 0 := by
    rw [List.map_map]; rfl
  unfold messagePass gatherSrc
  simp only [determineIndexType, Option.map_none, Option.map_some, Option.isSome_none, Option.isSome_some,
    Bool.true_or, Bool.or_false, Bool.false_or, Bool.not_true, Bool.false_and, Bool.and_false, if_false, if_true,
    Bool.false_eq_true, gatherDense_eq (0 : Ent) x.rows hne, hg, weighted_mat x G w hw]
  have hsh : (G.map fun r => r.map fun e p i f => x.rows.getD (min e.src (x.rows.length - 1)) 0 p i f * e.weight p i f).map
      List.length = (G.map fun r => r.map Edge.basis).map List.length := by simp
  unfold conv convProducts
  simp only [Lead.zipWith?, hsh, if_true]
  unfold tensorRows
  have hsh2 : ((G.map fun r => r.map Edge.basis).map
      (List.map fun v => (dense x.F cfg.useBasisBias P.filter ⟨bp, bL, bF, v⟩).val)).map List.length =
      (G.map fun r => r.map fun e p i f =>
        x.rows.getD (min e.src (x.rows.length - 1)) 0 p i f * e.weight p i f).map List.length := by simp
  have pe : List.zipWith (List.zipWith fun a b => tensorVal cfg.tens P.tens cg
      (((⟨bp, bL, bF, .mat (G.map fun r => r.map Edge.basis)⟩ : Edges).apply
        (dense x.F cfg.useBasisBias P.filter)).feat a) (x.feat b))
      ((G.map fun r => r.map Edge.basis).map
        (List.map fun v => (dense x.F cfg.useBasisBias P.filter ⟨bp, bL, bF, v⟩).val))
      (G.map fun r => r.map fun e p i f =>
        x.rows.getD (min e.src (x.rows.length - 1)) 0 p i f * e.weight p i f) =
      G.map fun r => r.map fun e => message cfg P cg x bp bL bF (clampEdge x.rows.length e) := by
    rw [List.map_map, List.zipWith_map, List.zipWith_self]
    apply List.map_congr_left
    intro r _
    exact products_eq cfg P cg x bp bL bF (.mat (G.map fun r => r.map Edge.basis)) r
  unfold Edges.apply Lead.map at pe p1 p2 ⊢
  unfold Edges.feat Nodes.feat at *
  dsimp only at pe p1 p2 ⊢
  simp only [Lead.zipWith?]
  rw [if_pos hsh2, pe]
  generalize anyTensor _ _ _ _ _ = t at p1 p2
  cases t with
  | error e =>
    obtain ⟨rfl, h⟩ := p1 e rfl
    refine ⟨fun _ => rfl, fun h' => by omega⟩
  | ok z =>
    obtain ⟨h, hL, hF, hps⟩ := p2 z rfl
    refine ⟨fun h' => by omega, fun _ => ⟨z.pseudo, hps, ?_⟩⟩
    have hm : (autoIndexArgs { adj := some (G.map fun r => r.map Edge.src), num := num } x.rows.length x.rows.length).mask =
        some (G.map fun r => r.map fun e => decide (e.src < x.rows.length)) := by
      simp [autoIndexArgs, Function.comp]
    dsimp only
    rw [indexedSum_mat _ _ (G.map fun r => r.map Edge.src) _ rfl rfl hm (by simp), ← hL, ← hF]

/-- **C18 (meaning, sparse format).** Every node receives the sum of the messages sent along the edges that end in it.
Edges whose destination is not a node are padding; only other edges need a valid source. The layer fails iff the requested
degree is too large. -/
theorem C18_sparse (cfg : ConvCfg) (P : ConvParams) (cg : ℕ → ℕ → ℕ → ℝ) (x : Nodes) (bp : Bool) (bL bF : ℕ)
    (E : List Edge) (w : Option (Lead Ent)) (hw : WeightsOf w (.vec (E.map Edge.weight)) E) (num : Option ℕ)
    (hn : 0 < x.rows.length) (hE : ∀ e ∈ E, e.dst < num.getD x.rows.length → e.src < x.rows.length) :
    (bL + x.L < cfg.tens.maxDegree.getD (max bL x.L) →
      messagePass cfg P cg x ⟨bp, bL, bF, .vec (E.map Edge.basis)⟩ w
        { dst := some (E.map Edge.dst), src := some (E.map Edge.src), num := num } = .error .valueError) ∧
    (cfg.tens.maxDegree.getD (max bL x.L) ≤ bL + x.L → ∃ z,
      messagePass cfg P cg x ⟨bp, bL, bF, .vec (E.map Edge.basis)⟩ w
        { dst := some (E.map Edge.dst), src := some (E.map Edge.src), num := num } = .ok z ∧
      (z.pseudo = true ↔ cfg.tens.includePseudo = true ∧ ¬ (bp = false ∧ x.pseudo = false ∧
        (bL = 0 ∨ x.L = 0 ∨ cfg.tens.maxDegree.getD (max bL x.L) = 0))) ∧
      z.L = cfg.tens.maxDegree.getD (max bL x.L) ∧ z.F = x.F ∧ z.rows.length = num.getD x.rows.length ∧
      ∀ i < num.getD x.rows.length,
        z.rows[i]? = some ((edgesInto E i).map (message cfg P cg x bp bL bF)).sum) := by
  obtain ⟨h1, h2⟩ := messagePass_sparse cfg P cg x bp bL bF E w hw num hn
  refine ⟨h1, fun h => ?_⟩
  obtain ⟨ps, hps, h⟩ := h2 h
  refine ⟨_, h, hps, rfl, rfl, segmentReduce_length _ _ _ _ _, fun i hi => ?_⟩
  dsimp only
  rw [C03_segment_sum _ _ _ _ hi]
  congr 2
  unfold edgesInto
  rw [List.zip_map', List.filter_map, List.map_map]
  show (E.filter fun e => decide (e.dst = i)).map _ = _
  apply List.map_congr_left
  intro e he
  simp only [List.mem_filter, Function.comp, decide_eq_true_eq] at he ⊢
  obtain ⟨he, hd⟩ := he
  rw [clampEdge_of_lt (hE e he (by omega))]

/-- **C18 (meaning, dense format).** Node `i` receives the sum of the messages of the slots in row `i` of the adjacency
list whose source is a node. -/
theorem C18_dense (cfg : ConvCfg) (P : ConvParams) (cg : ℕ → ℕ → ℕ → ℝ) (x : Nodes) (bp : Bool) (bL bF : ℕ)
    (G : List (List Edge)) (w : Option (Lead Ent))
    (hw : WeightsOf w (.mat (G.map fun r => r.map Edge.weight)) G.flatten) (num : Option ℕ)
    (hn : 0 < x.rows.length) :
    (bL + x.L < cfg.tens.maxDegree.getD (max bL x.L) →
      messagePass cfg P cg x ⟨bp, bL, bF, .mat (G.map fun r => r.map Edge.basis)⟩ w
        { adj := some (G.map fun r => r.map Edge.src), num := num } = .error .valueError) ∧
    (cfg.tens.maxDegree.getD (max bL x.L) ≤ bL + x.L → ∃ z,
      messagePass cfg P cg x ⟨bp, bL, bF, .mat (G.map fun r => r.map Edge.basis)⟩ w
        { adj := some (G.map fun r => r.map Edge.src), num := num } = .ok z ∧
      (z.pseudo = true ↔ cfg.tens.includePseudo = true ∧ ¬ (bp = false ∧ x.pseudo = false ∧
        (bL = 0 ∨ x.L = 0 ∨ cfg.tens.maxDegree.getD (max bL x.L) = 0))) ∧
      z.L = cfg.tens.maxDegree.getD (max bL x.L) ∧ z.F = x.F ∧ z.rows.length = G.length ∧
      ∀ i (h : i < G.length), z.rows[i]? = some ((G[i].filter fun e => e.src < x.rows.length).map
        (message cfg P cg x bp bL bF)).sum) := by
  obtain ⟨h1, h2⟩ := messagePass_dense cfg P cg x bp bL bF G w hw num hn
  refine ⟨h1, fun h => ?_⟩
  obtain ⟨ps, hps, h⟩ := h2 h
  refine ⟨_, h, hps, rfl, rfl, by simp [denseReduce], fun i hi => ?_⟩
  unfold denseReduce
  dsimp only
  rw [List.zipWith_map, List.zipWith_self, List.getElem?_map, List.getElem?_eq_getElem hi, Option.map_some]
  congr 1
  unfold maskedFold
  rw [List.zip_map', List.filter_map, List.foldl_map, List.sum_eq_foldl, List.foldl_map]
  have : ∀ (l : List Edge) (a : Ent), (∀ e ∈ l, e.src < x.rows.length) →
      l.foldl (fun acc e => acc + message cfg P cg x bp bL bF (clampEdge x.rows.length e)) a =
      l.foldl (fun acc e => acc + message cfg P cg x bp bL bF e) a := by
    intro l
    induction l with
    | nil => intro a _; rfl
    | cons e l ih =>
      intro a hl
      rw [List.foldl_cons, List.foldl_cons, clampEdge_of_lt (hl e (by simp)), ih _ fun e he => hl e (by simp [he])]
  exact this _ _ (by intro e he; simpa using (List.mem_filter.1 he).2)

theorem nodes_ext {z z' : Nodes} (h1 : z.pseudo = z'.pseudo) (h2 : z.L = z'.L) (h3 : z.F = z'.F)
    (h4 : z.rows.length = z'.rows.length) (h5 : ∀ i < z.rows.length, z.rows[i]? = z'.rows[i]?) : z = z' := by
  obtain ⟨_, _, _, r⟩ := z
  obtain ⟨_, _, _, r'⟩ := z'
  dsimp only at h1 h2 h3 h4 h5
  subst h1; subst h2; subst h3
  congr 1
  apply List.ext_getElem?
  intro i
  by_cases hi : i < r.length
  · exact h5 i hi
  · rw [List.getElem?_eq_none (by omega), List.getElem?_eq_none (by omega)]

theorem sum_edges_perm {f : Edge → Ent} {E E' : List Edge} (h : E.Perm E') (i : ℕ) :
    ((edgesInto E i).map f).sum = ((edgesInto E' i).map f).sum :=
  List.Perm.sum_eq ((h.filter _).map _)

/-- **C18 (order of edges).** The result does not depend on the order in which the edges are listed. -/
theorem C18_edge_order (cfg : ConvCfg) (P : ConvParams) (cg : ℕ → ℕ → ℕ → ℝ) (x : Nodes) (bp : Bool) (bL bF : ℕ)
    (E E' : List Edge) (hp : E.Perm E') (w w' : Option (Lead Ent)) (hw : WeightsOf w (.vec (E.map Edge.weight)) E)
    (hw' : WeightsOf w' (.vec (E'.map Edge.weight)) E') (num : Option ℕ)
    (hn : 0 < x.rows.length) (hE : ∀ e ∈ E, e.dst < num.getD x.rows.length → e.src < x.rows.length) :
    messagePass cfg P cg x ⟨bp, bL, bF, .vec (E.map Edge.basis)⟩ w
        { dst := some (E.map Edge.dst), src := some (E.map Edge.src), num := num } =
    messagePass cfg P cg x ⟨bp, bL, bF, .vec (E'.map Edge.basis)⟩ w'
        { dst := some (E'.map Edge.dst), src := some (E'.map Edge.src), num := num } := by
  obtain ⟨h1, h2⟩ := C18_sparse cfg P cg x bp bL bF E w hw num hn hE
  obtain ⟨h1', h2'⟩ := C18_sparse cfg P cg x bp bL bF E' w' hw' num hn
    (fun e he => hE e (hp.mem_iff.2 he))
  by_cases h : cfg.tens.maxDegree.getD (max bL x.L) ≤ bL + x.L
  · obtain ⟨z, a0, a1, a2, a3, a4, a5⟩ := h2 h
    obtain ⟨z', b0, b1, b2, b3, b4, b5⟩ := h2' h
    rw [a0, b0]
    congr 1
    refine nodes_ext (Bool.eq_iff_iff.2 (a1.trans b1.symm)) (a2.trans b2.symm) (a3.trans b3.symm)
      (a4.trans b4.symm) fun i hi => ?_
    rw [a5 i (a4 ▸ hi), b5 i (a4 ▸ hi), sum_edges_perm hp]
  · rw [h1 (by omega), h1' (by omega)]

/-- **C18 (index list formats).** A dense list and a sparse list which describe the same graph (for every node, the same
multiset of sources with the same basis functions and weights) give the same result. -/
theorem C18_dense_eq_sparse (cfg : ConvCfg) (P : ConvParams) (cg : ℕ → ℕ → ℕ → ℝ) (x : Nodes) (bp : Bool) (bL bF : ℕ)
    (E : List Edge) (G : List (List Edge)) (w w' : Option (Lead Ent))
    (hw : WeightsOf w (.vec (E.map Edge.weight)) E)
    (hw' : WeightsOf w' (.mat (G.map fun r => r.map Edge.weight)) G.flatten)
    (hn : 0 < x.rows.length) (hG : G.length = x.rows.length)
    (hE : ∀ e ∈ E, e.dst < x.rows.length → e.src < x.rows.length)
    (heq : ∀ i (h : i < G.length), ((edgesInto E i).map fun e => (e.src, e.basis, e.weight)).Perm
      ((G[i].filter fun e => e.src < x.rows.length).map fun e => (e.src, e.basis, e.weight))) :
    messagePass cfg P cg x ⟨bp, bL, bF, .vec (E.map Edge.basis)⟩ w
        { dst := some (E.map Edge.dst), src := some (E.map Edge.src) } =
    messagePass cfg P cg x ⟨bp, bL, bF, .mat (G.map fun r => r.map Edge.basis)⟩ w'
        { adj := some (G.map fun r => r.map Edge.src) } := by
  obtain ⟨h1, h2⟩ := C18_sparse cfg P cg x bp bL bF E w hw none hn hE
  obtain ⟨h1', h2'⟩ := C18_dense cfg P cg x bp bL bF G w' hw' none hn
  by_cases h : cfg.tens.maxDegree.getD (max bL x.L) ≤ bL + x.L
  · obtain ⟨z, a0, a1, a2, a3, a4, a5⟩ := h2 h
    obtain ⟨z', b0, b1, b2, b3, b4, b5⟩ := h2' h
    rw [a0, b0]
    congr 1
    rw [Option.getD_none] at a4 a5
    refine nodes_ext (Bool.eq_iff_iff.2 (a1.trans b1.symm)) (a2.trans b2.symm) (a3.trans b3.symm)
      (a4.trans (hG.symm.trans b4.symm)) fun i hi => ?_
    have hi' : i < G.length := by omega
    rw [a5 i (a4 ▸ hi), b5 i hi']
    congr 1
    let g : ℕ × Ent × Ent → Ent := fun t => message cfg P cg x bp bL bF ⟨0, t.1, t.2.1, t.2.2⟩
    have e : ∀ l : List Edge, l.map (message cfg P cg x bp bL bF) = (l.map fun e => (e.src, e.basis, e.weight)).map g := by
      intro l; rw [List.map_map]; rfl
    rw [e, e]
    exact List.Perm.sum_eq ((heq i hi').map _)
  · rw [h1 (by omega), h1' (by omega)]

/-- **C18 (relabelling).** If the nodes are renumbered by a permutation `σ`, and the index lists accordingly, the output is
renumbered in the same way. -/
theorem C18_relabel (cfg : ConvCfg) (P : ConvParams) (cg : ℕ → ℕ → ℕ → ℝ) (x x' : Nodes) (bp : Bool) (bL bF : ℕ)
    (E : List Edge) (w : Option (Lead Ent)) (hw : WeightsOf w (.vec (E.map Edge.weight)) E)
    (hn : 0 < x.rows.length) (hE : ∀ e ∈ E, e.dst < x.rows.length → e.src < x.rows.length)
    (σ : Equiv.Perm ℕ) (hσ : ∀ i, σ i < x.rows.length ↔ i < x.rows.length)
    (hx : x'.pseudo = x.pseudo ∧ x'.L = x.L ∧ x'.F = x.F ∧ x'.rows.length = x.rows.length)
    (hx' : ∀ i < x.rows.length, x'.rows[σ i]? = x.rows[i]?) (z : Nodes)
    (hz : messagePass cfg P cg x ⟨bp, bL, bF, .vec (E.map Edge.basis)⟩ w
      { dst := some (E.map Edge.dst), src := some (E.map Edge.src) } = .ok z) :
    ∃ z', messagePass cfg P cg x' ⟨bp, bL, bF, .vec ((E.map (relabel σ)).map Edge.basis)⟩ w
      { dst := some ((E.map (relabel σ)).map Edge.dst), src := some ((E.map (relabel σ)).map Edge.src) } = .ok z' ∧
      z'.pseudo = z.pseudo ∧ z'.L = z.L ∧ z'.F = z.F ∧ z'.rows.length = z.rows.length ∧
      ∀ i < x.rows.length, z'.rows[σ i]? = z.rows[i]? := by
  obtain ⟨x1, x2, x3, x4⟩ := hx
  have hw' : WeightsOf w (.vec ((E.map (relabel σ)).map Edge.weight)) (E.map (relabel σ)) := by
    rcases hw with rfl | ⟨rfl, h⟩
    · left; rw [List.map_map]; rfl
    · right; refine ⟨rfl, ?_⟩
      intro e he
      obtain ⟨e', he', rfl⟩ := List.mem_map.1 he
      exact h e' he'
  obtain ⟨h1, h2⟩ := C18_sparse cfg P cg x bp bL bF E w hw none hn hE
  obtain ⟨h1', h2'⟩ := C18_sparse cfg P cg x' bp bL bF (E.map (relabel σ)) w hw' none (x4 ▸ hn) (by
    intro e he
    obtain ⟨e', he', rfl⟩ := List.mem_map.1 he
    have := hE e' he'
    simp only [relabel, Option.getD_none, x4]
    rw [hσ, hσ]; exact this)
  by_cases h : cfg.tens.maxDegree.getD (max bL x.L) ≤ bL + x.L
  swap
  · rw [h1 (by omega)] at hz; cases hz
  obtain ⟨y, a0, a1, a2, a3, a4, a5⟩ := h2 h
  rw [hz] at a0; injection a0 with a0; subst a0
  obtain ⟨z', b0, b1, b2, b3, b4, b5⟩ := h2' (by rw [x2]; exact h)
  rw [Option.getD_none] at a4 a5 b4 b5
  rw [x2] at b1 b2; rw [x1] at b1
  refine ⟨z', b0, Bool.eq_iff_iff.2 (b1.trans a1.symm), b2.trans a2.symm, by rw [b3, a3, x3], by rw [b4, a4, x4], ?_⟩
  intro i hi
  rw [a5 i hi, b5 (σ i) (by rw [x4]; exact (hσ i).2 hi)]
  congr 2
  unfold edgesInto
  rw [List.filter_map, List.map_map]
  have hf : E.filter ((fun e => decide (e.dst = σ i)) ∘ relabel σ) = E.filter fun e => decide (e.dst = i) := by
    apply List.filter_congr
    intro e _
    simp [relabel, Function.comp]
  rw [hf]
  apply List.map_congr_left
  intro e he
  simp only [List.mem_filter, decide_eq_true_eq] at he
  have hs : e.src < x.rows.length := hE e he.1 (by omega)
  have := hx' e.src hs
  unfold message Nodes.feat
  simp only [Function.comp, relabel, List.getD_eq_getElem?_getD, this, x1, x2, x3]

theorem comp_scale (ps : Bool) (L F : ℕ) (v : Ent) (c : ℕ → ℝ) (p i f : ℕ) :
    comp ⟨ps, L, F, fun p i f => v p i f * c f⟩ p i f = c f * comp ⟨ps, L, F, v⟩ p i f := by
  unfold comp
  dsimp only
  split_ifs <;> ring

theorem coupled_scale (W : ℕ → ℕ → ℕ → ℕ → ℕ → ℕ → ℝ) (cg : ℕ → ℕ → ℕ → ℝ) (x : Feat) (ps : Bool) (L F : ℕ) (v : Ent)
    (c : ℕ → ℝ) (r n f : ℕ) :
    coupled W cg x ⟨ps, L, F, fun p i f => v p i f * c f⟩ r n f = c f * coupled W cg x ⟨ps, L, F, v⟩ r n f := by
  unfold coupled
  simp only [comp_scale, Finset.mul_sum, mul_ite, mul_zero]
  refine Finset.sum_congr rfl fun p _ => Finset.sum_congr rfl fun q _ => ?_
  split_ifs
  · refine Finset.sum_congr rfl fun p _ => Finset.sum_congr rfl fun q _ => ?_
    ring
  · rfl

theorem toMatrix_scale (w : ℕ → ℝ) (cg : ℕ → ℕ → ℕ → ℝ) (lam : ℕ) (ps : Bool) (L F : ℕ) (v : Ent)
    (c : ℕ → ℝ) (p f a b : ℕ) :
    toMatrix w cg lam ⟨ps, L, F, fun p i f => v p i f * c f⟩ p f a b = c f * toMatrix w cg lam ⟨ps, L, F, v⟩ p f a b := by
  unfold toMatrix
  simp only [comp_scale, Finset.mul_sum]
  refine Finset.sum_congr rfl fun p _ => ?_
  ring

theorem fusedCoupled_scale (w1 w2 : ℕ → ℕ → ℝ) (w3 : ℕ → ℕ → ℕ → ℝ) (cg : ℕ → ℕ → ℕ → ℝ) (lam : ℕ)
    (x : Feat) (ps : Bool) (L F : ℕ) (v : Ent) (c : ℕ → ℝ) (r n f : ℕ) :
    fusedCoupled w1 w2 w3 cg lam x ⟨ps, L, F, fun p i f => v p i f * c f⟩ r n f =
      c f * fusedCoupled w1 w2 w3 cg lam x ⟨ps, L, F, v⟩ r n f := by
  unfold fusedCoupled
  simp only [toMatrix_scale, mul_ite, mul_zero]
  rw [Finset.mul_sum]
  refine Finset.sum_congr rfl fun p _ => ?_
  rw [Finset.mul_sum]
  refine Finset.sum_congr rfl fun q _ => ?_
  split_ifs
  · rw [Finset.mul_sum]
    refine Finset.sum_congr rfl fun a _ => ?_
    rw [Finset.mul_sum]
    refine Finset.sum_congr rfl fun b _ => ?_
    have : ∀ t : ℕ → ℝ, ∀ u : ℕ → ℝ, ∑ k ∈ range (2 * lam + 1), t k * (c f * u k) =
        c f * ∑ k ∈ range (2 * lam + 1), t k * u k := by
      intro t u
      rw [Finset.mul_sum]
      refine Finset.sum_congr rfl fun k _ => ?_
      ring
    rw [this]; ring
  · simp

/-- **C18 (weights).** A weight for an edge multiplies the message sent along it (documentation of `MessagePass`), if it
does not distinguish components. -/
theorem C18_weights (cfg : ConvCfg) (P : ConvParams) (cg : ℕ → ℕ → ℕ → ℝ) (x : Nodes) (bp : Bool) (bL bF : ℕ)
    (e : Edge) (c : ℕ → ℝ) (ps : Bool)
    (hok : cfg.tens.maxDegree.getD (max bL x.L) ≤ bL + x.L)
    (hps : ps = true ↔ cfg.tens.includePseudo = true ∧ ¬ (bp = false ∧ x.pseudo = false ∧
        (bL = 0 ∨ x.L = 0 ∨ cfg.tens.maxDegree.getD (max bL x.L) = 0))) (p n f : ℕ) (hp : p < chan ps)
    (hn : n < (cfg.tens.maxDegree.getD (max bL x.L) + 1) ^ 2) (hf : f < x.F) :
    message cfg P cg x bp bL bF { e with weight := fun _ _ f => c f } p n f =
      c f * message cfg P cg x bp bL bF { e with weight := fun _ _ _ => 1 } p n f := by
  obtain ⟨h1, h2, h3, -⟩ := C12_dense x.F cfg.useBasisBias P.filter ⟨bp, bL, bF, e.basis⟩
  have key : ∀ z z', anyTensor cfg.tens P.tens cg (dense x.F cfg.useBasisBias P.filter ⟨bp, bL, bF, e.basis⟩)
      (x.feat fun p i f => x.rows.getD e.src 0 p i f * c f) = .ok z →
      anyTensor cfg.tens P.tens cg (dense x.F cfg.useBasisBias P.filter ⟨bp, bL, bF, e.basis⟩)
      (x.feat fun p i f => x.rows.getD e.src 0 p i f * 1) = .ok z' → z.pseudo = ps → z'.pseudo = ps →
      z.L = cfg.tens.maxDegree.getD (max bL x.L) → z'.L = cfg.tens.maxDegree.getD (max bL x.L) →
      z.F = x.F → z'.F = x.F → (∀ r n f, comp z r n f = c f * comp z' r n f) →
      z.val p n f = c f * z'.val p n f := by
    intro z z' _ _ a1 b1 a2 b2 a3 b3 hc
    have hr : ∃ r, ∀ y : Feat, y.pseudo = ps → y.L = cfg.tens.maxDegree.getD (max bL x.L) → y.F = x.F →
        comp y r n f = y.val p n f := by
      cases hps' : ps with
      | true =>
        refine ⟨p, fun y y1 y2 y3 => ?_⟩
        rw [hps'] at hp
        unfold comp
        simp [y1, y2, y3, hn, hf, chan] at hp ⊢
        omega
      | false =>
        refine ⟨deg n % 2, fun y y1 y2 y3 => ?_⟩
        rw [hps'] at hp
        have : p = 0 := by simp [chan] at hp; exact hp
        subst this
        unfold comp
        simp [y1, y2]
        intro h
        omega
    obtain ⟨r, hr⟩ := hr
    rw [← hr z a1 a2 a3, ← hr z' b1 b2 b3, hc]
  unfold message
  dsimp only
  cases hT : P.tens with
  | tensor k =>
    obtain ⟨z, a0, a1, a2, a3, a4⟩ := C15_tensor cfg.tens k cg
      (dense x.F cfg.useBasisBias P.filter ⟨bp, bL, bF, e.basis⟩)
      (x.feat fun p i f => x.rows.getD e.src 0 p i f * c f) (by rw [h2]; exact hok) h3
    obtain ⟨z', b0, b1, b2, b3, b4⟩ := C15_tensor cfg.tens k cg
      (dense x.F cfg.useBasisBias P.filter ⟨bp, bL, bF, e.basis⟩)
      (x.feat fun p i f => x.rows.getD e.src 0 p i f * 1) (by rw [h2]; exact hok) h3
    rw [h1, h2] at a3 b3
    rw [h2] at a1 b1
    have c0 : z.pseudo = ps := Bool.eq_iff_iff.2 (a3.trans hps.symm)
    have c1 : z'.pseudo = ps := Bool.eq_iff_iff.2 (b3.trans hps.symm)
    rw [hT] at key
    have := key z z' a0 b0 c0 c1 a1 b1 (a2.trans h3) (b2.trans h3) ?_
    · simp only [anyTensor]
      rw [a0, b0]; exact this
    · intro r n f
      have e0 := coupled_scale (fun p l q m r n => k (slot bp p) l (slot x.pseudo q) m (slot ps r) n f) cg
        (dense x.F cfg.useBasisBias P.filter ⟨bp, bL, bF, e.basis⟩) x.pseudo x.L x.F (x.rows.getD e.src 0) c r n f
      have e1 : (fun p i f => x.rows.getD e.src 0 p i f * 1) = x.rows.getD e.src 0 := by funext p i f; ring
      rw [a4, b4, c0, c1, a1.trans b1.symm, h1, e1, mul_ite, mul_zero]
      unfold Nodes.feat
      dsimp only
      rw [e0]
  | fused k =>
    obtain ⟨z, a0, a1, a2, a3, a4⟩ := C16_fused cfg.tens k cg
      (dense x.F cfg.useBasisBias P.filter ⟨bp, bL, bF, e.basis⟩)
      (x.feat fun p i f => x.rows.getD e.src 0 p i f * c f) (by rw [h2]; exact hok) h3
    obtain ⟨z', b0, b1, b2, b3, b4⟩ := C16_fused cfg.tens k cg
      (dense x.F cfg.useBasisBias P.filter ⟨bp, bL, bF, e.basis⟩)
      (x.feat fun p i f => x.rows.getD e.src 0 p i f * 1) (by rw [h2]; exact hok) h3
    rw [h1, h2] at a3 b3
    rw [h2] at a1 b1
    have c0 : z.pseudo = ps := Bool.eq_iff_iff.2 (a3.trans hps.symm)
    have c1 : z'.pseudo = ps := Bool.eq_iff_iff.2 (b3.trans hps.symm)
    rw [hT] at key
    have := key z z' a0 b0 c0 c1 a1 b1 (a2.trans h3) (b2.trans h3) ?_
    · simp only [anyTensor]
      rw [a0, b0]; exact this
    · intro r n f
      have e1 : (fun p i f => x.rows.getD e.src 0 p i f * 1) = x.rows.getD e.src 0 := by funext p i f; ring
      rw [a4, b4, c0, c1, a1.trans b1.symm, e1, mul_ite, mul_zero]
      unfold Nodes.feat
      dsimp only
      rw [fusedCoupled_scale]

-- Non-vacuity of `C18_message_pass`, `C18_sparse`, `C18_dense_eq_sparse`, `C18_relabel`: two nodes with vectors, an edge in
-- each direction and one padding edge, rotation by the identity, exchange of the nodes.
example : IsSymmetry (fun _ _ _ => 0) (fun x => rotate x fun i j => if i = j then 1 else 0) := .rotate _ (isRotation_one _)
example : ∃ E : List Edge, E.length = 3 ∧ (∀ e ∈ E, e.dst < 2 → e.src < 2) ∧ (∃ e ∈ E, ¬ e.src < 2) ∧
    (edgesInto E 0).length = 1 :=
  ⟨[⟨0, 1, 0, 0⟩, ⟨1, 0, 0, 0⟩, ⟨2, 2, 0, 0⟩], rfl, by simp, by simp, by simp [edgesInto]⟩
example : ∀ i, (Equiv.swap 0 1 : Equiv.Perm ℕ) i < 2 ↔ i < 2 := by
  intro i
  rw [Equiv.swap_apply_def]
  split_ifs <;> omega
example (v w : Ent) : ∃ (E : List Edge) (G : List (List Edge)), E.length = 2 ∧ G.map List.length = [2, 2] ∧
    ∀ i (h : i < G.length), ((edgesInto E i).map fun e => (e.src, e.basis, e.weight)).Perm
      ((G[i].filter fun e => e.src < 2).map fun e => (e.src, e.basis, e.weight)) := by
  refine ⟨[⟨1, 0, v, w⟩, ⟨0, 1, w, v⟩], [[⟨0, 1, w, v⟩, ⟨0, 2, 0, 0⟩], [⟨1, 0, v, w⟩, ⟨1, 2, v, 0⟩]], rfl, rfl, ?_⟩
  intro i h
  have : i = 0 ∨ i = 1 := by simp at h; omega
  rcases this with rfl | rfl <;> simp [edgesInto]

end E3x
