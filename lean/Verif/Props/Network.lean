import Verif.Model.Network
import Verif.Model.Activations
import Verif.Props.Attention

/-!
# C48: whole networks are equivariant
-/

namespace E3x

open Spec
open Finset (range)

/-- Binary operations that commute with the symmetry operation `A`: `g` before and `g'` after it. -/
structure BinOp (A : Feat → Feat) (g g' : Feat → Feat → Except Err Feat) : Prop where
  self : ∀ {x y x' y' : Feat}, x.pseudo = x'.pseudo ∧ x.L = x'.L ∧ x.F = x'.F →
    y.pseudo = y'.pseudo ∧ y.L = y'.L ∧ y.F = y'.F →
    ExRel (fun z z' : Feat => z.pseudo = z'.pseudo ∧ z.L = z'.L ∧ z.F = z'.F) (g x y) (g x' y')
  header : ∀ {x y x' y' : Feat}, x.pseudo = x'.pseudo ∧ x.L = x'.L ∧ x.F = x'.F →
    y.pseudo = y'.pseudo ∧ y.L = y'.L ∧ y.F = y'.F →
    ExRel (fun z z' : Feat => z.pseudo = z'.pseudo ∧ z.L = z'.L ∧ z.F = z'.F) (g x y) (g' x' y')
  same : ∀ {x x' y y' z : Feat}, x.Same x' → y.Same y' → g' x y = .ok z → ∃ z', g' x' y' = .ok z' ∧ z.Same z'
  act : ∀ {x y z : Feat}, g x y = .ok z → ∃ z', g' (A x) (A y) = .ok z' ∧ z'.Same (A z)

theorem nodesBin_tr {cg cg' : ℕ → ℕ → ℕ → ℝ} {A : Feat → Feat} (hA : SymFacts cg cg' A) {g g' : Feat → Feat → Except Err Feat}
    (hg : BinOp A g g') {x x' y y' : Nodes} (hx : NodesTr A x x') (hy : NodesTr A y y') :
    ExRel (NodesTr A) (nodesBin g x y) (nodesBin g' x' y') := by
  obtain ⟨x1, x2, x3, x4⟩ := hx
  obtain ⟨y1, y2, y3, y4⟩ := hy
  unfold nodesBin
  have hh := hg.header (x := x.feat 0) (y := y.feat 0) (x' := x'.feat 0) (y' := y'.feat 0)
    ⟨x1, x2, x3⟩ ⟨y1, y2, y3⟩
  cases h0 : g (x.feat 0) (y.feat 0) with
  | error e =>
    rw [h0] at hh
    cases hh' : g' (x'.feat 0) (y'.feat 0) with
    | error e' => rw [hh'] at hh; cases hh; exact .error _
    | ok z => rw [hh'] at hh; cases hh
  | ok z =>
    rw [h0] at hh
    cases hh' : g' (x'.feat 0) (y'.feat 0) with
    | error e' => rw [hh'] at hh; cases hh
    | ok z' =>
      rw [hh'] at hh; cases hh
      rename_i hz
      dsimp only
      have key : ∀ a a' b b', Tr A x.pseudo x.L x.F a a' → Tr A y.pseudo y.L y.F b b' →
          Tr A z.pseudo z.L z.F (match g (x.feat a) (y.feat b) with | .ok z => z.val | .error _ => 0)
            (match g' (x'.feat a') (y'.feat b') with | .ok z => z.val | .error _ => 0) := by
        intro a a' b b' ha hb
        have e1 : x'.feat a' = x.feat a' := by unfold Nodes.feat; rw [x1, x2, x3]
        have e2 : y'.feat b' = y.feat b' := by unfold Nodes.feat; rw [y1, y2, y3]
        rw [e1, e2]
        have g1 := hg.self (x := x.feat 0) (y := y.feat 0) (x' := x.feat a) (y' := y.feat b)
          ⟨rfl, rfl, rfl⟩ ⟨rfl, rfl, rfl⟩
        rw [h0] at g1
        cases h1 : g (x.feat a) (y.feat b) with
        | error e => rw [h1] at g1; cases g1
        | ok z1 =>
          rw [h1] at g1; cases g1
          rename_i g1
          obtain ⟨z2, h2, h3⟩ := hg.act h1
          have ha' : (A (x.feat a)).Same (x.feat a') := Feat.Same.symm ha
          have hb' : (A (y.feat b)).Same (y.feat b') := Feat.Same.symm hb
          obtain ⟨z3, h4, h5⟩ := hg.same ha' hb' h2
          unfold Tr
          rw [h4]
          dsimp only
          have f1 : z3.Same (A z1) := h5.symm.trans h3
          have f2 : (⟨z.pseudo, z.L, z.F, z1.val⟩ : Feat) = z1 := by rw [g1.1, g1.2.1, g1.2.2]
          have f3 : (⟨z.pseudo, z.L, z.F, z3.val⟩ : Feat) = z3 := by
            obtain ⟨k1, k2, k3⟩ := hA.hdr z1
            rw [g1.1, g1.2.1, g1.2.2, ← k1, ← k2, ← k3, ← f1.1, ← f1.2.1, ← f1.2.2.1]
          rw [f2, f3]
          exact f1
      rw [x4.length_eq, y4.length_eq]
      split
      · exact .ok ⟨hz.1, hz.2.1, hz.2.2, forall2_zipWith key x4 y4⟩
      · exact .error _

theorem binOp_tensor {cg cg' : ℕ → ℕ → ℕ → ℝ} {A : Feat → Feat} (hA : SymFacts cg cg' A) (cfg : TensorCfg) (T : TensorParams) :
    BinOp A (anyTensor cfg T cg) (anyTensor cfg T cg') where
  self h1 h2 := anyTensor_header cfg T cg cg h1 h2
  header h1 h2 := anyTensor_header cfg T cg cg' h1 h2
  same h1 h2 h3 := anyTensor_same cfg T cg' h1 h2 h3
  act h := hA.tensor cfg T _ _ _ h

theorem add_eq_sum {x y z : Feat} (h : add [x, y] = .ok z) : x.F = y.F ∧ z.L = max x.L y.L ∧
    z.pseudo = (x.pseudo || y.pseudo) ∧ z.F = x.F ∧ ∀ p i f, comp z p i f = comp x p i f + comp y p i f := by
  have hF : x.F = y.F := by
    by_contra hne
    rw [C09_add_error [x, y] x y (by simp) (by simp) hne] at h
    cases h
  obtain ⟨r, h1, h2, h3, h4, h5, h6⟩ := C09_add [x, y] (by simp) (by
    intro a ha b hb
    simp only [List.mem_cons, List.not_mem_nil, or_false] at ha hb
    rcases ha with rfl | rfl <;> rcases hb with rfl | rfl <;> simp [hF])
  rw [h] at h1; injection h1 with h1; subst h1
  refine ⟨hF, ?_, ?_, h5 x (by simp), by simpa using h6⟩
  · have a := h2 x (by simp)
    have b := h2 y (by simp)
    obtain ⟨w, hw, hw'⟩ := h3
    simp only [List.mem_cons, List.not_mem_nil, or_false] at hw
    rcases hw with rfl | rfl <;> omega
  · rw [Bool.eq_iff_iff, h4]; simp

theorem add_ok_of_F {x y : Feat} (h : x.F = y.F) : ∃ z, add [x, y] = .ok z := by
  obtain ⟨r, h1, _⟩ := C09_add [x, y] (by simp) (by
    intro a ha b hb
    simp only [List.mem_cons, List.not_mem_nil, or_false] at ha hb
    rcases ha with rfl | rfl <;> rcases hb with rfl | rfl <;> simp [h])
  exact ⟨r, h1⟩

theorem add_header {x y x' y' : Feat} (hx : x.pseudo = x'.pseudo ∧ x.L = x'.L ∧ x.F = x'.F)
    (hy : y.pseudo = y'.pseudo ∧ y.L = y'.L ∧ y.F = y'.F) :
    ExRel (fun z z' : Feat => z.pseudo = z'.pseudo ∧ z.L = z'.L ∧ z.F = z'.F) (add [x, y]) (add [x', y']) := by
  by_cases hF : x.F = y.F
  · obtain ⟨z, hz⟩ := add_ok_of_F hF
    obtain ⟨z', hz'⟩ := add_ok_of_F (x := x') (y := y') (by rw [← hx.2.2, ← hy.2.2, hF])
    rw [hz, hz']
    obtain ⟨_, a1, a2, a3, _⟩ := add_eq_sum hz
    obtain ⟨_, b1, b2, b3, _⟩ := add_eq_sum hz'
    exact .ok ⟨by rw [a2, b2, hx.1, hy.1], by rw [a1, b1, hx.2.1, hy.2.1], by rw [a3, b3, hx.2.2]⟩
  · rw [C09_add_error [x, y] x y (by simp) (by simp) hF,
      C09_add_error [x', y'] x' y' (by simp) (by simp) (by rw [← hx.2.2, ← hy.2.2]; exact hF)]
    exact .error _

theorem binOp_add {cg cg' : ℕ → ℕ → ℕ → ℝ} {A : Feat → Feat} (hA : SymFacts cg cg' A) :
    BinOp A (fun a b => add [a, b]) (fun a b => add [a, b]) where
  self := add_header
  header := add_header
  same := by
    intro x x' y y' z hx hy hz
    obtain ⟨hF, a1, a2, a3, a4⟩ := add_eq_sum hz
    obtain ⟨z', hz'⟩ := add_ok_of_F (x := x') (y := y') (by rw [← hx.2.2.1, ← hy.2.2.1, hF])
    obtain ⟨_, b1, b2, b3, b4⟩ := add_eq_sum hz'
    refine ⟨z', hz', same_of_comp _ _ (by rw [a2, b2, hx.1, hy.1]) (by rw [a1, b1, hx.2.1, hy.2.1])
      (by rw [a3, b3, hx.2.2.1]) ?_⟩
    intro p i f hf
    rw [a4, b4, comp_of_same hx (by omega), comp_of_same hy (by omega)]
  act hz := hA.sum _ _ _ hz

theorem tensorDense_header (features : Option ℕ) (useBias : Bool) (cfg : TensorCfg) (P : DenseParams) (T : TensorParams)
    (cg cg' : ℕ → ℕ → ℕ → ℝ) {x x' : Feat} (hx : x.pseudo = x'.pseudo ∧ x.L = x'.L ∧ x.F = x'.F) :
    ExRel (fun z z' : Feat => z.pseudo = z'.pseudo ∧ z.L = z'.L ∧ z.F = z'.F) (tensorDense features useBias cfg P T cg x)
      (tensorDense features useBias cfg P T cg' x') := by
  have e : x = ⟨x.pseudo, x.L, x.F, x.val⟩ := rfl
  have e' : x' = ⟨x.pseudo, x.L, x.F, x'.val⟩ := by rw [hx.1, hx.2.1, hx.2.2]
  have hd := dense_hdr (2 * features.getD x.F) useBias P x.pseudo x.L x.F x.val x'.val
  unfold tensorDense
  rw [e', e]
  dsimp only
  exact anyTensor_header cfg T cg cg' ⟨hd.1, hd.2.1, rfl⟩ ⟨hd.1, hd.2.1, rfl⟩

theorem binOp_tensorDense {cg cg' : ℕ → ℕ → ℕ → ℝ} {A : Feat → Feat} (hA : SymFacts cg cg' A) (features : Option ℕ)
    (useBias : Bool) (cfg : TensorCfg) (P : DenseParams) (T : TensorParams) :
    BinOp A (fun a _ => tensorDense features useBias cfg P T cg a)
      (fun a _ => tensorDense features useBias cfg P T cg' a) where
  self hx _ := tensorDense_header features useBias cfg P T cg cg hx
  header hx _ := tensorDense_header features useBias cfg P T cg cg' hx
  same := by
    intro x x' y y' z hx _ hz
    exact tensorDense_same features useBias cfg P T cg' hx hz
  act := by
    intro x y z hz
    rw [tensorDense_eq] at hz ⊢
    rw [(hA.hdr x).2.2]
    have hd := hA.dense (2 * features.getD x.F) useBias P x
    obtain ⟨z1, h1, h2⟩ := hA.tensor cfg T _ _ _ hz
    have hF : (dense (2 * features.getD x.F) useBias P (A x)).F = 2 * features.getD x.F := (C12_dense _ _ _ _).2.2.1
    have a := slice_same hd (start := 0) (n := features.getD x.F) (by rw [hF]; omega)
    have b := slice_same hd (start := features.getD x.F) (n := features.getD x.F) (by rw [hF]; omega)
    rw [hA.slice] at a b
    obtain ⟨z2, h3, h4⟩ := anyTensor_same cfg T cg' a.symm b.symm h1
    exact ⟨z2, h3, h4.symm.trans h2⟩

/-- Weights of message-passing layers do not distinguish components. -/
def Instr.Admissible : Instr → Prop
  | .messagePass _ _ _ _ w _ => ScalarWeights w
  | _ => True

theorem reg_rel {α : Type} {R : α → α → Prop} {xs ys : List α} (h : List.Forall₂ R xs ys) (i : ℕ) :
    ExRel R (reg xs i) (reg ys i) := by
  unfold reg
  have := forall2_get h i
  generalize xs[i]? = u at this
  generalize ys[i]? = w at this
  cases this with
  | some h => exact .ok h
  | none => exact .error _

theorem regOpt_rel {α : Type} {R : α → α → Prop} {xs ys : List α} (h : List.Forall₂ R xs ys) (i : Option ℕ) :
    ExRel (OptRel R) (regOpt xs i) (regOpt ys i) := by
  cases i with
  | none => exact .ok .none
  | some i =>
    unfold regOpt
    dsimp only
    have := reg_rel h i
    generalize reg xs i = u at this
    generalize reg ys i = w at this
    cases this with
    | ok h => exact .ok (.some h)
    | error e => exact .error _

theorem ExRel.bind {α β γ δ : Type} {R : α → β → Prop} {S : γ → δ → Prop} {x : Except Err α} {y : Except Err β}
    (h : ExRel R x y) {f : α → Except Err γ} {g : β → Except Err δ} (hf : ∀ a b, R a b → ExRel S (f a) (g b)) :
    ExRel S (x >>= f) (y >>= g) := by
  cases h with
  | ok h => exact hf _ _ h
  | error e => exact .error _

theorem eval_tr {cg cg' : ℕ → ℕ → ℕ → ℝ} {A : Feat → Feat} (hS : SymFacts cg cg' A) {bs bs' : List Edges} {rs rs' : List Nodes}
    (hb : List.Forall₂ (EdgesTr A) bs bs') (hr : List.Forall₂ (NodesTr A) rs rs') (i : Instr) (hi : i.Admissible) :
    ExRel (NodesTr A) (i.eval cg bs rs) (i.eval cg' bs' rs') := by
  cases i with
  | dense x features useBias P =>
    exact (reg_rel hr x).bind fun a b h => .ok
      (nodesApply_tr (hS.dense _ _ _) (fun h => dense_same h _ _ _) (dense_hdr _ _ _) h)
  | gated x g =>
    exact (reg_rel hr x).bind fun a b h => .ok
      (nodesApply_tr (hS.gated g) (fun h => gatedLinear_same h g) (fun _ _ _ _ _ => ⟨rfl, rfl, rfl⟩) h)
  | change x L ps =>
    refine (reg_rel hr x).bind fun a b h => .ok
      (nodesApply_tr (fun x => hS.change x L ps) (fun h => change_same h _ _) ?_ h)
    intro p l F v w
    obtain ⟨a1, a2, a3, _⟩ := C08_change ⟨p, l, F, v⟩ L ps
    obtain ⟨b1, b2, b3, _⟩ := C08_change ⟨p, l, F, w⟩ L ps
    exact ⟨a2.trans b2.symm, a1.trans b1.symm, a3.trans b3.symm⟩
  | add x y =>
    exact (reg_rel hr x).bind fun a b h => (reg_rel hr y).bind fun c d h' => nodesBin_tr hS (binOp_add hS) h h'
  | tensor x y cfg T =>
    exact (reg_rel hr x).bind fun a b h => (reg_rel hr y).bind fun c d h' => nodesBin_tr hS (binOp_tensor hS cfg T) h h'
  | tensorDense x features useBias cfg P T =>
    exact (reg_rel hr x).bind fun a b h => nodesBin_tr hS (binOp_tensorDense hS _ _ _ _ _) h h
  | messagePass x b cfg P w ix =>
    exact (reg_rel hr x).bind fun a b h => (reg_rel hb _).bind fun c d h' => messagePass_tr hS cfg P h h' w hi ix
  | attention q kv b lo ninf cfg P c ix =>
    exact (regOpt_rel hb b).bind fun u w hu => (reg_rel hr q).bind fun a b h => (reg_rel hr kv).bind fun c d h' =>
      attention_tr hS lo ninf cfg P h h' hu _ ix

theorem run_tr {cg cg' : ℕ → ℕ → ℕ → ℝ} {A : Feat → Feat} (hA : SymFacts cg cg' A) {bs bs' : List Edges}
    (hb : List.Forall₂ (EdgesTr A) bs bs') (prog : List Instr) (hp : ∀ i ∈ prog, i.Admissible) :
    ∀ {rs rs' : List Nodes}, List.Forall₂ (NodesTr A) rs rs' →
    ExRel (List.Forall₂ (NodesTr A)) (runNetwork cg bs prog rs) (runNetwork cg' bs' prog rs') := by
  induction prog with
  | nil => intro rs rs' hr; exact .ok hr
  | cons i prog ih =>
    intro rs rs' hr
    refine (eval_tr hA hb hr i (hp i (by simp))).bind fun a b h => ?_
    exact ih (fun j hj => hp j (by simp [hj])) (List.rel_append hr (.cons h .nil))

/-- **C48.** For every program built from the layers of the library, every parameter and every input: transforming all input
arrays and all basis functions by a rotation or a reflection transforms every array that is computed in the same way;
and the same exceptions are raised. -/
theorem C48_network {cg : ℕ → ℕ → ℕ → ℝ} {A : Feat → Feat} (hA : IsSymmetry cg A) (bs : List Edges) (prog : List Instr)
    (hp : ∀ i ∈ prog, i.Admissible) (inputs : List Nodes) :
    (∀ outs, runNetwork cg bs prog inputs = .ok outs →
      ∃ outs', runNetwork cg (bs.map (actEdges A)) prog (inputs.map (actNodes A)) = .ok outs' ∧
        List.Forall₂ (fun z z' => SameNodes z' (actNodes A z)) outs outs') ∧
    (∀ e, runNetwork cg bs prog inputs = .error e →
      runNetwork cg (bs.map (actEdges A)) prog (inputs.map (actNodes A)) = .error e) := by
  have hS := symFacts_of_isSymmetry hA
  have hb : List.Forall₂ (EdgesTr A) bs (bs.map (actEdges A)) := by
    induction bs with
    | nil => exact .nil
    | cons b bs ih => exact .cons (edgesTr_act hS b) ih
  have hr : List.Forall₂ (NodesTr A) inputs (inputs.map (actNodes A)) := by
    induction inputs with
    | nil => exact .nil
    | cons b bs ih => exact .cons (nodesTr_act hS b) ih
  have h := run_tr hS hb prog hp hr
  generalize runNetwork cg bs prog inputs = u at h
  generalize runNetwork cg (bs.map (actEdges A)) prog (inputs.map (actNodes A)) = u' at h
  cases h with
  | ok h =>
    refine ⟨?_, by intro e he; cases he⟩
    intro z hz
    injection hz with hz; subst hz
    exact ⟨_, rfl, h.imp fun _ _ => sameNodes_of_tr hS⟩
  | error e =>
    refine ⟨?_, ?_⟩
    · intro z hz; cases hz
    · intro e' he; exact he

/-- **C48 (invariants).** The scalar (degree zero, even parity) features of every array computed by a network, for example
predicted energies, do not change. -/
theorem C48_invariant {cg : ℕ → ℕ → ℕ → ℝ} {A : Feat → Feat} (hA : IsSymmetry cg A) (bs : List Edges) (prog : List Instr)
    (hp : ∀ i ∈ prog, i.Admissible) (inputs outs : List Nodes) (ho : runNetwork cg bs prog inputs = .ok outs) :
    ∃ outs', runNetwork cg (bs.map (actEdges A)) prog (inputs.map (actNodes A)) = .ok outs' ∧
      List.Forall₂ (fun z z' => z'.F = z.F ∧
        List.Forall₂ (fun v v' : Ent => ∀ f < z.F, v' 0 0 f = v 0 0 f) z.rows z'.rows) outs outs' := by
  have hS := symFacts_of_isSymmetry hA
  have hb : List.Forall₂ (EdgesTr A) bs (bs.map (actEdges A)) := by
    clear ho
    induction bs with
    | nil => exact .nil
    | cons b bs ih => exact .cons (edgesTr_act hS b) ih
  have hr : List.Forall₂ (NodesTr A) inputs (inputs.map (actNodes A)) := by
    clear ho
    induction inputs with
    | nil => exact .nil
    | cons b bs ih => exact .cons (nodesTr_act hS b) ih
  have h := run_tr hS hb prog hp hr
  rw [ho] at h
  generalize runNetwork cg (bs.map (actEdges A)) prog (inputs.map (actNodes A)) = u' at h
  cases h with
  | ok h =>
    refine ⟨_, rfl, h.imp ?_⟩
    rintro z z' ⟨h1, h2, h3, h4⟩
    exact ⟨h3.symm, h4.imp fun v v' hv f hf => Tr.scalar hS hv hf⟩

-- Non-vacuity: a network with a message-passing layer, an activation, a residual connection and self-attention on a graph
-- with two nodes runs without an exception for every Clebsch-Gordan table and all parameters.
example (cg : ℕ → ℕ → ℕ → ℝ) (Pd : DenseParams) (Pc : ConvParams) (a b v w : Ent) :
    ∃ outs, runNetwork cg [⟨false, 1, 4, .vec [v, w]⟩]
      [.messagePass 0 0 ⟨⟨none, true⟩, true⟩ Pc none { dst := some [0, 1], src := some [1, 0] },
        .gated 1 siluGate, .dense 2 3 true Pd, .change 0 (some 1) (some true)]
      [⟨false, 1, 3, [a, b]⟩] = .ok outs ∧ outs.length = 5 := by
  obtain ⟨z, hz, -⟩ := (C18_sparse ⟨⟨none, true⟩, true⟩ Pc cg ⟨false, 1, 3, [a, b]⟩ false 1 4
    [⟨0, 1, v, fun _ _ _ => 1⟩, ⟨1, 0, w, fun _ _ _ => 1⟩] none (Or.inr ⟨rfl, by simp⟩) none (by simp) (by simp)).2
      (by simp)
  refine ⟨[⟨false, 1, 3, [a, b]⟩, z, z.apply (gatedLinear siluGate),
    (z.apply (gatedLinear siluGate)).apply (dense 3 true Pd),
    (⟨false, 1, 3, [a, b]⟩ : Nodes).apply fun z => changeMaxDegreeOrType z (some 1) (some true)], ?_, rfl⟩
  simp only [runNetwork, Instr.eval, reg, List.getElem?_cons_zero, bind, Except.bind, pure, Except.pure]
  simp only [List.map_cons, List.map_nil] at hz
  rw [hz]
  rfl

end E3x
