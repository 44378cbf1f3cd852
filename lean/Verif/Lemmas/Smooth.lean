import Verif.Props.Energy
import Mathlib.Analysis.Calculus.ContDiff.Operations
import Mathlib.Analysis.SpecialFunctions.ExpDeriv

/-!
# Smoothness of the layers

Entries of all arrays as functions of a parameter in a normed space (the positions of the atoms).
-/

namespace E3x

open Spec

variable {V : Type} [NormedAddCommGroup V] [NormedSpace ℝ V] {k : WithTop ℕ∞} {X0 : V}

/-- All entries are `k` times continuously differentiable at `X0`. -/
def SmoothEnt (k : WithTop ℕ∞) (X0 : V) (v : V → Ent) : Prop := ∀ p i f, ContDiffAt ℝ k (fun X => v X p i f) X0

theorem smooth_zero : SmoothEnt k X0 fun _ => (0 : Ent) := fun _ _ _ => contDiffAt_const

theorem smooth_const (v : Ent) : SmoothEnt k X0 fun _ => v := fun _ _ _ => contDiffAt_const

theorem smooth_denseSub {row : V → ℕ → ℝ} (hv : ∀ f, ContDiffAt ℝ k (fun X => row X f) X0) (F : ℕ) (P : DenseParams) (b : Bool)
    (p l o : ℕ) : ContDiffAt ℝ k (fun X => denseSub F P b p l (row X) o) X0 := by
  unfold denseSub nnDense
  fun_prop

theorem smooth_dense {v : V → Ent} (hv : SmoothEnt k X0 v) (ps : Bool) (L F features : ℕ) (b : Bool) (P : DenseParams) :
    SmoothEnt k X0 fun X => (dense features b P ⟨ps, L, F, v X⟩).val := by
  have h : ∀ q l b p i o, ContDiffAt ℝ k (fun X => denseSub F P b p l (fun f => v X q i f) o) X0 :=
    fun q l b p i o => smooth_denseSub (fun f => hv q i f) F P b p l o
  intro p i f
  unfold dense
  cases ps
  · exact h _ _ _ _ _ _
  · simp only [if_true]
    split
    · exact h _ _ _ _ _ _
    · exact h _ _ _ _ _ _

theorem smooth_gated {v : V → Ent} (hv : SmoothEnt k X0 v) {g : ℝ → ℝ} (hg : ∀ x, ContDiffAt ℝ k g x) (ps : Bool) (L F : ℕ) :
    SmoothEnt k X0 fun X => (gatedLinear g ⟨ps, L, F, v X⟩).val := by
  intro p i f
  unfold gatedLinear
  exact ((hg _).comp X0 (hv 0 0 f)).mul (hv p i f)

theorem smooth_change {v : V → Ent} (hv : SmoothEnt k X0 v) (ps : Bool) (L F : ℕ) (L' : Option ℕ) (ps' : Option Bool) :
    SmoothEnt k X0 fun X => (changeMaxDegreeOrType ⟨ps, L, F, v X⟩ L' ps').val := by
  intro p i f
  unfold changeMaxDegreeOrType concatDegrees
  dsimp only
  split_ifs <;> (try dsimp only) <;> (try split_ifs) <;> first | exact contDiffAt_const | exact hv _ _ _

theorem smooth_split {v : V → Ent} (hv : SmoothEnt k X0 v) (M : ℕ) (ps : Bool) (L F p i f : ℕ) :
    ContDiffAt ℝ k (fun X => splitParity M ⟨ps, L, F, v X⟩ p i f) X0 := by
  unfold SmoothEnt at hv
  unfold splitParity
  dsimp only
  split_ifs <;> fun_prop

theorem smooth_toMatrix {z : V → ℕ → ℕ → ℝ} (hz : ∀ i f, ContDiffAt ℝ k (fun X => z X i f) X0) (cgs : ℕ → ℕ → ℕ → ℝ) (L : ℕ)
    (K : ℕ → ℕ → ℝ) (a b f : ℕ) : ContDiffAt ℝ k (fun X => fusedToMatrix cgs L (z X) K a b f) X0 := by
  unfold fusedToMatrix
  fun_prop

theorem smooth_couple {z w : V → ℕ → ℕ → ℕ → ℝ} (hz : ∀ a b f, ContDiffAt ℝ k (fun X => z X a b f) X0)
    (hw : ∀ a b f, ContDiffAt ℝ k (fun X => w X a b f) X0) (lam a b f : ℕ) :
    ContDiffAt ℝ k (fun X => fusedCouple lam (z X) (w X) a b f) X0 := by
  unfold fusedCouple
  fun_prop

theorem smooth_toVector {z : V → ℕ → ℕ → ℕ → ℝ} (hz : ∀ a b f, ContDiffAt ℝ k (fun X => z X a b f) X0) (cgs : ℕ → ℕ → ℕ → ℝ)
    (lam L : ℕ) (K : ℕ → ℕ → ℝ) (n f : ℕ) : ContDiffAt ℝ k (fun X => fusedToVector cgs lam L (z X) K n f) X0 := by
  unfold fusedToVector
  fun_prop

theorem smooth_fusedVal {v w : V → Ent} (hv : SmoothEnt k X0 v) (hw : SmoothEnt k X0 w) (cfg : TensorCfg) (K : FusedKernels)
    (cg : ℕ → ℕ → ℕ → ℝ) (ps ps' : Bool) (L L' F F' : ℕ) :
    SmoothEnt k X0 fun X => fusedVal cfg K cg ⟨ps, L, F, v X⟩ ⟨ps', L', F', w X⟩ := by
  obtain ⟨b, hb⟩ : ∃ b, ∀ v w, outPseudo cfg ⟨ps, L, F, v⟩ ⟨ps', L', F', w⟩ = b :=
    ⟨outPseudo cfg ⟨ps, L, F, 0⟩ ⟨ps', L', F', 0⟩, fun _ _ => rfl⟩
  obtain ⟨M, hM⟩ : ∃ b, ∀ v w, fusedM cfg ⟨ps, L, F, v⟩ ⟨ps', L', F', w⟩ = b :=
    ⟨fusedM cfg ⟨ps, L, F, 0⟩ ⟨ps', L', F', 0⟩, fun _ _ => rfl⟩
  obtain ⟨lam, hl⟩ : ∃ b, ∀ v w, matrixDegree cfg ⟨ps, L, F, v⟩ ⟨ps', L', F', w⟩ = b :=
    ⟨matrixDegree cfg ⟨ps, L, F, 0⟩ ⟨ps', L', F', 0⟩, fun _ _ => rfl⟩
  obtain ⟨L3, h3⟩ : ∃ b, ∀ v w, outDegree cfg ⟨ps, L, F, v⟩ ⟨ps', L', F', w⟩ = b :=
    ⟨outDegree cfg ⟨ps, L, F, 0⟩ ⟨ps', L', F', 0⟩, fun _ _ => rfl⟩
  intro r n f
  simp only [fusedVal, hb, hM, hl, h3]
  have m1 := fun q K' a b f => smooth_toMatrix (fun i f => smooth_split hv M ps L F q i f) (cgSlice cg lam) L K' a b f
  have m2 := fun q K' a b f => smooth_toMatrix (fun i f => smooth_split hw M ps' L' F' q i f) (cgSlice cg lam) L' K' a b f
  have m3 := fun q q' K' K'' K3 n f => smooth_toVector (fun a b f => smooth_couple (m1 q K') (m2 q' K'') lam a b f) (cgSlice cg lam) lam
    L3 K3 n f
  cases b
  · simp only [Bool.false_eq_true, if_false]
    exact (((m3 _ _ _ _ _ _ _).add (m3 _ _ _ _ _ _ _)).mul contDiffAt_const).add
      (((m3 _ _ _ _ _ _ _).add (m3 _ _ _ _ _ _ _)).mul contDiffAt_const)
  · simp only [if_true]
    split_ifs
    · exact (m3 _ _ _ _ _ _ _).add (m3 _ _ _ _ _ _ _)
    · exact (m3 _ _ _ _ _ _ _).add (m3 _ _ _ _ _ _ _)

theorem smooth_tensorEnt {v w : V → Ent} (hv : SmoothEnt k X0 v) (hw : SmoothEnt k X0 w) (K : TensorKernel) (m : Prop) [Decidable m]
    (cg : ℕ → ℕ → ℕ → ℝ) (ps ps' : Bool) (L L' F F' : ℕ) :
    SmoothEnt k X0 fun X => if m then mixedEinsum K cg ⟨ps, L, F, v X⟩ ⟨ps', L', F', w X⟩
      else slicesEinsum K cg ⟨ps, L, F, v X⟩ ⟨ps', L', F', w X⟩ := by
  unfold SmoothEnt at *
  intro r n f
  split_ifs
  · unfold mixedEinsum
    dsimp only
    fun_prop
  · unfold slicesEinsum coupleSlices
    dsimp only
    split_ifs <;> fun_prop

/-- An operation with two inputs either raises whatever the entries are, or its entries depend smoothly on those of the
inputs. -/
def SmoothBin (k : WithTop ℕ∞) (V : Type) [NormedAddCommGroup V] [NormedSpace ℝ V] (g : Feat → Feat → Except Err Feat) : Prop :=
  ∀ ps L F ps' L' F', (∃ e, ∀ v w, g ⟨ps, L, F, v⟩ ⟨ps', L', F', w⟩ = .error e) ∨
    ∃ ps3 L3 F3, ∃ z : Ent → Ent → Ent, (∀ v w, g ⟨ps, L, F, v⟩ ⟨ps', L', F', w⟩ = .ok ⟨ps3, L3, F3, z v w⟩) ∧
      ∀ (X0 : V) v w, SmoothEnt k X0 v → SmoothEnt k X0 w → SmoothEnt k X0 fun X => z (v X) (w X)

/-- The same for operations with one input. -/
def SmoothUn (k : WithTop ℕ∞) (V : Type) [NormedAddCommGroup V] [NormedSpace ℝ V] (g : Feat → Feat) : Prop :=
  ∀ ps L F, ∃ ps3 L3 F3, ∃ z : Ent → Ent, (∀ v, g ⟨ps, L, F, v⟩ = ⟨ps3, L3, F3, z v⟩) ∧
    ∀ (X0 : V) v, SmoothEnt k X0 v → SmoothEnt k X0 fun X => z (v X)

theorem dense_form (features : ℕ) (b : Bool) (P : DenseParams) (ps : Bool) (L F : ℕ) (v : Ent) :
    dense features b P ⟨ps, L, F, v⟩ = ⟨ps, L, features, (dense features b P ⟨ps, L, F, v⟩).val⟩ := by
  unfold dense
  cases ps <;> rfl

theorem smoothUn_dense (features : ℕ) (b : Bool) (P : DenseParams) : SmoothUn k V (dense features b P) := fun ps L F =>
  ⟨_, _, _, fun v => (dense features b P ⟨ps, L, F, v⟩).val, dense_form features b P ps L F, fun _ _ hv => smooth_dense hv ps L F features b P⟩

theorem smoothUn_gated {g : ℝ → ℝ} (hg : ∀ x, ContDiffAt ℝ k g x) : SmoothUn k V (gatedLinear g) := fun ps L F =>
  ⟨_, _, _, _, fun _ => rfl, fun _ _ hv => smooth_gated hv hg ps L F⟩

theorem change_form (ps : Bool) (L F : ℕ) (L' : Option ℕ) (ps' : Option Bool) : ∃ ps3 L3, ∀ v,
    changeMaxDegreeOrType ⟨ps, L, F, v⟩ L' ps' = ⟨ps3, L3, F, (changeMaxDegreeOrType ⟨ps, L, F, v⟩ L' ps').val⟩ :=
  ⟨(changeMaxDegreeOrType ⟨ps, L, F, 0⟩ L' ps').pseudo, (changeMaxDegreeOrType ⟨ps, L, F, 0⟩ L' ps').L, fun v => by
    unfold changeMaxDegreeOrType
    dsimp only
    split_ifs <;> rfl⟩

theorem smoothUn_change (L' : Option ℕ) (ps' : Option Bool) : SmoothUn k V fun z => changeMaxDegreeOrType z L' ps' :=
  fun ps L F => by
    obtain ⟨ps3, L3, h⟩ := change_form ps L F L' ps'
    exact ⟨ps3, L3, F, _, h, fun _ _ hv => smooth_change hv ps L F L' ps'⟩

theorem smoothBin_tensor (cfg : TensorCfg) (T : TensorParams) (cg : ℕ → ℕ → ℕ → ℝ) : SmoothBin k V (anyTensor cfg T cg) := by
  intro ps L F ps' L' F'
  by_cases c1 : L + L' < cfg.maxDegree.getD (max L L')
  · refine Or.inl ⟨.valueError, fun v w => ?_⟩
    cases T with
    | tensor K => exact if_pos c1
    | fused K => exact if_pos c1
  by_cases c2 : F ≠ F'
  · refine Or.inl ⟨.valueError, fun v w => ?_⟩
    cases T with
    | tensor K => exact (if_neg c1).trans (if_pos c2)
    | fused K => exact (if_neg c1).trans (if_pos c2)
  right
  cases T with
  | tensor K =>
    exact ⟨outPseudo cfg ⟨ps, L, F, 0⟩ ⟨ps', L', F', 0⟩, outDegree cfg ⟨ps, L, F, 0⟩ ⟨ps', L', F', 0⟩, F,
      fun v w => if mixedPaths cfg ⟨ps, L, F, 0⟩ ⟨ps', L', F', 0⟩ then
        mixedEinsum (expandedKernel cfg K ⟨ps, L, F, 0⟩ ⟨ps', L', F', 0⟩) cg ⟨ps, L, F, v⟩ ⟨ps', L', F', w⟩
      else slicesEinsum (expandedKernel cfg K ⟨ps, L, F, 0⟩ ⟨ps', L', F', 0⟩) cg ⟨ps, L, F, v⟩ ⟨ps', L', F', w⟩,
      fun v w => (if_neg c1).trans (if_neg c2), fun X0 v w hv hw =>
      smooth_tensorEnt hv hw (expandedKernel cfg K ⟨ps, L, F, 0⟩ ⟨ps', L', F', 0⟩) (mixedPaths cfg ⟨ps, L, F, 0⟩ ⟨ps', L', F', 0⟩)
        cg ps ps' L L' F F'⟩
  | fused K =>
    exact ⟨outPseudo cfg ⟨ps, L, F, 0⟩ ⟨ps', L', F', 0⟩, outDegree cfg ⟨ps, L, F, 0⟩ ⟨ps', L', F', 0⟩, F,
      fun v w => fusedVal cfg K cg ⟨ps, L, F, v⟩ ⟨ps', L', F', w⟩,
      fun v w => (if_neg c1).trans (if_neg c2), fun X0 v w hv hw => smooth_fusedVal hv hw cfg K cg ps ps' L L' F F'⟩

theorem smoothBin_add : SmoothBin k V fun a b => add [a, b] := by
  intro ps L F ps' L' F'
  by_cases c : F' = F
  · subst c
    right
    refine ⟨ps || ps', max L L', F', fun v w p i f =>
      (changeMaxDegreeOrType ⟨ps, L, F', v⟩ (some (max L L')) (some (ps || ps'))).val p i f +
      (changeMaxDegreeOrType ⟨ps', L', F', w⟩ (some (max L L')) (some (ps || ps'))).val p i f, fun v w => ?_,
      fun X0 v w hv hw p i f => ?_⟩
    · unfold add
      simp
    · exact (smooth_change hv ps L F' _ _ p i f).add (smooth_change hw ps' L' F' _ _ p i f)
  · exact Or.inl ⟨.valueError, fun v w => by simp [add, c]⟩

theorem smoothBin_tensorDense (features : Option ℕ) (b : Bool) (cfg : TensorCfg) (P : DenseParams) (T : TensorParams)
    (cg : ℕ → ℕ → ℕ → ℝ) : SmoothBin k V fun a _ => tensorDense features b cfg P T cg a := by
  intro ps L F ps' L' F'
  have e : ∀ v, tensorDense features b cfg P T cg ⟨ps, L, F, v⟩ = anyTensor cfg T cg
      ⟨ps, L, features.getD F, (dense (2 * features.getD F) b P ⟨ps, L, F, v⟩).val⟩
      ⟨ps, L, features.getD F, fun p i f => (dense (2 * features.getD F) b P ⟨ps, L, F, v⟩).val p i (features.getD F + f)⟩ := by
    intro v
    unfold tensorDense
    dsimp only
    rw [dense_form]
  rcases smoothBin_tensor (k := k) (V := V) cfg T cg ps L (features.getD F) ps L (features.getD F) with ⟨er, h⟩ | ⟨p3, L3, F3, z, h, hz⟩
  · exact Or.inl ⟨er, fun v w => (e v).trans (h _ _)⟩
  · exact Or.inr ⟨p3, L3, F3, _, fun v w => (e v).trans (h _ _), fun X0 v w hv _ =>
      hz X0 _ _ (smooth_dense hv ps L F _ b P) fun p i f => smooth_dense hv ps L F _ b P p i _⟩

/-! ### Arrays over nodes -/

/-- An array over `n` nodes whose extents are fixed and whose entries depend smoothly on the parameter. -/
def SmoothNodes (k : WithTop ℕ∞) (X0 : V) (n : ℕ) (x : V → Nodes) : Prop :=
  ∃ (ps : Bool) (L F : ℕ) (R : V → List Ent), x = (fun X => ⟨ps, L, F, R X⟩) ∧ (∀ X, (R X).length = n) ∧ ∀ i, SmoothEnt k X0 fun X => (R X).getD i 0

/-- A computation either raises the same exception for all parameters, or its result depends smoothly on the parameter. -/
def SmoothResult (k : WithTop ℕ∞) (X0 : V) (n : ℕ) (r : V → Except Err Nodes) : Prop :=
  (∃ e, ∀ X, r X = .error e) ∨ ∃ z, (∀ X, r X = .ok (z X)) ∧ SmoothNodes k X0 n z

theorem smooth_apply {n : ℕ} {x : V → Nodes} (hx : SmoothNodes k X0 n x) {g : Feat → Feat} (hg : SmoothUn k V g) :
    SmoothNodes k X0 n fun X => (x X).apply g := by
  obtain ⟨ps, L, F, R, rfl, hl, hR⟩ := hx
  obtain ⟨p3, L3, F3, z, h, hz⟩ := hg ps L F
  refine ⟨p3, L3, F3, fun X => (R X).map z, funext fun X => ?_, fun X => by simpa using hl X, fun i => ?_⟩
  · unfold Nodes.apply Nodes.feat
    dsimp only
    simp only [h]
  · by_cases hi : i < n
    · have : (fun X => ((R X).map z).getD i 0) = fun X => z ((R X).getD i 0) := by
        funext X
        have := hl X
        rw [List.getD_eq_getElem _ _ (by simpa [this] using hi), List.getD_eq_getElem _ _ (by omega), List.getElem_map]
      rw [this]
      exact hz X0 _ (hR i)
    · have : (fun X => ((R X).map z).getD i 0) = fun _ => 0 := by
        funext X
        rw [List.getD_eq_default _ _ (by simp [hl X]; omega)]
      rw [this]
      exact smooth_zero

theorem smooth_nodesBin {n : ℕ} {x y : V → Nodes} (hx : SmoothNodes k X0 n x) (hy : SmoothNodes k X0 n y)
    {g : Feat → Feat → Except Err Feat} (hg : SmoothBin k V g) : SmoothResult k X0 n fun X => nodesBin g (x X) (y X) := by
  obtain ⟨ps, L, F, R, rfl, hl, hR⟩ := hx
  obtain ⟨ps', L', F', R', rfl, hl', hR'⟩ := hy
  rcases hg ps L F ps' L' F' with ⟨e, h⟩ | ⟨p3, L3, F3, z, h, hz⟩
  · refine Or.inl ⟨e, fun X => ?_⟩
    unfold nodesBin Nodes.feat
    simp only [h]
  · refine Or.inr ⟨fun X => ⟨p3, L3, F3, List.zipWith z (R X) (R' X)⟩, fun X => ?_, p3, L3, F3, _, rfl, fun X => by
      simp [hl X, hl' X], fun i => ?_⟩
    · unfold nodesBin Nodes.feat
      simp only [h, hl, hl', if_true]
    · by_cases hi : i < n
      · have : (fun X => (List.zipWith z (R X) (R' X)).getD i 0) = fun X => z ((R X).getD i 0) ((R' X).getD i 0) := by
          funext X
          have h1 := hl X
          have h2 := hl' X
          rw [List.getD_eq_getElem _ _ (by simp; omega), List.getD_eq_getElem _ _ (by omega), List.getD_eq_getElem _ _ (by omega),
            List.getElem_zipWith]
        rw [this]
        exact hz X0 _ _ (hR i) (hR' i)
      · have : (fun X => (List.zipWith z (R X) (R' X)).getD i 0) = fun _ => 0 := by
          funext X
          rw [List.getD_eq_default _ _ (by simp [hl X, hl' X]; omega)]
        rw [this]
        exact smooth_zero

theorem smooth_listSum {β : Type} (l : List β) {t : V → β → Ent} (h : ∀ b ∈ l, SmoothEnt k X0 fun X => t X b) :
    SmoothEnt k X0 fun X => (l.map (t X)).sum := by
  induction l with
  | nil => exact smooth_zero
  | cons b l ih =>
    intro p i f
    simp only [List.map_cons, List.sum_cons]
    exact (h b (List.mem_cons_self ..) p i f).add (ih (fun b hb => h b (List.mem_cons_of_mem _ hb)) p i f)

theorem smooth_realSum {β : Type} (l : List β) {t : V → β → ℝ} (h : ∀ b ∈ l, ContDiffAt ℝ k (fun X => t X b) X0) :
    ContDiffAt ℝ k (fun X => (l.map (t X)).sum) X0 := by
  induction l with
  | nil => exact contDiffAt_const
  | cons b l ih =>
    simp only [List.map_cons, List.sum_cons]
    exact (h b (List.mem_cons_self ..)).add (ih (fun b hb => h b (List.mem_cons_of_mem _ hb)))

theorem smooth_tensorMatch {v w : V → Ent} (hv : SmoothEnt k X0 v) (hw : SmoothEnt k X0 w) (cfg : TensorCfg) (T : TensorParams)
    (cg : ℕ → ℕ → ℕ → ℝ) (ps ps' : Bool) (L L' F F' : ℕ) :
    SmoothEnt k X0 fun X => tensorVal cfg T cg ⟨ps, L, F, v X⟩ ⟨ps', L', F', w X⟩ := by
  unfold tensorVal
  rcases smoothBin_tensor (k := k) (V := V) cfg T cg ps L F ps' L' F' with ⟨er, h⟩ | ⟨p3, L3, F3, z, h, hz⟩
  · simp only [h]
    exact smooth_zero
  · simp only [h]
    exact hz X0 v w hv hw

/-! ### Message passing and attention -/

theorem getD_of_some {l : List Ent} {i : ℕ} {v : Ent} (h : l[i]? = some v) : l.getD i 0 = v := by
  rw [List.getD_eq_getElem?_getD, h]
  rfl

theorem smooth_messagePass {β : Type} (B : List β) (dst src : β → ℕ) {n : ℕ} (hn : 0 < n)
    (hs : ∀ b ∈ B, dst b < n → src b < n) {bv : V → β → Ent} (hb : ∀ b ∈ B, SmoothEnt k X0 fun X => bv X b)
    {x : V → Nodes} (hx : SmoothNodes k X0 n x) (cfg : ConvCfg) (P : ConvParams) (cg : ℕ → ℕ → ℕ → ℝ) (bp : Bool) (bL bF : ℕ) :
    SmoothResult k X0 n fun X => messagePass cfg P cg (x X) ⟨bp, bL, bF, .vec (B.map (bv X))⟩ none
      { dst := some (B.map dst), src := some (B.map src) } := by
  obtain ⟨ps, L, F, R, rfl, hl, hR⟩ := hx
  have hE : ∀ X, B.map (bv X) = (B.map fun b => (⟨dst b, src b, bv X b, fun _ _ _ => 1⟩ : Edge)).map Edge.basis := by
    intro X; simp [Function.comp_def]
  have hD : ∀ X, B.map dst = (B.map fun b => (⟨dst b, src b, bv X b, fun _ _ _ => 1⟩ : Edge)).map Edge.dst := by
    intro X; simp [Function.comp_def]
  have hS : ∀ X, B.map src = (B.map fun b => (⟨dst b, src b, bv X b, fun _ _ _ => 1⟩ : Edge)).map Edge.src := by
    intro X; simp [Function.comp_def]
  have key := fun X => C18_sparse cfg P cg ⟨ps, L, F, R X⟩ bp bL bF (B.map fun b => (⟨dst b, src b, bv X b, fun _ _ _ => 1⟩ : Edge))
    none (Or.inr ⟨rfl, by simp⟩) none (by rw [hl]; exact hn) (by simpa [hl] using hs)
  by_cases hd : cfg.tens.maxDegree.getD (max bL L) ≤ bL + L
  · right
    choose z h1 h2 h3 h4 h5 h6 using fun X => (key X).2 hd
    obtain ⟨q, hq⟩ : ∃ q, ∀ X, (z X).pseudo = q := ⟨(z X0).pseudo, fun X => Bool.eq_iff_iff.2 ((h2 X).trans (h2 X0).symm)⟩
    refine ⟨z, fun X => ?_, q, cfg.tens.maxDegree.getD (max bL L), F, fun X => (z X).rows, funext fun X => ?_, fun X => ?_, fun i => ?_⟩
    · rw [← h1 X, ← hE, ← hD, ← hS]
    · rw [← hq X, ← h3 X, show F = (z X).F from (h4 X).symm]
    · rw [h5 X, Option.getD_none, hl]
    · by_cases hi : i < n
      · have e : (fun X => (z X).rows.getD i 0) = fun X => ((B.filter fun b => dst b = i).map fun b =>
            tensorVal cfg.tens P.tens cg ⟨bp, bL, F, (dense F cfg.useBasisBias P.filter ⟨bp, bL, bF, bv X b⟩).val⟩
              ⟨ps, L, F, fun p j f => (R X).getD (src b) 0 p j f * 1⟩).sum := by
          funext X
          rw [getD_of_some (h6 X i (by rw [Option.getD_none, hl]; exact hi))]
          unfold edgesInto
          rw [List.filter_map, List.map_map]
          congr 1
          refine List.map_congr_left fun b _ => ?_
          show message _ _ _ _ _ _ _ _ = _
          unfold message tensorVal
          rw [← dense_form]
          rfl
        rw [e]
        refine smooth_listSum _ fun b hb' => smooth_tensorMatch (smooth_dense (hb b (List.mem_filter.1 hb').1) _ _ _ _ _ _)
          (fun p j f => (hR _ p j f).mul contDiffAt_const) _ _ _ _ _ _ _ _ _
      · have : (fun X => (z X).rows.getD i 0) = fun _ => 0 := by
          funext X
          rw [List.getD_eq_default _ _ (by rw [h5 X, Option.getD_none, hl]; omega)]
        rw [this]
        exact smooth_zero
  · exact Or.inl ⟨_, fun X => by
      have := (key X).1 (not_le.1 hd)
      rw [← hE, ← hD, ← hS] at this
      exact this⟩

theorem smooth_attnLogit {n : ℕ} {Rq Rk : V → List Ent} (hlq : ∀ X, (Rq X).length = n) (hlk : ∀ X, (Rk X).length = n)
    (hq : ∀ i, SmoothEnt k X0 fun X => (Rq X).getD i 0) (hk : ∀ i, SmoothEnt k X0 fun X => (Rk X).getD i 0)
    {bv : V → Ent} (hb : SmoothEnt k X0 bv) (c : V → ℝ)
    (cfg : AttnCfg) (P : AttnParams) (F : ℕ) (qp kp : Bool) (qL qF kL kF bF d s h : ℕ) :
    ContDiffAt ℝ k (fun X => attnLogit cfg P F ⟨qp, qL, qF, Rq X⟩ ⟨kp, kL, kF, Rk X⟩ bF ⟨d, s, bv X, c X⟩ h) X0 := by
  have h1 : SmoothEnt k X0 fun X => (attnQuery cfg P F ⟨qp, qL, qF, Rq X⟩ ⟨kp, kL, kF, Rk X⟩).getD d 0 := by
    unfold attnQuery
    dsimp only
    by_cases hd : d < n
    · have e : (fun X => ((Rq X).map fun v p i f => (dense F cfg.qBias P.query (qkInputs ⟨kp, kL, kF, Rk X⟩ ⟨qp, qL, qF, Rq X⟩
          (Nodes.feat ⟨qp, qL, qF, Rq X⟩ v))).val p i f /
            Real.sqrt ((chan (qp && kp) * (min qL kL + 1) ^ 2 * (F / cfg.numHeads) : ℕ) : ℝ)).getD d 0) =
          fun X p i f => (dense F cfg.qBias P.query (changeMaxDegreeOrType ⟨qp, qL, qF, (Rq X).getD d 0⟩ (some (min qL kL))
            (some (qp && kp)))).val p i f /
              Real.sqrt ((chan (qp && kp) * (min qL kL + 1) ^ 2 * (F / cfg.numHeads) : ℕ) : ℝ) := by
        funext X
        have := hlq X
        rw [List.getD_eq_getElem _ _ (by simpa [this] using hd), List.getElem_map, List.getD_eq_getElem _ _ (by omega)]
        rfl
      rw [e]
      obtain ⟨p3, L3, hf⟩ := change_form qp qL qF (some (min qL kL)) (some (qp && kp))
      intro p i f
      simp only [div_eq_mul_inv]
      refine ContDiffAt.mul ?_ contDiffAt_const
      have := smooth_dense (smooth_change (hq d) qp qL qF (some (min qL kL)) (some (qp && kp))) p3 L3 qF F cfg.qBias P.query p i f
      simp only [← hf] at this
      exact this
    · have e : (fun X => ((Rq X).map fun v p i f => (dense F cfg.qBias P.query (qkInputs ⟨kp, kL, kF, Rk X⟩ ⟨qp, qL, qF, Rq X⟩
          (Nodes.feat ⟨qp, qL, qF, Rq X⟩ v))).val p i f /
            Real.sqrt ((chan (qp && kp) * (min qL kL + 1) ^ 2 * (F / cfg.numHeads) : ℕ) : ℝ)).getD d 0) = fun _ => 0 := by
        funext X
        rw [List.getD_eq_default _ _ (by simp [hlq X]; omega)]
      rw [e]
      exact smooth_zero
  have h2 : SmoothEnt k X0 fun X => (attnKey cfg P F ⟨qp, qL, qF, Rq X⟩ ⟨kp, kL, kF, Rk X⟩).getD s 0 := by
    unfold attnKey
    dsimp only
    by_cases hd : s < n
    · have e : (fun X => ((Rk X).map fun v => (dense F cfg.kBias P.key (qkInputs ⟨qp, qL, qF, Rq X⟩ ⟨kp, kL, kF, Rk X⟩
          (Nodes.feat ⟨kp, kL, kF, Rk X⟩ v))).val).getD s 0) =
          fun X => (dense F cfg.kBias P.key (changeMaxDegreeOrType ⟨kp, kL, kF, (Rk X).getD s 0⟩ (some (min kL qL))
            (some (kp && qp)))).val := by
        funext X
        have := hlk X
        rw [List.getD_eq_getElem _ _ (by simpa [this] using hd), List.getElem_map, List.getD_eq_getElem _ _ (by omega)]
        rfl
      rw [e]
      obtain ⟨p3, L3, hf⟩ := change_form kp kL kF (some (min kL qL)) (some (kp && qp))
      have := smooth_dense (smooth_change (hk s) kp kL kF (some (min kL qL)) (some (kp && qp))) p3 L3 kF F cfg.kBias P.key
      simp only [← hf] at this
      exact this
    · have e : (fun X => ((Rk X).map fun v => (dense F cfg.kBias P.key (qkInputs ⟨qp, qL, qF, Rq X⟩ ⟨kp, kL, kF, Rk X⟩
          (Nodes.feat ⟨kp, kL, kF, Rk X⟩ v))).val).getD s 0) = fun _ => 0 := by
        funext X
        rw [List.getD_eq_default _ _ (by simp [hlk X]; omega)]
      rw [e]
      exact smooth_zero
  have h3 : SmoothEnt k X0 fun X => if cfg.relQK then relPos cfg.conv.useBasisBias P bF (min qL kL) F (bv X) else fun _ _ _ => 1 := by
    unfold SmoothEnt at hb ⊢
    intro p i f
    split_ifs
    · unfold relPos nnDense
      fun_prop
    · exact contDiffAt_const
  unfold SmoothEnt at h1 h2 h3
  unfold attnLogit attnDot
  dsimp only
  fun_prop

theorem smooth_attention {β : Type} (B : List β) (dst src : β → ℕ) {n : ℕ} (hn : 0 < n)
    (hs : ∀ b ∈ B, dst b < n → src b < n) {bv : V → β → Ent} (hb : ∀ b ∈ B, SmoothEnt k X0 fun X => bv X b)
    {c : V → β → ℝ} (hc : ∀ b ∈ B, ContDiffAt ℝ k (fun X => c X b) X0) (hc0 : ∀ b ∈ B, 0 ≤ c X0 b)
    (hpos : ∀ b ∈ B, ∃ b' ∈ B, dst b' = dst b ∧ 0 < c X0 b')
    {q kv : V → Nodes} (hq : SmoothNodes k X0 n q) (hk : SmoothNodes k X0 n kv) (lo ninf : ℝ) (cfg : AttnCfg) (P : AttnParams)
    (cg : ℕ → ℕ → ℕ → ℝ) (bp : Bool) (bL bF : ℕ) :
    SmoothResult k X0 n fun X => attention lo ninf cfg P cg (q X) (kv X) (some ⟨bp, bL, bF, .vec (B.map (bv X))⟩)
      (some (.vec (B.map (c X)))) { dst := some (B.map dst), src := some (B.map src) } := by
  obtain ⟨qp, qL, qF, Rq, rfl, hlq, hRq⟩ := hq
  obtain ⟨kp, kL, kF, Rk, rfl, hlk, hRk⟩ := hk
  let E : V → List AttnEdge := fun X => B.map fun b => ⟨dst b, src b, bv X b, c X b⟩
  have hE : ∀ X, B.map (bv X) = (E X).map AttnEdge.basis := by intro X; simp [E, Function.comp_def]
  have hC : ∀ X, B.map (c X) = (E X).map AttnEdge.cut := by intro X; simp [E, Function.comp_def]
  have hD : ∀ X, B.map dst = (E X).map AttnEdge.dst := by intro X; simp [E, Function.comp_def]
  have hS : ∀ X, B.map src = (E X).map AttnEdge.src := by intro X; simp [E, Function.comp_def]
  have key := fun X => C19_sparse lo ninf cfg P cg ⟨qp, qL, qF, Rq X⟩ ⟨kp, kL, kF, Rk X⟩ bp bL bF (E X) _ (Or.inl rfl) _ (Or.inl rfl)
    (by rw [hlq]; exact hn) (by rw [hlk]; exact hn) none (by rw [Option.getD_none, hlq]; exact hn)
    (by simp only [E, List.mem_map, forall_exists_index, and_imp, forall_apply_eq_imp_iff₂, Option.getD_none, hlq, hlk]; exact fun b h d => ⟨d, hs b h d⟩) _ rfl
  simp only [hE, hC]
  have hDS : ∀ X, ({ dst := some (B.map dst), src := some (B.map src) } : IndexArgs) =
      { dst := some ((E X).map AttnEdge.dst), src := some ((E X).map AttnEdge.src), num := none } := by
    intro X
    rw [← hD, ← hS]
  by_cases hH : cfg.numHeads = 0 ∨ cfg.qkvFeatures.getD qF % cfg.numHeads ≠ 0
  · exact Or.inl ⟨_, fun X => by rw [hDS X]; exact (key X).1 hH⟩
  push Not at hH
  by_cases hd : cfg.relV = true → cfg.conv.tens.maxDegree.getD (max bL kL) ≤ bL + kL
  swap
  · push Not at hd
    exact Or.inl ⟨_, fun X => by rw [hDS X]; exact (key X).2.1 hd.1 hd.2⟩
  right
  choose z h1 h2 using fun X => (key X).2.2 hH.1 hH.2 hd
  refine ⟨z, fun X => by rw [hDS X]; exact h1 X, attnOutPseudo cfg ⟨kp, kL, kF, []⟩ bp bL, attnOutL cfg ⟨kp, kL, kF, []⟩ bL, cfg.outFeatures.getD qF,
    fun X => (z X).rows, funext fun X => ?_, fun X => ?_, fun i => ?_⟩
  · obtain ⟨a1, a2, a3, -, -⟩ := h2 X
    rw [show attnOutPseudo cfg ⟨kp, kL, kF, []⟩ bp bL = attnOutPseudo cfg ⟨kp, kL, kF, Rk X⟩ bp bL from rfl, ← a1,
      show attnOutL cfg ⟨kp, kL, kF, []⟩ bL = attnOutL cfg ⟨kp, kL, kF, Rk X⟩ bL from rfl, ← a2, ← a3]
  · rw [(h2 X).2.2.2.1, Option.getD_none, hlq]
  · by_cases hi : i < n
    swap
    · have : (fun X => (z X).rows.getD i 0) = fun _ => 0 := by
        funext X
        rw [List.getD_eq_default _ _ (by rw [(h2 X).2.2.2.1, Option.getD_none, hlq]; omega)]
      rw [this]
      exact smooth_zero
    set Fq := cfg.qkvFeatures.getD qF with hFq
    let logit : V → β → ℕ → ℝ := fun X b h =>
      attnLogit cfg P Fq ⟨qp, qL, qF, Rq X⟩ ⟨kp, kL, kF, Rk X⟩ bF ⟨dst b, src b, bv X b, c X b⟩ h
    have hlog : ∀ b ∈ B, ∀ h, ContDiffAt ℝ k (fun X => logit X b h) X0 := fun b hb' h =>
      smooth_attnLogit hlq hlk hRq hRk (hb b hb') (fun X => c X b) cfg P Fq qp kp qL qF kL kF bF (dst b) (src b) h
    let w : V → β → ℕ → ℝ := fun X b h => Real.exp (logit X b h) * c X b /
      ((B.filter fun b' => dst b' = i).map fun b' => Real.exp (logit X b' h) * c X b').sum
    have hw : ∀ b ∈ B, dst b = i → ∀ h, ContDiffAt ℝ k (fun X => w X b h) X0 := by
      intro b hb' hbi h
      have he : ∀ b ∈ B, ContDiffAt ℝ k (fun X => Real.exp (logit X b h) * c X b) X0 := fun b hb' =>
        (hlog b hb' h).exp.mul (hc b hb')
      refine (he b hb').div (smooth_realSum _ fun b' hb'' => he b' (List.mem_filter.1 hb'').1) (ne_of_gt ?_)
      obtain ⟨b1, m1, d1, p1⟩ := hpos b hb'
      have hnn : ∀ y ∈ (B.filter fun b' => dst b' = i).map fun b' => Real.exp (logit X0 b' h) * c X0 b', 0 ≤ y := by
        intro y hy
        obtain ⟨b2, m2, rfl⟩ := List.mem_map.1 hy
        exact mul_nonneg (Real.exp_pos _).le (hc0 b2 (List.mem_filter.1 m2).1)
      exact lt_of_lt_of_le (mul_pos (Real.exp_pos (logit X0 b1 h)) p1) (List.single_le_sum hnn _
        (List.mem_map.2 ⟨b1, List.mem_filter.2 ⟨m1, by simp [d1, hbi]⟩, rfl⟩))
    have e : (fun X => (z X).rows.getD i 0) = fun X => (dense (cfg.outFeatures.getD qF) cfg.oBias P.out
        ⟨attnOutPseudo cfg ⟨kp, kL, kF, []⟩ bp bL, attnOutL cfg ⟨kp, kL, kF, []⟩ bL, Fq,
          ((B.filter fun b => dst b = i).map fun b =>
            let v : Ent := fun p j f => w X b (f / (Fq / cfg.numHeads)) *
              (dense Fq cfg.vBias P.value ⟨kp, kL, kF, (Rk X).getD (src b) 0⟩).val p j f
            if cfg.relV then tensorVal cfg.conv.tens P.conv.tens cg
              ⟨bp, bL, Fq, (dense Fq cfg.conv.useBasisBias P.conv.filter ⟨bp, bL, bF, bv X b⟩).val⟩ ⟨kp, kL, Fq, v⟩ else v).sum⟩).val := by
      funext X
      rw [getD_of_some ((h2 X).2.2.2.2 i (by rw [Option.getD_none, hlq]; exact hi))]
      have hin : attnInto (E X) i = (B.filter fun b => dst b = i).map fun b => ⟨dst b, src b, bv X b, c X b⟩ := by
        unfold attnInto
        rw [List.filter_map]
        rfl
      have hsum : ((attnInto (E X) i).map fun e => attnMessage cfg P cg Fq ⟨kp, kL, kF, Rk X⟩ bp bL bF
          (attnWeight cfg P Fq ⟨qp, qL, qF, Rq X⟩ ⟨kp, kL, kF, Rk X⟩ bF (E X) e) e) =
          (B.filter fun b => dst b = i).map fun b =>
            let v : Ent := fun p j f => w X b (f / (Fq / cfg.numHeads)) *
              (dense Fq cfg.vBias P.value ⟨kp, kL, kF, (Rk X).getD (src b) 0⟩).val p j f
            if cfg.relV then tensorVal cfg.conv.tens P.conv.tens cg
              ⟨bp, bL, Fq, (dense Fq cfg.conv.useBasisBias P.conv.filter ⟨bp, bL, bF, bv X b⟩).val⟩ ⟨kp, kL, Fq, v⟩ else v := by
        rw [hin, List.map_map]
        refine List.map_congr_left fun b hb' => ?_
        have hbi : dst b = i := by simpa using (List.mem_filter.1 hb').2
        have hwt : attnWeight cfg P Fq ⟨qp, qL, qF, Rq X⟩ ⟨kp, kL, kF, Rk X⟩ bF (E X) ⟨dst b, src b, bv X b, c X b⟩ = w X b := by
          funext h
          unfold attnWeight softmaxValue
          dsimp only
          rw [show attnInto (E X) (dst b) = _ from (congrArg _ hbi).trans hin, List.map_map, List.map_map]
          rfl
        show attnMessage _ _ _ _ _ _ _ _ _ _ = _
        rw [hwt]
        unfold attnMessage tensorVal
        rw [← dense_form]
        rfl
      show (dense _ _ _ ⟨_, _, Fq, (List.map _ _).sum⟩).val = _
      rw [hsum]
      rfl
    rw [e]
    refine smooth_dense (smooth_listSum _ fun b hb' => ?_) _ _ _ _ _ _
    obtain ⟨m1, m2⟩ := List.mem_filter.1 hb'
    have hv : SmoothEnt k X0 fun X p j f => w X b (f / (Fq / cfg.numHeads)) *
        (dense Fq cfg.vBias P.value ⟨kp, kL, kF, (Rk X).getD (src b) 0⟩).val p j f := fun p j f =>
      (hw b m1 (by simpa using m2) _).mul (smooth_dense (hRk (src b)) kp kL kF Fq cfg.vBias P.value p j f)
    dsimp only
    split_ifs
    · exact smooth_tensorMatch (smooth_dense (hb b m1) _ _ _ _ _ _) hv _ _ _ _ _ _ _ _ _
    · exact hv

end E3x
