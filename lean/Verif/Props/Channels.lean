import Verif.Props.Message
import Verif.Spec.Channels

/-!
# C99: tensor products and message passing treat every feature on its own
-/

namespace E3x

open Spec
open Finset (range)

theorem dense_pick (g : ℕ → ℕ) (n F : ℕ) (useBias : Bool) (P : DenseParams) (x : Feat) :
    dense n useBias (pickDense g P) x = pickFeat g n (dense F useBias P x) := by
  have hsub : ∀ u pr l row o, denseSub x.F (pickDense g P) u pr l row o = denseSub x.F P u pr l row (g o) := by
    intro u pr l row o
    unfold denseSub nnDense
    cases hu : (u && l == 0) <;> rfl
  unfold dense
  split_ifs
  · simp only [concatDegrees, hsub]; rfl
  · simp only [concatDegrees, hsub]; rfl

theorem splitParity_pick (g : ℕ → ℕ) (n M : ℕ) (z : Feat) (p i f : ℕ) :
    splitParity M (pickFeat g n z) p i f = splitParity M z p i (g f) := by
  unfold splitParity pickFeat pickEnt
  dsimp only
  split_ifs <;> rfl

/-- **C99 (tensor products).** `Tensor` and `FusedTensor` treat every feature on its own: a layer with the parameters of some
features, applied to these features, gives these features of the result. -/
theorem C99_tensor (g : ℕ → ℕ) (n : ℕ) (cfg : TensorCfg) (T : TensorParams) (cg : ℕ → ℕ → ℕ → ℝ) (x y : Feat)
    (hF : x.F = y.F) :
    anyTensor cfg (pickTensor g T) cg (pickFeat g n x) (pickFeat g n y) =
      match anyTensor cfg T cg x y with
      | .ok z => .ok (pickFeat g n z)
      | .error e => .error e := by
  have hou : outDegree cfg (pickFeat g n x) (pickFeat g n y) = outDegree cfg x y := rfl
  have hpo : outPseudo cfg (pickFeat g n x) (pickFeat g n y) = outPseudo cfg x y := rfl
  cases T with
  | tensor k =>
    simp only [anyTensor, tensor, pickTensor]
    rw [hou, hpo]
    by_cases h1 : x.L + y.L < outDegree cfg x y
    · rw [if_pos h1, if_pos (show (pickFeat g n x).L + (pickFeat g n y).L < _ from h1)]
    rw [if_neg h1, if_neg (show ¬ (pickFeat g n x).L + (pickFeat g n y).L < _ from h1), if_neg (show ¬ x.F ≠ y.F by simpa using hF),
      if_neg (show ¬ (pickFeat g n x).F ≠ (pickFeat g n y).F by simp [pickFeat])]
    dsimp only
    congr 1
    unfold pickFeat
    congr 1
    funext r m f
    by_cases hm : mixedPaths cfg x y
    · have hm' : mixedPaths cfg (pickFeat g n x) (pickFeat g n y) := hm
      unfold pickFeat at hm'
      rw [if_pos hm, if_pos hm']
      simp only [mixedEinsum, pickEnt]
      rfl
    · have hm' : ¬ mixedPaths cfg (pickFeat g n x) (pickFeat g n y) := hm
      unfold pickFeat at hm'
      rw [if_neg hm, if_neg hm']
      simp only [slicesEinsum, coupleSlices, pickEnt]
      rfl
  | fused K =>
    simp only [anyTensor, fusedTensor, pickTensor]
    rw [hou, hpo]
    by_cases h1 : x.L + y.L < outDegree cfg x y
    · rw [if_pos h1, if_pos (show (pickFeat g n x).L + (pickFeat g n y).L < _ from h1)]
    rw [if_neg h1, if_neg (show ¬ (pickFeat g n x).L + (pickFeat g n y).L < _ from h1), if_neg (show ¬ x.F ≠ y.F by simpa using hF),
      if_neg (show ¬ (pickFeat g n x).F ≠ (pickFeat g n y).F by simp [pickFeat])]
    dsimp only
    have hM : fusedM cfg (pickFeat g n x) (pickFeat g n y) = fusedM cfg x y := rfl
    have hlam : matrixDegree cfg (pickFeat g n x) (pickFeat g n y) = matrixDegree cfg x y := rfl
    have hL : ∀ z, (pickFeat g n z).L = z.L := fun _ => rfl
    have hval : ∀ K' : FusedKernels, K' = { e1 := fun l f => K.e1 l (g f), o1 := fun l f => K.o1 l (g f)
                                            e2 := fun l f => K.e2 l (g f), o2 := fun l f => K.o2 l (g f)
                                            eee := fun l f => K.eee l (g f), ooe := fun l f => K.ooe l (g f)
                                            eoo := fun l f => K.eoo l (g f), oeo := fun l f => K.oeo l (g f) } →
        fusedVal cfg K' cg (pickFeat g n x) (pickFeat g n y) = pickEnt g (fusedVal cfg K cg x y) := by
      rintro _ rfl
      funext r m f
      unfold fusedVal pickEnt
      dsimp only
      rw [hpo, hM, hlam, hou, hL, hL]
      split_ifs
      · simp only [fusedToVector, fusedCouple, fusedToMatrix, splitParity_pick]
      · simp only [fusedToVector, fusedCouple, fusedToMatrix, splitParity_pick]
    rw [hval _ rfl]
    rfl

/-! ## Message passing -/

/-- The chosen features of the weights of an edge. -/
def pickEdge (g : ℕ → ℕ) (e : Edge) : Edge := { e with weight := pickEnt g e.weight }

theorem pickEnt_zero (g : ℕ → ℕ) : pickEnt g 0 = 0 := rfl

theorem pickEnt_sum (g : ℕ → ℕ) (l : List Ent) : (l.map (pickEnt g)).sum = pickEnt g l.sum := by
  induction l with
  | nil => rfl
  | cons a l ih => rw [List.map_cons, List.sum_cons, ih, List.sum_cons]; rfl

theorem message_pick (g : ℕ → ℕ) (n : ℕ) (cfg : ConvCfg) (P : ConvParams) (cg : ℕ → ℕ → ℕ → ℝ) (x : Nodes) (bp : Bool)
    (bL bF : ℕ) (e : Edge) :
    message cfg (pickConv g P) cg (pickNodes g n x) bp bL bF (pickEdge g e) = pickEnt g (message cfg P cg x bp bL bF e) := by
  have hrow : (x.rows.map (pickEnt g)).getD e.src 0 = pickEnt g (x.rows.getD e.src 0) := by
    by_cases h : e.src < x.rows.length
    · simp [List.getD_eq_getElem?_getD, h]
    · simp [List.getD_eq_getElem?_getD, h, pickEnt_zero]
  have hy : ((pickNodes g n x).feat fun p i f =>
      (pickNodes g n x).rows.getD (pickEdge g e).src 0 p i f * (pickEdge g e).weight p i f) =
      pickFeat g n (x.feat fun p i f => x.rows.getD e.src 0 p i f * e.weight p i f) := by
    have : (pickNodes g n x).rows.getD (pickEdge g e).src 0 = pickEnt g (x.rows.getD e.src 0) := hrow
    rw [this]
    rfl
  unfold message
  rw [hy]
  have hx : dense (pickNodes g n x).F cfg.useBasisBias (pickConv g P).filter ⟨bp, bL, bF, (pickEdge g e).basis⟩ =
      pickFeat g n (dense x.F cfg.useBasisBias P.filter ⟨bp, bL, bF, e.basis⟩) := dense_pick g n x.F _ _ _
  rw [hx, show (pickConv g P).tens = pickTensor g P.tens from rfl, C99_tensor g n cfg.tens P.tens cg _ _
    (show (dense x.F cfg.useBasisBias P.filter ⟨bp, bL, bF, e.basis⟩).F = x.F by cases bp <;> rfl)]
  cases anyTensor cfg.tens P.tens cg (dense x.F cfg.useBasisBias P.filter ⟨bp, bL, bF, e.basis⟩)
    (x.feat fun p i f => x.rows.getD e.src 0 p i f * e.weight p i f) <;> rfl

/-- **C99 (message passing, sparse).** `MessagePass` treats every feature on its own: with the parameters of some features,
applied to these features of nodes and weights (and to all basis functions), it gives these features of the result. -/
theorem C99_sparse (g : ℕ → ℕ) (n : ℕ) (cfg : ConvCfg) (P : ConvParams) (cg : ℕ → ℕ → ℕ → ℝ) (x : Nodes) (bp : Bool)
    (bL bF : ℕ) (E : List Edge) (w : Option (Lead Ent)) (hw : WeightsOf w (.vec (E.map Edge.weight)) E) (num : Option ℕ)
    (hn : 0 < x.rows.length) (hE : ∀ e ∈ E, e.dst < num.getD x.rows.length → e.src < x.rows.length) :
    messagePass cfg (pickConv g P) cg (pickNodes g n x) ⟨bp, bL, bF, .vec (E.map Edge.basis)⟩
        (w.map fun w => w.map (pickEnt g))
        { dst := some (E.map Edge.dst), src := some (E.map Edge.src), num := num } =
      match messagePass cfg P cg x ⟨bp, bL, bF, .vec (E.map Edge.basis)⟩ w
        { dst := some (E.map Edge.dst), src := some (E.map Edge.src), num := num } with
      | .ok z => .ok (pickNodes g n z)
      | .error e => .error e := by
  have hlen : (pickNodes g n x).rows.length = x.rows.length := by simp [pickNodes]
  have hw' : WeightsOf (w.map fun w => w.map (pickEnt g)) (.vec ((E.map (pickEdge g)).map Edge.weight))
      (E.map (pickEdge g)) := by
    rcases hw with rfl | ⟨rfl, hw⟩
    · left
      simp only [Option.map_some, Lead.map, List.map_map, Function.comp_def, pickEdge]
    · right
      refine ⟨rfl, fun e he => ?_⟩
      obtain ⟨e', he', rfl⟩ := List.mem_map.1 he
      simp only [pickEdge, hw e' he']
      rfl
  have e1 : (E.map (pickEdge g)).map Edge.basis = E.map Edge.basis := by
    simp only [List.map_map, Function.comp_def, pickEdge]
  have e2 : (E.map (pickEdge g)).map Edge.dst = E.map Edge.dst := by
    simp only [List.map_map, Function.comp_def, pickEdge]
  have e3 : (E.map (pickEdge g)).map Edge.src = E.map Edge.src := by
    simp only [List.map_map, Function.comp_def, pickEdge]
  obtain ⟨h1, h2⟩ := C18_sparse cfg P cg x bp bL bF E w hw num hn hE
  obtain ⟨k1, k2⟩ := C18_sparse cfg (pickConv g P) cg (pickNodes g n x) bp bL bF (E.map (pickEdge g)) _ hw' num
    (by omega) (by
      intro e he
      obtain ⟨e', he', rfl⟩ := List.mem_map.1 he
      rw [hlen]
      exact hE e' he')
  rw [e1, e2, e3] at k1 k2
  by_cases h : cfg.tens.maxDegree.getD (max bL x.L) ≤ bL + x.L
  swap
  · rw [h1 (by omega), k1 (show bL + x.L < cfg.tens.maxDegree.getD (max bL x.L) by omega)]
  obtain ⟨z, a0, a1, a2, a3, a4, a5⟩ := h2 h
  obtain ⟨z', b0, b1, b2, b3, b4, b5⟩ := k2 h
  rw [a0, b0]
  dsimp only
  congr 1
  rw [hlen] at b4 b5
  refine nodes_ext (Bool.eq_iff_iff.2 (b1.trans a1.symm)) (b2.trans a2.symm) b3 ?_ fun i hi => ?_
  · simp [pickNodes, a4, b4]
  · rw [b4] at hi
    rw [b5 i hi]
    simp only [pickNodes, List.getElem?_map, a5 i hi, Option.map_some]
    congr 1
    rw [← pickEnt_sum, List.map_map]
    have hf : edgesInto (E.map (pickEdge g)) i = (edgesInto E i).map (pickEdge g) := by
      unfold edgesInto
      rw [List.filter_map]
      rfl
    rw [hf, List.map_map]
    congr 1
    refine List.map_congr_left fun e _ => ?_
    exact message_pick g n cfg P cg x bp bL bF e

/-- **C99 (message passing, dense).** The same for adjacency lists. -/
theorem C99_dense (g : ℕ → ℕ) (n : ℕ) (cfg : ConvCfg) (P : ConvParams) (cg : ℕ → ℕ → ℕ → ℝ) (x : Nodes) (bp : Bool)
    (bL bF : ℕ) (G : List (List Edge)) (w : Option (Lead Ent))
    (hw : WeightsOf w (.mat (G.map fun r => r.map Edge.weight)) G.flatten) (num : Option ℕ) (hn : 0 < x.rows.length) :
    messagePass cfg (pickConv g P) cg (pickNodes g n x) ⟨bp, bL, bF, .mat (G.map fun r => r.map Edge.basis)⟩
        (w.map fun w => w.map (pickEnt g)) { adj := some (G.map fun r => r.map Edge.src), num := num } =
      match messagePass cfg P cg x ⟨bp, bL, bF, .mat (G.map fun r => r.map Edge.basis)⟩ w
        { adj := some (G.map fun r => r.map Edge.src), num := num } with
      | .ok z => .ok (pickNodes g n z)
      | .error e => .error e := by
  have hlen : (pickNodes g n x).rows.length = x.rows.length := by simp [pickNodes]
  have hw' : WeightsOf (w.map fun w => w.map (pickEnt g))
      (.mat ((G.map fun r => r.map (pickEdge g)).map fun r => r.map Edge.weight))
      (G.map fun r => r.map (pickEdge g)).flatten := by
    rcases hw with rfl | ⟨rfl, hw⟩
    · left
      simp only [Option.map_some, Lead.map, List.map_map, Function.comp_def, pickEdge]
    · right
      refine ⟨rfl, fun e he => ?_⟩
      obtain ⟨r, hr, he⟩ := List.mem_flatten.1 he
      obtain ⟨r', hr', rfl⟩ := List.mem_map.1 hr
      obtain ⟨e', he', rfl⟩ := List.mem_map.1 he
      simp only [pickEdge, hw e' (List.mem_flatten.2 ⟨r', hr', he'⟩)]
      rfl
  have e1 : ((G.map fun r => r.map (pickEdge g)).map fun r => r.map Edge.basis) = G.map fun r => r.map Edge.basis := by
    simp only [List.map_map, Function.comp_def, pickEdge]
  have e3 : ((G.map fun r => r.map (pickEdge g)).map fun r => r.map Edge.src) = G.map fun r => r.map Edge.src := by
    simp only [List.map_map, Function.comp_def, pickEdge]
  obtain ⟨h1, h2⟩ := C18_dense cfg P cg x bp bL bF G w hw num hn
  obtain ⟨k1, k2⟩ := C18_dense cfg (pickConv g P) cg (pickNodes g n x) bp bL bF (G.map fun r => r.map (pickEdge g)) _ hw' num
    (by omega)
  rw [e1, e3] at k1 k2
  by_cases h : cfg.tens.maxDegree.getD (max bL x.L) ≤ bL + x.L
  swap
  · rw [h1 (by omega), k1 (show bL + x.L < cfg.tens.maxDegree.getD (max bL x.L) by omega)]
  obtain ⟨z, a0, a1, a2, a3, a4, a5⟩ := h2 h
  obtain ⟨z', b0, b1, b2, b3, b4, b5⟩ := k2 h
  rw [a0, b0]
  dsimp only
  congr 1
  refine nodes_ext (Bool.eq_iff_iff.2 (b1.trans a1.symm)) (b2.trans a2.symm) b3 ?_ fun i hi => ?_
  · simp [pickNodes, a4, b4]
  · have hi' : i < G.length := by rw [b4] at hi; simpa using hi
    rw [b5 i (by simpa using hi'), hlen]
    simp only [pickNodes, List.getElem?_map, a5 i hi', Option.map_some]
    congr 1
    rw [← pickEnt_sum, List.map_map, List.getElem_map, List.filter_map, List.map_map]
    congr 1
    refine List.map_congr_left fun e _ => ?_
    exact message_pick g n cfg P cg x bp bL bF e

/-- **C99 (no mixing).** What a message passing step puts into a feature depends only on the same feature of the nodes. -/
theorem C99_no_mixing (f : ℕ) (cfg : ConvCfg) (P : ConvParams) (cg : ℕ → ℕ → ℕ → ℝ) (x x' : Nodes)
    (hp : x'.pseudo = x.pseudo) (hL : x'.L = x.L) (hr : x'.rows.length = x.rows.length)
    (hx : ∀ (i : ℕ) (h : i < x.rows.length) (p l : ℕ), x'.rows[i] p l f = x.rows[i] p l f) (bp : Bool)
    (bL bF : ℕ) (E : List Edge) (w : Option (Lead Ent)) (hw : WeightsOf w (.vec (E.map Edge.weight)) E) (num : Option ℕ)
    (hn : 0 < x.rows.length) (hE : ∀ e ∈ E, e.dst < num.getD x.rows.length → e.src < x.rows.length)
    (z z' : Nodes) (hz : messagePass cfg P cg x ⟨bp, bL, bF, .vec (E.map Edge.basis)⟩ w
        { dst := some (E.map Edge.dst), src := some (E.map Edge.src), num := num } = .ok z)
    (hz' : messagePass cfg P cg x' ⟨bp, bL, bF, .vec (E.map Edge.basis)⟩ w
        { dst := some (E.map Edge.dst), src := some (E.map Edge.src), num := num } = .ok z')
    (i : ℕ) (v v' : Ent) (hv : z.rows[i]? = some v) (hv' : z'.rows[i]? = some v') (p l : ℕ) : v' p l f = v p l f := by
  have h := C99_sparse (fun _ => f) 1 cfg P cg x bp bL bF E w hw num hn hE
  have h' := C99_sparse (fun _ => f) 1 cfg P cg x' bp bL bF E w hw num (by omega) (by rw [hr]; exact hE)
  have he : pickNodes (fun _ => f) 1 x' = pickNodes (fun _ => f) 1 x := by
    unfold pickNodes
    rw [hp, hL]
    congr 1
    refine List.ext_getElem (by simp [hr]) fun j h1 h2 => ?_
    simp only [List.getElem_map]
    funext p l _
    exact hx j (by simpa using h2) p l
  rw [he, h, hz, hz'] at h'
  injection h' with h'
  have := congrArg (fun z : Nodes => z.rows[i]?) h'
  simp only [pickNodes, List.getElem?_map, hv, hv', Option.map_some, Option.some_inj] at this
  exact (congrFun (congrFun (congrFun this p) l) 0).symm

-- Non-vacuity: nodes that agree in feature 0 but not in feature 1, and an edge between them.
example : ∃ (x x' : Nodes) (E : List Edge), x.rows.length = x'.rows.length ∧ 0 < x.rows.length ∧
    (∀ (i : ℕ) (h : i < x.rows.length) (h' : i < x'.rows.length) (p l : ℕ), x'.rows[i] p l 0 = x.rows[i] p l 0) ∧
    x.rows ≠ x'.rows ∧ E ≠ [] ∧ ∀ e ∈ E, e.dst < x.rows.length → e.src < x.rows.length := by
  refine ⟨⟨false, 0, 2, [fun _ _ f => f, 1]⟩, ⟨false, 0, 2, [fun _ _ f => 2 * f, 1]⟩, [⟨0, 1, 1, 1⟩], rfl, by simp, ?_, ?_,
    by simp, by simp⟩
  · intro i h h' p l
    match i, h with
    | 0, _ => simp
    | 1, _ => simp
  · intro h
    have := congrArg (fun r : List Ent => r.getD 0 0 0 0 1) h
    norm_num at this

end E3x
