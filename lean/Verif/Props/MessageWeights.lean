import Verif.Model.MessageWeights
import Verif.Spec.MessageWeights
import Verif.Props.Message
import Verif.Props.Validation
import Verif.Props.Features

/-!
# C90: weights of `MessagePass` of any shape
-/

namespace E3x

open Spec

theorem broadcastRev_nil (s : List ℕ) : broadcastRev s [] = s := by cases s <;> rfl

theorem broadcastRev_forall {t p : List ℕ} (h : List.Forall₂ (fun a b => a = b ∨ a = 1) t p) (q : List ℕ) :
    broadcastRev (p ++ q) t = p ++ q := by
  induction h with
  | nil => exact broadcastRev_nil _
  | @cons a b t p h _ ih =>
    rw [List.cons_append]
    unfold broadcastRev
    rw [ih]
    congr 1
    split_ifs <;> omega

theorem broadcastShape_of_to {t s : List ℕ} (h : BroadcastTo t s) : broadcastShape s t = s := by
  obtain ⟨p, q, rfl, h⟩ := h
  unfold broadcastShape
  rw [List.reverse_append, broadcastRev_forall (List.forall₂_reverse_iff.2 h), ← List.reverse_append, List.reverse_reverse]

theorem length_of_to {t s : List ℕ} (h : BroadcastTo t s) : t.length ≤ s.length := by
  obtain ⟨p, q, rfl, h⟩ := h
  rw [List.length_append, h.length_eq]; omega

theorem broadcastTo_refl (s : List ℕ) : BroadcastTo s s := by
  refine ⟨[], s, rfl, ?_⟩
  induction s with
  | nil => exact .nil
  | cons a s ih => exact .cons (Or.inl rfl) ih

theorem isBroadcastable_of_to {t s : List ℕ} (h : BroadcastTo t s) : isBroadcastable s t = true :=
  (C06_is_broadcastable s t).2 ⟨s, broadcastTo_refl s, h⟩

theorem broadcastEntry_eq (w : NDArray ℝ) (idx : List ℕ) (h : w.shape.length ≤ idx.length) :
    broadcastEntry w idx = broadcastAt w idx := by
  unfold broadcastEntry NDArray.stretched broadcastAt
  congr 1
  apply List.ext_getElem
  · simp [NDArray.ndim]; omega
  intro k h1 h2
  simp only [List.length_map, List.length_range] at h2
  simp only [List.getElem_zipWith, List.getElem_map, List.getElem_range, NDArray.ndim, List.getElem_drop,
    List.getD_eq_getElem?_getD, List.getElem?_eq_getElem h2, Option.getD_some]
  rw [List.getElem?_eq_getElem (by omega), Option.getD_some]

theorem extract_features (ps : Bool) (L F : ℕ) : extractMaxDegree [chan ps, (L + 1) ^ 2, F] = .ok (L : ℤ) :=
  (C07_shape_check _ _).2 ⟨[], _, _, _, rfl, by cases ps <;> simp [chan], by omega, by push_cast; ring⟩

/-- The weights with an entry for every entry of the gathered inputs. -/
noncomputable def spread (w : NDArray ℝ) : Lead Ent → Lead Ent
  | .vec xs => .vec (xs.mapIdx fun e _ p i f => broadcastAt w [e, p, i, f])
  | .mat xs => .mat (xs.mapIdx fun e r => r.mapIdx fun k _ p i f => broadcastAt w [e, k, p, i, f])

/-- All rows have the same length. -/
def Lead.Rect {α : Type} : Lead α → Prop
  | .vec _ => True
  | .mat xs => ∀ r ∈ xs, r.length = (xs.headD []).length

theorem chan_beq (ps : Bool) : (chan ps == 2) = ps := by cases ps <;> rfl

theorem weightedArray_eq (ps : Bool) (L F : ℕ) (g : Lead Ent) (hr : g.Rect) (w : NDArray ℝ)
    (hw : BroadcastTo w.shape (g.shape ++ [chan ps, (L + 1) ^ 2, F])) :
    ∃ g', weighted (some (spread w g)) g = some g' ∧ weightedArray ⟨ps, L, F, g⟩ w = .ok ⟨ps, L, F, g'⟩ := by
  have hlen := length_of_to hw
  have hlen' : ¬ (g.shape ++ [chan ps, (L + 1) ^ 2, F]).length < w.ndim := by unfold NDArray.ndim; omega
  cases g with
  | vec xs =>
    unfold weightedArray
    dsimp only
    rw [isBroadcastable_of_to hw, broadcastShape_of_to hw, if_neg (by simp), if_neg hlen']
    dsimp only [Lead.shape, List.cons_append, List.nil_append]
    rw [extract_features]
    dsimp only
    rw [if_neg (by omega)]
    simp only [stretchIndex, if_true, chan_beq, Int.toNat_natCast]
    unfold weighted spread Lead.zipWith?
    dsimp only
    rw [if_pos (by simp)]
    refine ⟨_, rfl, ?_⟩
    congr 3
    apply List.ext_getElem
    · simp
    intro k h1 h2
    have hk : k < xs.length := by simpa using h1
    funext p i f
    simp [List.getD_eq_getElem?_getD, hk, broadcastEntry_eq w [k, p, i, f] (by simpa [Lead.shape] using hlen)]
  | mat xs =>
    unfold weightedArray
    dsimp only
    rw [isBroadcastable_of_to hw, broadcastShape_of_to hw, if_neg (by simp), if_neg hlen']
    dsimp only [Lead.shape, List.cons_append, List.nil_append]
    rw [extract_features]
    dsimp only
    rw [if_neg (by omega)]
    simp only [stretchIndex, if_true, chan_beq, Int.toNat_natCast]
    unfold weighted spread Lead.zipWith?
    dsimp only
    rw [if_pos (by
      apply List.ext_getElem
      · simp
      intro k h1 h2
      simp)]
    refine ⟨_, rfl, ?_⟩
    congr 3
    apply List.ext_getElem
    · simp
    intro k h1 h2
    have hk : k < xs.length := by simpa using h1
    have hm : (xs.headD []).length = xs[k].length := (hr _ (List.getElem_mem hk)).symm
    simp only [List.getElem_map, List.getElem_range, List.getElem_zipWith, List.getElem_mapIdx]
    rw [hm]
    apply List.ext_getElem
    · simp
    intro l h3 h4
    have hl : l < xs[k].length := by simpa using h3
    funext p i f
    simp [List.getD_eq_getElem?_getD, hk, hl, broadcastEntry_eq w [k, l, p, i, f] (by simpa [Lead.shape] using hlen)]

theorem messagePassWeights_eq (cfg : ConvCfg) (P : ConvParams) (cg : ℕ → ℕ → ℕ → ℝ) (x : Nodes) (b : Edges)
    (ix : IndexArgs) (g : Lead Ent) (hg : gatherSrc x.rows ix = .ok g) (hr : g.Rect) (w : NDArray ℝ)
    (hw : BroadcastTo w.shape (g.shape ++ [chan x.pseudo, (x.L + 1) ^ 2, x.F])) :
    messagePassWeights cfg P cg x b (some w) ix = messagePass cfg P cg x b (some (spread w g)) ix := by
  obtain ⟨g', h1, h2⟩ := weightedArray_eq x.pseudo x.L x.F g hr w hw
  unfold messagePassWeights messagePass
  rw [hg]
  dsimp only
  rw [h1, h2]

theorem gatherSrc_sparse (xs : List Ent) (hne : xs ≠ []) (src : List ℕ) (ix : IndexArgs) (h1 : ix.adj = none)
    (h2 : ix.src = some src) :
    gatherSrc xs ix = .ok (.vec (src.map fun i => (xs[min i (xs.length - 1)]?).getD 0)) := by
  unfold gatherSrc
  simp [determineIndexType, h1, h2, gatherSparse_eq (0 : Ent) xs hne]

theorem gatherSrc_dense (xs : List Ent) (hne : xs ≠ []) (adj : List (List ℕ)) (ix : IndexArgs) (h1 : ix.adj = some adj)
    (h2 : ix.src = none) :
    gatherSrc xs ix = .ok (.mat (adj.map fun r => r.map fun i => (xs[min i (xs.length - 1)]?).getD 0)) := by
  unfold gatherSrc
  simp [determineIndexType, h1, h2, gatherDense_eq (0 : Ent) xs hne]

/-- **C90 (meaning, sparse format).** Weights of any shape that can be broadcast to the gathered inputs act as if they were
given for every entry: the result is the sum of the messages in which the features of the source are multiplied with the
broadcast weights. -/
theorem C90_sparse (cfg : ConvCfg) (P : ConvParams) (cg : ℕ → ℕ → ℕ → ℝ) (x : Nodes) (bp : Bool) (bL bF : ℕ)
    (E : List Edge) (w : NDArray ℝ) (num : Option ℕ) (hn : 0 < x.rows.length)
    (hE : ∀ e ∈ E, e.dst < num.getD x.rows.length → e.src < x.rows.length)
    (hw : BroadcastTo w.shape [E.length, chan x.pseudo, (x.L + 1) ^ 2, x.F]) :
    (bL + x.L < cfg.tens.maxDegree.getD (max bL x.L) →
      messagePassWeights cfg P cg x ⟨bp, bL, bF, .vec (E.map Edge.basis)⟩ (some w)
        { dst := some (E.map Edge.dst), src := some (E.map Edge.src), num := num } = .error .valueError) ∧
    (cfg.tens.maxDegree.getD (max bL x.L) ≤ bL + x.L → ∃ z,
      messagePassWeights cfg P cg x ⟨bp, bL, bF, .vec (E.map Edge.basis)⟩ (some w)
        { dst := some (E.map Edge.dst), src := some (E.map Edge.src), num := num } = .ok z ∧
      (z.pseudo = true ↔ cfg.tens.includePseudo = true ∧ ¬ (bp = false ∧ x.pseudo = false ∧
        (bL = 0 ∨ x.L = 0 ∨ cfg.tens.maxDegree.getD (max bL x.L) = 0))) ∧
      z.L = cfg.tens.maxDegree.getD (max bL x.L) ∧ z.F = x.F ∧ z.rows.length = num.getD x.rows.length ∧
      ∀ i < num.getD x.rows.length,
        z.rows[i]? = some ((edgesInto (withWeights w E) i).map (message cfg P cg x bp bL bF)).sum) := by
  have hne : x.rows ≠ [] := List.ne_nil_of_length_pos hn
  have h1 : (withWeights w E).map Edge.basis = E.map Edge.basis := by
    apply List.ext_getElem <;> simp [withWeights]
  have h2 : (withWeights w E).map Edge.dst = E.map Edge.dst := by
    apply List.ext_getElem <;> simp [withWeights]
  have h3 : (withWeights w E).map Edge.src = E.map Edge.src := by
    apply List.ext_getElem <;> simp [withWeights]
  rw [messagePassWeights_eq cfg P cg x _ _ _ (gatherSrc_sparse x.rows hne (E.map Edge.src) _ rfl rfl) trivial w
    (by simpa [Lead.shape] using hw)]
  have h4 : spread w (.vec ((E.map Edge.src).map fun i => (x.rows[min i (x.rows.length - 1)]?).getD 0)) =
      .vec ((withWeights w E).map Edge.weight) := by
    unfold spread withWeights
    dsimp only
    congr 1
    apply List.ext_getElem <;> simp
  rw [h4]
  have := C18_sparse cfg P cg x bp bL bF (withWeights w E) _ (Or.inl rfl) num hn (by
    intro e he
    obtain ⟨k, hk, rfl⟩ := List.mem_mapIdx.1 he
    exact hE E[k] (List.getElem_mem hk))
  rwa [h1, h2, h3] at this

/-- **C90 (meaning, dense format).** -/
theorem C90_dense (cfg : ConvCfg) (P : ConvParams) (cg : ℕ → ℕ → ℕ → ℝ) (x : Nodes) (bp : Bool) (bL bF : ℕ)
    (G : List (List Edge)) (M : ℕ) (hG : G ≠ []) (hM : ∀ r ∈ G, r.length = M) (w : NDArray ℝ) (num : Option ℕ)
    (hn : 0 < x.rows.length) (hw : BroadcastTo w.shape [G.length, M, chan x.pseudo, (x.L + 1) ^ 2, x.F]) :
    (bL + x.L < cfg.tens.maxDegree.getD (max bL x.L) →
      messagePassWeights cfg P cg x ⟨bp, bL, bF, .mat (G.map fun r => r.map Edge.basis)⟩ (some w)
        { adj := some (G.map fun r => r.map Edge.src), num := num } = .error .valueError) ∧
    (cfg.tens.maxDegree.getD (max bL x.L) ≤ bL + x.L → ∃ z,
      messagePassWeights cfg P cg x ⟨bp, bL, bF, .mat (G.map fun r => r.map Edge.basis)⟩ (some w)
        { adj := some (G.map fun r => r.map Edge.src), num := num } = .ok z ∧
      (z.pseudo = true ↔ cfg.tens.includePseudo = true ∧ ¬ (bp = false ∧ x.pseudo = false ∧
        (bL = 0 ∨ x.L = 0 ∨ cfg.tens.maxDegree.getD (max bL x.L) = 0))) ∧
      z.L = cfg.tens.maxDegree.getD (max bL x.L) ∧ z.F = x.F ∧ z.rows.length = G.length ∧
      ∀ i < G.length, z.rows[i]? =
        some ((((withWeightsDense w G).getD i []).filter fun e => e.src < x.rows.length).map
          (message cfg P cg x bp bL bF)).sum) := by
  have hne : x.rows ≠ [] := List.ne_nil_of_length_pos hn
  have h1 : ((withWeightsDense w G).map fun r => r.map Edge.basis) = G.map fun r => r.map Edge.basis := by
    apply List.ext_getElem
    · simp [withWeightsDense]
    intro k _ _
    apply List.ext_getElem <;> simp [withWeightsDense]
  have h3 : ((withWeightsDense w G).map fun r => r.map Edge.src) = G.map fun r => r.map Edge.src := by
    apply List.ext_getElem
    · simp [withWeightsDense]
    intro k _ _
    apply List.ext_getElem <;> simp [withWeightsDense]
  have hh : ((G.map fun r => r.map Edge.src).map fun r => r.map fun i => (x.rows[min i (x.rows.length - 1)]?).getD
      (0 : Ent)).headD [] = ((G.headD []).map Edge.src).map fun i => (x.rows[min i (x.rows.length - 1)]?).getD (0 : Ent) := by
    cases G <;> rfl
  have hM0 : (G.headD []).length = M := by
    cases G with
    | nil => exact absurd rfl hG
    | cons r G => exact hM r (by simp)
  rw [messagePassWeights_eq cfg P cg x _ _ _
    (gatherSrc_dense x.rows hne (G.map fun r => r.map Edge.src) _ rfl rfl) (by
      intro r hr
      rw [hh]
      simp only [List.mem_map] at hr
      obtain ⟨r', ⟨r'', h'', rfl⟩, rfl⟩ := hr
      rw [List.length_map, List.length_map, List.length_map, List.length_map, hM _ h'', hM0]) w (by
      unfold Lead.shape
      dsimp only
      rw [hh, List.length_map, List.length_map, List.length_map, List.length_map, hM0]
      exact hw)]
  have h4 : spread w (.mat ((G.map fun r => r.map Edge.src).map fun r => r.map fun i =>
      (x.rows[min i (x.rows.length - 1)]?).getD 0)) = .mat ((withWeightsDense w G).map fun r => r.map Edge.weight) := by
    unfold spread withWeightsDense
    dsimp only
    congr 1
    apply List.ext_getElem
    · simp
    intro k _ _
    apply List.ext_getElem <;> simp
  rw [h4]
  have hl : (withWeightsDense w G).length = G.length := by simp [withWeightsDense]
  have := C18_dense cfg P cg x bp bL bF (withWeightsDense w G) _ (Or.inl rfl) num hn
  rw [h1, h3] at this
  refine ⟨this.1, fun h => ?_⟩
  obtain ⟨z, a0, a1, a2, a3, a4, a5⟩ := this.2 h
  refine ⟨z, a0, a1, a2, a3, a4.trans hl, fun i hi => ?_⟩
  rw [a5 i (hl ▸ hi), List.getD_eq_getElem?_getD, List.getElem?_eq_getElem (hl ▸ hi), Option.getD_some]

/-- Without weights nothing changes. -/
theorem C90_none (cfg : ConvCfg) (P : ConvParams) (cg : ℕ → ℕ → ℕ → ℝ) (x : Nodes) (b : Edges) (ix : IndexArgs) :
    messagePassWeights cfg P cg x b none ix = messagePass cfg P cg x b none ix := by
  unfold messagePassWeights messagePass weighted
  cases gatherSrc x.rows ix <;> rfl

theorem ent_sum (l : List Ent) (p n f : ℕ) : l.sum p n f = (l.map fun v => v p n f).sum := by
  induction l with
  | nil => rfl
  | cons v l ih => rw [List.sum_cons, List.map_cons, List.sum_cons, ← ih]; rfl

theorem perEdge_sparse {w : NDArray ℝ} (h : PerEdgeAndFeature w) (hl : w.shape.length ≤ 4) (k p i f : ℕ) :
    broadcastAt w [k, p, i, f] = broadcastAt w [k, 0, 0, f] := by
  unfold PerEdgeAndFeature at h
  unfold broadcastAt
  rcases hs : w.shape with _ | ⟨a, _ | ⟨b, _ | ⟨c, _ | ⟨d, _ | ⟨e, s⟩⟩⟩⟩⟩
  all_goals
    rw [hs] at h hl
    first
    | (exfalso; simp at hl; omega)
    | simp_all [List.range_succ]

theorem perEdge_dense {w : NDArray ℝ} (h : PerEdgeAndFeature w) (hl : w.shape.length ≤ 5) (j k p i f : ℕ) :
    broadcastAt w [j, k, p, i, f] = broadcastAt w [j, k, 0, 0, f] := by
  unfold PerEdgeAndFeature at h
  unfold broadcastAt
  rcases hs : w.shape with _ | ⟨a, _ | ⟨b, _ | ⟨c, _ | ⟨d, _ | ⟨e, _ | ⟨e', s⟩⟩⟩⟩⟩⟩
  all_goals
    rw [hs] at h hl
    first
    | (exfalso; simp at hl; omega)
    | simp_all [List.range_succ]

/-- **C90 (documented formula, sparse format).** Weights which are the same for all components of an edge multiply the
messages: `m[i]` is the sum of `w[ij] tensor(x[j], f[ij])` over the edges that end in `i`. -/
theorem C90_documented (cfg : ConvCfg) (P : ConvParams) (cg : ℕ → ℕ → ℕ → ℝ) (x : Nodes) (bp : Bool) (bL bF : ℕ)
    (E : List Edge) (w : NDArray ℝ) (num : Option ℕ) (hn : 0 < x.rows.length)
    (hE : ∀ e ∈ E, e.dst < num.getD x.rows.length → e.src < x.rows.length)
    (hw : BroadcastTo w.shape [E.length, chan x.pseudo, (x.L + 1) ^ 2, x.F]) (hw' : PerEdgeAndFeature w) (z : Nodes)
    (hz : messagePassWeights cfg P cg x ⟨bp, bL, bF, .vec (E.map Edge.basis)⟩ (some w)
        { dst := some (E.map Edge.dst), src := some (E.map Edge.src), num := num } = .ok z)
    (i p n f : ℕ) (hi : i < num.getD x.rows.length) (hp : p < chan z.pseudo) (hn' : n < (z.L + 1) ^ 2) (hf : f < x.F) :
    z.rows.getD i 0 p n f = ((E.zipIdx.filter fun e => e.1.dst = i).map fun e =>
      broadcastAt w [e.2, 0, 0, f] *
        message cfg P cg x bp bL bF { e.1 with weight := fun _ _ _ => 1 } p n f).sum := by
  obtain ⟨h1, h2⟩ := C90_sparse cfg P cg x bp bL bF E w num hn hE hw
  by_cases h : cfg.tens.maxDegree.getD (max bL x.L) ≤ bL + x.L
  swap
  · rw [h1 (by omega)] at hz; cases hz
  obtain ⟨z', a0, a1, a2, a3, a4, a5⟩ := h2 h
  rw [hz] at a0; injection a0 with a0; subst a0
  rw [List.getD_eq_getElem?_getD, a5 i hi, Option.getD_some, ent_sum, List.map_map]
  have hE' : edgesInto (withWeights w E) i = (E.zipIdx.filter fun e => e.1.dst = i).map fun e =>
      { e.1 with weight := fun p i f => broadcastAt w [e.2, p, i, f] } := by
    unfold edgesInto withWeights
    rw [List.mapIdx_eq_zipIdx_map, List.filter_map]
    rfl
  rw [hE', List.map_map]
  congr 1
  apply List.map_congr_left
  intro e _
  have hc : ∀ p i f, broadcastAt w [e.2, p, i, f] = broadcastAt w [e.2, 0, 0, f] := fun p i f =>
    perEdge_sparse hw' (length_of_to hw) _ _ _ _
  simp only [Function.comp, hc]
  exact C18_weights cfg P cg x bp bL bF e.1 (fun f => broadcastAt w [e.2, 0, 0, f]) z.pseudo h a1 p n f hp (a2 ▸ hn') hf

/-- **C90 (documented formula, dense format).** -/
theorem C90_documented_dense (cfg : ConvCfg) (P : ConvParams) (cg : ℕ → ℕ → ℕ → ℝ) (x : Nodes) (bp : Bool) (bL bF : ℕ)
    (G : List (List Edge)) (M : ℕ) (hG : G ≠ []) (hM : ∀ r ∈ G, r.length = M) (w : NDArray ℝ) (num : Option ℕ)
    (hn : 0 < x.rows.length) (hw : BroadcastTo w.shape [G.length, M, chan x.pseudo, (x.L + 1) ^ 2, x.F])
    (hw' : PerEdgeAndFeature w) (z : Nodes)
    (hz : messagePassWeights cfg P cg x ⟨bp, bL, bF, .mat (G.map fun r => r.map Edge.basis)⟩ (some w)
        { adj := some (G.map fun r => r.map Edge.src), num := num } = .ok z)
    (i p n f : ℕ) (hi : i < G.length) (hp : p < chan z.pseudo) (hn' : n < (z.L + 1) ^ 2) (hf : f < x.F) :
    z.rows.getD i 0 p n f = ((G[i].zipIdx.filter fun e => e.1.src < x.rows.length).map fun e =>
      broadcastAt w [i, e.2, 0, 0, f] *
        message cfg P cg x bp bL bF { e.1 with weight := fun _ _ _ => 1 } p n f).sum := by
  obtain ⟨h1, h2⟩ := C90_dense cfg P cg x bp bL bF G M hG hM w num hn hw
  by_cases h : cfg.tens.maxDegree.getD (max bL x.L) ≤ bL + x.L
  swap
  · rw [h1 (by omega)] at hz; cases hz
  obtain ⟨z', a0, a1, a2, a3, a4, a5⟩ := h2 h
  rw [hz] at a0; injection a0 with a0; subst a0
  rw [List.getD_eq_getElem?_getD, a5 i hi, Option.getD_some, ent_sum, List.map_map]
  have hE' : ((withWeightsDense w G).getD i []).filter (fun e => e.src < x.rows.length) =
      (G[i].zipIdx.filter fun e => e.1.src < x.rows.length).map fun e =>
      { e.1 with weight := fun p n f => broadcastAt w [i, e.2, p, n, f] } := by
    unfold withWeightsDense
    rw [List.getD_eq_getElem?_getD, List.getElem?_mapIdx, List.getElem?_eq_getElem hi, Option.map_some, Option.getD_some,
      List.mapIdx_eq_zipIdx_map, List.filter_map]
    rfl
  rw [hE', List.map_map]
  congr 1
  apply List.map_congr_left
  intro e _
  have hc : ∀ p n f, broadcastAt w [i, e.2, p, n, f] = broadcastAt w [i, e.2, 0, 0, f] := fun p n f =>
    perEdge_dense hw' (length_of_to hw) _ _ _ _ _
  simp only [Function.comp, hc]
  exact C18_weights cfg P cg x bp bL bF e.1 (fun f => broadcastAt w [i, e.2, 0, 0, f]) z.pseudo h a1 p n f hp (a2 ▸ hn') hf

/-- **C90 (rejected weights).** If weights and gathered inputs have no common broadcast shape, `ValueError` is raised. -/
theorem C90_rejected (cfg : ConvCfg) (P : ConvParams) (cg : ℕ → ℕ → ℕ → ℝ) (x : Nodes) (b : Edges) (w : NDArray ℝ)
    (ix : IndexArgs) (src : List ℕ) (h1 : ix.adj = none) (h2 : ix.src = some src) (hn : 0 < x.rows.length)
    (hw : ¬ ∃ u, BroadcastTo [src.length, chan x.pseudo, (x.L + 1) ^ 2, x.F] u ∧ BroadcastTo w.shape u) :
    messagePassWeights cfg P cg x b (some w) ix = .error .valueError := by
  unfold messagePassWeights weightedArray
  rw [gatherSrc_sparse x.rows (List.ne_nil_of_length_pos hn) src ix h1 h2]
  dsimp only
  rw [if_pos]
  rw [← C06_is_broadcastable] at hw
  simpa [Lead.shape] using hw

/-- The same for the dense format. -/
theorem C90_rejected_dense (cfg : ConvCfg) (P : ConvParams) (cg : ℕ → ℕ → ℕ → ℝ) (x : Nodes) (b : Edges) (w : NDArray ℝ)
    (ix : IndexArgs) (adj : List (List ℕ)) (M : ℕ) (hadj : adj ≠ []) (hM : ∀ r ∈ adj, r.length = M)
    (h1 : ix.adj = some adj) (h2 : ix.src = none) (hn : 0 < x.rows.length)
    (hw : ¬ ∃ u, BroadcastTo [adj.length, M, chan x.pseudo, (x.L + 1) ^ 2, x.F] u ∧ BroadcastTo w.shape u) :
    messagePassWeights cfg P cg x b (some w) ix = .error .valueError := by
  unfold messagePassWeights weightedArray
  rw [gatherSrc_dense x.rows (List.ne_nil_of_length_pos hn) adj ix h1 h2]
  dsimp only
  rw [if_pos]
  rw [← C06_is_broadcastable] at hw
  cases adj with
  | nil => exact absurd rfl hadj
  | cons r adj => simpa [Lead.shape, hM r] using hw

/-- A list of indices that fits the weights. -/
def FitsWeights (x : Nodes) (w : NDArray ℝ) (ix : IndexArgs) : Prop :=
  (∃ src, ix.adj = none ∧ ix.src = some src ∧
    BroadcastTo w.shape [src.length, chan x.pseudo, (x.L + 1) ^ 2, x.F]) ∨
  (∃ adj M, ix.adj = some adj ∧ ix.src = none ∧ adj ≠ [] ∧ (∀ r ∈ adj, r.length = M) ∧
    BroadcastTo w.shape [adj.length, M, chan x.pseudo, (x.L + 1) ^ 2, x.F])

theorem forall₂_mapIdx_self {α β : Type} {R : β → β → Prop} (g : ℕ → α → β) (h : ∀ k a, R (g k a) (g k a)) (l : List α) :
    List.Forall₂ R (l.mapIdx g) (l.mapIdx g) := by
  rw [List.forall₂_iff_get]
  refine ⟨rfl, fun k h1 h2 => ?_⟩
  simp only [List.get_eq_getElem, List.getElem_mapIdx]
  exact h _ _

/-- **C90 (rotations, reflections).** With weights that are the same for all components of an edge the layer is
equivariant. -/
theorem C90_equivariant {cg : ℕ → ℕ → ℕ → ℝ} {A : Feat → Feat} (hA : IsSymmetry cg A) (cfg : ConvCfg)
    (P : ConvParams) (x : Nodes) (b : Edges) (w : NDArray ℝ) (ix : IndexArgs) (hn : 0 < x.rows.length)
    (hw : FitsWeights x w ix) (hw' : PerEdgeAndFeature w) :
    (∀ z, messagePassWeights cfg P cg x b (some w) ix = .ok z →
      ∃ z', messagePassWeights cfg P cg (actNodes A x) (actEdges A b) (some w) ix = .ok z' ∧
        SameNodes z' (actNodes A z)) ∧
    (∀ e, messagePassWeights cfg P cg x b (some w) ix = .error e →
      messagePassWeights cfg P cg (actNodes A x) (actEdges A b) (some w) ix = .error e) := by
  have hne : x.rows ≠ [] := List.ne_nil_of_length_pos hn
  have hne' : (actNodes A x).rows ≠ [] := by simpa [actNodes] using hne
  rcases hw with ⟨src, h1, h2, hw⟩ | ⟨adj, M, h1, h2, hadj, hM, hw⟩
  · rw [messagePassWeights_eq cfg P cg x _ _ _ (gatherSrc_sparse x.rows hne src ix h1 h2) trivial w
        (by simpa [Lead.shape] using hw),
      messagePassWeights_eq cfg P cg (actNodes A x) _ _ _ (gatherSrc_sparse (actNodes A x).rows hne' src ix h1 h2) trivial w
        (by simpa [Lead.shape, actNodes] using hw)]
    have hs : spread w (.vec (src.map fun i => ((actNodes A x).rows[min i ((actNodes A x).rows.length - 1)]?).getD 0)) =
        spread w (.vec (src.map fun i => (x.rows[min i (x.rows.length - 1)]?).getD 0)) := by
      unfold spread
      dsimp only
      congr 1
      apply List.ext_getElem <;> simp
    rw [hs]
    refine C18_message_pass hA cfg P x b _ ?_ ix
    intro l hl
    injection hl with hl
    subst hl
    exact .vec (forall₂_mapIdx_self _ (fun k _ => ⟨rfl, fun p i f =>
      perEdge_sparse hw' (length_of_to hw) k p i f⟩) _)
  · have hlen : ∀ xs : List Ent, ((adj.map fun r => r.map fun i => (xs[min i (xs.length - 1)]?).getD 0).headD []).length =
        M := by
      intro xs
      cases adj with
      | nil => exact absurd rfl hadj
      | cons r adj => simp [hM r]
    have hrect : ∀ xs : List Ent, (Lead.mat (adj.map fun r => r.map fun i => (xs[min i (xs.length - 1)]?).getD 0)).Rect := by
      intro xs r hr
      rw [hlen]
      obtain ⟨r', h', rfl⟩ := List.mem_map.1 hr
      rw [List.length_map, hM _ h']
    rw [messagePassWeights_eq cfg P cg x _ _ _ (gatherSrc_dense x.rows hne adj ix h1 h2) (hrect _) w
        (by rw [Lead.shape, hlen, List.length_map]; exact hw),
      messagePassWeights_eq cfg P cg (actNodes A x) _ _ _ (gatherSrc_dense (actNodes A x).rows hne' adj ix h1 h2) (hrect _) w
        (by rw [Lead.shape, hlen, List.length_map]; exact hw)]
    have hs : spread w (.mat (adj.map fun r => r.map fun i =>
          ((actNodes A x).rows[min i ((actNodes A x).rows.length - 1)]?).getD 0)) =
        spread w (.mat (adj.map fun r => r.map fun i => (x.rows[min i (x.rows.length - 1)]?).getD 0)) := by
      unfold spread
      dsimp only
      congr 1
      apply List.ext_getElem
      · simp
      intro k _ _
      apply List.ext_getElem <;> simp
    rw [hs]
    refine C18_message_pass hA cfg P x b _ ?_ ix
    intro l hl
    injection hl with hl
    subst hl
    refine .mat (forall₂_mapIdx_self _ (fun j r => forall₂_mapIdx_self _ (fun k _ => ⟨rfl, fun p i f =>
      perEdge_dense hw' (length_of_to hw) j k p i f⟩) r) _)

/-- The inputs with their entries copied along axes of extent one, to the given extents. -/
def copied (x : Nodes) (ps : Bool) (L F : ℕ) : Nodes :=
  ⟨ps, L, F, x.rows.map fun v p i f =>
    v (if x.pseudo = ps then p else 0) (if x.L = L then i else 0) (if x.F = F then f else 0)⟩

theorem copied_get (x : Nodes) (ps : Bool) (L F j : ℕ) (h : x.rows ≠ []) (p i f : ℕ) :
    ((copied x ps L F).rows[min j ((copied x ps L F).rows.length - 1)]?).getD 0 p i f =
      (x.rows[min j (x.rows.length - 1)]?).getD 0
        (if x.pseudo = ps then p else 0) (if x.L = L then i else 0) (if x.F = F then f else 0) := by
  have hlt : min j (x.rows.length - 1) < x.rows.length := by
    have := List.length_pos_of_ne_nil h
    omega
  simp [copied, hlt]

theorem stretch_chan (ps ps' : Bool) (p : ℕ) :
    stretchIndex (chan ps) (chan ps') p = if ps = ps' then p else 0 := by
  cases ps <;> cases ps' <;> simp [stretchIndex, chan]

theorem stretch_deg (L L' i : ℕ) : stretchIndex ((L + 1) ^ 2) ((L' + 1) ^ 2) i = if L = L' then i else 0 := by
  unfold stretchIndex
  by_cases h : L = L'
  · simp [h]
  · rw [if_neg h, if_neg]
    intro h'
    exact h (by have := Nat.pow_left_injective (n := 2) (by omega) h'; omega)

/-- **C90 (weights wider than the inputs, sparse format).** What happens instead of the documented `ValueError`: if the
weights have more parity channels, degrees or features than the inputs, and the inputs extent one in these axes, the entries
of the inputs are copied to all parities, components or features. -/
theorem C90_copied (cfg : ConvCfg) (P : ConvParams) (cg : ℕ → ℕ → ℕ → ℝ) (x : Nodes) (b : Edges) (w : NDArray ℝ)
    (ix : IndexArgs) (src : List ℕ) (h1 : ix.adj = none) (h2 : ix.src = some src) (hn : 0 < x.rows.length)
    (a : ℕ) (ps : Bool) (L F : ℕ) (hw : w.shape = [a, chan ps, (L + 1) ^ 2, F]) (ha : a = src.length ∨ a = 1)
    (hps : x.pseudo = ps ∨ x.pseudo = false) (hL : x.L = L ∨ x.L = 0) (hF : x.F = F ∨ x.F = 1) :
    messagePassWeights cfg P cg x b (some w) ix = messagePassWeights cfg P cg (copied x ps L F) b (some w) ix := by
  have hne : x.rows ≠ [] := List.ne_nil_of_length_pos hn
  have hne' : (copied x ps L F).rows ≠ [] := by simpa [copied] using hne
  have hlen : (copied x ps L F).rows.length = x.rows.length := by simp [copied]
  have hc1 : chan x.pseudo = chan ps ∨ chan x.pseudo = 1 := by rcases hps with h | h <;> simp [h, chan]
  have hc2 : (x.L + 1) ^ 2 = (L + 1) ^ 2 ∨ (x.L + 1) ^ 2 = 1 := by rcases hL with h | h <;> simp [h]
  have hb : isBroadcastable [src.length, chan x.pseudo, (x.L + 1) ^ 2, x.F] w.shape = true := by
    rw [C06_is_broadcastable]
    refine ⟨[src.length, chan ps, (L + 1) ^ 2, F], ⟨[], _, rfl, ?_⟩, ⟨[], _, rfl, ?_⟩⟩
    · simp only [List.forall₂_cons, List.forall₂_nil_left_iff, and_true]
      exact ⟨Or.inl trivial, hc1, hc2, hF⟩
    · simp only [hw, List.forall₂_cons, List.forall₂_nil_left_iff, and_true]
      exact ⟨ha, Or.inl trivial, Or.inl trivial, Or.inl trivial⟩
  have hs : broadcastShape [src.length, chan x.pseudo, (x.L + 1) ^ 2, x.F] w.shape =
      [src.length, chan ps, (L + 1) ^ 2, F] := by
    rw [hw]
    simp only [broadcastShape, List.reverse_cons, List.reverse_nil, List.nil_append, List.cons_append, broadcastRev]
    congr 1
    · split_ifs <;> omega
    congr 1
    · split_ifs <;> omega
    congr 1
    · split_ifs <;> omega
    congr 1
    · split_ifs <;> omega
  have hw' : BroadcastTo w.shape [src.length, chan ps, (L + 1) ^ 2, F] := by
    refine ⟨[], _, rfl, ?_⟩
    simp only [hw, List.forall₂_cons, List.forall₂_nil_left_iff, and_true]
    exact ⟨ha, Or.inl trivial, Or.inl trivial, Or.inl trivial⟩
  unfold messagePassWeights
  rw [gatherSrc_sparse x.rows hne src ix h1 h2, gatherSrc_sparse (copied x ps L F).rows hne' src ix h1 h2, hlen]
  dsimp only
  have key : weightedArray ⟨x.pseudo, x.L, x.F, .vec (src.map fun i => (x.rows[min i (x.rows.length - 1)]?).getD 0)⟩ w =
      weightedArray ⟨(copied x ps L F).pseudo, (copied x ps L F).L, (copied x ps L F).F,
        .vec (src.map fun i => ((copied x ps L F).rows[min i (x.rows.length - 1)]?).getD 0)⟩ w := by
    unfold weightedArray
    dsimp only [Lead.shape]
    have e1 : (copied x ps L F).pseudo = ps := rfl
    have e2 : (copied x ps L F).L = L := rfl
    have e3 : (copied x ps L F).F = F := rfl
    simp only [List.length_map, List.cons_append, List.nil_append, e1, e2, e3]
    rw [hb, hs, isBroadcastable_of_to hw', broadcastShape_of_to hw']
    simp only [Bool.not_true, Bool.false_eq_true, if_false, List.length_cons, List.length_nil]
    split_ifs
    · rfl
    rw [extract_features]
    dsimp only
    split_ifs
    · rfl
    congr 3
    apply List.map_congr_left
    intro e he
    have he : e < src.length := by simpa using he
    funext p i f
    congr 1
    simp only [stretch_chan, stretch_deg]
    have hg := copied_get x ps L F src[e] hne p i f
    rw [hlen] at hg
    simp only [stretchIndex, List.length_map, if_true, List.getD_eq_getElem?_getD, List.getElem?_map, List.getElem?_eq_getElem he,
      Option.map_some, Option.getD_some]
    rw [hg]
  rw [key]

/-- **C90 (weights wider than the inputs, dense format).** -/
theorem C90_copied_dense (cfg : ConvCfg) (P : ConvParams) (cg : ℕ → ℕ → ℕ → ℝ) (x : Nodes) (b : Edges) (w : NDArray ℝ)
    (ix : IndexArgs) (adj : List (List ℕ)) (M : ℕ) (hadj : adj ≠ []) (hM : ∀ r ∈ adj, r.length = M) (h1 : ix.adj = some adj)
    (h2 : ix.src = none) (hn : 0 < x.rows.length) (a a' : ℕ) (ps : Bool) (L F : ℕ) (hw : w.shape = [a, a', chan ps, (L + 1) ^ 2, F]) (ha : a = adj.length ∨ a = 1)
    (ha' : a' = M ∨ a' = 1)
    (hps : x.pseudo = ps ∨ x.pseudo = false) (hL : x.L = L ∨ x.L = 0) (hF : x.F = F ∨ x.F = 1) :
    messagePassWeights cfg P cg x b (some w) ix = messagePassWeights cfg P cg (copied x ps L F) b (some w) ix := by
  have hne : x.rows ≠ [] := List.ne_nil_of_length_pos hn
  have hne' : (copied x ps L F).rows ≠ [] := by simpa [copied] using hne
  have hlen : (copied x ps L F).rows.length = x.rows.length := by simp [copied]
  have hc1 : chan x.pseudo = chan ps ∨ chan x.pseudo = 1 := by rcases hps with h | h <;> simp [h, chan]
  have hc2 : (x.L + 1) ^ 2 = (L + 1) ^ 2 ∨ (x.L + 1) ^ 2 = 1 := by rcases hL with h | h <;> simp [h]
  have hb : isBroadcastable [adj.length, M, chan x.pseudo, (x.L + 1) ^ 2, x.F] w.shape = true := by
    rw [C06_is_broadcastable]
    refine ⟨[adj.length, M, chan ps, (L + 1) ^ 2, F], ⟨[], _, rfl, ?_⟩, ⟨[], _, rfl, ?_⟩⟩
    · simp only [List.forall₂_cons, List.forall₂_nil_left_iff, and_true]
      exact ⟨Or.inl trivial, Or.inl trivial, hc1, hc2, hF⟩
    · simp only [hw, List.forall₂_cons, List.forall₂_nil_left_iff, and_true]
      exact ⟨ha, ha', Or.inl trivial, Or.inl trivial, Or.inl trivial⟩
  have hs : broadcastShape [adj.length, M, chan x.pseudo, (x.L + 1) ^ 2, x.F] w.shape =
      [adj.length, M, chan ps, (L + 1) ^ 2, F] := by
    rw [hw]
    simp only [broadcastShape, List.reverse_cons, List.reverse_nil, List.nil_append, List.cons_append, broadcastRev]
    congr 1
    · split_ifs <;> omega
    congr 1
    · split_ifs <;> omega
    congr 1
    · split_ifs <;> omega
    congr 1
    · split_ifs <;> omega
    congr 1
    · split_ifs <;> omega
  have hw' : BroadcastTo w.shape [adj.length, M, chan ps, (L + 1) ^ 2, F] := by
    refine ⟨[], _, rfl, ?_⟩
    simp only [hw, List.forall₂_cons, List.forall₂_nil_left_iff, and_true]
    exact ⟨ha, ha', Or.inl trivial, Or.inl trivial, Or.inl trivial⟩
  unfold messagePassWeights
  rw [gatherSrc_dense x.rows hne adj ix h1 h2, gatherSrc_dense (copied x ps L F).rows hne' adj ix h1 h2, hlen]
  dsimp only
  have key : weightedArray ⟨x.pseudo, x.L, x.F, .mat (adj.map fun r => r.map fun i => (x.rows[min i (x.rows.length - 1)]?).getD 0)⟩ w =
      weightedArray ⟨(copied x ps L F).pseudo, (copied x ps L F).L, (copied x ps L F).F,
        .mat (adj.map fun r => r.map fun i => ((copied x ps L F).rows[min i (x.rows.length - 1)]?).getD 0)⟩ w := by
    unfold weightedArray
    dsimp only [Lead.shape]
    have e1 : (copied x ps L F).pseudo = ps := rfl
    have e2 : (copied x ps L F).L = L := rfl
    have e3 : (copied x ps L F).F = F := rfl
    have hh : ∀ g : ℕ → Ent, ((adj.map fun r => r.map g).headD []).length = M := by
      intro g
      cases adj with
      | nil => exact absurd rfl hadj
      | cons r adj => simp [hM r]
    simp only [List.length_map, List.cons_append, List.nil_append, e1, e2, e3, hh]
    rw [hb, hs, isBroadcastable_of_to hw', broadcastShape_of_to hw']
    simp only [Bool.not_true, Bool.false_eq_true, if_false, List.length_cons, List.length_nil]
    split_ifs
    · rfl
    rw [extract_features]
    dsimp only
    split_ifs
    · rfl
    congr 3
    apply List.map_congr_left
    intro e he
    have he : e < adj.length := by simpa using he
    apply List.map_congr_left
    intro j hj
    have hj : j < adj[e].length := by rw [hM _ (List.getElem_mem he)]; simpa using hj
    funext p i f
    congr 1
    simp only [stretch_chan, stretch_deg]
    have hg := copied_get x ps L F adj[e][j] hne p i f
    rw [hlen] at hg
    simp only [stretchIndex, List.length_map, hh, if_true, List.getD_eq_getElem?_getD, List.getElem?_map,
      List.getElem?_eq_getElem he, List.getElem?_eq_getElem hj, Option.map_some, Option.getD_some]
    rw [hg]
  rw [key]

/-- **C90 (violation).** Weights that cannot be broadcast to the gathered inputs do not always raise the documented
`ValueError`: the check accepts weights with more parity channels than the inputs. Here the inputs and the basis functions
are scalars, which do not change under reflection, but the result has a pseudoscalar different from zero: it does change. -/
theorem C90_wide :
    let x : Nodes := ⟨false, 0, 1, [fun _ _ _ => 1]⟩
    let b : Edges := ⟨false, 0, 1, .vec [fun _ _ _ => 1]⟩
    let w : NDArray ℝ := ⟨[1, 2, 1, 1], fun _ => 1⟩
    ¬ BroadcastTo w.shape [1, 1, 1, 1] ∧ actNodes reflect x = x ∧ actEdges reflect b = b ∧
    ∃ z, messagePassWeights ⟨⟨none, true⟩, false⟩ ⟨⟨fun _ _ _ _ => 1, fun _ => 0⟩, .tensor fun _ _ _ _ _ _ _ => 1⟩
        (fun _ _ _ => 1) x b (some w) { dst := some [0], src := some [0] } = .ok z ∧
      z.pseudo = true ∧ z.rows.getD 0 0 1 0 0 = 1 ∧ ¬ SameNodes z (actNodes reflect z) := by
  intro x b w
  refine ⟨?_, ?_, ?_, ?_⟩
  · rintro ⟨pre, suf, h, hf⟩
    have hl := hf.length_eq
    have h' := congrArg List.length h
    simp only [w, List.length_append, List.length_cons, List.length_nil] at hl h'
    have : pre = [] := List.eq_nil_of_length_eq_zero (by omega)
    subst this
    rw [List.nil_append] at h
    subst h
    simp [w] at hf
  · simp [x, actNodes, reflect, Nodes.feat, oddDegrees]
  · simp [b, actEdges, reflect, Edges.feat, oddDegrees, Lead.map]
  · have hext := extract_features true 0 1
    simp only [chan, if_true, Nat.zero_add, one_pow] at hext
    have h1 : weightedArray ⟨false, 0, 1, .vec [fun _ _ _ => 1]⟩ w = .ok ⟨true, 0, 1, .vec [fun _ _ _ => 1]⟩ := by
      unfold weightedArray
      simp [w, Lead.shape, chan, isBroadcastable, NDArray.ndim, broadcastShape, broadcastRev, hext, stretchIndex,
        broadcastEntry, NDArray.stretched, entry]
    let x' : Nodes := ⟨true, 0, 1, [fun _ _ _ => 1]⟩
    let e : Edge := ⟨0, 0, fun _ _ _ => 1, fun _ _ _ => 1⟩
    have h2 : messagePassWeights ⟨⟨none, true⟩, false⟩
        ⟨⟨fun _ _ _ _ => 1, fun _ => 0⟩, .tensor fun _ _ _ _ _ _ _ => 1⟩
        (fun _ _ _ => 1) x b (some w) { dst := some [0], src := some [0] } =
        messagePass ⟨⟨none, true⟩, false⟩ ⟨⟨fun _ _ _ _ => 1, fun _ => 0⟩, .tensor fun _ _ _ _ _ _ _ => 1⟩
        (fun _ _ _ => 1) x' ⟨false, 0, 1, .vec ([e].map Edge.basis)⟩ none
        { dst := some ([e].map Edge.dst), src := some ([e].map Edge.src) } := by
      unfold messagePassWeights messagePass
      rw [gatherSrc_sparse x.rows (by simp [x]) [0] _ rfl rfl, gatherSrc_sparse x'.rows (by simp [x']) [0] _ rfl rfl]
      simp [x, x', weighted, h1, b, e]
    rw [h2]
    obtain ⟨z, a0, a1, a2, a3, a4, a5⟩ := (C18_sparse ⟨⟨none, true⟩, false⟩
      ⟨⟨fun _ _ _ _ => 1, fun _ => 0⟩, .tensor fun _ _ _ _ _ _ _ => 1⟩
      (fun _ _ _ => 1) x' false 0 1 [e] none (Or.inr ⟨rfl, by simp [e]⟩) none (by simp [x']) (by simp [e, x'])).2 (by simp)
    have hps : z.pseudo = true := a1.2 ⟨rfl, by simp [x']⟩
    have hz : z.rows[0]? = some (message ⟨⟨none, true⟩, false⟩
      ⟨⟨fun _ _ _ _ => 1, fun _ => 0⟩, .tensor fun _ _ _ _ _ _ _ => 1⟩ (fun _ _ _ => 1) x' false 0 1 e) := by
      rw [a5 0 (by simp [x'])]
      simp [edgesInto, e]
    have hv : z.rows.getD 0 0 1 0 0 = 1 := by
      rw [List.getD_eq_getElem?_getD, hz, Option.getD_some]
      unfold message anyTensor
      dsimp only
      obtain ⟨d1, d2, d3, d4⟩ := C12_dense x'.F false ⟨fun _ _ _ _ => 1, fun _ => 0⟩ ⟨false, 0, 1, e.basis⟩
      obtain ⟨t, t0, t1, t2, t3, t4⟩ := C15_tensor ⟨none, true⟩ (fun _ _ _ _ _ _ _ => 1) (fun _ _ _ => 1)
        (dense x'.F false ⟨fun _ _ _ _ => 1, fun _ => 0⟩ ⟨false, 0, 1, e.basis⟩)
        (x'.feat fun p i f => x'.rows.getD e.src 0 p i f * e.weight p i f) (by simp) d3
      rw [t0]
      dsimp only
      have hp : t.pseudo = true := t3.2 ⟨rfl, by simp [x', Nodes.feat]⟩
      have hL : t.L = 0 := by rw [t1, d2]; simp [x', Nodes.feat]
      have := t4 1 0 0
      rw [if_pos ⟨by omega, by rw [hL]; omega, Or.inl hp⟩] at this
      have hc : comp t 1 0 0 = t.val 1 0 0 := by
        unfold comp
        simp [hL, hp]
      rw [← hc, this]
      unfold coupled
      simp only [d4, d2]
      simp [Finset.sum_range_succ, comp, x', Nodes.feat, e, deg]
    refine ⟨z, a0, hps, hv, ?_⟩
    rintro ⟨-, -, -, h⟩
    rcases hr : z.rows with _ | ⟨v, r⟩
    · rw [hr] at a4; simp [x'] at a4
    · rw [hr] at h hv
      simp only [actNodes, hr, List.map_cons] at h
      cases h with
      | cons h _ =>
        have := h.2.2.2 1 0 0 (by simp [Nodes.feat, hps, chan]) (by simp [Nodes.feat]) (by simp [Nodes.feat, a3, x'])
        simp [Nodes.feat, reflect, hps] at this hv
        rw [hv] at this
        norm_num at this

/-! ## The hypotheses can be met -/

/-- One weight per edge, for two edges and vectors with two features and both parities. -/
example : BroadcastTo [2, 1, 1, 1] [2, chan true, (1 + 1) ^ 2, 2] ∧ PerEdgeAndFeature ⟨[2, 1, 1, 1], fun _ => 1⟩ :=
  ⟨⟨[], [2, 2, 4, 2], rfl, by simp⟩, by simp [PerEdgeAndFeature]⟩

/-- One weight per feature. -/
example : BroadcastTo [2] [2, chan true, (1 + 1) ^ 2, 2] ∧ PerEdgeAndFeature ⟨[2], fun _ => 1⟩ :=
  ⟨⟨[2, 2, 4], [2], rfl, by simp⟩, by simp [PerEdgeAndFeature]⟩

/-- Weights for two parities, vectors and two features on scalar inputs with one feature. -/
example : (⟨false, 0, 1, [fun _ _ _ => 1]⟩ : Nodes).rows.length > 0 ∧ [3, 2, 4, 2] = [3, chan true, (1 + 1) ^ 2, 2] := by
  simp [chan]

/-- Weights of the dense format and an index list that fits. -/
example : FitsWeights ⟨true, 1, 2, [fun _ _ _ => 1, fun _ _ _ => 2]⟩ ⟨[2, 3, 1, 1, 2], fun _ => 1⟩
    { adj := some [[0, 1, 2], [1, 1, 0]] } :=
  Or.inr ⟨_, 3, rfl, rfl, by simp, by simp, ⟨[], [2, 3, 2, 4, 2], rfl, by simp⟩⟩

/-- Two weights for three edges are rejected. -/
example : ¬ ∃ u, BroadcastTo [3, chan false, (0 + 1) ^ 2, 1] u ∧ BroadcastTo [2, 1, 1, 1] u := by
  rw [← C06_is_broadcastable]
  decide

end E3x
