import Verif.Spec.Locality
import Verif.Props.AttentionNaN
import Verif.Props.Network
import Verif.Props.Wrappers

/-!
# C59: edges at or beyond the cutoff have no effect
-/

namespace E3x

open Spec
open Finset (range)

theorem fusedToMatrix_zero (cgs : ℕ → ℕ → ℕ → ℝ) (L : ℕ) (z kernel : ℕ → ℕ → ℝ) (h : ∀ n f, z n f = 0) (a b f : ℕ) :
    fusedToMatrix cgs L z kernel a b f = 0 := by
  unfold fusedToMatrix
  exact Finset.sum_eq_zero fun n _ => by rw [h]; ring

theorem splitParity_zero (M : ℕ) (ps : Bool) (L F p : ℕ) (n f : ℕ) :
    splitParity M ⟨ps, L, F, fun _ _ _ => 0⟩ p n f = 0 := by
  unfold splitParity
  split_ifs <;> simp

/-- A tensor product with a zero array is zero. -/
theorem anyTensor_zero (cfg : TensorCfg) (T : TensorParams) (cg : ℕ → ℕ → ℕ → ℝ) (x y z : Feat)
    (h : x.val = (fun _ _ _ => 0) ∨ y.val = fun _ _ _ => 0) (hz : anyTensor cfg T cg x y = .ok z) :
    z.val = fun _ _ _ => 0 := by
  have hm : ∀ p l q m f, x.val p l f * y.val q m f = 0 := by
    intro p l q m f
    rcases h with h | h <;> rw [h] <;> ring
  cases T with
  | tensor k =>
    simp only [anyTensor, tensor] at hz
    split_ifs at hz
    all_goals
      injection hz with hz
      subst hz
      funext r n f
      dsimp only
    · unfold mixedEinsum
      exact Finset.sum_eq_zero fun p _ => Finset.sum_eq_zero fun l _ => Finset.sum_eq_zero fun q _ =>
        Finset.sum_eq_zero fun m _ => by rw [hm]; ring
    · have hc : ∀ i j k' n f, coupleSlices (expandedKernel cfg k x y) cg x y i j k' n f = 0 := by
        intro i j k' n f
        unfold coupleSlices
        exact Finset.sum_eq_zero fun l _ => Finset.sum_eq_zero fun m _ => by rw [hm]; ring
      unfold slicesEinsum
      simp only [hc]
      simp
  | fused K =>
    simp only [anyTensor, fusedTensor] at hz
    split_ifs at hz
    injection hz with hz
    subst hz
    have hv : ∀ (cgs : ℕ → ℕ → ℕ → ℝ) (lam L3 : ℕ) (z1 z2 : ℕ → ℕ → ℕ → ℝ) (k : ℕ → ℕ → ℝ),
        ((∀ a b f, z1 a b f = 0) ∨ ∀ a b f, z2 a b f = 0) → fusedToVector cgs lam L3 (fusedCouple lam z1 z2) k = fun _ _ => 0 := by
      intro cgs lam L3 z1 z2 k h
      funext n f
      unfold fusedToVector fusedCouple
      refine Finset.sum_eq_zero fun a _ => Finset.sum_eq_zero fun b _ => ?_
      rw [Finset.sum_eq_zero fun c _ => ?_]
      · ring
      · rcases h with h | h <;> rw [h] <;> ring
    have hs : ∀ z : Feat, z.val = (fun _ _ _ => 0) → ∀ M p n f, splitParity M z p n f = 0 := by
      rintro ⟨ps, L, F, v⟩ rfl M p n f
      exact splitParity_zero M ps L F p n f
    funext r n f
    dsimp only
    unfold fusedVal
    dsimp only
    rcases h with h | h
    · have a := fun M p cgs L k => fusedToMatrix_zero cgs L (splitParity M x p) k (hs x h M p)
      rw [hv _ _ _ _ _ _ (Or.inl (a _ _ _ _ _)), hv _ _ _ _ _ _ (Or.inl (a _ _ _ _ _)),
        hv _ _ _ _ _ _ (Or.inl (a _ _ _ _ _)), hv _ _ _ _ _ _ (Or.inl (a _ _ _ _ _))]
      split_ifs <;> simp
    · have a := fun M p cgs L k => fusedToMatrix_zero cgs L (splitParity M y p) k (hs y h M p)
      rw [hv _ _ _ _ _ _ (Or.inr (a _ _ _ _ _)), hv _ _ _ _ _ _ (Or.inr (a _ _ _ _ _)),
        hv _ _ _ _ _ _ (Or.inr (a _ _ _ _ _)), hv _ _ _ _ _ _ (Or.inr (a _ _ _ _ _))]
      split_ifs <;> simp

theorem concatDegrees_zero {g : ℕ → ℕ → ℕ → ℝ} (h : ∀ l i o, g l i o = 0) (i o : ℕ) : concatDegrees g i o = 0 := by
  unfold concatDegrees
  exact h _ _ _

/-- A dense layer without bias maps zero to zero. -/
theorem dense_zero (features : ℕ) (P : DenseParams) (ps : Bool) (L F : ℕ) :
    (dense features false P ⟨ps, L, F, fun _ _ _ => 0⟩).val = fun _ _ _ => 0 := by
  have hs : ∀ p l o, denseSub F P false p l (fun _ => 0) o = 0 := by
    intro p l o
    simp [denseSub, nnDense]
  funext p i f
  unfold dense
  cases ps with
  | true =>
    simp only [if_true]
    split_ifs
    · exact concatDegrees_zero (fun l i o => hs _ _ _) _ _
    · exact concatDegrees_zero (fun l i o => hs _ _ _) _ _
  | false =>
    simp only [Bool.false_eq_true, if_false]
    exact concatDegrees_zero (fun l i o => hs _ _ _) _ _

theorem message_vanishes (cfg : ConvCfg) (P : ConvParams) (cg : ℕ → ℕ → ℕ → ℝ) (x : Nodes) (bp : Bool) (bL bF : ℕ)
    (e : Edge) (h : Vanishes cfg.useBasisBias e) : message cfg P cg x bp bL bF e = 0 := by
  unfold message
  cases ht : anyTensor cfg.tens P.tens cg (dense x.F cfg.useBasisBias P.filter ⟨bp, bL, bF, e.basis⟩)
    (x.feat fun p i f => x.rows.getD e.src 0 p i f * e.weight p i f) with
  | error e => rfl
  | ok z =>
    dsimp only
    have := anyTensor_zero _ _ _ _ _ z ?_ ht
    · rw [this]; rfl
    · rcases h with ⟨h1, h2⟩ | h
      · left
        rw [h1, h2]
        exact dense_zero _ _ _ _ _
      · right
        unfold Nodes.feat
        dsimp only
        funext p i f
        rw [h]
        ring

theorem sum_filter_zero {α M : Type} [AddCommMonoid M] (l : List α) (f : α → M) (p : α → Prop) [DecidablePred p] (h : ∀ a ∈ l, ¬ p a → f a = 0) :
    ((l.filter fun a => p a).map f).sum = (l.map f).sum := by
  induction l with
  | nil => rfl
  | cons a l ih =>
    have ih := ih fun b hb => h b (by simp [hb])
    by_cases hp : p a
    · rw [List.filter_cons_of_pos (by simpa using hp), List.map_cons, List.sum_cons, ih, List.map_cons, List.sum_cons]
    · rw [List.filter_cons_of_neg (by simpa using hp), ih, List.map_cons, List.sum_cons, h a (by simp) hp, zero_add]

open Classical in
theorem live_sum (cfg : ConvCfg) (P : ConvParams) (cg : ℕ → ℕ → ℕ → ℝ) (x : Nodes) (bp : Bool) (bL bF : ℕ)
    (E : List Edge) (i : ℕ) : ((edgesInto (liveEdges cfg.useBasisBias E) i).map (message cfg P cg x bp bL bF)).sum =
      ((edgesInto E i).map (message cfg P cg x bp bL bF)).sum := by
  rw [← sum_filter_zero (edgesInto E i) _ (fun e => ¬ Vanishes cfg.useBasisBias e)
    (fun e _ h => message_vanishes cfg P cg x bp bL bF e (not_not.1 h))]
  unfold edgesInto liveEdges
  rw [List.filter_filter, List.filter_filter]
  congr 2
  apply List.filter_congr
  intro e _
  rw [Bool.and_comm]

/-- **C59 (message passing).** Edges whose basis functions are zero (if the filter has no bias) or whose weight is zero may be
added to or removed from the edge list without changing the result of `MessagePass` in any way. -/
theorem C59_message_pass (cfg : ConvCfg) (P : ConvParams) (cg : ℕ → ℕ → ℕ → ℝ) (x : Nodes) (bp : Bool) (bL bF : ℕ)
    (E E' : List Edge) (h : SameLive cfg.useBasisBias E E') (w w' : Option (Lead Ent))
    (hw : WeightsOf w (.vec (E.map Edge.weight)) E) (hw' : WeightsOf w' (.vec (E'.map Edge.weight)) E') (num : Option ℕ)
    (hn : 0 < x.rows.length) (hE : ∀ e ∈ E, e.dst < num.getD x.rows.length → e.src < x.rows.length)
    (hE' : ∀ e ∈ E', e.dst < num.getD x.rows.length → e.src < x.rows.length) :
    messagePass cfg P cg x ⟨bp, bL, bF, .vec (E.map Edge.basis)⟩ w
        { dst := some (E.map Edge.dst), src := some (E.map Edge.src), num := num } =
    messagePass cfg P cg x ⟨bp, bL, bF, .vec (E'.map Edge.basis)⟩ w'
        { dst := some (E'.map Edge.dst), src := some (E'.map Edge.src), num := num } := by
  obtain ⟨h1, h2⟩ := C18_sparse cfg P cg x bp bL bF E w hw num hn hE
  obtain ⟨h1', h2'⟩ := C18_sparse cfg P cg x bp bL bF E' w' hw' num hn hE'
  by_cases hd : cfg.tens.maxDegree.getD (max bL x.L) ≤ bL + x.L
  · obtain ⟨z, a0, a1, a2, a3, a4, a5⟩ := h2 hd
    obtain ⟨z', b0, b1, b2, b3, b4, b5⟩ := h2' hd
    rw [a0, b0]
    congr 1
    refine nodes_ext (Bool.eq_iff_iff.2 (a1.trans b1.symm)) (a2.trans b2.symm) (a3.trans b3.symm)
      (a4.trans b4.symm) fun i hi => ?_
    rw [a5 i (a4 ▸ hi), b5 i (a4 ▸ hi), ← live_sum cfg P cg x bp bL bF E, ← live_sum cfg P cg x bp bL bF E', sum_edges_perm h]
  · rw [h1 (by omega), h1' (by omega)]

/-- **C59 (message passing, dense format).** The same for dense lists: if in every row the slots whose source is a node and
that contribute something are the same, in any order, the result is the same. -/
theorem C59_message_pass_dense (cfg : ConvCfg) (P : ConvParams) (cg : ℕ → ℕ → ℕ → ℝ) (x : Nodes) (bp : Bool) (bL bF : ℕ)
    (G G' : List (List Edge))
    (h : List.Forall₂ (fun r r' => SameLive cfg.useBasisBias (r.filter fun e => e.src < x.rows.length)
      (r'.filter fun e => e.src < x.rows.length)) G G') (w w' : Option (Lead Ent))
    (hw : WeightsOf w (.mat (G.map fun r => r.map Edge.weight)) G.flatten)
    (hw' : WeightsOf w' (.mat (G'.map fun r => r.map Edge.weight)) G'.flatten) (num : Option ℕ)
    (hn : 0 < x.rows.length) :
    messagePass cfg P cg x ⟨bp, bL, bF, .mat (G.map fun r => r.map Edge.basis)⟩ w
        { adj := some (G.map fun r => r.map Edge.src), num := num } =
    messagePass cfg P cg x ⟨bp, bL, bF, .mat (G'.map fun r => r.map Edge.basis)⟩ w'
        { adj := some (G'.map fun r => r.map Edge.src), num := num } := by
  classical
  obtain ⟨h1, h2⟩ := C18_dense cfg P cg x bp bL bF G w hw num hn
  obtain ⟨h1', h2'⟩ := C18_dense cfg P cg x bp bL bF G' w' hw' num hn
  by_cases hd : cfg.tens.maxDegree.getD (max bL x.L) ≤ bL + x.L
  · obtain ⟨z, a0, a1, a2, a3, a4, a5⟩ := h2 hd
    obtain ⟨z', b0, b1, b2, b3, b4, b5⟩ := h2' hd
    rw [a0, b0]
    congr 1
    have hl := h.length_eq
    refine nodes_ext (Bool.eq_iff_iff.2 (a1.trans b1.symm)) (a2.trans b2.symm) (a3.trans b3.symm)
      (by rw [a4, b4, hl]) fun i hi => ?_
    have hi : i < G.length := by omega
    have hi' : i < G'.length := by omega
    rw [a5 i hi, b5 i hi']
    have hr := (List.forall₂_iff_get.1 h).2 i hi hi'
    simp only [List.get_eq_getElem] at hr
    have gen : ∀ l : List Edge, (l.map (message cfg P cg x bp bL bF)).sum =
        ((liveEdges cfg.useBasisBias l).map (message cfg P cg x bp bL bF)).sum := fun l =>
      (sum_filter_zero l _ (fun e => ¬ Vanishes cfg.useBasisBias e)
        (fun e _ h => message_vanishes cfg P cg x bp bL bF e (not_not.1 h))).symm
    rw [gen, gen (G'[i].filter _), (hr.map _).sum_eq]
  · rw [h1 (by omega), h1' (by omega)]

theorem liveAttn_into (E : List AttnEdge) (i : ℕ) : attnInto (liveAttn E) i = (attnInto E i).filter fun e => e.cut ≠ 0 := by
  unfold attnInto liveAttn
  rw [List.filter_filter, List.filter_filter]
  apply List.filter_congr
  intro e _
  rw [Bool.and_comm]

theorem attnMessage_zero (cfg : AttnCfg) (P : AttnParams) (cg : ℕ → ℕ → ℕ → ℝ) (F : ℕ) (kv : Nodes) (bp : Bool)
    (bL bF : ℕ) (w : ℕ → ℝ) (hw : ∀ h, w h = 0) (e : AttnEdge) : attnMessage cfg P cg F kv bp bL bF w e = 0 := by
  unfold attnMessage
  dsimp only
  have hv : (fun p i f => w (f / (F / cfg.numHeads)) * (dense F cfg.vBias P.value (kv.feat (kv.rows.getD e.src 0))).val p i f) =
      fun _ _ _ => (0 : ℝ) := by
    funext p i f
    rw [hw, zero_mul]
  rw [hv]
  split_ifs
  · cases ht : anyTensor cfg.conv.tens P.conv.tens cg (dense F cfg.conv.useBasisBias P.conv.filter ⟨bp, bL, bF, e.basis⟩)
      ⟨kv.pseudo, kv.L, F, fun _ _ _ => 0⟩ with
    | error e => rfl
    | ok z =>
      dsimp only
      rw [anyTensor_zero _ _ _ _ _ z (Or.inr rfl) ht]
      rfl
  · rfl

/-- Edges with cutoff zero do not change attention weights. -/
theorem attnWeight_live (cfg : AttnCfg) (P : AttnParams) (F : ℕ) (q kv : Nodes) (bF : ℕ) (E : List AttnEdge) (e : AttnEdge) :
    attnWeight cfg P F q kv bF (liveAttn E) e = attnWeight cfg P F q kv bF E e := by
  funext h
  unfold attnWeight softmaxValue
  congr 1
  rw [List.map_map, List.map_map, liveAttn_into]
  exact sum_filter_zero (attnInto E e.dst) _ (fun e => e.cut ≠ 0) fun a _ ha => by
    simp only [Function.comp]
    rw [not_not.1 ha, mul_zero]

theorem attnWeight_permE (cfg : AttnCfg) (P : AttnParams) (F : ℕ) (q kv : Nodes) (bF : ℕ) {E E' : List AttnEdge}
    (hp : E.Perm E') (e : AttnEdge) : attnWeight cfg P F q kv bF E e = attnWeight cfg P F q kv bF E' e := by
  funext h
  unfold attnWeight softmaxValue
  congr 1
  exact List.Perm.sum_eq ((((hp.filter _).map _)).map _)

/-- The sum of the messages of all edges that end in a node is determined by the edges with non-zero cutoff. -/
theorem attn_live_sum (cfg : AttnCfg) (P : AttnParams) (cg : ℕ → ℕ → ℕ → ℝ) (F : ℕ) (q kv : Nodes) (bp : Bool) (bL bF : ℕ)
    (E : List AttnEdge) (i : ℕ) :
    ((attnInto (liveAttn E) i).map fun e => attnMessage cfg P cg F kv bp bL bF
        (attnWeight cfg P F q kv bF (liveAttn E) e) e).sum =
      ((attnInto E i).map fun e => attnMessage cfg P cg F kv bp bL bF (attnWeight cfg P F q kv bF E e) e).sum := by
  rw [liveAttn_into]
  simp only [attnWeight_live]
  refine sum_filter_zero (attnInto E i) _ (fun e => e.cut ≠ 0) fun a _ ha => ?_
  apply attnMessage_zero
  intro h
  unfold attnWeight softmaxValue
  rw [not_not.1 ha]
  simp

theorem isAttention_live (cfg : AttnCfg) (P : AttnParams) (cg : ℕ → ℕ → ℕ → ℝ) (q kv : Nodes) (bp : Bool)
    (bL bF : ℕ) (E E' : List AttnEdge) (h : SameLiveAttn E E') (n : ℕ) (z z' : Nodes)
    (hz : IsAttention cfg P cg q kv bp bL bF E n z) (hz' : IsAttention cfg P cg q kv bp bL bF E' n z') : z = z' := by
  obtain ⟨a1, a2, a3, a4, a5⟩ := hz
  obtain ⟨b1, b2, b3, b4, b5⟩ := hz'
  refine nodes_ext (a1.trans b1.symm) (a2.trans b2.symm) (a3.trans b3.symm) (a4.trans b4.symm) fun i hi => ?_
  have e : ((attnInto E i).map fun e => attnMessage cfg P cg (cfg.qkvFeatures.getD q.F) kv bp bL bF
        (attnWeight cfg P (cfg.qkvFeatures.getD q.F) q kv bF E e) e).sum =
      ((attnInto E' i).map fun e => attnMessage cfg P cg (cfg.qkvFeatures.getD q.F) kv bp bL bF
        (attnWeight cfg P (cfg.qkvFeatures.getD q.F) q kv bF E' e) e).sum := by
    rw [← attn_live_sum cfg P cg _ q kv bp bL bF E, ← attn_live_sum cfg P cg _ q kv bp bL bF E']
    simp only [attnWeight_permE cfg P _ q kv bF h]
    exact List.Perm.sum_eq ((h.filter _).map _)
  rw [a5 i (a4 ▸ hi), b5 i (a4 ▸ hi), e]

/-- **C59 (attention).** Edges whose cutoff value is zero may be added to or removed from the edge list without changing the
output of any node which, in both lists, either has an edge with a positive cutoff value or no edge at all. (If all edges of
a node have cutoff value zero, its output is NaN, see C58; so for this node the edges must be removed.) -/
theorem C59_attention (lo ninf : ℝ) (cfg : AttnCfg) (P : AttnParams) (cg : ℕ → ℕ → ℕ → ℝ) (q kv : Nodes) (bp : Bool)
    (bL bF : ℕ) (E E' : List AttnEdge) (h : SameLiveAttn E E')
    (b b' : Option Edges) (hb : BasisOf cfg b ⟨bp, bL, bF, .vec (E.map AttnEdge.basis)⟩)
    (hb' : BasisOf cfg b' ⟨bp, bL, bF, .vec (E'.map AttnEdge.basis)⟩)
    (c c' : Option (Lead ℝ)) (hc : CutoffOf c (.vec (E.map AttnEdge.cut)) E) (hc' : CutoffOf c' (.vec (E'.map AttnEdge.cut)) E')
    (hc0 : ∀ e ∈ E, 0 ≤ e.cut) (hc0' : ∀ e ∈ E', 0 ≤ e.cut)
    (hq : 0 < q.rows.length) (hk : 0 < kv.rows.length) (num : Option ℕ) (hN : 0 < num.getD q.rows.length)
    (hE : ∀ e ∈ E, e.dst < num.getD q.rows.length → e.dst < q.rows.length ∧ e.src < kv.rows.length)
    (hE' : ∀ e ∈ E', e.dst < num.getD q.rows.length → e.dst < q.rows.length ∧ e.src < kv.rows.length)
    (h1 : cfg.numHeads ≠ 0) (h2 : cfg.qkvFeatures.getD q.F % cfg.numHeads = 0)
    (h3 : cfg.relV = true → cfg.conv.tens.maxDegree.getD (max bL kv.L) ≤ bL + kv.L) :
    ∃ out out', attentionNaN lo ninf cfg P cg q kv b c
        { dst := some (E.map AttnEdge.dst), src := some (E.map AttnEdge.src), num := num } = .ok out ∧
      attentionNaN lo ninf cfg P cg q kv b' c'
        { dst := some (E'.map AttnEdge.dst), src := some (E'.map AttnEdge.src), num := num } = .ok out' ∧
      ∀ i < num.getD q.rows.length,
        ((∃ e ∈ E, e.dst = i) → ∃ e ∈ E, e.dst = i ∧ 0 < e.cut) →
        ((∃ e ∈ E', e.dst = i) → ∃ e ∈ E', e.dst = i ∧ 0 < e.cut) →
        ∃ v, out[i]? = some (some v) ∧ out'[i]? = some (some v) := by
  obtain ⟨z, out, a1, a2, -, a3⟩ := C58_sparse lo ninf cfg P cg q kv bp bL bF E b hb c hc hc0 hq hk num hN hE h1 h2 h3
  obtain ⟨z', out', b1, b2, -, b3⟩ := C58_sparse lo ninf cfg P cg q kv bp bL bF E' b' hb' c' hc' hc0' hq hk num hN hE' h1 h2 h3
  obtain rfl := isAttention_live cfg P cg q kv bp bL bF E E' h _ z z' a2 b2
  refine ⟨out, out', a1, b1, fun i hi hi1 hi2 => ?_⟩
  obtain ⟨v, v1, v2⟩ := (a3 i hi).2 (by
    rintro ⟨u1, u2⟩
    obtain ⟨e, he, hd, hp⟩ := hi1 u1
    exact hp.ne' (u2 e he hd))
  obtain ⟨w, w1, w2⟩ := (b3 i hi).2 (by
    rintro ⟨u1, u2⟩
    obtain ⟨e, he, hd, hp⟩ := hi2 u1
    exact hp.ne' (u2 e he hd))
  rw [v1] at w1
  injection w1 with w1
  exact ⟨v, v2, by rw [w2, w1]⟩

/-- **C59 (attention, dense format).** The same for dense lists: slots whose cutoff value is zero may be added, removed or
replaced. -/
theorem C59_attention_dense (lo ninf : ℝ) (cfg : AttnCfg) (P : AttnParams) (cg : ℕ → ℕ → ℕ → ℝ) (q kv : Nodes) (bp : Bool)
    (bL bF : ℕ) (G G' : List (List AttnEdge)) (h : SameLiveAttn (keptEdges kv.rows.length G) (keptEdges kv.rows.length G'))
    (b b' : Option Edges) (hb : BasisOf cfg b ⟨bp, bL, bF, .mat (G.map fun r => r.map AttnEdge.basis)⟩)
    (hb' : BasisOf cfg b' ⟨bp, bL, bF, .mat (G'.map fun r => r.map AttnEdge.basis)⟩)
    (c c' : Option (Lead ℝ)) (hc : CutoffOf c (.mat (G.map fun r => r.map AttnEdge.cut)) G.flatten)
    (hc' : CutoffOf c' (.mat (G'.map fun r => r.map AttnEdge.cut)) G'.flatten)
    (hc0 : ∀ e ∈ G.flatten, 0 ≤ e.cut) (hc0' : ∀ e ∈ G'.flatten, 0 ≤ e.cut)
    (hq : G.length = q.rows.length) (hq' : G'.length = q.rows.length) (hk : 0 < kv.rows.length) (num : Option ℕ)
    (hG : ∀ i (h : i < G.length), ∀ e ∈ G[i], e.dst = i) (hG' : ∀ i (h : i < G'.length), ∀ e ∈ G'[i], e.dst = i)
    (h1 : cfg.numHeads ≠ 0) (h2 : cfg.qkvFeatures.getD q.F % cfg.numHeads = 0)
    (h3 : cfg.relV = true → cfg.conv.tens.maxDegree.getD (max bL kv.L) ≤ bL + kv.L) :
    ∃ out out', attentionNaN lo ninf cfg P cg q kv b c
        { adj := some (G.map fun r => r.map AttnEdge.src), num := num } = .ok out ∧
      attentionNaN lo ninf cfg P cg q kv b' c'
        { adj := some (G'.map fun r => r.map AttnEdge.src), num := num } = .ok out' ∧
      ∀ i (hi : i < G.length) (hi' : i < G'.length),
        ((∃ e ∈ G[i], e.src < kv.rows.length) → ∃ e ∈ G[i], e.src < kv.rows.length ∧ 0 < e.cut) →
        ((∃ e ∈ G'[i], e.src < kv.rows.length) → ∃ e ∈ G'[i], e.src < kv.rows.length ∧ 0 < e.cut) →
        ∃ v, out[i]? = some (some v) ∧ out'[i]? = some (some v) := by
  obtain ⟨z, out, a1, a2, -, a3⟩ := C58_dense lo ninf cfg P cg q kv bp bL bF G b hb c hc hc0 hq hk num hG h1 h2 h3
  obtain ⟨z', out', b1, b2, -, b3⟩ := C58_dense lo ninf cfg P cg q kv bp bL bF G' b' hb' c' hc' hc0' hq' hk num hG' h1 h2 h3
  obtain rfl := isAttention_live cfg P cg q kv bp bL bF _ _ h _ z z' a2 b2
  refine ⟨out, out', a1, b1, fun i hi hi' hi1 hi2 => ?_⟩
  obtain ⟨v, v1, v2⟩ := (a3 i hi).2 (by
    rintro ⟨u1, u2⟩
    obtain ⟨e, he, hd, hp⟩ := hi1 u1
    exact hp.ne' (u2 e he hd))
  obtain ⟨w, w1, w2⟩ := (b3 i hi').2 (by
    rintro ⟨u1, u2⟩
    obtain ⟨e, he, hd, hp⟩ := hi2 u1
    exact hp.ne' (u2 e he hd))
  rw [v1] at w1
  injection w1 with w1
  exact ⟨v, v2, by rw [w2, w1]⟩

/-! ### Networks -/

theorem nodesBin_length {g : Feat → Feat → Except Err Feat} {x y z : Nodes} (h : nodesBin g x y = .ok z) :
    z.rows.length = x.rows.length := by
  unfold nodesBin at h
  split at h
  · cases h
  · split_ifs at h with hl
    injection h with h
    subst h
    simp [hl]

theorem except_bind_ok {α β : Type} {x : Except Err α} {f : α → Except Err β} {z : β} (h : (x >>= f) = .ok z) :
    ∃ a, x = .ok a ∧ f a = .ok z := by
  cases x with
  | error e => cases h
  | ok a => exact ⟨a, rfl, h⟩

theorem reg_mem {α : Type} {rs : List α} {i : ℕ} {a : α} (h : reg rs i = .ok a) : a ∈ rs := by
  unfold reg at h
  split at h
  · rename_i x hx
    injection h with h
    subst h
    exact List.mem_of_getElem? hx
  · cases h

/-- Layers of the two programs have the same result, with `n` nodes. -/
theorem sameEval {n : ℕ} (hn : 0 < n) {bs bs' : List Edges} {i i' : Instr} (h : SameUpToEdges n bs bs' i i')
    (cg : ℕ → ℕ → ℕ → ℝ) (rs : List Nodes) (hr : ∀ x ∈ rs, x.rows.length = n) :
    i.eval cg bs rs = i'.eval cg bs' rs ∧ ∀ z, i.eval cg bs rs = .ok z → z.rows.length = n := by
  have happ : ∀ (g : Feat → Feat) (x : ℕ) (z : Nodes),
      (do return (← reg rs x).apply g : Except Err Nodes) = .ok z → z.rows.length = n := by
    intro g x z h
    obtain ⟨a, ha, h⟩ := except_bind_ok h
    injection h with h
    subst h
    simp [Nodes.apply, hr a (reg_mem ha)]
  cases h with
  | dense x features useBias P => exact ⟨rfl, happ _ _⟩
  | gated x g => exact ⟨rfl, happ _ _⟩
  | change x L ps => exact ⟨rfl, happ _ _⟩
  | add x y =>
    refine ⟨rfl, fun z h => ?_⟩
    obtain ⟨a, ha, h⟩ := except_bind_ok h
    obtain ⟨b, hb, h⟩ := except_bind_ok h
    rw [nodesBin_length h, hr a (reg_mem ha)]
  | tensor x y cfg T =>
    refine ⟨rfl, fun z h => ?_⟩
    obtain ⟨a, ha, h⟩ := except_bind_ok h
    obtain ⟨b, hb, h⟩ := except_bind_ok h
    rw [nodesBin_length h, hr a (reg_mem ha)]
  | tensorDense x features useBias cfg P T =>
    refine ⟨rfl, fun z h => ?_⟩
    obtain ⟨a, ha, h⟩ := except_bind_ok h
    rw [nodesBin_length h, hr a (reg_mem ha)]
  | messagePass x b b' cfg P w w' bp bL bF E E' hb hb' hw hw' hE hE' h =>
    have e1 : reg bs b = .ok ⟨bp, bL, bF, .vec (E.map Edge.basis)⟩ := by unfold reg; rw [hb]
    have e2 : reg bs' b' = .ok ⟨bp, bL, bF, .vec (E'.map Edge.basis)⟩ := by unfold reg; rw [hb']
    unfold Instr.eval
    dsimp only
    rw [e1, e2]
    cases hx : reg rs x with
    | error e => exact ⟨rfl, fun z h => by cases h⟩
    | ok a =>
      have ha := hr a (reg_mem hx)
      subst ha
      have := C59_message_pass cfg P cg a bp bL bF E E' h w w' hw hw' none hn hE hE'
      refine ⟨this, fun z hz => ?_⟩
      obtain ⟨h1, h2⟩ := C18_sparse cfg P cg a bp bL bF E w hw none hn hE
      change messagePass cfg P cg a _ w { dst := some (E.map Edge.dst), src := some (E.map Edge.src), num := none } = _ at hz
      by_cases hd : cfg.tens.maxDegree.getD (max bL a.L) ≤ bL + a.L
      · obtain ⟨z', a0, -, -, -, a4, -⟩ := h2 hd
        rw [hz] at a0
        injection a0 with a0
        rw [a0, a4]
        rfl
      · rw [h1 (by omega)] at hz
        cases hz
  | attention q kv b b' lo ninf cfg P bp bL bF E E' hb hb' hE hE' hN hN' h =>
    have e1 : regOpt bs (some b) = .ok (some ⟨bp, bL, bF, .vec (E.map AttnEdge.basis)⟩) := by
      simp only [regOpt, reg]; rw [hb]
    have e2 : regOpt bs' (some b') = .ok (some ⟨bp, bL, bF, .vec (E'.map AttnEdge.basis)⟩) := by
      simp only [regOpt, reg]; rw [hb']
    unfold Instr.eval
    dsimp only
    rw [e1, e2]
    cases hx : reg rs q with
    | error e => exact ⟨rfl, fun z h => by cases h⟩
    | ok a =>
      cases hy : reg rs kv with
      | error e => exact ⟨rfl, fun z h => by cases h⟩
      | ok a' =>
        have ha := hr a (reg_mem hx)
        have ha' := hr a' (reg_mem hy)
        obtain ⟨p1, p2, p3⟩ := C19_sparse lo ninf cfg P cg a a' bp bL bF E _ (Or.inl rfl) _ (Or.inl rfl) (by omega)
          (by omega) none (by simp; omega) (fun e he hd => ⟨hd, by have := hE e he (by simpa [ha] using hd); omega⟩) _ rfl
        obtain ⟨p1', p2', p3'⟩ := C19_sparse lo ninf cfg P cg a a' bp bL bF E' _ (Or.inl rfl) _ (Or.inl rfl) (by omega)
          (by omega) none (by simp; omega) (fun e he hd => ⟨hd, by have := hE' e he (by simpa [ha] using hd); omega⟩) _ rfl
        show attention lo ninf cfg P cg a a' _ _ (attnIx E) = attention lo ninf cfg P cg a a' _ _ (attnIx E') ∧
          ∀ z, attention lo ninf cfg P cg a a' _ _ (attnIx E) = .ok z → z.rows.length = n
        unfold attnIx
        by_cases hH : cfg.numHeads = 0 ∨ cfg.qkvFeatures.getD a.F % cfg.numHeads ≠ 0
        · rw [p1 hH, p1' hH]
          exact ⟨rfl, fun z h => by cases h⟩
        · push Not at hH
          by_cases hd : cfg.relV = true → cfg.conv.tens.maxDegree.getD (max bL a'.L) ≤ bL + a'.L
          · obtain ⟨z, z1, z2⟩ := p3 hH.1 hH.2 hd
            obtain ⟨z', z1', z2'⟩ := p3' hH.1 hH.2 hd
            rw [z1, z1', isAttention_live cfg P cg a a' bp bL bF E E' h _ z z' z2 z2']
            refine ⟨rfl, fun w hw => ?_⟩
            injection hw with hw
            subst hw
            rw [z2'.2.2.2.1]
            exact ha
          · push Not at hd
            rw [p2 hd.1 hd.2, p2' hd.1 hd.2]
            exact ⟨rfl, fun z h => by cases h⟩

/-- **C59 (networks).** Two programs whose layers are the same up to edges that contribute nothing compute the same arrays
(or raise the same exception), whatever the parameters and inputs are. -/
theorem C59_network (cg : ℕ → ℕ → ℕ → ℝ) (n : ℕ) (hn : 0 < n) (bs bs' : List Edges) (prog prog' : List Instr)
    (h : List.Forall₂ (SameUpToEdges n bs bs') prog prog') (inputs : List Nodes) (hi : ∀ x ∈ inputs, x.rows.length = n) :
    runNetwork cg bs prog inputs = runNetwork cg bs' prog' inputs := by
  induction h generalizing inputs with
  | nil => rfl
  | cons h0 _ ih =>
    obtain ⟨h1, h2⟩ := sameEval hn h0 cg inputs hi
    unfold runNetwork
    rw [← h1]
    cases hz : Instr.eval cg bs inputs _ with
    | error e => rfl
    | ok z =>
      refine ih _ fun x hx => ?_
      rw [List.mem_append, List.mem_singleton] at hx
      rcases hx with hx | rfl
      · exact hi x hx
      · exact h2 _ hz

-- Non-vacuity: a network with a dense layer, a message-passing layer, an attention layer and a tensor layer on two nodes,
-- with and without an edge whose basis functions (cutoff value) are zero.
example (cg : ℕ → ℕ → ℕ → ℝ) (D : DenseParams) (c : ConvCfg) (hc : c.useBasisBias = false) (P : ConvParams) (a : AttnCfg)
    (A : AttnParams) (tc : TensorCfg) (T : TensorParams) (v : Ent) (lo ninf : ℝ) (x : Nodes) (hx : x.rows.length = 2) :
    runNetwork cg [⟨false, 1, 4, .vec [v, fun _ _ _ => 0, v]⟩]
      [.dense 0 3 true D, .messagePass 1 0 c P none { dst := some [0, 1, 1], src := some [1, 0, 0] },
        .attention 2 1 (some 0) lo ninf a A (some (.vec [1, 0, 1 / 2])) { dst := some [0, 1, 1], src := some [1, 0, 0] },
        .tensor 2 3 tc T] [x] =
    runNetwork cg [⟨false, 1, 4, .vec [v, v]⟩]
      [.dense 0 3 true D, .messagePass 1 0 c P none { dst := some [1, 0], src := some [0, 1] },
        .attention 2 1 (some 0) lo ninf a A (some (.vec [1 / 2, 1])) { dst := some [1, 0], src := some [0, 1] },
        .tensor 2 3 tc T] [x] := by
  classical
  refine C59_network cg 2 (by norm_num) _ _ _ _ ?_ [x] (by simpa using hx)
  refine .cons (.dense ..) (.cons ?_ (.cons ?_ (.cons (.tensor ..) .nil)))
  · refine .messagePass 1 0 0 c P none none false 1 4
      [⟨0, 1, v, fun _ _ _ => 1⟩, ⟨1, 0, fun _ _ _ => 0, fun _ _ _ => 1⟩, ⟨1, 0, v, fun _ _ _ => 1⟩]
      [⟨1, 0, v, fun _ _ _ => 1⟩, ⟨0, 1, v, fun _ _ _ => 1⟩] rfl rfl (Or.inr ⟨rfl, by simp⟩) (Or.inr ⟨rfl, by simp⟩)
      (by simp) (by simp) ?_
    have h0 : Vanishes c.useBasisBias ⟨1, 0, fun _ _ _ => 0, fun _ _ _ => 1⟩ := Or.inl ⟨hc, rfl⟩
    have h1 : ∀ e₁ e₂ : Edge, liveEdges c.useBasisBias [e₁, ⟨1, 0, fun _ _ _ => 0, fun _ _ _ => 1⟩, e₂] =
        liveEdges c.useBasisBias [e₁, e₂] := fun e₁ e₂ => by simp [liveEdges, List.filter_cons, h0]
    unfold SameLive
    rw [h1]
    exact (List.Perm.swap _ _ _).filter _
  · refine .attention 2 1 0 0 lo ninf a A false 1 4 [⟨0, 1, v, 1⟩, ⟨1, 0, fun _ _ _ => 0, 0⟩, ⟨1, 0, v, 1 / 2⟩]
      [⟨1, 0, v, 1 / 2⟩, ⟨0, 1, v, 1⟩] rfl rfl (by simp) (by simp) (by simp [NoNaN]) (by simp [NoNaN]) ?_
    unfold SameLiveAttn liveAttn
    simp [List.Perm.swap]

/-! ### The cutoff radius -/

/-- The entries of the basis functions for displacement `r`. -/
noncomputable def basisEnt (L num : ℕ) (g : ℝ → ℕ → ℕ → ℝ) (f : ℝ → ℝ) (d : Option (ℝ → ℝ)) (cart : Bool)
    (r : Fin 3 → ℝ) : Ent := fun _ i k =>
  (if i < (L + 1) ^ 2 then harmonic (degreeOf i) (componentOrder cart i)
    (unitVectors (fun _ : Unit => r) (fun _ => Spec.length r) ()) else 0) * (g (Spec.length r) num k * f (Spec.length r)) *
    (if 1 ≤ i then (match d with | some d => d (Spec.length r) | none => 1) else 1)

theorem graphBasis_eq (tiny : ℝ) (ht : 0 < tiny) (disk : Disk SHCompressed)
    (hd : ValidDisk (shKind sphTerms) (shTable sphTerms) disk) (o : SaveOutcome) (G : List GeoEdge) (hG : G ≠ []) (L num : ℕ)
    (g : ℝ → ℕ → ℕ → ℝ) (f : ℝ → ℝ) (d : Option (ℝ → ℝ)) (cart : Bool) :
    graphBasis tiny disk o G L num g f d cart =
      .ok ⟨fun b => ⟨false, L, num, basisEnt L num g f d cart G[b].disp⟩, some [fun b => f (Spec.length G[b].disp)]⟩ := by
  have : Nonempty (Fin G.length) := ⟨⟨0, List.length_pos_of_ne_nil hG⟩⟩
  unfold graphBasis
  rw [basis_eq tiny ht, if_neg (by simp)]
  simp only [Except.bind]
  have hy := solidHarmonics_eq tiny disk hd o (unitVectors (fun b : Fin G.length => G[b].disp)
    fun b => Spec.length G[b].disp) L cart
  unfold solidHarmonics at hy
  unfold defaultAngularFn
  rw [hy]
  cases d with
  | none => rfl
  | some d => rfl

theorem cutoff_isCutoff {radius : ℝ} (hr : 0 < radius) {f : ℝ → ℝ}
    (hf : (∀ x, smoothCutoff x radius = .ok (f x)) ∨ ∀ x, cosineCutoff x radius = .ok (f x)) : IsCutoff radius f := by
  rcases hf with hf | hf
  · obtain ⟨f', h1, h2, -⟩ := C43_smooth_cutoff radius hr
    have : f = f' := funext fun x => by
      have := hf x
      rw [h1] at this
      injection this with this
      exact this.symm
    rwa [this]
  · obtain ⟨f', h1, h2, -⟩ := C43_cosine_cutoff radius hr
    have : f = f' := funext fun x => by
      have := hf x
      rw [h1] at this
      injection this with this
      exact this.symm
    rwa [this]

theorem basisEnt_far {radius : ℝ} {f : ℝ → ℝ} (hf : IsCutoff radius f) (L num : ℕ) (g : ℝ → ℕ → ℕ → ℝ) (d : Option (ℝ → ℝ))
    (cart : Bool) (r : Fin 3 → ℝ) (h : ¬ Spec.length r < radius) : basisEnt L num g f d cart r = fun _ _ _ => 0 := by
  funext p i k
  unfold basisEnt
  rw [hf.outside _ (not_lt.1 h)]
  ring

theorem filter_near {α : Type} (p q : α → Prop) [DecidablePred p] [DecidablePred q] (h : ∀ a, p a → q a) (l : List α) :
    (l.filter fun a => q a).filter (fun a => p a) = l.filter fun a => p a := by
  rw [List.filter_filter]
  apply List.filter_congr
  intro a _
  by_cases hp : p a
  · simp [hp, h a hp]
  · simp [hp]

theorem ofFn_map {α β : Type} (l : List α) (F : α → β) : (List.ofFn fun b : Fin l.length => F l[b]) = l.map F := by
  apply List.ext_getElem
  · simp
  · intro i h1 h2
    simp

/-- **C59 (cutoff radius, message passing).** Take basis functions with the smooth or the cosine cutoff of some radius. The
result of a message-passing layer is determined by the edges that are shorter than the radius: edges at or beyond the
radius may be added, removed or change their length. (The filter has no bias, which is the default.) -/
theorem C59_cutoff (tiny : ℝ) (ht : 0 < tiny) (disk : Disk SHCompressed)
    (hd : ValidDisk (shKind sphTerms) (shTable sphTerms) disk) (o o' : SaveOutcome) (radius : ℝ) (hr : 0 < radius)
    (f : ℝ → ℝ) (hf : (∀ x, smoothCutoff x radius = .ok (f x)) ∨ ∀ x, cosineCutoff x radius = .ok (f x))
    (L num : ℕ) (g : ℝ → ℕ → ℕ → ℝ) (d : Option (ℝ → ℝ)) (cart : Bool)
    (G G' : List GeoEdge) (hG : G ≠ []) (hG' : G' ≠ []) (h : (near radius G).Perm (near radius G'))
    (cfg : ConvCfg) (hb : cfg.useBasisBias = false) (P : ConvParams) (cg : ℕ → ℕ → ℕ → ℝ) (x : Nodes)
    (hn : 0 < x.rows.length) (hE : ∀ e ∈ G, e.dst < x.rows.length → e.src < x.rows.length)
    (hE' : ∀ e ∈ G', e.dst < x.rows.length → e.src < x.rows.length) :
    ∃ res res', graphBasis tiny disk o G L num g f d cart = .ok res ∧ graphBasis tiny disk o' G' L num g f d cart = .ok res' ∧
      messagePass cfg P cg x (basisArray res L num) none
          { dst := some (G.map GeoEdge.dst), src := some (G.map GeoEdge.src) } =
        messagePass cfg P cg x (basisArray res' L num) none
          { dst := some (G'.map GeoEdge.dst), src := some (G'.map GeoEdge.src) } := by
  classical
  refine ⟨_, _, graphBasis_eq tiny ht disk hd o G hG L num g f d cart, graphBasis_eq tiny ht disk hd o' G' hG' L num g f d cart, ?_⟩
  unfold basisArray
  dsimp only
  rw [ofFn_map G fun e => basisEnt L num g f d cart e.disp, ofFn_map G' fun e => basisEnt L num g f d cart e.disp]
  let mk : GeoEdge → Edge := fun e => ⟨e.dst, e.src, basisEnt L num g f d cart e.disp, fun _ _ _ => 1⟩
  have hl : ∀ G : List GeoEdge, liveEdges cfg.useBasisBias (G.map mk) =
      (((near radius G).filter fun e => ¬ Vanishes cfg.useBasisBias (mk e)).map mk) := by
    intro G
    unfold liveEdges near
    rw [List.filter_map]
    congr 1
    refine Eq.symm ((filter_near (fun e => ¬ Vanishes cfg.useBasisBias (mk e)) (fun e : GeoEdge => Spec.length e.disp < radius)
      (fun e he => ?_) G).trans ?_)
    · by_contra hc
      exact he (Or.inl ⟨hb, basisEnt_far (cutoff_isCutoff hr hf) L num g d cart e.disp hc⟩)
    · rfl
  have := C59_message_pass cfg P cg x false L num (G.map mk) (G'.map mk)
    (by unfold SameLive; rw [hl, hl]; exact (h.filter _).map _) none none
    (Or.inr ⟨rfl, by simp [mk]⟩) (Or.inr ⟨rfl, by simp [mk]⟩) none hn (by simpa [mk] using hE) (by simpa [mk] using hE')
  simpa [List.map_map, Function.comp_def, mk] using this

/-- **C59 (cutoff radius, attention).** The same for an attention layer with the cutoff values returned by `basis`, for all
nodes which have an edge shorter than the radius or no edge at all. -/
theorem C59_cutoff_attention (tiny : ℝ) (ht : 0 < tiny) (disk : Disk SHCompressed)
    (hd : ValidDisk (shKind sphTerms) (shTable sphTerms) disk) (o o' : SaveOutcome) (radius : ℝ) (hr : 0 < radius)
    (f : ℝ → ℝ) (hf : (∀ x, smoothCutoff x radius = .ok (f x)) ∨ ∀ x, cosineCutoff x radius = .ok (f x))
    (L num : ℕ) (g : ℝ → ℕ → ℕ → ℝ) (d : Option (ℝ → ℝ)) (cart : Bool)
    (G G' : List GeoEdge) (hG : G ≠ []) (hG' : G' ≠ []) (h : (near radius G).Perm (near radius G'))
    (lo ninf : ℝ) (cfg : AttnCfg) (P : AttnParams) (cg : ℕ → ℕ → ℕ → ℝ) (q kv : Nodes)
    (hq : 0 < q.rows.length) (hk : 0 < kv.rows.length)
    (hE : ∀ e ∈ G, e.dst < q.rows.length → e.src < kv.rows.length)
    (hE' : ∀ e ∈ G', e.dst < q.rows.length → e.src < kv.rows.length)
    (h1 : cfg.numHeads ≠ 0) (h2 : cfg.qkvFeatures.getD q.F % cfg.numHeads = 0)
    (h3 : cfg.relV = true → cfg.conv.tens.maxDegree.getD (max L kv.L) ≤ L + kv.L) :
    ∃ res res' c c' out out', graphBasis tiny disk o G L num g f d cart = .ok res ∧ res.extra = some [c] ∧
      graphBasis tiny disk o' G' L num g f d cart = .ok res' ∧ res'.extra = some [c'] ∧
      attentionNaN lo ninf cfg P cg q kv (some (basisArray res L num)) (some (.vec (List.ofFn c)))
        { dst := some (G.map GeoEdge.dst), src := some (G.map GeoEdge.src) } = .ok out ∧
      attentionNaN lo ninf cfg P cg q kv (some (basisArray res' L num)) (some (.vec (List.ofFn c')))
        { dst := some (G'.map GeoEdge.dst), src := some (G'.map GeoEdge.src) } = .ok out' ∧
      ∀ i < q.rows.length,
        ((∃ e ∈ G, e.dst = i) → ∃ e ∈ G, e.dst = i ∧ Spec.length e.disp < radius) →
        ((∃ e ∈ G', e.dst = i) → ∃ e ∈ G', e.dst = i ∧ Spec.length e.disp < radius) →
        ∃ v, out[i]? = some (some v) ∧ out'[i]? = some (some v) := by
  classical
  have hcut := cutoff_isCutoff hr hf
  have hlen : ∀ r : Fin 3 → ℝ, 0 ≤ Spec.length r := fun r => Real.sqrt_nonneg _
  let mk : GeoEdge → AttnEdge := fun e => ⟨e.dst, e.src, basisEnt L num g f d cart e.disp, f (Spec.length e.disp)⟩
  have hl : ∀ G : List GeoEdge, liveAttn (G.map mk) = (near radius G).map mk := by
    intro G
    unfold liveAttn near
    rw [List.filter_map]
    congr 1
    apply List.filter_congr
    intro e _
    simp only [Function.comp, mk, decide_eq_decide]
    constructor
    · intro hc
      by_contra hn
      exact hc (hcut.outside _ (not_lt.1 hn))
    · exact fun hc => (hcut.inside _ (hlen _) hc).ne'
  obtain ⟨out, out', a1, a2, a3⟩ := C59_attention lo ninf cfg P cg q kv false L num (G.map mk) (G'.map mk)
    (by unfold SameLiveAttn; rw [hl, hl]; exact h.map _) _ _ (Or.inl rfl) (Or.inl rfl) _ _ (Or.inl rfl) (Or.inl rfl)
    (by simp only [List.mem_map]; rintro _ ⟨e, -, rfl⟩; exact (hcut.mem_unit _ (hlen _)).1)
    (by simp only [List.mem_map]; rintro _ ⟨e, -, rfl⟩; exact (hcut.mem_unit _ (hlen _)).1) hq hk none hq
    (by simp only [List.mem_map]; rintro _ ⟨e, he, rfl⟩ hd; exact ⟨hd, hE e he hd⟩)
    (by simp only [List.mem_map]; rintro _ ⟨e, he, rfl⟩ hd; exact ⟨hd, hE' e he hd⟩) h1 h2 h3
  refine ⟨_, _, _, _, out, out', graphBasis_eq tiny ht disk hd o G hG L num g f d cart, rfl,
    graphBasis_eq tiny ht disk hd o' G' hG' L num g f d cart, rfl, ?_, ?_, fun i hi hi1 hi2 => a3 i hi ?_ ?_⟩
  · rw [← a1]
    unfold basisArray
    dsimp only
    rw [ofFn_map G fun e => basisEnt L num g f d cart e.disp, ofFn_map G fun e => f (Spec.length e.disp)]
    simp only [List.map_map, Function.comp_def, mk]
  · rw [← a2]
    unfold basisArray
    dsimp only
    rw [ofFn_map G' fun e => basisEnt L num g f d cart e.disp, ofFn_map G' fun e => f (Spec.length e.disp)]
    simp only [List.map_map, Function.comp_def, mk]
  · simp only [List.mem_map]
    rintro ⟨_, ⟨e, he, rfl⟩, hd⟩
    obtain ⟨e', b1, b2, b3⟩ := hi1 ⟨e, he, hd⟩
    exact ⟨_, ⟨e', b1, rfl⟩, b2, hcut.inside _ (hlen _) b3⟩
  · simp only [List.mem_map]
    rintro ⟨_, ⟨e, he, rfl⟩, hd⟩
    obtain ⟨e', b1, b2, b3⟩ := hi2 ⟨e, he, hd⟩
    exact ⟨_, ⟨e', b1, rfl⟩, b2, hcut.inside _ (hlen _) b3⟩

-- Non-vacuity: three nodes, cutoff radius 2; the edge of length 3 is dropped, another one of length 2 is added.
example (tiny : ℝ) (ht : 0 < tiny) (disk : Disk SHCompressed) (hd : ValidDisk (shKind sphTerms) (shTable sphTerms) disk)
    (o : SaveOutcome) (P : ConvParams) (cfg : ConvCfg) (hb : cfg.useBasisBias = false) (cg : ℕ → ℕ → ℕ → ℝ) (a b c : Ent) :
    ∃ f res res', (∀ x, smoothCutoff x 2 = .ok (f x)) ∧
      graphBasis tiny disk o [⟨0, 1, ![1, 0, 0]⟩, ⟨0, 2, ![0, 0, 3]⟩] 2 4 (fun x _ k => x ^ k) f none false = .ok res ∧
      graphBasis tiny disk o [⟨1, 2, ![0, 2, 0]⟩, ⟨0, 1, ![1, 0, 0]⟩] 2 4 (fun x _ k => x ^ k) f none false = .ok res' ∧
      messagePass cfg P cg ⟨false, 1, 3, [a, b, c]⟩ (basisArray res 2 4) none { dst := some [0, 0], src := some [1, 2] } =
        messagePass cfg P cg ⟨false, 1, 3, [a, b, c]⟩ (basisArray res' 2 4) none { dst := some [1, 0], src := some [2, 1] } := by
  classical
  obtain ⟨f, hf, -⟩ := C43_smooth_cutoff 2 (by norm_num)
  have l1 : Spec.length ![1, 0, 0] = 1 := by simp [Spec.length, Fin.sum_univ_three]
  have l2 : Spec.length ![0, 0, 3] = 3 := by simp [Spec.length, Fin.sum_univ_three]
  have l3 : Spec.length ![0, 2, 0] = 2 := by simp [Spec.length, Fin.sum_univ_three]
  obtain ⟨res, res', h1, h2, h3⟩ := C59_cutoff tiny ht disk hd o o 2 (by norm_num) f (Or.inl hf) 2 4 (fun x _ k => x ^ k) none
    false [⟨0, 1, ![1, 0, 0]⟩, ⟨0, 2, ![0, 0, 3]⟩] [⟨1, 2, ![0, 2, 0]⟩, ⟨0, 1, ![1, 0, 0]⟩] (by simp) (by simp)
    (by unfold near; norm_num [List.filter_cons, l1, l2, l3]) cfg hb P cg ⟨false, 1, 3, [a, b, c]⟩ (by simp) (by simp) (by simp)
  exact ⟨f, res, res', hf, h1, h2, h3⟩

end E3x
