import Verif.Props.AttentionLogit
import Verif.Props.Softmax
import Mathlib.Tactic.FieldSimp

/-!
# C100: redundant parameters of attention layers
-/

namespace E3x

open Spec
open Finset (range)

/-- What the bias of the keys adds to the dot products of the edges into a node. -/
noncomputable def biasShift (cfg : AttnCfg) (P : AttnParams) (F : ℕ) (q kv : Nodes) (useBias : Bool) (bias : ℕ → ℝ)
    (dst h : ℕ) : ℝ :=
  (∑ p ∈ range 2, ∑ i ∈ range ((min q.L kv.L + 1) ^ 2), if (q.pseudo && kv.pseudo) = true ∨ p = deg i % 2 then
    ∑ f ∈ range (F / cfg.numHeads),
      projection cfg.qBias P.query (q.feat (q.rows.getD dst 0)) p i (f * cfg.numHeads + h) *
      ((if useBias = true ∧ p = 0 ∧ i = 0 then bias (f * cfg.numHeads + h) else 0) -
        (if cfg.kBias = true ∧ p = 0 ∧ i = 0 then P.key.bias (f * cfg.numHeads + h) else 0))
    else 0) /
  Real.sqrt ((if (q.pseudo && kv.pseudo) then 2 else 1) * (((min q.L kv.L : ℕ) : ℝ) + 1) ^ 2 *
    ((F / cfg.numHeads : ℕ) : ℝ))

/-- The bias of the keys adds the same number to the dot products of all edges into a node. -/
theorem attnLogit_keyBias (cfg : AttnCfg) (hrel : cfg.relQK = false) (P : AttnParams) (F : ℕ) (q kv : Nodes) (bF : ℕ)
    (useBias : Bool) (bias : ℕ → ℝ) (e : AttnEdge) (h : ℕ) (hd : e.dst < q.rows.length) (hs : e.src < kv.rows.length) :
    attnLogit { cfg with kBias := useBias } { P with key := { P.key with bias := bias } } F q kv bF e h =
      attnLogit cfg P F q kv bF e h + biasShift cfg P F q kv useBias bias e.dst h := by
  rw [C19_logit _ _ F q kv bF e h hd hs, C19_logit _ _ F q kv bF e h hd hs]
  unfold documentedLogit biasShift positionFactor
  dsimp only
  rw [hrel]
  simp only [Bool.false_eq_true, if_false, mul_one]
  rw [← add_div, ← Finset.sum_add_distrib]
  congr 1
  refine Finset.sum_congr rfl fun p _ => ?_
  rw [← Finset.sum_add_distrib]
  refine Finset.sum_congr rfl fun i _ => ?_
  by_cases hb : (q.pseudo && kv.pseudo) = true ∨ p = deg i % 2
  · rw [if_pos hb, if_pos hb, if_pos hb, ← Finset.sum_add_distrib]
    refine Finset.sum_congr rfl fun f _ => ?_
    rw [← mul_add]
    congr 1
    unfold projection
    ring
  · rw [if_neg hb, if_neg hb, if_neg hb, add_zero]

/-- The bias of the keys does not change attention weights. -/
theorem attnWeight_keyBias (cfg : AttnCfg) (hrel : cfg.relQK = false) (P : AttnParams) (F : ℕ) (q kv : Nodes) (bF : ℕ)
    (useBias : Bool) (bias : ℕ → ℝ) (E : List AttnEdge) (e : AttnEdge) (he : e ∈ E)
    (hE : ∀ e' ∈ E, e'.dst = e.dst → e'.dst < q.rows.length ∧ e'.src < kv.rows.length) :
    attnWeight { cfg with kBias := useBias } { P with key := { P.key with bias := bias } } F q kv bF E e =
      attnWeight cfg P F q kv bF E e := by
  funext h
  unfold attnWeight
  have hl : ∀ e' ∈ attnInto E e.dst,
      attnLogit { cfg with kBias := useBias } { P with key := { P.key with bias := bias } } F q kv bF e' h =
        attnLogit cfg P F q kv bF e' h + biasShift cfg P F q kv useBias bias e.dst h := by
    intro e' he'
    obtain ⟨m1, m2⟩ := List.mem_filter.1 he'
    have hdst : e'.dst = e.dst := by simpa using m2
    obtain ⟨i1, i2⟩ := hE e' m1 hdst
    rw [attnLogit_keyBias cfg hrel P F q kv bF useBias bias e' h i1 i2, hdst]
  rw [hl e (List.mem_filter.2 ⟨he, by simp⟩)]
  rw [List.map_congr_left (g := fun e' => (attnLogit cfg P F q kv bF e' h + biasShift cfg P F q kv useBias bias e.dst h,
    e'.cut)) (fun e' he' => by rw [hl e' he'])]
  have := softmaxValue_shift ((attnInto E e.dst).map fun e' => (attnLogit cfg P F q kv bF e' h, e'.cut))
    (biasShift cfg P F q kv useBias bias e.dst h) (attnLogit cfg P F q kv bF e h, e.cut)
  rw [List.map_map] at this
  exact this

/-- Messages use the keys only through the weights. -/
theorem attnMessage_keyBias (cfg : AttnCfg) (P : AttnParams) (useBias : Bool) (bias : ℕ → ℝ) (cg : ℕ → ℕ → ℕ → ℝ) (F : ℕ)
    (kv : Nodes) (bp : Bool) (bL bF : ℕ) (w : ℕ → ℝ) (e : AttnEdge) :
    attnMessage { cfg with kBias := useBias } { P with key := { P.key with bias := bias } } cg F kv bp bL bF w e =
      attnMessage cfg P cg F kv bp bL bF w e := by
  unfold attnMessage
  rfl

theorem isAttention_keyBias (cfg : AttnCfg) (hrel : cfg.relQK = false) (P : AttnParams) (useBias : Bool)
    (bias : ℕ → ℝ) (cg : ℕ → ℕ → ℕ → ℝ) (q kv : Nodes) (bp : Bool) (bL bF : ℕ) (E : List AttnEdge) (n : ℕ) (z : Nodes)
    (hE : ∀ e ∈ E, e.dst < n → e.dst < q.rows.length ∧ e.src < kv.rows.length)
    (h : IsAttention { cfg with kBias := useBias } { P with key := { P.key with bias := bias } } cg q kv bp bL bF E n z) :
    IsAttention cfg P cg q kv bp bL bF E n z := by
  obtain ⟨g1, g2, g3, g4, g5⟩ := h
  refine ⟨g1, g2, g3, g4, fun i hi => ?_⟩
  rw [g5 i hi]
  have hm : ∀ e ∈ attnInto E i,
      attnMessage { cfg with kBias := useBias } { P with key := { P.key with bias := bias } } cg
        (cfg.qkvFeatures.getD q.F) kv bp bL bF (attnWeight { cfg with kBias := useBias }
          { P with key := { P.key with bias := bias } } (cfg.qkvFeatures.getD q.F) q kv bF E e) e =
      attnMessage cfg P cg (cfg.qkvFeatures.getD q.F) kv bp bL bF
        (attnWeight cfg P (cfg.qkvFeatures.getD q.F) q kv bF E e) e := by
    intro e he
    obtain ⟨m1, m2⟩ := List.mem_filter.1 he
    have hdst : e.dst = i := by simpa using m2
    rw [attnMessage_keyBias,
      attnWeight_keyBias cfg hrel P _ q kv bF useBias bias E e m1 (fun e' he' h' => hE e' he' (by rw [h', hdst]; exact hi))]
  rw [List.map_congr_left hm]
  rfl

/-- **C100 (bias of the keys).** Without relative positional encodings of queries and keys, a bias of the keys has no effect:
neither its values nor `key_use_bias` change the result. -/
theorem C100_key_bias (lo ninf : ℝ) (cfg : AttnCfg) (hrel : cfg.relQK = false) (P : AttnParams) (useBias : Bool)
    (bias : ℕ → ℝ) (cg : ℕ → ℕ → ℕ → ℝ)
    (q kv : Nodes) (bp : Bool) (bL bF : ℕ) (E : List AttnEdge) (b : Option Edges)
    (hb : BasisOf cfg b ⟨bp, bL, bF, .vec (E.map AttnEdge.basis)⟩)
    (c : Option (Lead ℝ)) (hc : CutoffOf c (.vec (E.map AttnEdge.cut)) E)
    (hq : 0 < q.rows.length) (hk : 0 < kv.rows.length) (num : Option ℕ) (hN : 0 < num.getD q.rows.length)
    (hE : ∀ e ∈ E, e.dst < num.getD q.rows.length → e.dst < q.rows.length ∧ e.src < kv.rows.length) :
    attention lo ninf { cfg with kBias := useBias } { P with key := { P.key with bias := bias } } cg q kv b c
      { dst := some (E.map AttnEdge.dst), src := some (E.map AttnEdge.src), num := num } =
    attention lo ninf cfg P cg q kv b c
      { dst := some (E.map AttnEdge.dst), src := some (E.map AttnEdge.src), num := num } := by
  obtain ⟨a1, a2, a3⟩ := C19_sparse lo ninf cfg P cg q kv bp bL bF E b hb c hc hq hk num hN hE _ rfl
  obtain ⟨b1, b2, b3⟩ := C19_sparse lo ninf { cfg with kBias := useBias } { P with key := { P.key with bias := bias } } cg q kv
    bp bL bF E b hb c hc hq hk num hN hE _ rfl
  by_cases h1 : cfg.numHeads = 0 ∨ cfg.qkvFeatures.getD q.F % cfg.numHeads ≠ 0
  · rw [a1 h1, b1 h1]
  by_cases h2 : cfg.relV = true ∧ bL + kv.L < cfg.conv.tens.maxDegree.getD (max bL kv.L)
  · rw [a2 h2.1 h2.2, b2 h2.1 h2.2]
  push Not at h1 h2
  obtain ⟨z, e1, e2⟩ := a3 h1.1 h1.2 h2
  obtain ⟨z', f1, f2⟩ := b3 h1.1 h1.2 h2
  rw [e1, f1, isAttention_unique (isAttention_keyBias cfg hrel P useBias bias cg q kv bp bL bF E _ z' hE f2) e2]

/-- A dense layer with output features multiplied by `s p l o`. -/
def scaleDense (s : ℕ → ℕ → ℕ → ℝ) (P : DenseParams) : DenseParams :=
  { kernel := fun p l f o => s p l o * P.kernel p l f o, bias := fun o => s 0 0 o * P.bias o }

theorem projection_scale (s : ℕ → ℕ → ℕ → ℝ) (useBias : Bool) (P : DenseParams) (x : Feat) (p i o : ℕ) :
    projection useBias (scaleDense s P) x p i o = s p (deg i) o * projection useBias P x p i o := by
  unfold projection scaleDense
  dsimp only
  rw [mul_add, Finset.mul_sum]
  congr 1
  · exact Finset.sum_congr rfl fun f _ => by ring
  · by_cases h : useBias = true ∧ p = 0 ∧ i = 0
    · obtain ⟨h1, rfl, rfl⟩ := h
      rw [if_pos ⟨h1, rfl, rfl⟩, if_pos ⟨h1, rfl, rfl⟩, show deg 0 = 0 from rfl]
    · rw [if_neg h, if_neg h, mul_zero]

theorem attnLogit_scale (cfg : AttnCfg) (P : AttnParams) (F : ℕ) (q kv : Nodes) (bF : ℕ) (s : ℕ → ℕ → ℕ → ℝ)
    (hs0 : ∀ p l o, s p l o ≠ 0) (e : AttnEdge) (h : ℕ) (hd : e.dst < q.rows.length) (hs : e.src < kv.rows.length) :
    attnLogit cfg { P with query := scaleDense s P.query, key := scaleDense (fun p l o => (s p l o)⁻¹) P.key } F q kv bF e h =
      attnLogit cfg P F q kv bF e h := by
  rw [C19_logit _ _ F q kv bF e h hd hs, C19_logit _ _ F q kv bF e h hd hs]
  unfold documentedLogit
  dsimp only
  congr 1
  refine Finset.sum_congr rfl fun p _ => Finset.sum_congr rfl fun i _ => ?_
  split_ifs
  · refine Finset.sum_congr rfl fun f _ => ?_
    rw [projection_scale, projection_scale]
    have hne := hs0 p (deg i) (f * cfg.numHeads + h)
    have hpos : positionFactor cfg
        { P with query := scaleDense s P.query, key := scaleDense (fun p l o => (s p l o)⁻¹) P.key }
        (q.pseudo && kv.pseudo) bF (min q.L kv.L) F e.basis p i (f * cfg.numHeads + h) =
        positionFactor cfg P (q.pseudo && kv.pseudo) bF (min q.L kv.L) F e.basis p i (f * cfg.numHeads + h) := rfl
    rw [hpos]
    field_simp
  · rfl

theorem isAttention_scale (cfg : AttnCfg) (P : AttnParams) (s : ℕ → ℕ → ℕ → ℝ) (hs0 : ∀ p l o, s p l o ≠ 0)
    (cg : ℕ → ℕ → ℕ → ℝ) (q kv : Nodes) (bp : Bool) (bL bF : ℕ) (E : List AttnEdge) (n : ℕ) (z : Nodes)
    (hE : ∀ e ∈ E, e.dst < n → e.dst < q.rows.length ∧ e.src < kv.rows.length)
    (h : IsAttention cfg { P with query := scaleDense s P.query, key := scaleDense (fun p l o => (s p l o)⁻¹) P.key } cg q kv
      bp bL bF E n z) :
    IsAttention cfg P cg q kv bp bL bF E n z := by
  obtain ⟨g1, g2, g3, g4, g5⟩ := h
  refine ⟨g1, g2, g3, g4, fun i hi => ?_⟩
  rw [g5 i hi]
  have hm : ∀ e ∈ attnInto E i,
      attnMessage cfg { P with query := scaleDense s P.query, key := scaleDense (fun p l o => (s p l o)⁻¹) P.key } cg
        (cfg.qkvFeatures.getD q.F) kv bp bL bF (attnWeight cfg
          { P with query := scaleDense s P.query, key := scaleDense (fun p l o => (s p l o)⁻¹) P.key }
          (cfg.qkvFeatures.getD q.F) q kv bF E e) e =
      attnMessage cfg P cg (cfg.qkvFeatures.getD q.F) kv bp bL bF
        (attnWeight cfg P (cfg.qkvFeatures.getD q.F) q kv bF E e) e := by
    intro e he
    obtain ⟨m1, m2⟩ := List.mem_filter.1 he
    have hdst : e.dst = i := by simpa using m2
    have hw : attnWeight cfg { P with query := scaleDense s P.query, key := scaleDense (fun p l o => (s p l o)⁻¹) P.key }
          (cfg.qkvFeatures.getD q.F) q kv bF E e = attnWeight cfg P (cfg.qkvFeatures.getD q.F) q kv bF E e := by
      funext h
      unfold attnWeight
      have hl : ∀ e' ∈ attnInto E e.dst, attnLogit cfg
          { P with query := scaleDense s P.query, key := scaleDense (fun p l o => (s p l o)⁻¹) P.key }
          (cfg.qkvFeatures.getD q.F) q kv bF e' h = attnLogit cfg P (cfg.qkvFeatures.getD q.F) q kv bF e' h := by
        intro e' he'
        obtain ⟨n1, n2⟩ := List.mem_filter.1 he'
        have hdst' : e'.dst = e.dst := by simpa using n2
        obtain ⟨i1, i2⟩ := hE e' n1 (by rw [hdst', hdst]; exact hi)
        exact attnLogit_scale cfg P _ q kv bF s hs0 e' h i1 i2
      rw [hl e (List.mem_filter.2 ⟨m1, by simp⟩)]
      congr 1
      exact List.map_congr_left fun e' he' => by rw [hl e' he']
    rw [hw]
    unfold attnMessage
    rfl
  rw [List.map_congr_left hm]

/-- **C100 (scale of queries and keys).** Multiplying the parameters of queries by any non-zero factors, one for every parity,
degree and feature, and dividing those of the keys by the same factors, changes nothing. -/
theorem C100_scale (lo ninf : ℝ) (cfg : AttnCfg) (P : AttnParams) (s : ℕ → ℕ → ℕ → ℝ) (hs0 : ∀ p l o, s p l o ≠ 0)
    (cg : ℕ → ℕ → ℕ → ℝ) (q kv : Nodes) (bp : Bool) (bL bF : ℕ) (E : List AttnEdge) (b : Option Edges)
    (hb : BasisOf cfg b ⟨bp, bL, bF, .vec (E.map AttnEdge.basis)⟩)
    (c : Option (Lead ℝ)) (hc : CutoffOf c (.vec (E.map AttnEdge.cut)) E)
    (hq : 0 < q.rows.length) (hk : 0 < kv.rows.length) (num : Option ℕ) (hN : 0 < num.getD q.rows.length)
    (hE : ∀ e ∈ E, e.dst < num.getD q.rows.length → e.dst < q.rows.length ∧ e.src < kv.rows.length) :
    attention lo ninf cfg { P with query := scaleDense s P.query, key := scaleDense (fun p l o => (s p l o)⁻¹) P.key } cg
      q kv b c { dst := some (E.map AttnEdge.dst), src := some (E.map AttnEdge.src), num := num } =
    attention lo ninf cfg P cg q kv b c
      { dst := some (E.map AttnEdge.dst), src := some (E.map AttnEdge.src), num := num } := by
  obtain ⟨a1, a2, a3⟩ := C19_sparse lo ninf cfg P cg q kv bp bL bF E b hb c hc hq hk num hN hE _ rfl
  obtain ⟨b1, b2, b3⟩ := C19_sparse lo ninf cfg
    { P with query := scaleDense s P.query, key := scaleDense (fun p l o => (s p l o)⁻¹) P.key } cg q kv
    bp bL bF E b hb c hc hq hk num hN hE _ rfl
  by_cases h1 : cfg.numHeads = 0 ∨ cfg.qkvFeatures.getD q.F % cfg.numHeads ≠ 0
  · rw [a1 h1, b1 h1]
  by_cases h2 : cfg.relV = true ∧ bL + kv.L < cfg.conv.tens.maxDegree.getD (max bL kv.L)
  · rw [a2 h2.1 h2.2, b2 h2.1 h2.2]
  push Not at h1 h2
  obtain ⟨z, e1, e2⟩ := a3 h1.1 h1.2 h2
  obtain ⟨z', f1, f2⟩ := b3 h1.1 h1.2 h2
  rw [e1, f1, isAttention_unique (isAttention_scale cfg P s hs0 cg q kv bp bL bF E _ z' hE f2) e2]

/-! ## With positional encodings -/

/-- One head, one feature, a bias of the keys, positional encoding of queries and keys. -/
def biasCfg : AttnCfg := ⟨⟨⟨none, false⟩, false⟩, 1, none, none, true, false, false, true, false, false⟩

/-- Queries, values, outputs and encodings are the inputs; keys are the bias. -/
def biasParams (t : ℝ) : AttnParams :=
  ⟨⟨fun _ _ _ _ => 1, 0⟩, ⟨fun _ _ _ _ => 0, fun _ => t⟩, ⟨fun _ _ _ _ => 1, 0⟩, ⟨fun _ _ _ _ => 1, 0⟩, fun _ _ => 1, 0,
    ⟨⟨fun _ _ _ _ => 0, 0⟩, .tensor fun _ _ _ _ _ _ _ => 0⟩⟩

/-- Two neighbours with basis functions 0 and 1. -/
def biasEdges : List AttnEdge := [⟨0, 0, 0, 1⟩, ⟨0, 1, 1, 1⟩]

def biasQuery : Nodes := ⟨false, 0, 1, [1]⟩

def biasKeys : Nodes := ⟨false, 0, 1, [0, 1]⟩

theorem biasLogit (t : ℝ) : attnLogit biasCfg (biasParams t) 1 biasQuery biasKeys 1 ⟨0, 0, 0, 1⟩ 0 = 0 ∧
    attnLogit biasCfg (biasParams t) 1 biasQuery biasKeys 1 ⟨0, 1, 1, 1⟩ 0 = t := by
  constructor
  · rw [C19_logit _ _ _ _ _ _ _ _ (by simp [biasQuery]) (by simp [biasKeys])]
    simp [documentedLogit, projection, positionFactor, biasCfg, biasParams, biasQuery, biasKeys, Nodes.feat, comp, slot, deg]
  · rw [C19_logit _ _ _ _ _ _ _ _ (by simp [biasQuery]) (by simp [biasKeys])]
    simp [documentedLogit, projection, positionFactor, biasCfg, biasParams, biasQuery, biasKeys, Nodes.feat, comp, slot, deg,
      Finset.sum_range_succ]

theorem biasResult (lo ninf t : ℝ) (cg : ℕ → ℕ → ℕ → ℝ) : ∃ z, attention lo ninf biasCfg (biasParams t) cg biasQuery biasKeys
      (some ⟨false, 0, 1, .vec (biasEdges.map AttnEdge.basis)⟩) none
      { dst := some (biasEdges.map AttnEdge.dst), src := some (biasEdges.map AttnEdge.src) } = .ok z ∧
    (z.rows.getD 0 0) 0 0 0 = Real.exp t / (1 + Real.exp t) := by
  obtain ⟨-, -, h⟩ := C19_sparse lo ninf biasCfg (biasParams t) cg biasQuery biasKeys false 0 1 biasEdges _ (Or.inl rfl) none
    (Or.inr ⟨rfl, by simp [biasEdges]⟩) (by simp [biasQuery]) (by simp [biasKeys]) none (by simp [biasQuery])
    (by simp [biasEdges, biasQuery, biasKeys]) _ rfl
  obtain ⟨z, hz, -, -, -, -, h⟩ := h (by simp [biasCfg]) (by simp [biasCfg, biasQuery]) (by simp [biasCfg])
  refine ⟨z, hz, ?_⟩
  have h0 := h 0 (by simp [biasQuery])
  have hI : attnInto biasEdges 0 = biasEdges := by simp [attnInto, biasEdges]
  have hF : biasCfg.qkvFeatures.getD biasQuery.F = 1 := rfl
  rw [hI, hF] at h0
  have hw : attnWeight biasCfg (biasParams t) 1 biasQuery biasKeys 1 biasEdges ⟨0, 1, 1, 1⟩ 0 =
      Real.exp t / (1 + Real.exp t) := by
    unfold attnWeight softmaxValue
    dsimp only
    rw [hI]
    simp only [biasEdges, List.map_cons, List.map_nil, List.sum_cons, List.sum_nil, (biasLogit t).1, (biasLogit t).2]
    simp
  rw [List.getD_eq_getElem?_getD, h0, Option.getD_some]
  simp only [biasEdges, List.map_cons, List.map_nil, List.sum_cons, List.sum_nil]
  have hm0 : ∀ w : ℕ → ℝ, attnMessage biasCfg (biasParams t) cg 1 biasKeys false 0 1 w ⟨0, 0, 0, 1⟩ 0 0 0 = 0 := by
    intro w
    simp [attnMessage, biasCfg, biasParams, biasKeys, dense, denseSub, nnDense, concatDegrees, Nodes.feat]
  have hm1 : ∀ w : ℕ → ℝ, attnMessage biasCfg (biasParams t) cg 1 biasKeys false 0 1 w ⟨0, 1, 1, 1⟩ 0 0 0 = w 0 := by
    intro w
    simp [attnMessage, biasCfg, biasParams, biasKeys, dense, denseSub, nnDense, concatDegrees, Nodes.feat]
  have hd : ∀ v : Ent, (dense (biasCfg.outFeatures.getD biasQuery.F) biasCfg.oBias (biasParams t).out
      ⟨attnOutPseudo biasCfg biasKeys false 0, attnOutL biasCfg biasKeys 0, 1, v⟩).val 0 0 0 = v 0 0 0 := by
    intro v
    simp [attnOutPseudo, biasCfg, biasParams, biasKeys, dense, denseSub, nnDense, concatDegrees]
  rw [hd]
  simp only [Pi.add_apply, hm0, hm1]
  have := hw
  simp only [biasEdges] at this
  rw [this]
  simp

/-- **C100 (limit).** With relative positional encoding of queries and keys the bias of the keys does matter. -/
theorem C100_key_bias_encoding (lo ninf : ℝ) (cg : ℕ → ℕ → ℕ → ℝ) :
    attention lo ninf biasCfg (biasParams 1) cg biasQuery biasKeys
      (some ⟨false, 0, 1, .vec (biasEdges.map AttnEdge.basis)⟩) none
      { dst := some (biasEdges.map AttnEdge.dst), src := some (biasEdges.map AttnEdge.src) } ≠
    attention lo ninf biasCfg (biasParams 0) cg biasQuery biasKeys
      (some ⟨false, 0, 1, .vec (biasEdges.map AttnEdge.basis)⟩) none
      { dst := some (biasEdges.map AttnEdge.dst), src := some (biasEdges.map AttnEdge.src) } := by
  intro h
  obtain ⟨z, h1, h2⟩ := biasResult lo ninf 1 cg
  obtain ⟨z', g1, g2⟩ := biasResult lo ninf 0 cg
  rw [h1, g1] at h
  injection h with h
  rw [h, g2, Real.exp_zero] at h2
  have hpos := Real.exp_pos 1
  have : Real.exp 1 = 1 := by
    field_simp at h2
    linarith
  have := Real.add_one_lt_exp (x := 1) one_ne_zero
  linarith

-- Non-vacuity: a node with two neighbours of different features.
example (v w : Ent) : ∃ E : List AttnEdge, (∀ e ∈ E, e.dst < 2 → e.dst < 2 ∧ e.src < 2) ∧ (attnInto E 0).length = 2 :=
  ⟨[⟨0, 1, v, 1 / 2⟩, ⟨0, 0, w, 1⟩], by simp, by simp [attnInto]⟩

end E3x
