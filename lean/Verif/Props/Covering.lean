import Verif.Spec.Covering
import Verif.Props.Batch

/-!
# C61: the result in a node depends only on what the node sees of its graph
-/

namespace E3x

open Spec

theorem pullback_rows {σ : ℕ → ℕ} {n' : ℕ} {x : Nodes} {i : ℕ} (hi : i < n') (hs : σ i < x.rows.length) :
    (pullback σ n' x).rows[i]? = x.rows[σ i]? := by
  unfold pullback
  dsimp only
  rw [List.getElem?_map, List.getElem?_range hi, List.getElem?_eq_getElem hs, Option.map_some, List.getD_eq_getElem _ _ hs]

theorem pullback_length {σ : ℕ → ℕ} {n' : ℕ} {x : Nodes} : (pullback σ n' x).rows.length = n' := by
  simp [pullback]

theorem pullback_same {σ : ℕ → ℕ} {n' : ℕ} {x : Nodes} : SameShape x (pullback σ n' x) := ⟨rfl, rfl, rfl⟩

/-- An array is a pullback if its rows are. -/
theorem eq_pullback {σ : ℕ → ℕ} {n' : ℕ} {z' z : Nodes} (hs : SameShape z' z) (hl : z'.rows.length = n')
    (hσ : ∀ i < n', σ i < z.rows.length) (h : ∀ i < n', z'.rows[i]? = z.rows[σ i]?) : z' = pullback σ n' z := by
  refine nodes_ext hs.1 hs.2.1 hs.2.2 (by rw [hl, pullback_length]) fun i hi => ?_
  rw [h i (by omega), pullback_rows (by omega) (hσ i (by omega))]

/-- **C61 (message passing).** If `σ` is a covering then the result of a message-passing layer in node `i` of the covering
graph is the result in node `σ i` of the other graph; both layers raise the same exceptions. -/
theorem C61_message_pass (cfg : ConvCfg) (P : ConvParams) (cg : ℕ → ℕ → ℕ → ℝ) (σ : ℕ → ℕ) (n' : ℕ) (hn' : 0 < n') (x : Nodes)
    (bp : Bool) (bL bF : ℕ) (E' E : List Edge) (hσ : Covers σ n' x.rows.length E' E) (w' w : Option (Lead Ent))
    (hw' : WeightsOf w' (.vec (E'.map Edge.weight)) E') (hw : WeightsOf w (.vec (E.map Edge.weight)) E)
    (hE' : ∀ e ∈ E', e.dst < n' → e.src < n') (hE : ∀ e ∈ E, e.dst < x.rows.length → e.src < x.rows.length) :
    (∃ z, messagePass cfg P cg x ⟨bp, bL, bF, .vec (E.map Edge.basis)⟩ w (edgeIx E) = .ok z ∧
      messagePass cfg P cg (pullback σ n' x) ⟨bp, bL, bF, .vec (E'.map Edge.basis)⟩ w' (edgeIx E') = .ok (pullback σ n' z) ∧
      z.rows.length = x.rows.length) ∨
    ∃ e, messagePass cfg P cg x ⟨bp, bL, bF, .vec (E.map Edge.basis)⟩ w (edgeIx E) = .error e ∧
      messagePass cfg P cg (pullback σ n' x) ⟨bp, bL, bF, .vec (E'.map Edge.basis)⟩ w' (edgeIx E') = .error e := by
  have hn : 0 < x.rows.length := by have := hσ.1 0 hn'; omega
  obtain ⟨p1, p2⟩ := C18_sparse cfg P cg (pullback σ n' x) bp bL bF E' w' hw' none (by rw [pullback_length]; exact hn')
    (by rw [Option.getD_none, pullback_length]; exact hE')
  obtain ⟨r1, r2⟩ := C18_sparse cfg P cg x bp bL bF E w hw none hn hE
  by_cases hd : cfg.tens.maxDegree.getD (max bL x.L) ≤ bL + x.L
  · obtain ⟨z', a0, a1, a2, a3, a4, a5⟩ := p2 hd
    obtain ⟨z, c0, c1, c2, c3, c4, c5⟩ := r2 hd
    rw [Option.getD_none, pullback_length] at a4 a5
    rw [Option.getD_none] at c4 c5
    refine Or.inl ⟨z, c0, a0.trans (congrArg _ ?_), c4⟩
    refine eq_pullback ⟨Bool.eq_iff_iff.2 (a1.trans c1.symm), a2.trans c2.symm, a3.trans c3.symm⟩ a4
      (fun i hi => by rw [c4]; exact hσ.1 i hi) fun i hi => ?_
    rw [a5 i hi, c5 _ (hσ.1 i hi)]
    congr 1
    refine (message_sum_local cfg P cg _ _ pullback_same bp bL bF _ _ σ (hσ.2 i hi) fun e he => ?_).symm
    obtain ⟨h1, h2⟩ := List.mem_filter.1 he
    have h3 := hE' e h1 (by rw [decide_eq_true_eq] at h2; omega)
    exact (pullback_rows h3 (hσ.1 _ h3)).symm
  · exact Or.inr ⟨_, r1 (by omega), p1 (by simp only [pullback]; omega)⟩

/-- The documented results of attention layers. -/
theorem isAttention_cover (cfg : AttnCfg) (P : AttnParams) (cg : ℕ → ℕ → ℕ → ℝ) (σ : ℕ → ℕ) (n' n : ℕ)
    (q kv : Nodes) (hq : q.rows.length = n) (hk : kv.rows.length = n)
    (bp : Bool) (bL bF : ℕ) (E' E : List AttnEdge) (hσ : CoversAttn σ n' n E' E)
    (hE' : ∀ e ∈ E', e.dst < n' → e.src < n') (z' z : Nodes)
    (h' : IsAttention cfg P cg (pullback σ n' q) (pullback σ n' kv) bp bL bF E' n' z')
    (h : IsAttention cfg P cg q kv bp bL bF E n z) : z' = pullback σ n' z := by
  obtain ⟨a1, a2, a3, a4, a5⟩ := h'
  obtain ⟨b1, b2, b3, b4, b5⟩ := h
  refine eq_pullback ⟨a1.trans b1.symm, a2.trans b2.symm, a3.trans b3.symm⟩ a4
    (fun i hi => by rw [b4]; exact hσ.1 i hi) fun i hi => ?_
  rw [a5 i hi, b5 _ (hσ.1 i hi)]
  have e := attn_sum_local cfg P cg (cfg.qkvFeatures.getD q.F) q kv (pullback σ n' q) (pullback σ n' kv) pullback_same
    pullback_same bp bL bF E E' σ σ (σ i) i (hσ.2 i hi) (pullback_rows hi (by rw [hq]; exact hσ.1 i hi)).symm rfl
    fun e he => by
      obtain ⟨h1, h2⟩ := List.mem_filter.1 he
      have h3 := hE' e h1 (by rw [decide_eq_true_eq] at h2; omega)
      exact (pullback_rows h3 (by rw [hk]; exact hσ.1 _ h3)).symm
  rw [e]
  rfl

/-- **C61 (attention).** The same for attention layers. -/
theorem C61_attention (lo ninf : ℝ) (cfg : AttnCfg) (P : AttnParams) (cg : ℕ → ℕ → ℕ → ℝ) (σ : ℕ → ℕ) (n' n : ℕ) (hn' : 0 < n')
    (q kv : Nodes) (hq : q.rows.length = n) (hk : kv.rows.length = n)
    (bp : Bool) (bL bF : ℕ) (E' E : List AttnEdge) (hσ : CoversAttn σ n' n E' E)
    (b' b : Option Edges) (hb' : BasisOf cfg b' ⟨bp, bL, bF, .vec (E'.map AttnEdge.basis)⟩)
    (hb : BasisOf cfg b ⟨bp, bL, bF, .vec (E.map AttnEdge.basis)⟩)
    (c' c : Option (Lead ℝ)) (hc' : CutoffOf c' (.vec (E'.map AttnEdge.cut)) E')
    (hc : CutoffOf c (.vec (E.map AttnEdge.cut)) E)
    (hE' : ∀ e ∈ E', e.dst < n' → e.src < n') (hE : ∀ e ∈ E, e.dst < n → e.src < n) :
    (∃ z, attention lo ninf cfg P cg q kv b c (attnIx E) = .ok z ∧
      attention lo ninf cfg P cg (pullback σ n' q) (pullback σ n' kv) b' c' (attnIx E') = .ok (pullback σ n' z) ∧
      z.rows.length = n) ∨
    ∃ e, attention lo ninf cfg P cg q kv b c (attnIx E) = .error e ∧
      attention lo ninf cfg P cg (pullback σ n' q) (pullback σ n' kv) b' c' (attnIx E') = .error e := by
  have hn : 0 < n := by have := hσ.1 0 hn'; omega
  obtain ⟨p1, p2, p3⟩ := C19_sparse lo ninf cfg P cg (pullback σ n' q) (pullback σ n' kv) bp bL bF E' b' hb' c' hc'
    (by rw [pullback_length]; exact hn') (by rw [pullback_length]; exact hn') none
    (by rw [Option.getD_none, pullback_length]; exact hn')
    (by rw [Option.getD_none, pullback_length, pullback_length]; exact fun e he hd => ⟨hd, hE' e he hd⟩) _ rfl
  obtain ⟨r1, r2, r3⟩ := C19_sparse lo ninf cfg P cg q kv bp bL bF E b hb c hc
    (by omega) (by omega) none (by rw [Option.getD_none]; omega)
    (by rw [Option.getD_none, hq, hk]; exact fun e he hd => ⟨hd, hE e he hd⟩) _ rfl
  by_cases hH : cfg.numHeads = 0 ∨ cfg.qkvFeatures.getD q.F % cfg.numHeads ≠ 0
  · exact Or.inr ⟨_, r1 hH, p1 hH⟩
  · push Not at hH
    by_cases hd : cfg.relV = true → cfg.conv.tens.maxDegree.getD (max bL kv.L) ≤ bL + kv.L
    · obtain ⟨z', z1', z2'⟩ := p3 hH.1 hH.2 hd
      obtain ⟨z, z1, z2⟩ := r3 hH.1 hH.2 hd
      rw [Option.getD_none, pullback_length] at z2'
      rw [Option.getD_none, hq] at z2
      exact Or.inl ⟨z, z1, z1'.trans (congrArg _
        (isAttention_cover cfg P cg σ n' n q kv hq hk bp bL bF E' E hσ hE' z' z z2' z2)), z2.2.2.2.1⟩
    · push Not at hd
      exact Or.inr ⟨_, r2 hd.1 hd.2, p2 hd.1 hd.2⟩

/-- **C61 (attention, NaN rows).** Row `i` of the result on the covering graph is NaN (C58) exactly if row `σ i` of the result on
the other graph is; otherwise the rows are equal. -/
theorem C61_attention_nan (lo ninf : ℝ) (cfg : AttnCfg) (P : AttnParams) (cg : ℕ → ℕ → ℕ → ℝ) (σ : ℕ → ℕ) (n' n : ℕ)
    (hn' : 0 < n') (q kv : Nodes) (hq : q.rows.length = n) (hk : kv.rows.length = n)
    (bp : Bool) (bL bF : ℕ) (E' E : List AttnEdge) (hσ : CoversAttn σ n' n E' E)
    (b' b : Option Edges) (hb' : BasisOf cfg b' ⟨bp, bL, bF, .vec (E'.map AttnEdge.basis)⟩)
    (hb : BasisOf cfg b ⟨bp, bL, bF, .vec (E.map AttnEdge.basis)⟩)
    (c' c : Option (Lead ℝ)) (hc' : CutoffOf c' (.vec (E'.map AttnEdge.cut)) E')
    (hc : CutoffOf c (.vec (E.map AttnEdge.cut)) E) (hc0' : ∀ e ∈ E', 0 ≤ e.cut) (hc0 : ∀ e ∈ E, 0 ≤ e.cut)
    (hE' : ∀ e ∈ E', e.dst < n' → e.src < n') (hE : ∀ e ∈ E, e.dst < n → e.src < n)
    (h1 : cfg.numHeads ≠ 0) (h2 : cfg.qkvFeatures.getD q.F % cfg.numHeads = 0)
    (h3 : cfg.relV = true → cfg.conv.tens.maxDegree.getD (max bL kv.L) ≤ bL + kv.L) :
    ∃ out out', attentionNaN lo ninf cfg P cg q kv b c (attnIx E) = .ok out ∧
      attentionNaN lo ninf cfg P cg (pullback σ n' q) (pullback σ n' kv) b' c' (attnIx E') = .ok out' ∧
      out'.length = n' ∧ ∀ i < n', out'[i]? = out[σ i]? := by
  have hn : 0 < n := by have := hσ.1 0 hn'; omega
  obtain ⟨z', out', a1, a2, a3, a4⟩ := C58_sparse lo ninf cfg P cg (pullback σ n' q) (pullback σ n' kv) bp bL bF E' b' hb' c' hc'
    hc0' (by rw [pullback_length]; exact hn') (by rw [pullback_length]; exact hn') none
    (by rw [Option.getD_none, pullback_length]; exact hn')
    (by rw [Option.getD_none, pullback_length, pullback_length]; exact fun e he hd => ⟨hd, hE' e he hd⟩) h1 h2 h3
  obtain ⟨z, out, d1, d2, d3, d4⟩ := C58_sparse lo ninf cfg P cg q kv bp bL bF E b hb c hc hc0
    (by omega) (by omega) none (by rw [Option.getD_none]; omega)
    (by rw [Option.getD_none, hq, hk]; exact fun e he hd => ⟨hd, hE e he hd⟩) h1 h2 h3
  rw [Option.getD_none, pullback_length] at a2 a3 a4
  rw [Option.getD_none, hq] at d2 d3 d4
  refine ⟨out, out', d1, a1, a3, fun i hi => ?_⟩
  have hm : ∀ (E : List AttnEdge) (i : ℕ) (e : AttnEdge), (e ∈ E ∧ e.dst = i) ↔ e ∈ attnInto E i := by
    intro E i e
    simp [attnInto]
  have key : ((∃ e ∈ E, e.dst = σ i) ∧ ∀ e ∈ E, e.dst = σ i → e.cut = 0) ↔
      ((∃ e ∈ E', e.dst = i) ∧ ∀ e ∈ E', e.dst = i → e.cut = 0) := by
    simp only [← and_imp, hm, (hσ.2 i hi).mem_iff, List.mem_map]
    constructor
    · rintro ⟨⟨e, e', he, rfl⟩, h⟩
      exact ⟨⟨e', he⟩, fun e he => h (AttnEdge.relabel σ σ e) ⟨e, he, rfl⟩⟩
    · rintro ⟨⟨e, he⟩, h⟩
      refine ⟨⟨_, e, he, rfl⟩, ?_⟩
      rintro _ ⟨e, he, rfl⟩
      exact h e he
  have hz := isAttention_cover cfg P cg σ n' n q kv hq hk bp bL bF E' E hσ hE' z' z a2 d2
  obtain ⟨u1, u2⟩ := d4 (σ i) (hσ.1 i hi)
  obtain ⟨v1, v2⟩ := a4 i hi
  by_cases hnan : (∃ e ∈ E', e.dst = i) ∧ ∀ e ∈ E', e.dst = i → e.cut = 0
  · rw [u1 (key.2 hnan), v1 hnan]
  · obtain ⟨v, r1, r2⟩ := v2 hnan
    obtain ⟨w, s1, s2⟩ := u2 (mt key.1 hnan)
    rw [hz, pullback_rows hi (by rw [d2.2.2.2.1]; exact hσ.1 i hi), s1] at r1
    rw [r2, s2, r1]

theorem apply_pullback (σ : ℕ → ℕ) (n' : ℕ) (g : Feat → Feat) (x : Nodes) (hσ : ∀ i < n', σ i < x.rows.length) :
    (pullback σ n' x).apply g = pullback σ n' (x.apply g) := by
  refine eq_pullback ⟨rfl, rfl, rfl⟩ (by simp [Nodes.apply, pullback]) (fun i hi => by simpa [Nodes.apply] using hσ i hi)
    fun i hi => ?_
  unfold Nodes.apply
  dsimp only
  rw [List.getElem?_map, List.getElem?_map, pullback_rows hi (hσ i hi)]
  rfl

theorem nodesBin_pullback (σ : ℕ → ℕ) (n' : ℕ) (g : Feat → Feat → Except Err Feat) (x y : Nodes)
    (hl : x.rows.length = y.rows.length) (hσ : ∀ i < n', σ i < x.rows.length) :
    (∃ z, nodesBin g x y = .ok z ∧ nodesBin g (pullback σ n' x) (pullback σ n' y) = .ok (pullback σ n' z) ∧
      z.rows.length = x.rows.length) ∨
    ∃ e, nodesBin g x y = .error e ∧ nodesBin g (pullback σ n' x) (pullback σ n' y) = .error e := by
  have ex : ∀ v, (pullback σ n' x).feat v = x.feat v := fun v => rfl
  have ey : ∀ v, (pullback σ n' y).feat v = y.feat v := fun v => rfl
  unfold nodesBin
  simp only [ex, ey]
  cases g (x.feat 0) (y.feat 0) with
  | error e => exact Or.inr ⟨e, rfl, rfl⟩
  | ok z =>
    dsimp only
    rw [if_pos hl, if_pos (by rw [pullback_length, pullback_length])]
    refine Or.inl ⟨_, rfl, congrArg _ (eq_pullback ⟨rfl, rfl, rfl⟩ (by simp [pullback_length])
      (fun i hi => by simpa [← hl] using hσ i hi) fun i hi => ?_), by simp [hl]⟩
    dsimp only
    rw [List.getElem?_zipWith, List.getElem?_zipWith, pullback_rows hi (hσ i hi), pullback_rows hi (by rw [← hl]; exact hσ i hi)]

theorem reg_map {α β : Type} (f : α → β) (rs : List α) (i : ℕ) : reg (rs.map f) i = (reg rs i).map f := by
  unfold reg
  rw [List.getElem?_map]
  cases rs[i]? <;> rfl

/-- One layer. -/
theorem coverEval {σ : ℕ → ℕ} {n' n : ℕ} (hn' : 0 < n') (hσ : ∀ i < n', σ i < n) {bs' bs : List Edges} {i' i : Instr}
    (h : CoverInstr σ n' n bs' bs i' i) (cg : ℕ → ℕ → ℕ → ℝ) {rs : List Nodes} (hr : ∀ x ∈ rs, x.rows.length = n) :
    (∃ z, i.eval cg bs rs = .ok z ∧ i'.eval cg bs' (rs.map (pullback σ n')) = .ok (pullback σ n' z) ∧ z.rows.length = n) ∨
    ∃ e, i.eval cg bs rs = .error e ∧ i'.eval cg bs' (rs.map (pullback σ n')) = .error e := by
  have hreg : ∀ j x, reg rs j = .ok x → x.rows.length = n := fun j x h => hr x (reg_mem h)
  have happ : ∀ (g : Feat → Feat) (x : ℕ),
      (∃ z, (do return (← reg rs x).apply g : Except Err Nodes) = .ok z ∧
        (do return (← reg (rs.map (pullback σ n')) x).apply g : Except Err Nodes) = .ok (pullback σ n' z) ∧
        z.rows.length = n) ∨
      ∃ e, (do return (← reg rs x).apply g : Except Err Nodes) = .error e ∧
        (do return (← reg (rs.map (pullback σ n')) x).apply g : Except Err Nodes) = .error e := by
    intro g x
    rw [reg_map]
    cases hx : reg rs x with
    | error e => exact Or.inr ⟨e, rfl, rfl⟩
    | ok a =>
      have l := hreg x a hx
      exact Or.inl ⟨a.apply g, rfl, congrArg Except.ok (apply_pullback σ n' g a (by rw [l]; exact hσ)), by simp [Nodes.apply, l]⟩
  have hbin : ∀ (g : Feat → Feat → Except Err Feat) (x y : ℕ),
      (∃ z, (do nodesBin g (← reg rs x) (← reg rs y) : Except Err Nodes) = .ok z ∧
        (do nodesBin g (← reg (rs.map (pullback σ n')) x) (← reg (rs.map (pullback σ n')) y) : Except Err Nodes) =
          .ok (pullback σ n' z) ∧ z.rows.length = n) ∨
      ∃ e, (do nodesBin g (← reg rs x) (← reg rs y) : Except Err Nodes) = .error e ∧
        (do nodesBin g (← reg (rs.map (pullback σ n')) x) (← reg (rs.map (pullback σ n')) y) : Except Err Nodes) =
          .error e := by
    intro g x y
    rw [reg_map, reg_map]
    cases hx : reg rs x with
    | error e => exact Or.inr ⟨e, rfl, rfl⟩
    | ok a =>
      cases hy : reg rs y with
      | error e => exact Or.inr ⟨e, rfl, rfl⟩
      | ok b =>
        have l := hreg x a hx
        have m := hreg y b hy
        rw [← l]
        exact nodesBin_pullback σ n' g a b (by omega) (by rw [l]; exact hσ)
  cases h with
  | dense x features useBias P => exact happ _ _
  | gated x g => exact happ _ _
  | change x L ps => exact happ _ _
  | add x y => exact hbin _ _ _
  | tensor x y cfg T => exact hbin _ _ _
  | tensorDense x features useBias cfg P T =>
    unfold Instr.eval
    dsimp only
    rw [reg_map]
    cases hx : reg rs x with
    | error e => exact Or.inr ⟨e, rfl, rfl⟩
    | ok a =>
      have l := hreg x a hx
      rw [← l]
      exact nodesBin_pullback σ n' (fun a _ => E3x.tensorDense features useBias cfg P T cg a) a a rfl (by rw [l]; exact hσ)
  | messagePass x b cfg P w' w bp bL bF E' E hc hb' hb hw' hw hE' hE =>
    have d1 : reg bs b = .ok ⟨bp, bL, bF, .vec (E.map Edge.basis)⟩ := by unfold reg; rw [hb]
    have d2 : reg bs' b = .ok ⟨bp, bL, bF, .vec (E'.map Edge.basis)⟩ := by unfold reg; rw [hb']
    unfold Instr.eval
    dsimp only
    rw [d1, d2, reg_map]
    cases hx : reg rs x with
    | error e => exact Or.inr ⟨e, rfl, rfl⟩
    | ok a =>
      have l := hreg x a hx
      subst l
      exact C61_message_pass cfg P cg σ n' hn' a bp bL bF E' E hc w' w hw' hw hE' hE
  | attention q kv b lo ninf cfg P bp bL bF E' E hc hb' hb hE' hE =>
    have d1 : regOpt bs (some b) = .ok (some ⟨bp, bL, bF, .vec (E.map AttnEdge.basis)⟩) := by
      simp only [regOpt, reg]; rw [hb]
    have d2 : regOpt bs' (some b) = .ok (some ⟨bp, bL, bF, .vec (E'.map AttnEdge.basis)⟩) := by
      simp only [regOpt, reg]; rw [hb']
    unfold Instr.eval
    dsimp only
    rw [d1, d2, reg_map, reg_map]
    cases hx : reg rs q with
    | error e => exact Or.inr ⟨e, rfl, rfl⟩
    | ok a =>
      cases hy : reg rs kv with
      | error e => exact Or.inr ⟨e, rfl, rfl⟩
      | ok c =>
        exact C61_attention lo ninf cfg P cg σ n' n hn' a c (hreg q a hx) (hreg kv c hy) bp bL bF E' E hc _ _ (Or.inl rfl)
          (Or.inl rfl) _ _ (Or.inl rfl) (Or.inl rfl) hE' hE

/-- **C61 (networks).** If `σ` is a covering then every array computed by a program on the covering graph has in node `i` the
entries of node `σ i` of the array computed on the other graph; both programs raise the same exceptions. -/
theorem C61_network (cg : ℕ → ℕ → ℕ → ℝ) (σ : ℕ → ℕ) (n' n : ℕ) (hn' : 0 < n') (hσ : ∀ i < n', σ i < n) (bs' bs : List Edges)
    (p' p : List Instr) (h : List.Forall₂ (CoverInstr σ n' n bs' bs) p' p) (rs : List Nodes)
    (hr : ∀ x ∈ rs, x.rows.length = n) :
    runNetwork cg bs' p' (rs.map (pullback σ n')) = (runNetwork cg bs p rs).map (List.map (pullback σ n')) := by
  induction h generalizing rs with
  | nil => rfl
  | cons h0 _ ih =>
    unfold runNetwork
    rcases coverEval hn' hσ h0 cg hr with ⟨z, e1, e2, l⟩ | ⟨e, e1, e2⟩
    · rw [e1, e2]
      have := ih (rs ++ [z]) (by
        intro x hx
        rw [List.mem_append, List.mem_singleton] at hx
        rcases hx with hx | rfl
        · exact hr x hx
        · exact l)
      rw [List.map_append] at this
      exact this
    · rw [e1, e2]
      rfl

/-! ### Examples of coverings -/

theorem flatMap_single {α : Type} (l : List α) (N i : ℕ) (hi : i < N) :
    ((List.range N).flatMap fun j => if j = i then l else []) = l := by
  induction N with
  | zero => omega
  | succ N ih =>
    rw [List.range_succ, List.flatMap_append, List.flatMap_singleton]
    by_cases h : i = N
    · subst h
      rw [if_pos rfl]
      have : ((List.range i).flatMap fun j => if j = i then l else []) = [] := by
        rw [List.flatMap_eq_nil_iff]
        intro j hj
        rw [List.mem_range] at hj
        rw [if_neg (by omega)]
      rw [this, List.nil_append]
    · rw [ih (by omega), if_neg (Ne.symm h), List.append_nil]

/-- A ring of `N` nodes: every node has an edge from its successor (with basis functions `v`) and from its predecessor (with
basis functions `w`). For `N = 1` this is a unit cell with one atom which sees two periodic images of itself. -/
def ring (v w : Ent) (N : ℕ) : List Edge :=
  (List.range N).flatMap fun i => [⟨i, (i + 1) % N, v, fun _ _ _ => 1⟩, ⟨i, (i + N - 1) % N, w, fun _ _ _ => 1⟩]

/-- Every ring covers the unit cell. -/
theorem ring_covers (v w : Ent) (N : ℕ) : Covers (fun _ => 0) N 1 (ring v w N) (ring v w 1) := by
  refine ⟨fun _ _ => Nat.one_pos, fun i hi => ?_⟩
  have e : edgesInto (ring v w N) i = [⟨i, (i + 1) % N, v, fun _ _ _ => 1⟩, ⟨i, (i + N - 1) % N, w, fun _ _ _ => 1⟩] := by
    unfold edgesInto ring
    rw [List.filter_flatMap]
    refine Eq.trans ?_ (flatMap_single _ N i hi)
    congr 1
    funext j
    by_cases h : j = i
    · subst h
      rw [if_pos rfl]
      simp
    · rw [if_neg h]
      simp [h]
  rw [e]
  exact List.Perm.refl _

-- Non-vacuity: for every size `N` of the supercell, every node of the ring gets the features of the atom in the unit cell.
example (cg : ℕ → ℕ → ℕ → ℝ) (P : ConvParams) (v w a : Ent) (N : ℕ) (hN : 0 < N) :
    ∃ z : Ent, ∃ ps L F, messagePass ⟨⟨none, true⟩, true⟩ P cg ⟨false, 1, 3, [a]⟩ ⟨false, 1, 4, .vec [v, w]⟩ none
        { dst := some [0, 0], src := some [0, 0] } = .ok ⟨ps, L, F, [z]⟩ ∧
      messagePass ⟨⟨none, true⟩, true⟩ P cg ⟨false, 1, 3, List.replicate N a⟩
        ⟨false, 1, 4, .vec ((ring v w N).map Edge.basis)⟩ none (edgeIx (ring v w N)) = .ok ⟨ps, L, F, List.replicate N z⟩ := by
  have hw : ∀ N, ∀ e ∈ ring v w N, e.weight = fun _ _ _ => 1 := by
    intro N e he
    unfold ring at he
    rw [List.mem_flatMap] at he
    obtain ⟨i, -, hi⟩ := he
    simp only [List.mem_cons, List.not_mem_nil, or_false] at hi
    rcases hi with rfl | rfl <;> rfl
  have hs : ∀ N, 0 < N → ∀ e ∈ ring v w N, e.dst < N → e.src < N := by
    intro N hN e he _
    unfold ring at he
    rw [List.mem_flatMap] at he
    obtain ⟨i, -, hi⟩ := he
    simp only [List.mem_cons, List.not_mem_nil, or_false] at hi
    rcases hi with rfl | rfl <;> exact Nat.mod_lt _ hN
  have hp : ∀ x : Nodes, ∀ z : Ent, x.rows = [z] → (pullback (fun _ => 0) N x).rows = List.replicate N z := by
    intro x z hx
    unfold pullback
    dsimp only
    rw [hx]
    simp [List.map_const']
  rcases C61_message_pass ⟨⟨none, true⟩, true⟩ P cg (fun _ => 0) N hN ⟨false, 1, 3, [a]⟩ false 1 4 (ring v w N) (ring v w 1)
    (ring_covers v w N) none none (Or.inr ⟨rfl, hw N⟩) (Or.inr ⟨rfl, hw 1⟩) (hs N hN) (hs 1 Nat.one_pos) with
    ⟨z, h1, h2, h3⟩ | ⟨e, h1, -⟩
  · obtain ⟨z0, hz⟩ := List.length_eq_one_iff.1 h3
    refine ⟨z0, z.pseudo, z.L, z.F, ?_, ?_⟩
    · rw [← hz]
      exact h1
    · have e1 : pullback (fun _ => 0) N ⟨false, 1, 3, [a]⟩ = ⟨false, 1, 3, List.replicate N a⟩ := by
        rw [← hp ⟨false, 1, 3, [a]⟩ a rfl]
        rfl
      rw [e1] at h2
      rw [h2, ← hp z z0 hz]
      rfl
  · exfalso
    obtain ⟨z, hz, -⟩ := (C18_sparse ⟨⟨none, true⟩, true⟩ P cg ⟨false, 1, 3, [a]⟩ false 1 4 (ring v w 1) none
      (Or.inr ⟨rfl, hw 1⟩) none Nat.one_pos (hs 1 Nat.one_pos)).2 (by simp)
    have h4 := h1.symm.trans hz
    cases h4

end E3x
