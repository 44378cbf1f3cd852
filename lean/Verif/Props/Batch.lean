import Verif.Spec.Batch
import Verif.Props.Locality

/-!
# C60: a batch of structures gives the results of the single structures
-/

namespace E3x

open Spec

theorem getD_of_getElem? {α : Type} {l l' : List α} {i j : ℕ} (d : α) (h : l[i]? = l'[j]?) : l.getD i d = l'.getD j d := by
  rw [List.getD_eq_getElem?_getD, List.getD_eq_getElem?_getD, h]

/-- A message depends only on the features of its source. -/
theorem message_local (cfg : ConvCfg) (P : ConvParams) (cg : ℕ → ℕ → ℕ → ℝ) (x x' : Nodes) (hs : SameShape x x') (bp : Bool)
    (bL bF : ℕ) (e e' : Edge) (hx : x.rows[e.src]? = x'.rows[e'.src]?) (hb : e.basis = e'.basis) (hw : e.weight = e'.weight) :
    message cfg P cg x bp bL bF e = message cfg P cg x' bp bL bF e' := by
  obtain ⟨h1, h2, h3⟩ := hs
  unfold message
  rw [getD_of_getElem? 0 hx, hb, hw, h3]
  unfold Nodes.feat
  rw [h1, h2, h3]

/-- The sum of the messages that arrive in a node depends only on its edges and on the features of their sources. -/
theorem message_sum_local (cfg : ConvCfg) (P : ConvParams) (cg : ℕ → ℕ → ℕ → ℝ) (x x' : Nodes) (hs : SameShape x x') (bp : Bool)
    (bL bF : ℕ) (E E' : List Edge) (σ : ℕ → ℕ) (hE : E.Perm (E'.map (relabel σ)))
    (hx : ∀ e ∈ E', x.rows[σ e.src]? = x'.rows[e.src]?) :
    (E.map (message cfg P cg x bp bL bF)).sum = (E'.map (message cfg P cg x' bp bL bF)).sum := by
  rw [(hE.map _).sum_eq, List.map_map]
  congr 1
  apply List.map_congr_left
  intro e he
  exact message_local cfg P cg x x' hs bp bL bF _ _ (hx e he) rfl rfl

theorem edgesInto_append (E E' : List Edge) (i : ℕ) : edgesInto (E ++ E') i = edgesInto E i ++ edgesInto E' i := by
  unfold edgesInto
  rw [List.filter_append]

theorem batch_into_first {n : ℕ} {E₁ E₂ E : List Edge} (h : IsBatch n E₁ E₂ E) {i : ℕ} (hi : i < n) :
    (edgesInto E i).Perm ((edgesInto E₁ i).map (relabel fun j => j)) := by
  have h0 : edgesInto (E₂.map (relabel (· + n))) i = [] := by
    unfold edgesInto
    rw [List.filter_map, List.map_eq_nil_iff, List.filter_eq_nil_iff]
    intro e _
    show ¬ (decide (e.dst + n = i) = true)
    rw [decide_eq_true_eq]
    omega
  have e : (edgesInto E₁ i).map (relabel fun j => j) = edgesInto (E₁ ++ E₂.map (relabel (· + n))) i := by
    rw [edgesInto_append, h0, List.append_nil]
    exact List.map_id _
  rw [e]
  exact h.filter _

theorem batch_into_second {n : ℕ} {E₁ E₂ E : List Edge} (h : IsBatch n E₁ E₂ E) (hE₁ : ∀ e ∈ E₁, e.dst < n) (i : ℕ) :
    (edgesInto E (n + i)).Perm ((edgesInto E₂ i).map (relabel (· + n))) := by
  have h0 : edgesInto E₁ (n + i) = [] := by
    unfold edgesInto
    rw [List.filter_eq_nil_iff]
    intro e he
    have := hE₁ e he
    simp only [decide_eq_true_eq]
    omega
  have e : (edgesInto E₂ i).map (relabel (· + n)) = edgesInto (E₁ ++ E₂.map (relabel (· + n))) (n + i) := by
    rw [edgesInto_append, h0, List.nil_append]
    unfold edgesInto
    rw [List.filter_map]
    congr 1
    apply List.filter_congr
    intro e _
    show decide (e.dst = i) = decide (e.dst + n = n + i)
    rw [decide_eq_decide]
    omega
  rw [e]
  exact h.filter _

theorem join_rows_first {x₁ x₂ : Nodes} {i : ℕ} (hi : i < x₁.rows.length) : (join x₁ x₂).rows[i]? = x₁.rows[i]? := by
  unfold join
  dsimp only
  rw [List.getElem?_append_left hi]

theorem join_rows_second {x₁ x₂ : Nodes} (i : ℕ) : (join x₁ x₂).rows[x₁.rows.length + i]? = x₂.rows[i]? := by
  unfold join
  dsimp only
  rw [List.getElem?_append_right (by omega), Nat.add_sub_cancel_left]

theorem join_same {x₁ x₂ : Nodes} : SameShape (join x₁ x₂) x₁ := ⟨rfl, rfl, rfl⟩

theorem join_same' {x₁ x₂ : Nodes} (h : SameShape x₁ x₂) : SameShape (join x₁ x₂) x₂ := h

/-- An array is the join of two arrays if its rows are. -/
theorem eq_join {z z₁ z₂ : Nodes} (h1 : z.pseudo = z₁.pseudo) (h2 : z.L = z₁.L) (h3 : z.F = z₁.F)
    (h4 : z.rows.length = z₁.rows.length + z₂.rows.length) (h5 : ∀ i < z₁.rows.length, z.rows[i]? = z₁.rows[i]?)
    (h6 : ∀ i < z₂.rows.length, z.rows[z₁.rows.length + i]? = z₂.rows[i]?) : z = join z₁ z₂ := by
  refine nodes_ext h1 h2 h3 (by simp [join, h4]) fun i hi => ?_
  by_cases hc : i < z₁.rows.length
  · rw [h5 i hc, join_rows_first hc]
  · obtain ⟨j, rfl⟩ := Nat.exists_eq_add_of_le (not_lt.1 hc)
    rw [h6 j (by omega), join_rows_second]

/-- **C60 (message passing).** The result of a message-passing layer for a batch consists of the results for the single
structures; an exception is raised for the batch exactly if it is raised for the structures. -/
theorem C60_message_pass (cfg : ConvCfg) (P : ConvParams) (cg : ℕ → ℕ → ℕ → ℝ) (x₁ x₂ : Nodes) (hs : SameShape x₁ x₂) (bp : Bool)
    (bL bF : ℕ) (E₁ E₂ E : List Edge) (hE : IsBatch x₁.rows.length E₁ E₂ E) (w₁ w₂ w : Option (Lead Ent))
    (hw₁ : WeightsOf w₁ (.vec (E₁.map Edge.weight)) E₁) (hw₂ : WeightsOf w₂ (.vec (E₂.map Edge.weight)) E₂)
    (hw : WeightsOf w (.vec (E.map Edge.weight)) E) (hn₁ : 0 < x₁.rows.length) (hn₂ : 0 < x₂.rows.length)
    (hE₁ : ∀ e ∈ E₁, e.dst < x₁.rows.length ∧ e.src < x₁.rows.length)
    (hE₂ : ∀ e ∈ E₂, e.dst < x₂.rows.length → e.src < x₂.rows.length) :
    (∃ z₁ z₂, messagePass cfg P cg x₁ ⟨bp, bL, bF, .vec (E₁.map Edge.basis)⟩ w₁ (edgeIx E₁) = .ok z₁ ∧
      messagePass cfg P cg x₂ ⟨bp, bL, bF, .vec (E₂.map Edge.basis)⟩ w₂ (edgeIx E₂) = .ok z₂ ∧
      messagePass cfg P cg (join x₁ x₂) ⟨bp, bL, bF, .vec (E.map Edge.basis)⟩ w (edgeIx E) = .ok (join z₁ z₂) ∧
      SameShape z₁ z₂ ∧ z₁.rows.length = x₁.rows.length ∧ z₂.rows.length = x₂.rows.length) ∨
    ∃ e, messagePass cfg P cg x₁ ⟨bp, bL, bF, .vec (E₁.map Edge.basis)⟩ w₁ (edgeIx E₁) = .error e ∧
      messagePass cfg P cg x₂ ⟨bp, bL, bF, .vec (E₂.map Edge.basis)⟩ w₂ (edgeIx E₂) = .error e ∧
      messagePass cfg P cg (join x₁ x₂) ⟨bp, bL, bF, .vec (E.map Edge.basis)⟩ w (edgeIx E) = .error e := by
  have hlen : (join x₁ x₂).rows.length = x₁.rows.length + x₂.rows.length := by simp [join]
  obtain ⟨p1, p2⟩ := C18_sparse cfg P cg x₁ bp bL bF E₁ w₁ hw₁ none hn₁ fun e he _ => (hE₁ e he).2
  obtain ⟨q1, q2⟩ := C18_sparse cfg P cg x₂ bp bL bF E₂ w₂ hw₂ none hn₂ hE₂
  obtain ⟨r1, r2⟩ := C18_sparse cfg P cg (join x₁ x₂) bp bL bF E w hw none (by omega) (by
    intro e he hd
    rw [Option.getD_none, hlen] at hd
    rw [hlen]
    have := hE.mem_iff.1 he
    rw [List.mem_append, List.mem_map] at this
    rcases this with h | ⟨e', h, rfl⟩
    · have := (hE₁ e h).2
      omega
    · have := hE₂ e' h (by simp only [relabel] at hd; omega)
      simp only [relabel]
      omega)
  have hL : x₂.L = x₁.L := hs.2.1.symm
  rw [hL] at q1 q2
  by_cases hd : cfg.tens.maxDegree.getD (max bL x₁.L) ≤ bL + x₁.L
  · obtain ⟨z₁, a0, a1, a2, a3, a4, a5⟩ := p2 hd
    obtain ⟨z₂, b0, b1, b2, b3, b4, b5⟩ := q2 hd
    obtain ⟨z, c0, c1, c2, c3, c4, c5⟩ := r2 hd
    rw [Option.getD_none] at a4 a5 b4 b5 c4 c5
    rw [← hs.1] at b1
    refine Or.inl ⟨z₁, z₂, a0, b0, ?_, ⟨Bool.eq_iff_iff.2 (a1.trans b1.symm), a2.trans b2.symm, by rw [a3, b3, hs.2.2]⟩, a4, b4⟩
    refine c0.trans (congrArg _ ?_)
    refine eq_join (Bool.eq_iff_iff.2 (c1.trans a1.symm)) (c2.trans a2.symm) (c3.trans a3.symm) (by omega) (fun i hi => ?_)
      fun i hi => ?_
    · rw [c5 i (by omega), a5 i (by omega)]
      congr 1
      refine message_sum_local cfg P cg _ _ join_same bp bL bF _ _ _ (batch_into_first hE (by omega)) fun e he => ?_
      exact join_rows_first (hE₁ e (List.mem_of_mem_filter he)).2
    · rw [a4, c5 _ (by omega), b5 i (by omega)]
      congr 1
      refine message_sum_local cfg P cg _ _ (join_same' hs) bp bL bF _ _ _
        (batch_into_second hE (fun e he => (hE₁ e he).1) i) fun e he => ?_
      rw [Nat.add_comm]
      exact join_rows_second _
  · exact Or.inr ⟨_, p1 (by omega), q1 (by omega), r1 (by simp only [join]; omega)⟩

/-! ### Attention -/

theorem attnQuery_get (cfg : AttnCfg) (P : AttnParams) (F : ℕ) (q kv q' kv' : Nodes) (hq : SameShape q q') (hk : SameShape kv kv')
    (i j : ℕ) (h : q.rows[i]? = q'.rows[j]?) : (attnQuery cfg P F q kv)[i]? = (attnQuery cfg P F q' kv')[j]? := by
  obtain ⟨a1, a2, a3⟩ := hq
  obtain ⟨b1, b2, b3⟩ := hk
  unfold attnQuery
  dsimp only
  rw [List.getElem?_map, List.getElem?_map, h]
  unfold qkInputs Nodes.feat
  rw [a1, a2, a3, b1, b2]

theorem attnKey_get (cfg : AttnCfg) (P : AttnParams) (F : ℕ) (q kv q' kv' : Nodes) (hq : SameShape q q') (hk : SameShape kv kv')
    (i j : ℕ) (h : kv.rows[i]? = kv'.rows[j]?) : (attnKey cfg P F q kv)[i]? = (attnKey cfg P F q' kv')[j]? := by
  obtain ⟨a1, a2, a3⟩ := hq
  obtain ⟨b1, b2, b3⟩ := hk
  unfold attnKey
  rw [List.getElem?_map, List.getElem?_map, h]
  unfold qkInputs Nodes.feat
  rw [a1, a2, b1, b2, b3]

theorem attnLogit_local (cfg : AttnCfg) (P : AttnParams) (F : ℕ) (q kv q' kv' : Nodes) (hq : SameShape q q')
    (hk : SameShape kv kv') (bF : ℕ) (e e' : AttnEdge) (h1 : q.rows[e.dst]? = q'.rows[e'.dst]?)
    (h2 : kv.rows[e.src]? = kv'.rows[e'.src]?) (hb : e.basis = e'.basis) (h : ℕ) :
    attnLogit cfg P F q kv bF e h = attnLogit cfg P F q' kv' bF e' h := by
  unfold attnLogit
  rw [getD_of_getElem? 0 (attnQuery_get cfg P F q kv q' kv' hq hk _ _ h1),
    getD_of_getElem? 0 (attnKey_get cfg P F q kv q' kv' hq hk _ _ h2), hb, hq.1, hq.2.1, hk.1, hk.2.1]

/-- What arrives in a node of an attention layer depends only on its edges, its own features, and those of the sources. -/
theorem attn_sum_local (cfg : AttnCfg) (P : AttnParams) (cg : ℕ → ℕ → ℕ → ℝ) (F : ℕ) (q kv q' kv' : Nodes)
    (hq : SameShape q q') (hk : SameShape kv kv') (bp : Bool) (bL bF : ℕ) (E E' : List AttnEdge) (σ τ : ℕ → ℕ) (i i' : ℕ)
    (hE : (attnInto E i).Perm ((attnInto E' i').map (AttnEdge.relabel σ τ)))
    (h1 : q.rows[i]? = q'.rows[i']?) (hi : σ i' = i)
    (h2 : ∀ e ∈ attnInto E' i', kv.rows[τ e.src]? = kv'.rows[e.src]?) :
    ((attnInto E i).map fun e => attnMessage cfg P cg F kv bp bL bF (attnWeight cfg P F q kv bF E e) e).sum =
      ((attnInto E' i').map fun e => attnMessage cfg P cg F kv' bp bL bF (attnWeight cfg P F q' kv' bF E' e) e).sum := by
  rw [(hE.map _).sum_eq, List.map_map]
  congr 1
  apply List.map_congr_left
  intro e he
  have hd : ∀ e ∈ attnInto E' i', e.dst = i' := fun e he => by
    simpa using (List.mem_filter.1 he).2
  have hl : ∀ e ∈ attnInto E' i', ∀ h, attnLogit cfg P F q kv bF (AttnEdge.relabel σ τ e) h = attnLogit cfg P F q' kv' bF e h :=
    fun e he h => attnLogit_local cfg P F q kv q' kv' hq hk bF (AttnEdge.relabel σ τ e) e (by show q.rows[σ e.dst]? = _; rw [hd e he, hi, h1])
      (h2 e he) rfl h
  have hw : attnWeight cfg P F q kv bF E (AttnEdge.relabel σ τ e) = attnWeight cfg P F q' kv' bF E' e := by
    funext h
    unfold attnWeight
    rw [show (AttnEdge.relabel σ τ e).dst = i by show σ e.dst = i; rw [hd e he, hi], hd e he, hl e he h]
    unfold softmaxValue
    congr 1
    rw [((hE.map _).map _).sum_eq, List.map_map, List.map_map, List.map_map]
    congr 1
    apply List.map_congr_left
    intro e'' he''
    simp only [Function.comp]
    rw [hl e'' he'' h]
    rfl
  simp only [Function.comp]
  rw [hw]
  unfold attnMessage
  dsimp only
  obtain ⟨b1, b2, b3⟩ := hk
  have hg : kv.rows.getD (AttnEdge.relabel σ τ e).src 0 = kv'.rows.getD e.src 0 := getD_of_getElem? 0 (h2 e he)
  rw [hg]
  unfold Nodes.feat
  rw [b1, b2, b3]
  rfl

theorem attnInto_append (E E' : List AttnEdge) (i : ℕ) : attnInto (E ++ E') i = attnInto E i ++ attnInto E' i := by
  unfold attnInto
  rw [List.filter_append]

theorem batchAttn_into_first {n m : ℕ} {E₁ E₂ E : List AttnEdge} (h : IsBatchAttn n m E₁ E₂ E) {i : ℕ} (hi : i < n) :
    (attnInto E i).Perm ((attnInto E₁ i).map (AttnEdge.relabel (fun j => j) fun j => j)) := by
  have h0 : attnInto (E₂.map (AttnEdge.relabel (· + n) (· + m))) i = [] := by
    unfold attnInto
    rw [List.filter_map, List.map_eq_nil_iff, List.filter_eq_nil_iff]
    intro e _
    show ¬ (decide (e.dst + n = i) = true)
    rw [decide_eq_true_eq]
    omega
  have e : (attnInto E₁ i).map (AttnEdge.relabel (fun j => j) fun j => j) =
      attnInto (E₁ ++ E₂.map (AttnEdge.relabel (· + n) (· + m))) i := by
    rw [attnInto_append, h0, List.append_nil]
    exact List.map_id _
  rw [e]
  exact h.filter _

theorem batchAttn_into_second {n m : ℕ} {E₁ E₂ E : List AttnEdge} (h : IsBatchAttn n m E₁ E₂ E)
    (hE₁ : ∀ e ∈ E₁, e.dst < n) (i : ℕ) :
    (attnInto E (n + i)).Perm ((attnInto E₂ i).map (AttnEdge.relabel (· + n) (· + m))) := by
  have h0 : attnInto E₁ (n + i) = [] := by
    unfold attnInto
    rw [List.filter_eq_nil_iff]
    intro e he
    have := hE₁ e he
    simp only [decide_eq_true_eq]
    omega
  have e : (attnInto E₂ i).map (AttnEdge.relabel (· + n) (· + m)) =
      attnInto (E₁ ++ E₂.map (AttnEdge.relabel (· + n) (· + m))) (n + i) := by
    rw [attnInto_append, h0, List.nil_append]
    unfold attnInto
    rw [List.filter_map]
    congr 1
    apply List.filter_congr
    intro e _
    show decide (e.dst = i) = decide (e.dst + n = n + i)
    rw [decide_eq_decide]
    omega
  rw [e]
  exact h.filter _

/-- The documented results of attention layers. -/
theorem isAttention_batch (cfg : AttnCfg) (P : AttnParams) (cg : ℕ → ℕ → ℕ → ℝ) (q₁ q₂ kv₁ kv₂ : Nodes) (hq : SameShape q₁ q₂)
    (hk : SameShape kv₁ kv₂) (bp : Bool) (bL bF : ℕ) (E₁ E₂ E : List AttnEdge)
    (hE : IsBatchAttn q₁.rows.length kv₁.rows.length E₁ E₂ E)
    (hE₁ : ∀ e ∈ E₁, e.dst < q₁.rows.length ∧ e.src < kv₁.rows.length)
    (z₁ z₂ z : Nodes) (h₁ : IsAttention cfg P cg q₁ kv₁ bp bL bF E₁ q₁.rows.length z₁)
    (h₂ : IsAttention cfg P cg q₂ kv₂ bp bL bF E₂ q₂.rows.length z₂)
    (h : IsAttention cfg P cg (join q₁ q₂) (join kv₁ kv₂) bp bL bF E (q₁.rows.length + q₂.rows.length) z) :
    z = join z₁ z₂ ∧ SameShape z₁ z₂ := by
  obtain ⟨a1, a2, a3, a4, a5⟩ := h₁
  obtain ⟨b1, b2, b3, b4, b5⟩ := h₂
  obtain ⟨c1, c2, c3, c4, c5⟩ := h
  have o1 : attnOutPseudo cfg kv₂ bp bL = attnOutPseudo cfg kv₁ bp bL := by
    unfold attnOutPseudo; rw [hk.1, hk.2.1]
  have o2 : attnOutL cfg kv₂ bL = attnOutL cfg kv₁ bL := by
    unfold attnOutL; rw [hk.2.1]
  refine ⟨eq_join (c1.trans a1.symm) (c2.trans a2.symm) (c3.trans a3.symm) (by omega) (fun i hi => ?_) fun i hi => ?_,
    a1.trans (o1.symm.trans b1.symm), a2.trans (o2.symm.trans b2.symm), by rw [a3, b3, hq.2.2]⟩
  · rw [c5 i (by omega), a5 i (by omega)]
    have e := attn_sum_local cfg P cg (cfg.qkvFeatures.getD q₁.F) (join q₁ q₂) (join kv₁ kv₂) q₁ kv₁ join_same join_same
      bp bL bF E E₁ (fun j => j) (fun j => j) i i (batchAttn_into_first hE (by omega)) (join_rows_first (by omega)) rfl
      fun e he => join_rows_first (hE₁ e (List.mem_of_mem_filter he)).2
    simp only [show (join q₁ q₂).F = q₁.F from rfl]
    rw [e]
    rfl
  · rw [a4, c5 _ (by omega), b5 i (by omega)]
    have e := attn_sum_local cfg P cg (cfg.qkvFeatures.getD q₁.F) (join q₁ q₂) (join kv₁ kv₂) q₂ kv₂ (join_same' hq)
      (join_same' hk) bp bL bF E E₂ (· + q₁.rows.length) (· + kv₁.rows.length) (q₁.rows.length + i) i
      (batchAttn_into_second hE (fun e he => (hE₁ e he).1) i) (join_rows_second _) (Nat.add_comm _ _)
      fun e he => by rw [Nat.add_comm]; exact join_rows_second _
    simp only [show (join q₁ q₂).F = q₁.F from rfl, ← hq.2.2]
    rw [e, o1, o2]
    rfl

theorem batch_edges_ok {n₁ n₂ m₁ m₂ : ℕ} {E₁ E₂ E : List AttnEdge} (hE : IsBatchAttn n₁ m₁ E₁ E₂ E)
    (hE₁ : ∀ e ∈ E₁, e.dst < n₁ ∧ e.src < m₁) (hE₂ : ∀ e ∈ E₂, e.dst < n₂ → e.src < m₂) :
    ∀ e ∈ E, e.dst < n₁ + n₂ → e.dst < n₁ + n₂ ∧ e.src < m₁ + m₂ := by
  intro e he hd
  refine ⟨hd, ?_⟩
  have := hE.mem_iff.1 he
  rw [List.mem_append, List.mem_map] at this
  rcases this with h | ⟨e', h, rfl⟩
  · have := (hE₁ e h).2
    omega
  · have := hE₂ e' h (by simp only [AttnEdge.relabel] at hd; omega)
    simp only [AttnEdge.relabel]
    omega

/-- **C60 (attention).** The rows of the result of an attention layer for a batch, some of which may be NaN (C58), are the
rows of the results for the single structures. -/
theorem C60_attention (lo ninf : ℝ) (cfg : AttnCfg) (P : AttnParams) (cg : ℕ → ℕ → ℕ → ℝ) (q₁ q₂ kv₁ kv₂ : Nodes)
    (hq : SameShape q₁ q₂) (hk : SameShape kv₁ kv₂) (bp : Bool) (bL bF : ℕ) (E₁ E₂ E : List AttnEdge)
    (hE : IsBatchAttn q₁.rows.length kv₁.rows.length E₁ E₂ E)
    (b₁ b₂ b : Option Edges) (hb₁ : BasisOf cfg b₁ ⟨bp, bL, bF, .vec (E₁.map AttnEdge.basis)⟩)
    (hb₂ : BasisOf cfg b₂ ⟨bp, bL, bF, .vec (E₂.map AttnEdge.basis)⟩)
    (hb : BasisOf cfg b ⟨bp, bL, bF, .vec (E.map AttnEdge.basis)⟩)
    (c₁ c₂ c : Option (Lead ℝ)) (hc₁ : CutoffOf c₁ (.vec (E₁.map AttnEdge.cut)) E₁)
    (hc₂ : CutoffOf c₂ (.vec (E₂.map AttnEdge.cut)) E₂) (hc : CutoffOf c (.vec (E.map AttnEdge.cut)) E)
    (hc0₁ : ∀ e ∈ E₁, 0 ≤ e.cut) (hc0₂ : ∀ e ∈ E₂, 0 ≤ e.cut)
    (hq₁ : 0 < q₁.rows.length) (hq₂ : 0 < q₂.rows.length) (hk₁ : 0 < kv₁.rows.length) (hk₂ : 0 < kv₂.rows.length)
    (hE₁ : ∀ e ∈ E₁, e.dst < q₁.rows.length ∧ e.src < kv₁.rows.length)
    (hE₂ : ∀ e ∈ E₂, e.dst < q₂.rows.length → e.src < kv₂.rows.length)
    (h1 : cfg.numHeads ≠ 0) (h2 : cfg.qkvFeatures.getD q₁.F % cfg.numHeads = 0)
    (h3 : cfg.relV = true → cfg.conv.tens.maxDegree.getD (max bL kv₁.L) ≤ bL + kv₁.L) :
    ∃ out₁ out₂, attentionNaN lo ninf cfg P cg q₁ kv₁ b₁ c₁ (attnIx E₁) = .ok out₁ ∧
      attentionNaN lo ninf cfg P cg q₂ kv₂ b₂ c₂ (attnIx E₂) = .ok out₂ ∧
      attentionNaN lo ninf cfg P cg (join q₁ q₂) (join kv₁ kv₂) b c (attnIx E) = .ok (out₁ ++ out₂) := by
  have lq : (join q₁ q₂).rows.length = q₁.rows.length + q₂.rows.length := by simp [join]
  have lk : (join kv₁ kv₂).rows.length = kv₁.rows.length + kv₂.rows.length := by simp [join]
  have hc0 : ∀ e ∈ E, 0 ≤ e.cut := by
    intro e he
    have := hE.mem_iff.1 he
    rw [List.mem_append, List.mem_map] at this
    rcases this with h | ⟨e', h, rfl⟩
    · exact hc0₁ e h
    · exact hc0₂ e' h
  obtain ⟨z₁, out₁, a1, a2, a3, a4⟩ := C58_sparse lo ninf cfg P cg q₁ kv₁ bp bL bF E₁ b₁ hb₁ c₁ hc₁ hc0₁ hq₁ hk₁ none hq₁
    (fun e he _ => hE₁ e he) h1 h2 h3
  obtain ⟨z₂, out₂, b1, b2, b3, b4⟩ := C58_sparse lo ninf cfg P cg q₂ kv₂ bp bL bF E₂ b₂ hb₂ c₂ hc₂ hc0₂ hq₂ hk₂ none hq₂
    (fun e he hd => ⟨hd, hE₂ e he hd⟩) h1 (by rw [← hq.2.2]; exact h2) (by rw [← hk.2.1]; exact h3)
  obtain ⟨z, out, d1, d2, d3, d4⟩ := C58_sparse lo ninf cfg P cg (join q₁ q₂) (join kv₁ kv₂) bp bL bF E b hb c hc hc0
    (by omega) (by omega) none (by rw [Option.getD_none]; omega)
    (by rw [Option.getD_none, lq, lk]; exact batch_edges_ok hE hE₁ hE₂) h1 h2 h3
  rw [Option.getD_none] at a2 a3 a4 b2 b3 b4 d2 d3 d4
  rw [lq] at d2 d3 d4
  obtain ⟨hz, -⟩ := isAttention_batch cfg P cg q₁ q₂ kv₁ kv₂ hq hk bp bL bF E₁ E₂ E hE hE₁ z₁ z₂ z a2 b2 d2
  refine ⟨out₁, out₂, a1, b1, d1.trans (congrArg _ ?_)⟩
  have l1 : z₁.rows.length = q₁.rows.length := a2.2.2.2.1
  apply List.ext_getElem?
  intro i
  have mem : ∀ (i j : ℕ) (E' : List AttnEdge) (ρ : AttnEdge → AttnEdge) (_ : ∀ e, (ρ e).cut = e.cut),
      (attnInto E i).Perm ((attnInto E' j).map ρ) →
      (((∃ e ∈ E, e.dst = i) ∧ ∀ e ∈ E, e.dst = i → e.cut = 0) ↔
        ((∃ e ∈ E', e.dst = j) ∧ ∀ e ∈ E', e.dst = j → e.cut = 0)) := by
    intro i j E' ρ hρ hp
    have hm : ∀ (E : List AttnEdge) (i : ℕ) (e : AttnEdge), (e ∈ E ∧ e.dst = i) ↔ e ∈ attnInto E i := by
      intro E i e
      simp [attnInto]
    simp only [← and_imp, hm, hp.mem_iff, List.mem_map]
    constructor
    · rintro ⟨⟨e, e', he, rfl⟩, h⟩
      exact ⟨⟨e', he⟩, fun e he => by rw [← hρ]; exact h _ ⟨e, he, rfl⟩⟩
    · rintro ⟨⟨e, he⟩, h⟩
      refine ⟨⟨_, e, he, rfl⟩, ?_⟩
      rintro _ ⟨e, he, rfl⟩
      rw [hρ]
      exact h e he
  rcases lt_or_ge i q₁.rows.length with hi | hi
  · rw [List.getElem?_append_left (by omega)]
    have key := mem i i E₁ (AttnEdge.relabel (fun j => j) fun j => j) (fun _ => rfl) (batchAttn_into_first hE hi)
    obtain ⟨u1, u2⟩ := d4 i (by omega)
    obtain ⟨v1, v2⟩ := a4 i hi
    by_cases hnan : (∃ e ∈ E₁, e.dst = i) ∧ ∀ e ∈ E₁, e.dst = i → e.cut = 0
    · rw [u1 (key.2 hnan), v1 hnan]
    · obtain ⟨v, r1, r2⟩ := v2 hnan
      obtain ⟨w, s1, s2⟩ := u2 (mt key.1 hnan)
      rw [hz, join_rows_first (by omega), r1] at s1
      rw [r2, s2, s1]
  · obtain ⟨j, rfl⟩ := Nat.exists_eq_add_of_le hi
    rw [List.getElem?_append_right (by omega), a3, Nat.add_sub_cancel_left]
    rcases lt_or_ge j q₂.rows.length with hj | hj
    · have key := mem _ j E₂ (AttnEdge.relabel (· + q₁.rows.length) (· + kv₁.rows.length)) (fun _ => rfl) (batchAttn_into_second hE (fun e he => (hE₁ e he).1) j)
      obtain ⟨u1, u2⟩ := d4 (q₁.rows.length + j) (by omega)
      obtain ⟨v1, v2⟩ := b4 j hj
      by_cases hnan : (∃ e ∈ E₂, e.dst = j) ∧ ∀ e ∈ E₂, e.dst = j → e.cut = 0
      · rw [u1 (key.2 hnan), v1 hnan]
      · obtain ⟨v, r1, r2⟩ := v2 hnan
        obtain ⟨w, s1, s2⟩ := u2 (mt key.1 hnan)
        rw [hz, ← l1, join_rows_second, r1] at s1
        rw [r2, s2, s1]
    · rw [List.getElem?_eq_none (by omega), List.getElem?_eq_none (by omega)]

/-! ### Networks -/

theorem apply_join (g : Feat → Feat) (x₁ x₂ : Nodes) (h : SameShape x₁ x₂) :
    (join x₁ x₂).apply g = join (x₁.apply g) (x₂.apply g) ∧ SameShape (x₁.apply g) (x₂.apply g) := by
  obtain ⟨h1, h2, h3⟩ := h
  have e : ∀ v, x₂.feat v = x₁.feat v := fun v => by unfold Nodes.feat; rw [h1, h2, h3]
  have e' : ∀ v, (join x₁ x₂).feat v = x₁.feat v := fun v => rfl
  unfold Nodes.apply join SameShape
  dsimp only
  simp only [e]
  refine ⟨?_, trivial, trivial, trivial⟩
  rw [← List.map_append]
  rfl

theorem nodesBin_join (g : Feat → Feat → Except Err Feat) (x₁ x₂ y₁ y₂ : Nodes) (hx : SameShape x₁ x₂) (hy : SameShape y₁ y₂)
    (h₁ : x₁.rows.length = y₁.rows.length) (h₂ : x₂.rows.length = y₂.rows.length) :
    (∃ z₁ z₂, nodesBin g x₁ y₁ = .ok z₁ ∧ nodesBin g x₂ y₂ = .ok z₂ ∧ nodesBin g (join x₁ x₂) (join y₁ y₂) = .ok (join z₁ z₂) ∧
      SameShape z₁ z₂ ∧ z₁.rows.length = x₁.rows.length ∧ z₂.rows.length = x₂.rows.length) ∨
    ∃ e, nodesBin g x₁ y₁ = .error e ∧ nodesBin g x₂ y₂ = .error e ∧ nodesBin g (join x₁ x₂) (join y₁ y₂) = .error e := by
  obtain ⟨a1, a2, a3⟩ := hx
  obtain ⟨b1, b2, b3⟩ := hy
  have ex : ∀ v, x₂.feat v = x₁.feat v := fun v => by unfold Nodes.feat; rw [a1, a2, a3]
  have ey : ∀ v, y₂.feat v = y₁.feat v := fun v => by unfold Nodes.feat; rw [b1, b2, b3]
  have ex' : ∀ v, (join x₁ x₂).feat v = x₁.feat v := fun v => rfl
  have ey' : ∀ v, (join y₁ y₂).feat v = y₁.feat v := fun v => rfl
  unfold nodesBin
  simp only [ex, ey, ex', ey']
  cases g (x₁.feat 0) (y₁.feat 0) with
  | error e => exact Or.inr ⟨e, rfl, rfl, rfl⟩
  | ok z =>
    dsimp only
    rw [if_pos h₁, if_pos h₂, if_pos (by simp [join, h₁, h₂])]
    refine Or.inl ⟨_, _, rfl, rfl, ?_, ⟨rfl, rfl, rfl⟩, by simp [h₁], by simp [h₂]⟩
    unfold join
    dsimp only
    rw [List.zipWith_append h₁]

theorem reg_zip {n₁ n₂ : ℕ} {rs₁ rs₂ : List Nodes}
    (h : List.Forall₂ (fun x y => SameShape x y ∧ x.rows.length = n₁ ∧ y.rows.length = n₂) rs₁ rs₂) (i : ℕ) :
    (∃ x y, reg rs₁ i = .ok x ∧ reg rs₂ i = .ok y ∧ reg (List.zipWith join rs₁ rs₂) i = .ok (join x y) ∧
      SameShape x y ∧ x.rows.length = n₁ ∧ y.rows.length = n₂) ∨
    ∃ e, reg rs₁ i = .error e ∧ reg rs₂ i = .error e ∧ reg (List.zipWith join rs₁ rs₂) i = .error e := by
  obtain ⟨hl, hg⟩ := List.forall₂_iff_get.1 h
  unfold reg
  by_cases hi : i < rs₁.length
  · have hi' : i < rs₂.length := by omega
    refine Or.inl ⟨rs₁[i], rs₂[i], ?_, ?_, ?_, hg i hi hi'⟩
    · rw [List.getElem?_eq_getElem hi]
    · rw [List.getElem?_eq_getElem hi']
    · rw [List.getElem?_eq_getElem (by simp [hi, hi']), List.getElem_zipWith]
  · refine Or.inr ⟨.indexError, ?_, ?_, ?_⟩
    · rw [List.getElem?_eq_none (by omega)]
    · rw [List.getElem?_eq_none (by omega)]
    · rw [List.getElem?_eq_none (by simp; omega)]

/-- One layer. -/
theorem batchEval {n₁ n₂ : ℕ} (hn₁ : 0 < n₁) (hn₂ : 0 < n₂) {bs₁ bs₂ bs : List Edges} {i₁ i₂ i : Instr}
    (h : BatchInstr n₁ n₂ bs₁ bs₂ bs i₁ i₂ i) (cg : ℕ → ℕ → ℕ → ℝ) {rs₁ rs₂ : List Nodes}
    (hr : List.Forall₂ (fun x y => SameShape x y ∧ x.rows.length = n₁ ∧ y.rows.length = n₂) rs₁ rs₂) :
    (∃ z₁ z₂, i₁.eval cg bs₁ rs₁ = .ok z₁ ∧ i₂.eval cg bs₂ rs₂ = .ok z₂ ∧
      i.eval cg bs (List.zipWith join rs₁ rs₂) = .ok (join z₁ z₂) ∧
      SameShape z₁ z₂ ∧ z₁.rows.length = n₁ ∧ z₂.rows.length = n₂) ∨
    ∃ e, i₁.eval cg bs₁ rs₁ = .error e ∧ i₂.eval cg bs₂ rs₂ = .error e ∧
      i.eval cg bs (List.zipWith join rs₁ rs₂) = .error e := by
  have happ : ∀ (g : Feat → Feat) (x : ℕ),
      (∃ z₁ z₂, (do return (← reg rs₁ x).apply g : Except Err Nodes) = .ok z₁ ∧
        (do return (← reg rs₂ x).apply g : Except Err Nodes) = .ok z₂ ∧
        (do return (← reg (List.zipWith join rs₁ rs₂) x).apply g : Except Err Nodes) = .ok (join z₁ z₂) ∧
        SameShape z₁ z₂ ∧ z₁.rows.length = n₁ ∧ z₂.rows.length = n₂) ∨
      ∃ e, (do return (← reg rs₁ x).apply g : Except Err Nodes) = .error e ∧
        (do return (← reg rs₂ x).apply g : Except Err Nodes) = .error e ∧
        (do return (← reg (List.zipWith join rs₁ rs₂) x).apply g : Except Err Nodes) = .error e := by
    intro g x
    rcases reg_zip hr x with ⟨x₁, x₂, e1, e2, e3, hs, l1, l2⟩ | ⟨e, e1, e2, e3⟩
    · rw [e1, e2, e3]
      obtain ⟨h1, h2⟩ := apply_join g x₁ x₂ hs
      exact Or.inl ⟨_, _, rfl, rfl, congrArg Except.ok h1, h2, by simp [Nodes.apply, l1], by simp [Nodes.apply, l2]⟩
    · rw [e1, e2, e3]
      exact Or.inr ⟨e, rfl, rfl, rfl⟩
  have hbin : ∀ (g : Feat → Feat → Except Err Feat) (x y : ℕ),
      (∃ z₁ z₂, (do nodesBin g (← reg rs₁ x) (← reg rs₁ y) : Except Err Nodes) = .ok z₁ ∧
        (do nodesBin g (← reg rs₂ x) (← reg rs₂ y) : Except Err Nodes) = .ok z₂ ∧
        (do nodesBin g (← reg (List.zipWith join rs₁ rs₂) x) (← reg (List.zipWith join rs₁ rs₂) y) : Except Err Nodes) =
          .ok (join z₁ z₂) ∧
        SameShape z₁ z₂ ∧ z₁.rows.length = n₁ ∧ z₂.rows.length = n₂) ∨
      ∃ e, (do nodesBin g (← reg rs₁ x) (← reg rs₁ y) : Except Err Nodes) = .error e ∧
        (do nodesBin g (← reg rs₂ x) (← reg rs₂ y) : Except Err Nodes) = .error e ∧
        (do nodesBin g (← reg (List.zipWith join rs₁ rs₂) x) (← reg (List.zipWith join rs₁ rs₂) y) : Except Err Nodes) =
          .error e := by
    intro g x y
    rcases reg_zip hr x with ⟨x₁, x₂, e1, e2, e3, hs, l1, l2⟩ | ⟨e, e1, e2, e3⟩
    · rcases reg_zip hr y with ⟨y₁, y₂, f1, f2, f3, hs', l1', l2'⟩ | ⟨e, f1, f2, f3⟩
      · rw [e1, e2, e3, f1, f2, f3]
        subst l1
        subst l2
        exact nodesBin_join g x₁ x₂ y₁ y₂ hs hs' l1'.symm l2'.symm
      · rw [e1, e2, e3, f1, f2, f3]
        exact Or.inr ⟨e, rfl, rfl, rfl⟩
    · rw [e1, e2, e3]
      exact Or.inr ⟨e, rfl, rfl, rfl⟩
  cases h with
  | dense x features useBias P => exact happ _ _
  | gated x g => exact happ _ _
  | change x L ps => exact happ _ _
  | add x y => exact hbin _ _ _
  | tensor x y cfg T => exact hbin _ _ _
  | tensorDense x features useBias cfg P T =>
    unfold Instr.eval
    dsimp only
    rcases reg_zip hr x with ⟨x₁, x₂, e1, e2, e3, hs, l1, l2⟩ | ⟨e, e1, e2, e3⟩
    · rw [e1, e2, e3]
      subst l1
      subst l2
      exact nodesBin_join (fun a _ => E3x.tensorDense features useBias cfg P T cg a) x₁ x₂ x₁ x₂ hs hs rfl rfl
    · rw [e1, e2, e3]
      exact Or.inr ⟨e, rfl, rfl, rfl⟩
  | messagePass x b cfg P w₁ w₂ w bp bL bF E₁ E₂ E hE hb₁ hb₂ hb hw₁ hw₂ hw hE₁ hE₂ =>
    have d1 : reg bs₁ b = .ok ⟨bp, bL, bF, .vec (E₁.map Edge.basis)⟩ := by unfold reg; rw [hb₁]
    have d2 : reg bs₂ b = .ok ⟨bp, bL, bF, .vec (E₂.map Edge.basis)⟩ := by unfold reg; rw [hb₂]
    have d3 : reg bs b = .ok ⟨bp, bL, bF, .vec (E.map Edge.basis)⟩ := by unfold reg; rw [hb]
    unfold Instr.eval
    dsimp only
    rw [d1, d2, d3]
    rcases reg_zip hr x with ⟨x₁, x₂, e1, e2, e3, hs, l1, l2⟩ | ⟨e, e1, e2, e3⟩
    · rw [e1, e2, e3]
      subst l1
      subst l2
      exact C60_message_pass cfg P cg x₁ x₂ hs bp bL bF E₁ E₂ E hE w₁ w₂ w hw₁ hw₂ hw hn₁ hn₂ hE₁ hE₂
    · rw [e1, e2, e3]
      exact Or.inr ⟨e, rfl, rfl, rfl⟩
  | attention q kv b lo ninf cfg P bp bL bF E₁ E₂ E hE hb₁ hb₂ hb hE₁ hE₂ =>
    have d1 : regOpt bs₁ (some b) = .ok (some ⟨bp, bL, bF, .vec (E₁.map AttnEdge.basis)⟩) := by
      simp only [regOpt, reg]; rw [hb₁]
    have d2 : regOpt bs₂ (some b) = .ok (some ⟨bp, bL, bF, .vec (E₂.map AttnEdge.basis)⟩) := by
      simp only [regOpt, reg]; rw [hb₂]
    have d3 : regOpt bs (some b) = .ok (some ⟨bp, bL, bF, .vec (E.map AttnEdge.basis)⟩) := by
      simp only [regOpt, reg]; rw [hb]
    unfold Instr.eval
    dsimp only
    rw [d1, d2, d3]
    rcases reg_zip hr q with ⟨q₁, q₂, e1, e2, e3, hq, l1, l2⟩ | ⟨e, e1, e2, e3⟩
    · rcases reg_zip hr kv with ⟨k₁, k₂, f1, f2, f3, hk, m1, m2⟩ | ⟨e, f1, f2, f3⟩
      · rw [e1, e2, e3, f1, f2, f3]
        have lq : (join q₁ q₂).rows.length = n₁ + n₂ := by simp [join, l1, l2]
        have lk : (join k₁ k₂).rows.length = n₁ + n₂ := by simp [join, m1, m2]
        obtain ⟨p1, p2, p3⟩ := C19_sparse lo ninf cfg P cg q₁ k₁ bp bL bF E₁ _ (Or.inl rfl) _ (Or.inl rfl) (by omega)
          (by omega) none (by rw [Option.getD_none]; omega) (fun e he _ => by rw [l1, m1]; exact hE₁ e he) _ rfl
        obtain ⟨p1', p2', p3'⟩ := C19_sparse lo ninf cfg P cg q₂ k₂ bp bL bF E₂ _ (Or.inl rfl) _ (Or.inl rfl) (by omega)
          (by omega) none (by rw [Option.getD_none]; omega)
          (fun e he hd => ⟨hd, by rw [m2]; exact hE₂ e he (by rw [Option.getD_none] at hd; omega)⟩) _ rfl
        obtain ⟨r1, r2, r3⟩ := C19_sparse lo ninf cfg P cg (join q₁ q₂) (join k₁ k₂) bp bL bF E _ (Or.inl rfl) _ (Or.inl rfl)
          (by omega) (by omega) none (by rw [Option.getD_none]; omega)
          (by rw [Option.getD_none, lq, lk]; exact batch_edges_ok hE hE₁ hE₂) _ rfl
        rw [← hq.2.2] at p1' p3'
        rw [← hk.2.1] at p2' p3'
        by_cases hH : cfg.numHeads = 0 ∨ cfg.qkvFeatures.getD q₁.F % cfg.numHeads ≠ 0
        · exact Or.inr ⟨_, p1 hH, p1' hH, r1 hH⟩
        · push Not at hH
          by_cases hd : cfg.relV = true → cfg.conv.tens.maxDegree.getD (max bL k₁.L) ≤ bL + k₁.L
          · obtain ⟨z₁, z1, z2⟩ := p3 hH.1 hH.2 hd
            obtain ⟨z₂, z1', z2'⟩ := p3' hH.1 hH.2 hd
            obtain ⟨z, y1, y2⟩ := r3 hH.1 hH.2 hd
            rw [Option.getD_none] at z2 z2' y2
            rw [lq, ← l1, ← l2] at y2
            obtain ⟨rfl, hs⟩ := isAttention_batch cfg P cg q₁ q₂ k₁ k₂ hq hk bp bL bF E₁ E₂ E (by rw [l1, m1]; exact hE)
              (by rw [l1, m1]; exact hE₁) z₁ z₂ z z2 z2' y2
            exact Or.inl ⟨z₁, z₂, z1, z1', y1, hs, z2.2.2.2.1.trans l1, z2'.2.2.2.1.trans l2⟩
          · push Not at hd
            exact Or.inr ⟨_, p2 hd.1 hd.2, p2' hd.1 hd.2, r2 hd.1 hd.2⟩
      · rw [e1, e2, e3, f1, f2, f3]
        exact Or.inr ⟨e, rfl, rfl, rfl⟩
    · rw [e1, e2, e3]
      exact Or.inr ⟨e, rfl, rfl, rfl⟩

/-- **C60 (networks).** Running a program for a batch gives the arrays of the single structures, joined; an exception is
raised for the batch exactly if it is raised for each structure. -/
theorem C60_network (cg : ℕ → ℕ → ℕ → ℝ) (n₁ n₂ : ℕ) (hn₁ : 0 < n₁) (hn₂ : 0 < n₂) (bs₁ bs₂ bs : List Edges)
    (p₁ p₂ p : List Instr) (h : BatchProg n₁ n₂ bs₁ bs₂ bs p₁ p₂ p) (rs₁ rs₂ : List Nodes)
    (hr : List.Forall₂ (fun x y => SameShape x y ∧ x.rows.length = n₁ ∧ y.rows.length = n₂) rs₁ rs₂) :
    runNetwork cg bs p (List.zipWith join rs₁ rs₂) =
      (do return List.zipWith join (← runNetwork cg bs₁ p₁ rs₁) (← runNetwork cg bs₂ p₂ rs₂)) := by
  induction h generalizing rs₁ rs₂ with
  | nil => rfl
  | cons h0 _ ih =>
    unfold runNetwork
    rcases batchEval hn₁ hn₂ h0 cg hr with ⟨z₁, z₂, e1, e2, e3, hs, l1, l2⟩ | ⟨e, e1, e2, e3⟩
    · rw [e1, e2, e3]
      have hr' : List.Forall₂ (fun x y => SameShape x y ∧ x.rows.length = n₁ ∧ y.rows.length = n₂) (rs₁ ++ [z₁]) (rs₂ ++ [z₂]) :=
        List.rel_append hr (.cons ⟨hs, l1, l2⟩ .nil)
      have := ih _ _ hr'
      rw [List.zipWith_append hr.length_eq] at this
      exact this
    · rw [e1, e2, e3]
      rfl

/-- **C60 (message passing, dense format).** The same for dense lists. Row `i` of the batch contains the edges of row `i` of
the first structure, and row `n₁ + j` those of row `j` of the second; all other slots are padding. -/
theorem C60_message_pass_dense (cfg : ConvCfg) (P : ConvParams) (cg : ℕ → ℕ → ℕ → ℝ) (x₁ x₂ : Nodes) (hs : SameShape x₁ x₂)
    (bp : Bool) (bL bF : ℕ) (G₁ G₂ G : List (List Edge)) (hl₁ : G₁.length = x₁.rows.length) (hl₂ : G₂.length = x₂.rows.length)
    (hl : G.length = G₁.length + G₂.length)
    (hG₁ : ∀ i (h : i < G₁.length) (h' : i < G.length), (G[i].filter fun e => e.src < x₁.rows.length + x₂.rows.length).Perm
      (G₁[i].filter fun e => e.src < x₁.rows.length))
    (hG₂ : ∀ i (h : i < G₂.length) (h' : G₁.length + i < G.length),
      (G[G₁.length + i].filter fun e => e.src < x₁.rows.length + x₂.rows.length).Perm
        ((G₂[i].filter fun e => e.src < x₂.rows.length).map (relabel (· + x₁.rows.length))))
    (w₁ w₂ w : Option (Lead Ent)) (hw₁ : WeightsOf w₁ (.mat (G₁.map fun r => r.map Edge.weight)) G₁.flatten)
    (hw₂ : WeightsOf w₂ (.mat (G₂.map fun r => r.map Edge.weight)) G₂.flatten)
    (hw : WeightsOf w (.mat (G.map fun r => r.map Edge.weight)) G.flatten)
    (hn₁ : 0 < x₁.rows.length) (hn₂ : 0 < x₂.rows.length) :
    (∃ z₁ z₂, messagePass cfg P cg x₁ ⟨bp, bL, bF, .mat (G₁.map fun r => r.map Edge.basis)⟩ w₁
        { adj := some (G₁.map fun r => r.map Edge.src) } = .ok z₁ ∧
      messagePass cfg P cg x₂ ⟨bp, bL, bF, .mat (G₂.map fun r => r.map Edge.basis)⟩ w₂
        { adj := some (G₂.map fun r => r.map Edge.src) } = .ok z₂ ∧
      messagePass cfg P cg (join x₁ x₂) ⟨bp, bL, bF, .mat (G.map fun r => r.map Edge.basis)⟩ w
        { adj := some (G.map fun r => r.map Edge.src) } = .ok (join z₁ z₂)) ∨
    ∃ e, messagePass cfg P cg x₁ ⟨bp, bL, bF, .mat (G₁.map fun r => r.map Edge.basis)⟩ w₁
        { adj := some (G₁.map fun r => r.map Edge.src) } = .error e ∧
      messagePass cfg P cg x₂ ⟨bp, bL, bF, .mat (G₂.map fun r => r.map Edge.basis)⟩ w₂
        { adj := some (G₂.map fun r => r.map Edge.src) } = .error e ∧
      messagePass cfg P cg (join x₁ x₂) ⟨bp, bL, bF, .mat (G.map fun r => r.map Edge.basis)⟩ w
        { adj := some (G.map fun r => r.map Edge.src) } = .error e := by
  have hlen : (join x₁ x₂).rows.length = x₁.rows.length + x₂.rows.length := by simp [join]
  obtain ⟨p1, p2⟩ := C18_dense cfg P cg x₁ bp bL bF G₁ w₁ hw₁ none hn₁
  obtain ⟨q1, q2⟩ := C18_dense cfg P cg x₂ bp bL bF G₂ w₂ hw₂ none hn₂
  obtain ⟨r1, r2⟩ := C18_dense cfg P cg (join x₁ x₂) bp bL bF G w hw none (by omega)
  rw [← hs.2.1] at q1 q2
  by_cases hd : cfg.tens.maxDegree.getD (max bL x₁.L) ≤ bL + x₁.L
  · obtain ⟨z₁, a0, a1, a2, a3, a4, a5⟩ := p2 hd
    obtain ⟨z₂, b0, b1, b2, b3, b4, b5⟩ := q2 hd
    obtain ⟨z, c0, c1, c2, c3, c4, c5⟩ := r2 hd
    simp only [hlen] at c5
    refine Or.inl ⟨z₁, z₂, a0, b0, c0.trans (congrArg _ ?_)⟩
    refine eq_join (Bool.eq_iff_iff.2 (c1.trans a1.symm)) (c2.trans a2.symm) (c3.trans a3.symm) (by omega) (fun i hi => ?_)
      fun i hi => ?_
    · rw [c5 i (by omega), a5 i (by omega)]
      congr 1
      refine message_sum_local cfg P cg _ _ join_same bp bL bF _ _ (fun j => j) ?_ fun e he => ?_
      · exact (hG₁ i (by omega) (by omega)).trans (by rw [show (relabel fun j => j) = id from rfl, List.map_id])
      · exact join_rows_first (by simpa using (List.mem_filter.1 he).2)
    · rw [a4, c5 _ (by omega), b5 i (by omega)]
      congr 1
      refine message_sum_local cfg P cg _ _ (join_same' hs) bp bL bF _ _ (· + x₁.rows.length) (hG₂ i (by omega) (by omega))
        fun e he => ?_
      rw [Nat.add_comm]
      exact join_rows_second _
  · exact Or.inr ⟨_, p1 (by omega), q1 (by omega), r1 (by simp only [join]; omega)⟩

-- Non-vacuity: a structure with two nodes and one with one node (and a padding edge), through a dense layer, a
-- message-passing layer and an attention layer.
example (cg : ℕ → ℕ → ℕ → ℝ) (D : DenseParams) (c : ConvCfg) (P : ConvParams) (a : AttnCfg) (A : AttnParams) (u v w : Ent)
    (lo ninf : ℝ) (x y : Nodes) (hx : x.rows.length = 2) (hy : y.rows.length = 1) (hs : SameShape x y) :
    runNetwork cg [⟨false, 1, 4, .vec [u, v, w]⟩]
      [.dense 0 3 true D, .messagePass 1 0 c P none { dst := some [0, 1, 2 + 2], src := some [1, 0, 0 + 2] },
        .attention 2 1 (some 0) lo ninf a A (some (.vec [1, 1, 1])) { dst := some [0, 1, 2 + 2], src := some [1, 0, 0 + 2] }]
      [join x y] = (do
    let r₁ ← runNetwork cg [⟨false, 1, 4, .vec [u, v]⟩]
      [.dense 0 3 true D, .messagePass 1 0 c P none { dst := some [0, 1], src := some [1, 0] },
        .attention 2 1 (some 0) lo ninf a A (some (.vec [1, 1])) { dst := some [0, 1], src := some [1, 0] }] [x]
    let r₂ ← runNetwork cg [⟨false, 1, 4, .vec [w]⟩]
      [.dense 0 3 true D, .messagePass 1 0 c P none { dst := some [2], src := some [0] },
        .attention 2 1 (some 0) lo ninf a A (some (.vec [1])) { dst := some [2], src := some [0] }] [y]
    return List.zipWith join r₁ r₂) := by
  refine C60_network cg 2 1 (by norm_num) (by norm_num) _ _ _ _ _ _ ?_ [x] [y] (.cons ⟨hs, hx, hy⟩ .nil)
  refine .cons (.dense ..) (.cons ?_ (.cons ?_ .nil))
  · exact .messagePass 1 0 c P none none none false 1 4 [⟨0, 1, u, fun _ _ _ => 1⟩, ⟨1, 0, v, fun _ _ _ => 1⟩]
      [⟨2, 0, w, fun _ _ _ => 1⟩] [⟨0, 1, u, fun _ _ _ => 1⟩, ⟨1, 0, v, fun _ _ _ => 1⟩, ⟨2 + 2, 0 + 2, w, fun _ _ _ => 1⟩]
      (List.Perm.refl _) rfl rfl rfl (Or.inr ⟨rfl, by simp⟩) (Or.inr ⟨rfl, by simp⟩) (Or.inr ⟨rfl, by simp⟩) (by simp) (by simp)
  · exact .attention 2 1 0 lo ninf a A false 1 4 [⟨0, 1, u, 1⟩, ⟨1, 0, v, 1⟩] [⟨2, 0, w, 1⟩]
      [⟨0, 1, u, 1⟩, ⟨1, 0, v, 1⟩, ⟨2 + 2, 0 + 2, w, 1⟩] (List.Perm.refl _) rfl rfl rfl (by simp) (by simp)

end E3x
