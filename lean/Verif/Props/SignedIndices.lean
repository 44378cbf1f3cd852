import Verif.Lemmas.SignedIndices

/-!
# C81: negative entries of index lists

The functions are those of Verif/Model/SignedIndices.lean. `Spec.countedFromEnd` and `Spec.naturalArgs`
(Verif/Spec/SignedIndices.lean) say which non-negative index lists a signed one stands for.
-/

namespace E3x

open Spec

/-- **C81 (reading).** Gathering with the index `-k` reads entry `n - k` of `n` entries; an index below `-n` reads the
first entry. -/
theorem C81_gather {α : Type} (xs : List α) (idx : List ℤ) (hx : xs ≠ []) :
    ∃ ys, gatherSparseZ xs idx = some ys ∧ ys.length = idx.length ∧
      ∀ (p : ℕ) (i : ℤ), idx[p]? = some i → ∀ k : ℕ, 1 ≤ k → i = -(k : ℤ) →
        (k ≤ xs.length → ys[p]? = xs[xs.length - k]?) ∧ (xs.length ≤ k → ys[p]? = xs[0]?) := by
  have hn := List.length_pos_of_ne_nil hx
  induction idx with
  | nil => exact ⟨[], rfl, rfl, by simp⟩
  | cons i idx ih =>
    obtain ⟨ys, h1, h2, h3⟩ := ih
    have hget : ∃ y, wrapGet xs i = some y := by
      rw [wrapGet_eq, clampGet]
      exact ⟨_, List.getElem?_eq_getElem (by omega)⟩
    obtain ⟨y, hy⟩ := hget
    refine ⟨y :: ys, ?_, by simp [h2], ?_⟩
    · unfold gatherSparseZ at h1 ⊢
      rw [List.mapM_cons, hy, h1]
      rfl
    · intro p j hp k hk hj
      cases p with
      | zero =>
        simp only [List.getElem?_cons_zero, Option.some.injEq] at hp
        subst hp
        rw [List.getElem?_cons_zero, ← hy, wrapGet_eq, clampGet, countedFromEnd, if_pos (by omega)]
        exact ⟨fun h => by congr 1; omega, fun h => by congr 1; omega⟩
      | succ p =>
        rw [List.getElem?_cons_succ] at hp ⊢
        exact h3 p j hp k hk hj

/-- **C81 (reducing).** The reductions over a sparse list ignore all values with a negative destination, whatever they
are: the result is the one for the list without them. -/
theorem C81_reduce {α : Type} (op : α → α → α) (init : α) (edges : List (ℤ × α)) (num : ℕ) :
    segmentReduceZ op init (edges.map Prod.snd) (edges.map Prod.fst) num =
      segmentReduce op init ((edges.filter fun e => 0 ≤ e.1).map Prod.snd)
        ((edges.filter fun e => 0 ≤ e.1).map fun e => e.1.toNat) num := by
  unfold segmentReduceZ segmentReduce
  have hl : (List.replicate num init).length = num := List.length_replicate
  generalize List.replicate num init = acc at hl
  induction edges generalizing acc with
  | nil => rfl
  | cons e edges ih =>
    rw [List.map_cons, List.map_cons, List.zip_cons_cons, List.foldl_cons]
    by_cases h : 0 ≤ e.1
    · rw [List.filter_cons_of_pos (by simpa using h), List.map_cons, List.map_cons, List.zip_cons_cons, List.foldl_cons]
      dsimp only
      have : (if 0 ≤ e.1 ∧ e.1 < (num : ℤ) then acc.modify e.1.toNat (fun a => op a e.2) else acc) =
          acc.modify e.1.toNat (fun a => op a e.2) := by
        by_cases h' : e.1 < (num : ℤ)
        · rw [if_pos ⟨h, h'⟩]
        · rw [if_neg (by omega), List.modify_eq_self]
          omega
      rw [this]
      exact ih _ (by rw [List.length_modify, hl])
    · rw [List.filter_cons_of_neg (by simpa using h), if_neg (by omega)]
      exact ih _ hl

/-- **C81 (message passing).** `MessagePass` with any signed index arguments does the same as with non-negative ones in
which negative source and adjacency indices are counted from the end of the nodes, and negative destinations are replaced
by an index beyond the last segment (padding). So an edge with a negative destination is ignored, but a negative entry of
a dense list is an edge. Exceptions are the same too. -/
theorem C81_message_pass (cfg : ConvCfg) (P : ConvParams) (cg : ℕ → ℕ → ℕ → ℝ) (x : Nodes) (basis : Edges)
    (weights : Option (Lead Ent)) (ix : SignedArgs) (hx : x.rows ≠ []) (pad : ℕ) (hp : ix.num.getD x.rows.length ≤ pad) :
    messagePassZ cfg P cg x basis weights ix =
      messagePass cfg P cg x basis weights (naturalArgs x.rows.length pad ix) :=
  messagePassZ_eq cfg P cg x basis weights ix hx pad hp

/-- **C81 (attention, -1 as padding).** The same holds for attention layers if the destinations are at least `-1`. -/
theorem C81_attention (lo ninf : ℝ) (cfg : AttnCfg) (P : AttnParams) (cg : ℕ → ℕ → ℕ → ℝ) (q kv : Nodes)
    (basis : Option Edges) (cutoff : Option (Lead ℝ)) (ix : SignedArgs) (hkv : kv.rows ≠ [])
    (hd : ∀ d ∈ ix.dst, ∀ i ∈ d, -1 ≤ i) (pad : ℕ) (hq : q.rows.length ≤ pad)
    (hp : ix.num.getD q.rows.length ≤ pad) :
    attentionZ lo ninf cfg P cg q kv basis cutoff ix =
      attention lo ninf cfg P cg q kv basis cutoff (naturalArgs kv.rows.length pad ix) :=
  attentionZ_eq lo ninf cfg P cg q kv basis cutoff ix hkv hd pad hq hp

/-- **C81 (-1 is not padding in a dense list).** In a dense list an entry `-1` cannot be told from the index of the last
node, in message passing and in attention: instead of being ignored, it adds an edge from that node. -/
theorem C81_dense_minus_one (cfg : ConvCfg) (P : ConvParams) (cg : ℕ → ℕ → ℕ → ℝ) (x : Nodes) (basis : Edges)
    (weights : Option (Lead Ent)) (adj : List (List ℤ)) (mask : Option (List (List Bool))) (hx : x.rows ≠ []) :
    messagePassZ cfg P cg x basis weights { adj := some adj, mask := mask } =
      messagePassZ cfg P cg x basis weights
        { adj := some (adj.map fun row => row.map fun j => if j = -1 then (x.rows.length : ℤ) - 1 else j), mask := mask } := by
  have hn := List.length_pos_of_ne_nil hx
  rw [C81_message_pass cfg P cg x basis weights _ hx x.rows.length (by simp),
    C81_message_pass cfg P cg x basis weights _ hx x.rows.length (by simp)]
  congr 1
  unfold naturalArgs
  simp only [Option.map_some, List.map_map, IndexArgs.mk.injEq, and_true, Option.some.injEq]
  refine List.map_congr_left fun row _ => ?_
  rw [Function.comp, List.map_map]
  refine List.map_congr_left fun j _ => ?_
  simp only [Function.comp, countedFromEnd]
  by_cases h : j = -1
  · rw [if_pos h, if_pos (by omega), if_neg (by omega)]
    omega
  · rw [if_neg h]

/-! ## Conversions -/

theorem count_kept (dst src : List ℤ) (h : dst.length = src.length) (i : ℕ) :
    ((nonnegEdges dst src).map Prod.fst).count (i : ℤ) = dst.count (i : ℤ) := by
  unfold nonnegEdges
  induction dst generalizing src with
  | nil => rfl
  | cons d dst ih =>
    cases src with
    | nil => simp at h
    | cons s src =>
      have ih := ih src (by simpa using h)
      by_cases hd : 0 ≤ d
      · rw [List.zip_cons_cons, List.filter_cons_of_pos (by simpa using hd), List.map_cons, List.count_cons,
          List.count_cons, ih]
      · rw [List.zip_cons_cons, List.filter_cons_of_neg (by simpa using hd), ih, List.count_cons_of_ne (by omega)]

theorem sources_kept (dst src : List ℤ) (i : ℕ) :
    sourcesOfZ ((nonnegEdges dst src).map Prod.fst) ((nonnegEdges dst src).map Prod.snd) i = sourcesOfZ dst src i := by
  unfold sourcesOfZ
  have : ((nonnegEdges dst src).map Prod.fst).zip ((nonnegEdges dst src).map Prod.snd) = nonnegEdges dst src := by
    rw [List.zip_map', List.map_id']
  rw [this, nonnegEdges, List.filter_filter]
  congr 1
  refine List.filter_congr fun e _ => ?_
  by_cases h : e.1 = (i : ℤ)
  · simp [h]
  · simp [h]

theorem foldl_max_kept (l : List ℤ) (a : ℤ) (h : 0 ≤ a) : (l.filter fun x => 0 ≤ x).foldl max a = l.foldl max a := by
  induction l generalizing a with
  | nil => rfl
  | cons x l ih =>
    by_cases hx : 0 ≤ x
    · rw [List.filter_cons_of_pos (by simpa using hx), List.foldl_cons, List.foldl_cons, ih _ (by omega)]
    · rw [List.filter_cons_of_neg (by simpa using hx), List.foldl_cons, max_eq_left (by omega), ih _ h]

theorem listMaxZ_kept (l : List ℤ) (h : ∃ x ∈ l, 0 ≤ x) : listMaxZ (l.filter fun x => 0 ≤ x) = listMaxZ l := by
  induction l with
  | nil => simp at h
  | cons x l ih =>
    by_cases hx : 0 ≤ x
    · rw [List.filter_cons_of_pos (by simpa using hx)]
      exact foldl_max_kept l x hx
    · rw [List.filter_cons_of_neg (by simpa using hx)]
      have hl : ∃ y ∈ l, 0 ≤ y := by
        obtain ⟨y, hy, h0⟩ := h
        rcases List.mem_cons.mp hy with rfl | hy
        · exact absurd h0 hx
        · exact ⟨y, hy, h0⟩
      rw [ih hl]
      have key : ∀ (l : List ℤ) (x : ℤ), x < 0 → (∃ y ∈ l, 0 ≤ y) → l.foldl max x = listMaxZ l := by
        intro l
        induction l with
        | nil => intro x _ h; simp at h
        | cons y l ih =>
          intro x hx h
          rw [List.foldl_cons]
          by_cases hy : 0 ≤ y
          · rw [max_eq_right (by omega)]; rfl
          · have hl : ∃ z ∈ l, 0 ≤ z := by
              obtain ⟨z, hz, h0⟩ := h
              rcases List.mem_cons.mp hz with rfl | hz
              · exact absurd h0 hy
              · exact ⟨z, hz, h0⟩
            show List.foldl max (max x y) l = List.foldl max y l
            rw [ih _ (by omega) hl, ih _ (by omega) hl]
      exact (key l x (by omega) hl).symm

/-- **C81 (to dense).** Converting a sparse list to a dense one ignores the edges with negative destinations: the result
is the one for the list without them (if an edge remains), with and without explicit padding index. Negative sources are
kept. If all destinations are negative and no padding index is given, the conversion raises an exception. -/
theorem C81_sparse_to_dense (dst src : List ℤ) (h : dst.length = src.length) (pad : Option ℤ) :
    ((∃ d ∈ dst, 0 ≤ d) → sparseToDenseZ [dst] [src] pad =
      sparseToDenseZ [(nonnegEdges dst src).map Prod.fst] [(nonnegEdges dst src).map Prod.snd] pad) ∧
    (dst ≠ [] → (∀ d ∈ dst, d < 0) → sparseToDenseZ [dst] [src] none = .error .valueError) := by
  constructor
  · intro hex
    have hfst : (nonnegEdges dst src).map Prod.fst = dst.filter fun d => 0 ≤ d := by
      clear hex
      unfold nonnegEdges
      induction dst generalizing src with
      | nil => rfl
      | cons d dst ih =>
        cases src with
        | nil => simp at h
        | cons s src =>
          have ih := ih src (by simpa using h)
          by_cases hd : 0 ≤ d
          · rw [List.zip_cons_cons, List.filter_cons_of_pos (by simpa using hd), List.map_cons, ih,
              List.filter_cons_of_pos (by simpa using hd)]
          · rw [List.zip_cons_cons, List.filter_cons_of_neg (by simpa using hd), ih,
              List.filter_cons_of_neg (by simpa using hd)]
    have hne : dst ≠ [] := by rintro rfl; simp at hex
    have hne' : (nonnegEdges dst src).map Prod.fst ≠ [] := by
      rw [hfst]
      obtain ⟨d, hd, h0⟩ := hex
      exact List.ne_nil_of_mem (List.mem_filter.mpr ⟨hd, by simpa using h0⟩)
    unfold sparseToDenseZ
    have hmax : listMaxZ ([(nonnegEdges dst src).map Prod.fst].flatten) = listMaxZ [dst].flatten := by
      rw [List.flatten_singleton, List.flatten_singleton, hfst, listMaxZ_kept dst hex]
    have h1 : ¬ (List.map List.length [dst] ≠ List.map List.length [src]) := by simp [h]
    have h2 : ¬ [dst].flatten = [] := by simpa using hne
    have h3 : ¬ (List.map List.length [(nonnegEdges dst src).map Prod.fst] ≠
        List.map List.length [(nonnegEdges dst src).map Prod.snd]) := by simp
    have h4 : ¬ [(nonnegEdges dst src).map Prod.fst].flatten = [] := by rw [List.flatten_singleton]; exact hne'
    rw [if_neg h1, if_neg h2, if_neg h3, if_neg h4, hmax]
    simp only [List.map_cons, List.map_nil, List.zip_cons_cons, List.zip_nil_left, sources_kept, count_kept dst src h]
  · intro hne hneg
    unfold sparseToDenseZ
    rw [if_neg (by simp [h]), if_neg (by simpa using hne)]
    dsimp only
    rw [if_pos]
    rw [Option.getD_none, List.flatten_singleton]
    cases dst with
    | nil => exact absurd rfl hne
    | cons d dst =>
      have key : ∀ (l : List ℤ) (a : ℤ), a < 0 → (∀ x ∈ l, x < 0) → l.foldl max a < 0 := by
        intro l
        induction l with
        | nil => intro a ha _; exact ha
        | cons x l ih =>
          intro a ha hl
          exact ih _ (max_lt ha (hl x (by simp))) fun y hy => hl y (by simp [hy])
      have := key dst d (hneg d (by simp)) fun x hx => hneg x (by simp [hx])
      show List.foldl max d dst + 1 ≤ 0
      omega

/-- **C81 (to sparse).** Converting a dense list to a sparse one keeps its negative entries: for each row `i` the sources
of the edges into `i` are the entries of the row below the padding index, negative ones included, in order. -/
theorem C81_dense_to_sparse (adj : List (List (List ℤ))) (pad : ℕ) (b : ℕ) (rows : List (List ℤ))
    (hb : adj[b]? = some rows) (hrows : rows.length ≤ pad) :
    ∃ dst src, (denseToSparseZ adj (some pad)).1[b]? = some dst ∧ (denseToSparseZ adj (some pad)).2[b]? = some src ∧
      ∀ i row, rows[i]? = some row → sourcesOfZ dst src i = row.filter (· < (pad : ℤ)) := by
  have key : ∀ (rows : List (List ℤ)) (k : ℕ) (i : ℕ) (row : List ℤ), rows[i]? = some row →
      sourcesOfZ (((rows.map fun row => row.filter (· < (pad : ℤ))).zipIdx k).map fun p =>
        List.replicate p.1.length (p.2 : ℤ)).flatten (rows.map fun row => row.filter (· < (pad : ℤ))).flatten (k + i) =
        row.filter (· < (pad : ℤ)) := by
    have hzip : ∀ (s : List ℤ) (k : ℕ) (D S : List ℤ) (i : ℕ), sourcesOfZ (List.replicate s.length (k : ℤ) ++ D) (s ++ S) i =
        (if i = k then s else []) ++ sourcesOfZ D S i := by
      intro s k D S i
      unfold sourcesOfZ
      rw [List.zip_append (by simp), List.filter_append, List.map_append]
      congr 1
      induction s with
      | nil => simp
      | cons a s ih =>
        rw [List.length_cons, List.replicate_succ, List.zip_cons_cons]
        by_cases h : i = k
        · rw [List.filter_cons_of_pos (by simp [h]), List.map_cons, ih, if_pos h, if_pos h]
        · rw [List.filter_cons_of_neg (by simpa using fun hh : (k : ℤ) = i => h (by omega)), ih, if_neg h, if_neg h]
    have hlt : ∀ (rows : List (List ℤ)) (k i : ℕ), i < k →
        sourcesOfZ ((rows.zipIdx k).map fun p => List.replicate p.1.length (p.2 : ℤ)).flatten rows.flatten i = [] := by
      intro rows
      induction rows with
      | nil => intros; rfl
      | cons r rows ih =>
        intro k i hi
        rw [List.zipIdx_cons, List.map_cons, List.flatten_cons, List.flatten_cons, hzip, ih (k + 1) i (by omega),
          if_neg (by omega)]
        rfl
    intro rows
    induction rows with
    | nil => intro k i row h; simp at h
    | cons r rows ih =>
      intro k i row h
      rw [List.map_cons, List.zipIdx_cons, List.map_cons, List.flatten_cons, List.flatten_cons, hzip]
      cases i with
      | zero =>
        simp only [List.getElem?_cons_zero, Option.some.injEq] at h
        subst h
        rw [if_pos (by omega), hlt _ _ _ (by omega), List.append_nil]
      | succ i =>
        rw [List.getElem?_cons_succ] at h
        rw [if_neg (by omega), List.nil_append, ← ih (k + 1) i row h]
        congr 1
        omega
  have hpadded : ∀ (d s : List ℤ) (hds : d.length = s.length) (m : ℕ) (i : ℕ), i < pad →
      sourcesOfZ (padTo m (pad : ℤ) d) (padTo m (pad : ℤ) s) i = sourcesOfZ d s i := by
    intro d s hds m i hi
    unfold sourcesOfZ padTo
    rw [List.zip_append hds, List.filter_append, List.map_append, ← hds, List.zip_replicate', List.filter_replicate,
      if_neg (by simpa using (by omega : ¬ pad = i)), List.map_nil, List.append_nil]
  have hlen : ∀ (rows : List (List ℤ)) (k : ℕ),
      ((rows.zipIdx k).map fun p => List.replicate p.1.length (p.2 : ℤ)).flatten.length = rows.flatten.length := by
    intro rows
    induction rows with
    | nil => intro; rfl
    | cons r rows ih =>
      intro k
      rw [List.zipIdx_cons, List.map_cons, List.flatten_cons, List.flatten_cons, List.length_append, List.length_append,
        ih, List.length_replicate]
  unfold denseToSparseZ
  by_cases h0 : adj.flatten.flatten = []
  · rw [if_pos h0]
    refine ⟨[], [], by rw [List.getElem?_map, hb]; rfl, by rw [List.getElem?_map, hb]; rfl, fun i row hrow => ?_⟩
    have : row = [] := by
      have h1 : row ∈ adj.flatten := List.mem_flatten.mpr ⟨rows, List.mem_of_getElem? hb, List.mem_of_getElem? hrow⟩
      rcases row with - | ⟨a, row⟩
      · rfl
      · have : a ∈ adj.flatten.flatten := List.mem_flatten.mpr ⟨_, h1, by simp⟩
        rw [h0] at this
        simp at this
    rw [this]
    rfl
  · rw [if_neg h0]
    dsimp only
    rw [Option.getD_some]
    refine ⟨_, _, by rw [List.getElem?_map, List.getElem?_map, hb]; rfl,
      by rw [List.getElem?_map, List.getElem?_map, hb]; rfl, fun i row hrow => ?_⟩
    have hi : i < rows.length := (List.getElem?_eq_some_iff.mp hrow).1
    have := key rows 0 i row hrow
    rw [Nat.zero_add] at this
    exact (hpadded _ _ (hlen _ 0) _ i (by omega)).trans this

theorem le_listMaxZ {l : List ℤ} {a : ℤ} (h : a ∈ l) : a ≤ listMaxZ l := by
  have key : ∀ (l : List ℤ) (b : ℤ), b ≤ l.foldl max b ∧ ∀ x ∈ l, x ≤ l.foldl max b := by
    intro l
    induction l with
    | nil => intro b; exact ⟨le_rfl, by simp⟩
    | cons x l ih =>
      intro b
      obtain ⟨h1, h2⟩ := ih (max b x)
      refine ⟨(le_max_left b x).trans h1, ?_⟩
      intro y hy
      rcases List.mem_cons.1 hy with rfl | hy
      · exact (le_max_right b y).trans h1
      · exact h2 y hy
  cases l with
  | nil => simp at h
  | cons x l =>
    rcases List.mem_cons.1 h with rfl | h
    · exact (key l a).1
    · exact (key l x).2 a h

/-- **C81 (to sparse, default padding).** Without a padding index nothing is dropped: for each row `i` the sources of the
edges into `i` are all entries of the row, provided that some entry of the list is at least the number of the last row
(otherwise padding edges could end in a node). -/
theorem C81_dense_to_sparse_default (adj : List (List (List ℤ))) (b : ℕ) (rows : List (List ℤ))
    (hb : adj[b]? = some rows) (a : ℤ) (ha : a ∈ adj.flatten.flatten) (hrows : (rows.length : ℤ) ≤ a + 1) :
    ∃ dst src, (denseToSparseZ adj).1[b]? = some dst ∧ (denseToSparseZ adj).2[b]? = some src ∧
      ∀ i row, rows[i]? = some row → sourcesOfZ dst src i = row := by
  have hmax := le_listMaxZ ha
  have hne : adj.flatten.flatten ≠ [] := List.ne_nil_of_mem ha
  have heq : denseToSparseZ adj = denseToSparseZ adj (some ((listMaxZ adj.flatten.flatten + 1).toNat : ℤ)) := by
    unfold denseToSparseZ
    rw [if_neg hne, if_neg hne, Option.getD_none, Option.getD_some, Int.toNat_of_nonneg (by omega)]
  obtain ⟨dst, src, h1, h2, h3⟩ := C81_dense_to_sparse adj (listMaxZ adj.flatten.flatten + 1).toNat b rows hb (by omega)
  refine ⟨dst, src, by rw [heq]; exact h1, by rw [heq]; exact h2, ?_⟩
  intro i row hrow
  rw [h3 i row hrow, List.filter_eq_self]
  intro x hx
  have hx' : x ∈ adj.flatten.flatten := List.mem_flatten.2 ⟨row, List.mem_flatten.2 ⟨rows, List.mem_of_getElem? hb,
    List.mem_of_getElem? hrow⟩, hx⟩
  have := le_listMaxZ hx'
  simp only [decide_eq_true_eq]
  omega

/-- Two rows with the negative entry `-1`; the entry `1` is the number of the last row. -/
example : ([[[1, -1], [0]]] : List (List (List ℤ)))[0]? = some [[1, -1], [0]] ∧
    (1 : ℤ) ∈ ([[[1, -1], [0]]] : List (List (List ℤ))).flatten.flatten := by decide

/-! ## Examples -/

/-- Two edges into node 0 and one edge padded with `-1`: the padded edge is ignored. -/
example : segmentReduceZ (· + ·) (0 : ℤ) [5, 7, 100] [0, 0, -1] 2 = [12, 0] := by decide

/-- Destinations of this kind meet the hypothesis of `C81_attention`. -/
example : ∀ d ∈ ({ dst := some [0, 1, -1], src := some [1, 0, 0] } : SignedArgs).dst, ∀ i ∈ d, -1 ≤ i := by decide

/-- Node 0 without neighbours, padded with `-1`: the sum is the value of the last node instead of zero. Padded with the
number of nodes, it is zero. -/
example :
    (gatherDenseZ [(1 : ℤ), 10] [[-1], [0]]).map (fun g =>
      denseReduce (· + ·) 0 g [[decide ((-1 : ℤ) < 2)], [decide ((0 : ℤ) < 2)]]) = some [10, 1] ∧
    (gatherDenseZ [(1 : ℤ), 10] [[2], [0]]).map (fun g =>
      denseReduce (· + ·) 0 g [[decide ((2 : ℤ) < 2)], [decide ((0 : ℤ) < 2)]]) = some [0, 1] := by decide

example : sparseToDenseZ [[0, -1, 1]] [[1, 0, 0]] = .ok [[[1], [0]]] := by decide

example : denseToSparseZ [[[-1], [0]]] (some 2) = ([[0, 1]], [[-1, 0]]) := by decide

end E3x
