import Verif.Props.Conversion
import Mathlib.Algebra.BigOperators.Group.List.Basic
import Mathlib.Order.Lattice
import Mathlib.Data.List.Perm.Basic

/-!
# C03: indexed reductions
-/

namespace E3x

/-- Semantics of a segment reduction: segment `i` folds the values of the edges with destination `i`. -/
theorem segmentReduce_get {α : Type _} (op : α → α → α) (init : α) (x : List α) (dst : List Nat)
    (num i : Nat) (hi : i < num) :
    (segmentReduce op init x dst num)[i]? =
      some ((((dst.zip x).filter fun p => p.1 = i).map Prod.snd).foldl op init) := by
  have gen : ∀ (es : List (Nat × α)) (acc : List α) (a : α), acc[i]? = some a →
      (es.foldl (fun acc p => acc.modify p.1 (fun b => op b p.2)) acc)[i]? =
        some (((es.filter fun p => p.1 = i).map Prod.snd).foldl op a) := by
    intro es
    induction es with
    | nil => intro acc a h; simpa using h
    | cons e es ih =>
      intro acc a h
      rw [List.foldl_cons]
      by_cases he : e.1 = i
      · rw [ih _ (op a e.2)]
        · simp [he]
        · rw [List.getElem?_modify, h]; simp [he]
      · rw [ih _ a]
        · simp [he]
        · rw [List.getElem?_modify, h]; simp [he]
  exact gen _ _ _ (by simp [hi])

theorem segmentReduce_length {α : Type _} (op : α → α → α) (init : α) (x : List α) (dst : List Nat)
    (num : Nat) : (segmentReduce op init x dst num).length = num := by
  have gen : ∀ (es : List (Nat × α)) (acc : List α),
      (es.foldl (fun acc p => acc.modify p.1 (fun b => op b p.2)) acc).length = acc.length := by
    intro es
    induction es with
    | nil => simp
    | cons e es ih => intro acc; rw [List.foldl_cons, ih]; simp
  unfold segmentReduce
  rw [gen]; simp

/-- the values kept in row `i` of the dense list are the values of the edges ending in `i` -/
theorem kept_filter {α : Type _} (pad : Nat) (adj : List (List Nat)) (x : List (List α))
    (hshape : adj.map List.length = x.map List.length) (i : Nat) (hi : i < adj.length) (hix : i < x.length) :
    (((denseToSparseOne pad adj).1.zip (Spec.keptValues pad adj x)).filter fun p => p.1 = i).map Prod.snd
      = ((adj[i].zip x[i]).filter fun q => q.1 < pad).map Prod.snd := by
  have gen : ∀ (adj : List (List Nat)) (x : List (List α)) (k : Nat),
      adj.map List.length = x.map List.length → 
      (k ≤ i → ∀ (h1 : i - k < adj.length) (h2 : i - k < x.length),
      ((((((adj.map fun row => row.filter (· < pad)).zipIdx k).map
        fun p => List.replicate p.1.length p.2).flatten.zip (Spec.keptValues pad adj x)).filter
          fun p => p.1 = i).map Prod.snd
        = ((adj[i-k].zip x[i-k]).filter fun q => q.1 < pad).map Prod.snd)) ∧
      (i < k → (((((adj.map fun row => row.filter (· < pad)).zipIdx k).map
        fun p => List.replicate p.1.length p.2).flatten.zip (Spec.keptValues pad adj x)).filter
          fun p => p.1 = i).map Prod.snd = []) := by
    intro adj
    induction adj with
    | nil => intro x k hs; exact ⟨fun _ h => absurd h (by simp), fun _ => by simp⟩
    | cons r adj ih =>
      intro x k hs
      cases x with
      | nil => simp at hs
      | cons v x =>
        simp only [List.map_cons, List.cons.injEq] at hs
        obtain ⟨hrv, hs⟩ := hs
        have hk := ih x (k+1) hs
        have hlen : ((r.filter (· < pad))).length =
            (((r.zip v).filter fun q => q.1 < pad).map Prod.snd).length := by
          rw [List.length_map]
          clear hk ih
          induction r generalizing v with
          | nil => simp
          | cons a r ihr =>
            cases v with
            | nil => simp at hrv
            | cons b v =>
              have := ihr v (by simpa using hrv)
              by_cases h : a < pad <;> simp [h] at this ⊢ <;> exact this
        have e : Spec.keptValues pad (r :: adj) (v :: x) =
            ((r.zip v).filter fun q => q.1 < pad).map Prod.snd ++ Spec.keptValues pad adj x := by
          simp [Spec.keptValues]
        simp only [List.map_cons, List.zipIdx_cons, List.flatten_cons, e]
        rw [List.zip_append (by simp [← hlen]), List.filter_append, List.map_append]
        have hfirst : ∀ (n : Nat) (l : List α), n = l.length →
            (((List.replicate n k).zip l).filter fun p => decide (p.1 = i)).map Prod.snd =
              if k = i then l else [] := by
          intro n l hn
          subst hn
          induction l with
          | nil => simp
          | cons a l ihl =>
            by_cases hki : k = i
            · simp [List.replicate_succ, hki] at ihl ⊢; exact ihl
            · simp [List.replicate_succ, hki] at ihl ⊢; exact ihl
        rw [hfirst _ _ hlen]
        constructor
        · intro hki h1 h2
          by_cases hki' : k = i
          · subst hki'
            rw [hk.2 (by omega)]; simp
          · rw [if_neg hki', List.nil_append]
            have hm : i - k = (i - (k+1)) + 1 := by omega
            have h3 := hk.1 (by omega) (by simp at h1; omega) (by simp at h2; omega)
            rw [h3]
            congr 2
            simp only [hm, List.getElem_cons_succ]
        · intro hik
          rw [if_neg (by omega), hk.2 (by omega)]; simp
  have := (gen adj x 0 hshape).1 (by omega) (by simpa using hi) (by simpa using hix)
  simpa [denseToSparseOne] using this

/-- **C03 (formats agree).** For every reduction operation, reducing a dense array of per-edge values with the
mask `adj < pad` gives, node by node, the same result as the segment reduction of the converted sparse list. -/
theorem C03_dense_eq_sparse {α : Type _} (op : α → α → α) (init : α) (pad : Nat) (adj : List (List Nat))
    (x : List (List α)) (hshape : adj.map List.length = x.map List.length)
    (i : Nat) (hi : i < adj.length) :
    (denseReduce op init x (adj.map fun r => r.map fun j => decide (j < pad)))[i]? =
      (segmentReduce op init (Spec.keptValues pad adj x) (denseToSparseOne pad adj).1 adj.length)[i]? := by
  have hl : adj.length = x.length := by simpa using congrArg List.length hshape
  rw [segmentReduce_get _ _ _ _ _ _ hi, kept_filter pad adj x hshape i hi (hl ▸ hi)]
  have hix : i < x.length := hl ▸ hi
  unfold denseReduce
  rw [List.getElem?_zipWith]
  simp only [List.getElem?_map, List.getElem?_eq_getElem hi, List.getElem?_eq_getElem hix,
    Option.map_some]
  unfold maskedFold
  have hrow : adj[i].length = x[i].length := by
    have := congrArg (fun l => l[i]?) hshape
    simpa [hi, hix] using this
  have : ∀ (r : List Nat) (v : List α), r.length = v.length → ∀ init,
      ((v.zip (r.map fun j => decide (j < pad))).filter (·.2)).foldl (fun acc p => op acc p.1) init =
      (((r.zip v).filter fun q => decide (q.1 < pad)).map Prod.snd).foldl op init := by
    intro r
    induction r with
    | nil => intro v _ _; simp
    | cons a r ih =>
      intro v hv init
      cases v with
      | nil => simp at hv
      | cons b v =>
        have := ih v (by simpa using hv)
        by_cases h : a < pad <;> simp [h, this]
  rw [this _ _ hrow]

/-- **C03 (edge order).** Permuting the edges of a sparse list does not change a reduction by a commutative,
associative operation (`sum`, `min`, `max`). -/
theorem C03_edge_order {α : Type _} (op : α → α → α) [Std.Commutative op] [Std.Associative op] (init : α)
    (dst dst' : List Nat) (x x' : List α) (hp : (dst.zip x).Perm (dst'.zip x')) (num : Nat) :
    segmentReduce op init x dst num = segmentReduce op init x' dst' num := by
  apply List.ext_getElem?
  intro i
  by_cases hi : i < num
  · rw [segmentReduce_get _ _ _ _ _ _ hi, segmentReduce_get _ _ _ _ _ _ hi]
    congr 1
    apply List.Perm.foldl_eq'
    · exact (hp.filter _).map _
    · intro a _ b _ z
      rw [Std.Associative.assoc (op := op), Std.Commutative.comm (op := op) a b,
        ← Std.Associative.assoc (op := op)]
  · rw [List.getElem?_eq_none (by rw [segmentReduce_length]; omega),
      List.getElem?_eq_none (by rw [segmentReduce_length]; omega)]

/-- **C03 (padding, sparse).** Edges whose destination is not a node (`≥ num_segments`) are never seen,
wherever they occur. -/
theorem C03_sparse_padding {α : Type _} (op : α → α → α) (init : α) (dst : List Nat) (x : List α)
    (num : Nat) :
    segmentReduce op init x dst num =
      segmentReduce op init (((dst.zip x).filter fun p => p.1 < num).map Prod.snd)
        (((dst.zip x).filter fun p => p.1 < num).map Prod.fst) num := by
  apply List.ext_getElem?
  intro i
  by_cases hi : i < num
  · rw [segmentReduce_get _ _ _ _ _ _ hi, segmentReduce_get _ _ _ _ _ _ hi]
    congr 2
    rw [List.zip_map']
    simp only [Prod.mk.eta, List.map_id', List.filter_filter]
    congr 1
    apply List.filter_congr
    intro p _
    by_cases h : p.1 = i <;> simp [h, hi]
  · rw [List.getElem?_eq_none (by rw [segmentReduce_length]; omega),
      List.getElem?_eq_none (by rw [segmentReduce_length]; omega)]

/-- **C03 (padding, dense).** Masked entries are never seen: two rows with the same unmasked entries (in
order) reduce to the same value, whatever is stored at the masked positions and however many there are. -/
theorem C03_dense_padding {α : Type _} (op : α → α → α) (init : α) (x x' : List α)
    (mask mask' : List Bool)
    (h : ((x.zip mask).filter (·.2)).map Prod.fst = ((x'.zip mask').filter (·.2)).map Prod.fst) :
    maskedFold op init x mask = maskedFold op init x' mask' := by
  unfold maskedFold
  have e : ∀ l : List (α × Bool), l.foldl (fun acc p => op acc p.1) init = (l.map Prod.fst).foldl op init := by
    intro l; rw [List.foldl_map]
  rw [e, e, h]

/-- **C03 (sum).** `indexed_sum` in the sparse format: node `i` receives the sum of the values of its edges,
and zero if it has none. -/
theorem C03_segment_sum {α : Type _} [AddCommMonoid α] (x : List α) (dst : List Nat) (num i : Nat)
    (hi : i < num) :
    (segmentReduce (· + ·) 0 x dst num)[i]? =
      some (((dst.zip x).filter fun p => p.1 = i).map Prod.snd).sum := by
  rw [segmentReduce_get _ _ _ _ _ _ hi, List.sum_eq_foldl]

theorem foldl_max_spec {α : Type _} [LinearOrder α] (l : List α) (a : α) (hl : ∀ x ∈ l, a ≤ x)
    (hne : l ≠ []) : l.foldl max a ∈ l ∧ ∀ x ∈ l, x ≤ l.foldl max a := by
  have gen : ∀ (l : List α) (a : α), (l.foldl max a = a ∨ l.foldl max a ∈ l) ∧ a ≤ l.foldl max a ∧
      ∀ x ∈ l, x ≤ l.foldl max a := by
    intro l
    induction l with
    | nil => simp
    | cons b l ih =>
      intro a
      obtain ⟨h1, h2, h3⟩ := ih (max a b)
      rw [List.foldl_cons]
      refine ⟨?_, le_trans (le_max_left _ _) h2, ?_⟩
      · rcases h1 with h1 | h1
        · rcases max_choice a b with h | h
          · left; rw [h1, h]
          · right; rw [h1, h]; simp
        · right; simp [h1]
      · intro x hx
        rcases List.mem_cons.1 hx with rfl | hx
        · exact le_trans (le_max_right _ _) h2
        · exact h3 x hx
  obtain ⟨h1, h2, h3⟩ := gen l a
  refine ⟨?_, h3⟩
  rcases h1 with h1 | h1
  · obtain ⟨b, l', rfl⟩ := List.exists_cons_of_ne_nil hne
    have hb := hl b (by simp)
    have hb2 := h3 b (by simp)
    rw [h1] at hb2
    rw [h1, le_antisymm hb hb2]; simp
  · exact h1

/-- **C03 (max).** `indexed_max` of a node with at least one edge is attained by one of its edges and bounds
all of them, provided the initial value (`finfo.min` in the dense, `-inf` in the sparse format) is a lower
bound; so the two formats agree although their initial values differ. -/
theorem C03_segment_max {α : Type _} [LinearOrder α] (init : α) (x : List α) (dst : List Nat) (num i : Nat)
    (hi : i < num) (hinit : ∀ a ∈ x, init ≤ a)
    (hne : ((dst.zip x).filter fun p => p.1 = i) ≠ []) :
    ∃ m, (segmentReduce max init x dst num)[i]? = some m ∧
      (i, m) ∈ dst.zip x ∧ ∀ a, (i, a) ∈ dst.zip x → a ≤ m := by
  refine ⟨_, segmentReduce_get _ _ _ _ _ _ hi, ?_⟩
  have hmem : ∀ a, a ∈ ((dst.zip x).filter fun p => p.1 = i).map Prod.snd ↔ (i, a) ∈ dst.zip x := by
    intro a
    simp only [List.mem_map, List.mem_filter, decide_eq_true_eq]
    constructor
    · rintro ⟨⟨d, b⟩, ⟨h1, h2⟩, h3⟩
      simp only at h2 h3; subst h2; subst h3; exact h1
    · intro h; exact ⟨(i, a), ⟨h, rfl⟩, rfl⟩
  obtain ⟨h1, h2⟩ := foldl_max_spec (((dst.zip x).filter fun p => p.1 = i).map Prod.snd) init
    (by intro a ha; exact hinit a (List.of_mem_zip ((hmem a).1 ha)).2) (by simpa using hne)
  exact ⟨(hmem _).1 h1, fun a ha => h2 a ((hmem a).2 ha)⟩

/-- **C03 (min)**, dual of `C03_segment_max`. -/
theorem C03_segment_min {α : Type _} [LinearOrder α] (init : α) (x : List α) (dst : List Nat) (num i : Nat)
    (hi : i < num) (hinit : ∀ a ∈ x, a ≤ init)
    (hne : ((dst.zip x).filter fun p => p.1 = i) ≠ []) :
    ∃ m, (segmentReduce min init x dst num)[i]? = some m ∧
      (i, m) ∈ dst.zip x ∧ ∀ a, (i, a) ∈ dst.zip x → m ≤ a :=
  C03_segment_max (α := αᵒᵈ) init x dst num i hi hinit hne

/-- **C03 (formats agree, max).** With different initial values in the two formats (dense: `lo`, sparse:
`ninf`), both not larger than any value, nodes with at least one edge get the same maximum. -/
theorem C03_max_dense_eq_sparse {α : Type _} [LinearOrder α] (lo ninf : α) (pad : Nat)
    (adj : List (List Nat)) (x : List (List α)) (hshape : adj.map List.length = x.map List.length)
    (i : Nat) (hi : i < adj.length)
    (hlo : ∀ a ∈ Spec.keptValues pad adj x, lo ≤ a ∧ ninf ≤ a)
    (hne : (((denseToSparseOne pad adj).1.zip (Spec.keptValues pad adj x)).filter fun p => p.1 = i) ≠ []) :
    (denseReduce max lo x (adj.map fun r => r.map fun j => decide (j < pad)))[i]? =
      (segmentReduce max ninf (Spec.keptValues pad adj x) (denseToSparseOne pad adj).1 adj.length)[i]? := by
  rw [C03_dense_eq_sparse max lo pad adj x hshape i hi]
  obtain ⟨m, h1, h2, h3⟩ := C03_segment_max lo (Spec.keptValues pad adj x) (denseToSparseOne pad adj).1
    adj.length i hi (fun a ha => (hlo a ha).1) hne
  obtain ⟨m', h1', h2', h3'⟩ := C03_segment_max ninf (Spec.keptValues pad adj x)
    (denseToSparseOne pad adj).1 adj.length i hi (fun a ha => (hlo a ha).2) hne
  rw [h1, h1', le_antisymm (h3' m h2) (h3 m' h2')]

/-- **C03 (refutation for isolated nodes).** A node without edges gets the initial value, which differs
between the formats (dense: `finfo.min`, sparse: `-inf`), so the maxima differ whenever these differ. -/
theorem C03_isolated_node_differs {α : Type _} [LinearOrder α] (lo ninf : α) (h : lo ≠ ninf) :
    ∃ (adj : List (List Nat)) (x : List (List α)) (pad : Nat),
      (denseReduce max lo x (adj.map fun r => r.map fun j => decide (j < pad)))[0]? ≠
      (segmentReduce max ninf (Spec.keptValues pad adj x) (denseToSparseOne pad adj).1 adj.length)[0]? := by
  refine ⟨[[]], [[]], 1, ?_⟩
  simp [denseReduce, maskedFold, segmentReduce, Spec.keptValues, denseToSparseOne, h]

-- Non-vacuity (graph of docs/source/neighbor_lists.rst, one value per edge).
example : denseReduce (· + ·) (0 : Int) [[1, 9, 9], [2, 3, 4], [5, 6, 9], [7, 8, 9]]
    ([[1, 4, 4], [0, 2, 3], [1, 3, 4], [1, 2, 4]].map fun r => r.map fun j => decide (j < 4)) =
    [1, 9, 11, 15] := by decide
example : segmentReduce (· + ·) (0 : Int) [1, 2, 3, 4, 5, 6, 7, 8, 100, 100] [0, 1, 1, 1, 2, 2, 3, 3, 4, 4] 4 =
    [1, 9, 11, 15] := by decide

end E3x
