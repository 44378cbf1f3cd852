import Verif.Props.Conversion
import Verif.Props.IndexedArrays

/-!
# C02: conversions between dense and sparse index lists with batch axes

`B` are the extents of the batch axes, `b` is a multi-index of them. `Spec.denseGraph`, `Spec.sparseGraph` are the edges
of one batch entry.
-/

namespace E3x

open Spec NDArray

theorem nested3_getElem (B N M : ℕ) (d : ℕ → ℕ) (b : ℕ) (hb : b < B) :
    (nested3 ⟨[B, N, M], d⟩)[b]? = some ((List.range N).map fun i => (List.range M).map fun m => entry ⟨[B, N, M], d⟩ [b, i, m]) := by
  simp [nested3, hb]

theorem denseEdges_nested (N M pad : ℕ) (f : ℕ → ℕ → ℕ) :
    denseEdges pad ((List.range N).map fun i => (List.range M).map fun m => f i m) =
      (List.range N).flatMap fun i => (((List.range M).map fun m => f i m).filter (· < pad)).map fun j => (i, j) :=
  denseEdges_of_rows pad N _

theorem stack2_entry (l : List (List ℕ)) (P : ℕ) (hl : ∀ r ∈ l, r.length = P) (hne : l ≠ []) :
    (stack2 l).shape = [l.length, P] ∧ ∀ b p, ∀ r, l[b]? = some r → p < P → entry (stack2 l) [b, p] = r.getD p 0 := by
  have hP : (l.headD []).length = P := by
    cases l with
    | nil => exact absurd rfl hne
    | cons r l => exact hl r (by simp)
  refine ⟨by unfold stack2 NDArray.ofFn; rw [hP], ?_⟩
  intro b p r hr hp
  unfold stack2
  rw [entry_ofFn]
  · simp [hr]
  · have hb : b < l.length := (List.getElem?_eq_some_iff.1 hr).1
    exact inShape_cons.2 ⟨hb, inShape_cons.2 ⟨by rw [hP]; exact hp, inShape_nil⟩⟩

theorem range_map_getD {α : Type} (l : List α) (P : ℕ) (hl : l.length = P) (a : α) :
    (List.range P).map (fun p => l.getD p a) = l := by
  apply List.ext_getElem
  · simp [hl]
  · intro i h1 h2; simp [h2]

theorem range_map_zip (d s : List ℕ) (P : ℕ) (hd : d.length = P) (hs : s.length = P) :
    (List.range P).map (fun p => (d.getD p 0, s.getD p 0)) = d.zip s := by
  apply List.ext_getElem
  · simp [hd, hs]
  · intro i h1 h2
    have hi : i < P := by simpa using h1
    simp [hd, hs, hi]

/-- **C02 (dense → sparse, any rank).** With a padding value that is no destination (`N ≤ pad`), every batch entry of
the result of `dense_to_sparse_indices` has exactly the edges of the same batch entry of the dense list, in the same
order; the remaining positions hold `(pad, pad)`, and there are no more positions than the largest batch entry needs. -/
theorem C02_dense_to_sparse_nd (adj : NDArray ℕ) (pad : ℕ) (B : List ℕ) (N M : ℕ) (ha : adj.shape = B ++ [N, M])
    (hpad : N ≤ pad) :
    ∃ dst src P, denseToSparseND adj (some pad) = .ok (dst, src) ∧ dst.shape = B ++ [P] ∧ src.shape = B ++ [P] ∧
      (P = 0 ∨ ∃ b, InShape b B ∧ (denseGraph adj pad N M b).length = P) ∧
      ∀ b, InShape b B → sparseGraph dst src N P b = denseGraph adj pad N M b ∧
        ∀ p < P, entry dst (b ++ [p]) < N ∨ (entry dst (b ++ [p]) = pad ∧ entry src (b ++ [p]) = pad) := by
  have hnd : adj.ndim = B.length + 2 := by unfold NDArray.ndim; rw [ha]; simp
  have h2 : adj.ndim - 2 = B.length := by omega
  unfold denseToSparseND
  rw [if_neg (by omega)]
  by_cases h0 : adj.shape.prod = 0
  · rw [if_pos h0]
    refine ⟨_, _, 0, rfl, by rw [h2, ha, List.take_left' rfl], by rw [h2, ha, List.take_left' rfl], .inl rfl, ?_⟩
    intro b hb
    refine ⟨?_, fun p hp => absurd hp (by omega)⟩
    have hB : B.prod ≠ 0 := by have := ravel_lt hb; omega
    rw [ha, List.prod_append] at h0
    have hNM : N * M = 0 := by
      rcases Nat.mul_eq_zero.1 h0 with h | h
      · exact absurd h hB
      · simpa using h
    unfold sparseGraph denseGraph
    rcases Nat.mul_eq_zero.1 hNM with rfl | rfl <;> simp
  · rw [if_neg h0, h2, ha, List.drop_left' rfl, List.take_left' rfl]
    have hNM : [N, M].prod ≠ 0 := fun h => h0 (by rw [ha, List.prod_append, h, Nat.mul_zero])
    have hBp : B.prod ≠ 0 := fun h => h0 (by rw [ha, List.prod_append, h, Nat.zero_mul])
    have hflat : adj.reshapeHead [N, M] = .ok ⟨B.prod :: [N, M], adj.data⟩ := by
      rw [ndarray_eta adj _ ha]; exact reshapeHead_append B [N, M] _ hNM
    rw [hflat]
    simp only [bind, Except.bind]
    set nest := nested3 ⟨[B.prod, N, M], adj.data⟩ with hnest
    have hlen : nest.length = B.prod := by simp [hnest, nested3]
    have hne : nest.flatten.flatten ≠ [] := by
      obtain ⟨hN, hM⟩ : N ≠ 0 ∧ M ≠ 0 := by
        constructor <;> rintro rfl <;> simp at hNM
      intro h
      rw [List.flatten_eq_nil_iff] at h
      have h1 := h ((List.range M).map fun m => entry ⟨[B.prod, N, M], adj.data⟩ [0, 0, m]) (by
        rw [List.mem_flatten]
        refine ⟨_, List.mem_of_getElem? (nested3_getElem B.prod N M adj.data 0 (by omega)), ?_⟩
        exact List.mem_map.2 ⟨0, List.mem_range.2 (by omega), rfl⟩)
      simp [hM] at h1
    obtain ⟨P, l1, l2, ⟨a₀, ha₀, hP₀⟩, hb⟩ := C02_dense_to_sparse nest pad hne
    set D := (denseToSparse nest (some pad)).1
    set S := (denseToSparse nest (some pad)).2
    have hDl : ∀ r ∈ D, r.length = P := by
      intro r hr
      obtain ⟨k, hk, rfl⟩ := List.mem_iff_getElem.1 hr
      obtain ⟨d, s, e1, _, e3, _⟩ := hb k (by omega)
      rw [List.getElem?_eq_getElem hk] at e1
      rw [Option.some.inj e1]; exact e3
    have hSl : ∀ r ∈ S, r.length = P := by
      intro r hr
      obtain ⟨k, hk, rfl⟩ := List.mem_iff_getElem.1 hr
      obtain ⟨d, s, _, e2, _, e4, _⟩ := hb k (by omega)
      rw [List.getElem?_eq_getElem hk] at e2
      rw [Option.some.inj e2]; exact e4
    have hDne : D ≠ [] := by intro h; rw [h] at l1; simp at l1; omega
    have hSne : S ≠ [] := by intro h; rw [h] at l2; simp at l2; omega
    obtain ⟨d1, d2⟩ := stack2_entry D P hDl hDne
    obtain ⟨s1, s2⟩ := stack2_entry S P hSl hSne
    have hrd : NDArray.reshape (stack2 D) (B ++ [(stack2 D).shape.getD 1 0]) = .ok ⟨B ++ [P], (stack2 D).data⟩ := by
      unfold NDArray.reshape
      rw [d1, l1, hlen]
      simp
    have hrs : NDArray.reshape (stack2 S) (B ++ [(stack2 S).shape.getD 1 0]) = .ok ⟨B ++ [P], (stack2 S).data⟩ := by
      unfold NDArray.reshape
      rw [s1, l2, hlen]
      simp
    have hgraph : ∀ b, InShape b B → ∀ h : ravel B b < nest.length,
        denseEdges pad (nest[ravel B b]'h) = denseGraph adj pad N M b := by
      intro b hbB h
      have hr := ravel_lt hbB
      have hn := nested3_getElem B.prod N M adj.data (ravel B b) hr
      rw [← hnest, List.getElem?_eq_getElem (by omega)] at hn
      rw [Option.some.inj hn, denseEdges_nested]
      unfold denseGraph
      congr 1
      funext i
      congr 2
      apply List.map_congr_left
      intro m _
      rw [ndarray_eta adj _ ha, entry_merge B [N, M] adj.data hbB.length B.prod]
    have hmax : ∃ b, InShape b B ∧ (denseGraph adj pad N M b).length = P := by
      obtain ⟨k, hk, rfl⟩ := List.mem_iff_getElem.1 ha₀
      obtain ⟨b, hbB, rfl⟩ := exists_ravel B k (by omega)
      exact ⟨b, hbB, by rw [← hgraph b hbB hk, hP₀]⟩
    rw [hrd, hrs]
    refine ⟨_, _, P, rfl, rfl, rfl, .inr hmax, ?_⟩
    intro b hbB
    have hr := ravel_lt hbB
    obtain ⟨d, s, e1, e2, e3, e4, e5⟩ := hb (ravel B b) (by omega)
    have hd : ∀ p < P, entry ⟨B ++ [P], (stack2 D).data⟩ (b ++ [p]) = d.getD p 0 := by
      intro p hp
      rw [entry_merge B [P] (stack2 D).data hbB.length B.prod,
        show (⟨B.prod :: [P], (stack2 D).data⟩ : NDArray ℕ) = stack2 D from (ndarray_eta (stack2 D) _ (by rw [d1, l1, hlen])).symm]
      exact d2 _ p d e1 hp
    have hs : ∀ p < P, entry ⟨B ++ [P], (stack2 S).data⟩ (b ++ [p]) = s.getD p 0 := by
      intro p hp
      rw [entry_merge B [P] (stack2 S).data hbB.length B.prod,
        show (⟨B.prod :: [P], (stack2 S).data⟩ : NDArray ℕ) = stack2 S from (ndarray_eta (stack2 S) _ (by rw [s1, l2, hlen])).symm]
      exact s2 _ p s e2 hp
    have hgraph := hgraph b hbB (by omega)
    have hpairs : (List.range P).map (fun p => (entry ⟨B ++ [P], (stack2 D).data⟩ (b ++ [p]),
        entry ⟨B ++ [P], (stack2 S).data⟩ (b ++ [p]))) = d.zip s := by
      rw [← range_map_zip d s P e3 e4]
      apply List.map_congr_left
      intro p hp
      rw [hd p (List.mem_range.1 hp), hs p (List.mem_range.1 hp)]
    have hlt : ∀ e ∈ denseGraph adj pad N M b, e.1 < N := by
      intro e he
      unfold denseGraph at he
      simp only [List.mem_flatMap, List.mem_map] at he
      obtain ⟨i, hi, _, _, rfl⟩ := he
      exact List.mem_range.1 hi
    constructor
    · unfold sparseGraph
      rw [hpairs, e5, hgraph, List.filter_append]
      have h1 : (denseGraph adj pad N M b).filter (fun e => decide (e.1 < N)) = denseGraph adj pad N M b := by
        rw [List.filter_eq_self]
        intro e he
        simpa using hlt e he
      have h2 : ∀ k, (List.replicate k (pad, pad)).filter (fun e : ℕ × ℕ => decide (e.1 < N)) = [] := by
        intro k
        rw [List.filter_eq_nil_iff]
        intro e he
        rw [(List.mem_replicate.1 he).2]
        simpa using hpad
      rw [h1, h2, List.append_nil]
    · intro p hp
      have hmem : (entry ⟨B ++ [P], (stack2 D).data⟩ (b ++ [p]), entry ⟨B ++ [P], (stack2 S).data⟩ (b ++ [p])) ∈ d.zip s := by
        rw [← hpairs]
        exact List.mem_map.2 ⟨p, List.mem_range.2 hp, rfl⟩
      rw [e5, hgraph, List.mem_append] at hmem
      rcases hmem with h | h
      · exact .inl (hlt _ h)
      · have := (List.mem_replicate.1 h).2
        simp only [Prod.mk.injEq] at this
        exact .inr this

theorem stack3_entry (l : List (List (List ℕ))) (N M : ℕ) (hl : ∀ a ∈ l, a.length = N ∧ ∀ r ∈ a, r.length = M) (hne : l ≠ [])
    (hN : N ≠ 0) :
    (stack3 l).shape = [l.length, N, M] ∧ ∀ b i m a r, l[b]? = some a → a[i]? = some r → m < M →
      entry (stack3 l) [b, i, m] = r.getD m 0 := by
  have hN' : (l.headD []).length = N := by
    cases l with
    | nil => exact absurd rfl hne
    | cons r l => exact (hl r (by simp)).1
  have hM' : ((l.headD []).headD []).length = M := by
    cases l with
    | nil => exact absurd rfl hne
    | cons a l =>
      have h := hl a (by simp)
      cases a with
      | nil => exact absurd h.1.symm hN
      | cons r a => exact h.2 r (by simp)
  refine ⟨by unfold stack3 NDArray.ofFn; rw [hN', hM'], ?_⟩
  intro b i m a r ha hr hm
  unfold stack3
  rw [entry_ofFn]
  · simp [ha, hr]
  · have hb : b < l.length := (List.getElem?_eq_some_iff.1 ha).1
    have hi : i < a.length := (List.getElem?_eq_some_iff.1 hr).1
    rw [(hl a (List.mem_of_getElem? ha)).1, ← hN'] at hi
    exact inShape_cons.2 ⟨hb, inShape_cons.2 ⟨hi, inShape_cons.2 ⟨by rw [hM']; exact hm, inShape_nil⟩⟩⟩

/-- **C02 (sparse → dense, any rank).** Batch entry by batch entry, row `i` of the result of `sparse_to_dense_indices`
consists of the sources of the edges that end in `i`, in order, followed only by padding. -/
theorem C02_sparse_to_dense_nd (dst src : NDArray ℕ) (pad : ℕ) (B : List ℕ) (P : ℕ) (hd : dst.shape = B ++ [P])
    (hs : src.shape = B ++ [P]) (hpad : 0 < pad) (hsize : dst.shape.prod ≠ 0) :
    ∃ adj M, sparseToDenseND dst src (some pad) = .ok adj ∧ adj.shape = B ++ [pad, M] ∧
      ∀ b, InShape b B → ∀ i < pad,
        (List.range M).map (fun m => entry adj (b ++ [i, m])) =
          sourcesAt ((List.range P).map fun p => (entry dst (b ++ [p]), entry src (b ++ [p]))) i ++
            List.replicate (M - (sourcesAt ((List.range P).map fun p => (entry dst (b ++ [p]), entry src (b ++ [p]))) i).length)
              pad := by
  have hnd : dst.ndim = B.length + 1 := by unfold NDArray.ndim; rw [hd]; simp
  have hns : src.ndim = B.length + 1 := by unfold NDArray.ndim; rw [hs]; simp
  have h1 : dst.ndim - 1 = B.length := by omega
  have h1' : src.ndim - 1 = B.length := by omega
  have hBP : B.prod * P ≠ 0 := by rw [hd] at hsize; simpa using hsize
  have hB0 : B.prod ≠ 0 := fun h => hBP (by rw [h, Nat.zero_mul])
  have hP0 : P ≠ 0 := fun h => hBP (by rw [h, Nat.mul_zero])
  unfold sparseToDenseND
  rw [if_neg (by rw [hd, hs]; simp), if_neg hsize, if_neg (by omega), h1, h1', hd, hs, List.drop_left' rfl,
    List.take_left' rfl]
  have hfd : dst.reshapeHead [P] = .ok ⟨B.prod :: [P], dst.data⟩ := by
    rw [ndarray_eta dst _ hd]; exact reshapeHead_append B [P] _ (by simpa using hP0)
  have hfs : src.reshapeHead [P] = .ok ⟨B.prod :: [P], src.data⟩ := by
    rw [ndarray_eta src _ hs]; exact reshapeHead_append B [P] _ (by simpa using hP0)
  rw [hfd, hfs]
  simp only [bind, Except.bind]
  set D := nested2 ⟨[B.prod, P], dst.data⟩ with hD
  set S := nested2 ⟨[B.prod, P], src.data⟩ with hS
  have hDl : D.length = B.prod := by simp [hD, nested2]
  have hSl : S.length = B.prod := by simp [hS, nested2]
  have hDb : ∀ k (h : k < D.length), D[k] = (List.range P).map fun p => entry ⟨[B.prod, P], dst.data⟩ [k, p] := by
    intro k h; simp [hD, nested2]
  have hSb : ∀ k (h : k < S.length), S[k] = (List.range P).map fun p => entry ⟨[B.prod, P], src.data⟩ [k, p] := by
    intro k h; simp [hS, nested2]
  have hshape : D.map List.length = S.map List.length := by
    simp [hD, hS, nested2]
  have hne : D.flatten ≠ [] := by
    intro h
    rw [List.flatten_eq_nil_iff] at h
    have := h D[0] (List.getElem_mem (by omega))
    rw [hDb 0 (by omega)] at this
    simp [hP0] at this
  obtain ⟨A, M, e1, e2, -, e3⟩ := C02_sparse_to_dense D S pad hpad hshape hne
  rw [e1]
  simp only
  have hAl : ∀ a ∈ A, a.length = pad ∧ ∀ r ∈ a, r.length = M := by
    intro a ha
    obtain ⟨k, hk, rfl⟩ := List.mem_iff_getElem.1 ha
    obtain ⟨a, g1, g2, g3⟩ := e3 k (by omega) (by omega)
    rw [List.getElem?_eq_getElem hk] at g1
    rw [Option.some.inj g1]
    refine ⟨g2, ?_⟩
    intro r hr
    obtain ⟨i, hi, rfl⟩ := List.mem_iff_getElem.1 hr
    obtain ⟨row, f1, f2, _⟩ := g3 i (by omega)
    rw [List.getElem?_eq_getElem hi] at f1
    rw [Option.some.inj f1]; exact f2
  have hAne : A ≠ [] := by intro h; rw [h] at e2; simp at e2; omega
  obtain ⟨t1, t2⟩ := stack3_entry A pad M hAl hAne (by omega)
  have hres : NDArray.reshape (stack3 A) (B ++ [(stack3 A).shape.getD 1 0, (stack3 A).shape.getD 2 0]) =
      .ok ⟨B ++ [pad, M], (stack3 A).data⟩ := by
    unfold NDArray.reshape
    rw [t1, e2, hDl]
    simp
  rw [hres]
  refine ⟨_, M, rfl, rfl, ?_⟩
  intro b hb i hi
  have hr := ravel_lt hb
  obtain ⟨a, g1, g2, g3⟩ := e3 (ravel B b) (by omega) (by omega)
  obtain ⟨row, f1, f2, f3⟩ := g3 i hi
  have hrow : (List.range M).map (fun m => entry ⟨B ++ [pad, M], (stack3 A).data⟩ (b ++ [i, m])) = row := by
    rw [← range_map_getD row M f2 0]
    apply List.map_congr_left
    intro m hm
    rw [entry_merge B [pad, M] (stack3 A).data hb.length B.prod,
      show (⟨B.prod :: [pad, M], (stack3 A).data⟩ : NDArray ℕ) = stack3 A from
        (ndarray_eta (stack3 A) _ (by rw [t1, e2, hDl])).symm,
      t2 _ _ _ a row g1 f1 (List.mem_range.1 hm)]
  rw [hrow, f3]
  have hpairs : (D[ravel B b]'(by omega)).zip (S[ravel B b]'(by omega)) =
      (List.range P).map fun p => (entry dst (b ++ [p]), entry src (b ++ [p])) := by
    rw [hDb, hSb, List.zip_map']
    apply List.map_congr_left
    intro p _
    rw [ndarray_eta dst _ hd, ndarray_eta src _ hs, entry_merge B [P] dst.data hb.length B.prod,
      entry_merge B [P] src.data hb.length B.prod]
  rw [hpairs]

/-- **C02 (sparse → dense, as a graph).** If the sources of all edges with a destination below `pad` are below `pad`,
every batch entry of the dense list has exactly the edges of the same batch entry of the sparse list. -/
theorem C02_sparse_to_dense_graph_nd (dst src : NDArray ℕ) (pad : ℕ) (B : List ℕ) (P : ℕ) (hd : dst.shape = B ++ [P])
    (hs : src.shape = B ++ [P]) (hpad : 0 < pad) (hsize : dst.shape.prod ≠ 0)
    (hsrc : ∀ b, InShape b B → ∀ p < P, entry dst (b ++ [p]) < pad → entry src (b ++ [p]) < pad) :
    ∃ adj M, sparseToDenseND dst src (some pad) = .ok adj ∧ adj.shape = B ++ [pad, M] ∧
      ∀ b, InShape b B → (denseGraph adj pad pad M b).Perm (sparseGraph dst src pad P b) := by
  obtain ⟨adj, M, h1, h2, h3⟩ := C02_sparse_to_dense_nd dst src pad B P hd hs hpad hsize
  refine ⟨adj, M, h1, h2, ?_⟩
  intro b hb
  unfold denseGraph sparseGraph
  set es := (List.range P).map fun p => (entry dst (b ++ [p]), entry src (b ++ [p])) with hes
  refine List.Perm.trans (List.Perm.of_eq ?_) (flatMap_filter_perm pad es Prod.fst)
  rw [List.flatMap_def, List.flatMap_def]
  congr 1
  apply List.map_congr_left
  intro i hi
  have hi := List.mem_range.1 hi
  rw [h3 b hb i hi, List.filter_append]
  have hrep : ∀ k, (List.replicate k pad).filter (fun j => decide (j < pad)) = [] := by
    intro k; rw [List.filter_eq_nil_iff]; intro j hj; rw [(List.mem_replicate.1 hj).2]; simp
  rw [hrep, List.append_nil]
  unfold sourcesAt
  have hall : ((es.filter fun e => decide (e.1 = i)).map Prod.snd).filter (fun j => decide (j < pad)) =
      (es.filter fun e => decide (e.1 = i)).map Prod.snd := by
    rw [List.filter_eq_self]
    intro j hj
    obtain ⟨e, he, rfl⟩ := List.mem_map.1 hj
    obtain ⟨he1, he2⟩ := List.mem_filter.1 he
    obtain ⟨p, hp, rfl⟩ := List.mem_map.1 he1
    simp only [decide_eq_true_eq] at he2 ⊢
    exact hsrc b hb p (List.mem_range.1 hp) (by omega)
  rw [hall, List.map_map]
  conv_rhs => rw [← List.map_id (es.filter fun e => decide (e.1 = i))]
  apply List.map_congr_left
  intro e he
  have := (List.mem_filter.1 he).2
  simp only [decide_eq_true_eq] at this
  simp [← this]

/-- The sources of the edges of a dense list that end in `i`. -/
theorem sourcesAt_denseGraph (adj : NDArray ℕ) (pad N M : ℕ) (b : List ℕ) (i : ℕ) :
    sourcesAt (denseGraph adj pad N M b) i =
      if i < N then ((List.range M).map fun m => entry adj (b ++ [i, m])).filter (· < pad) else [] := by
  unfold sourcesAt denseGraph
  rw [← denseEdges_nested, denseEdges_filter]
  by_cases h : i < N
  · simp [h]
  · simp [h]

/-- **C02 (round trip, any rank).** A dense list with at least one edge and a padding value that is no destination
survives the conversion to sparse and back: row `i` of every batch entry holds the neighbours of node `i` in their
original order followed by padding only; rows after the original ones hold only padding. -/
theorem C02_round_trip_nd (adj : NDArray ℕ) (pad : ℕ) (B : List ℕ) (N M : ℕ) (ha : adj.shape = B ++ [N, M])
    (hpad : N ≤ pad) (hpos : 0 < pad) (hedge : ∃ b, InShape b B ∧ denseGraph adj pad N M b ≠ []) :
    ∃ dst src adj' M', denseToSparseND adj (some pad) = .ok (dst, src) ∧
      sparseToDenseND dst src (some pad) = .ok adj' ∧ adj'.shape = B ++ [pad, M'] ∧
      ∀ b, InShape b B →
        (∀ i < N, ∃ k, (List.range M').map (fun m => entry adj' (b ++ [i, m])) =
          ((List.range M).map fun m => entry adj (b ++ [i, m])).filter (· < pad) ++ List.replicate k pad) ∧
        ∀ i, N ≤ i → i < pad → ∀ m < M', entry adj' (b ++ [i, m]) = pad := by
  obtain ⟨dst, src, P, h1, h2, h3, h4, h5⟩ := C02_dense_to_sparse_nd adj pad B N M ha hpad
  obtain ⟨b₀, hb₀, hne₀⟩ := hedge
  have hB0 : B.prod ≠ 0 := by have := ravel_lt hb₀; omega
  have hP : P ≠ 0 := by
    rintro rfl
    apply hne₀
    rw [← (h5 b₀ hb₀).1]
    rfl
  obtain ⟨adj', M', g1, g2, g3⟩ := C02_sparse_to_dense_nd dst src pad B P h2 h3 hpos (by rw [h2]; simp [hB0, hP])
  refine ⟨dst, src, adj', M', h1, g1, g2, ?_⟩
  intro b hb
  obtain ⟨e1, e2⟩ := h5 b hb
  have key : ∀ i < pad, sourcesAt ((List.range P).map fun p => (entry dst (b ++ [p]), entry src (b ++ [p]))) i =
      if i < N then ((List.range M).map fun m => entry adj (b ++ [i, m])).filter (· < pad) else [] := by
    intro i hi
    rw [← sourcesAt_denseGraph, ← e1]
    unfold sourcesAt sparseGraph
    rw [List.filter_filter]
    congr 1
    apply List.filter_congr
    intro e he
    obtain ⟨p, hp, rfl⟩ := List.mem_map.1 he
    rcases e2 p (List.mem_range.1 hp) with h | h
    · simp [h]
    · simp only [h.1]
      have : pad ≠ i := by omega
      simp [this]
  constructor
  · intro i hi
    have h := g3 b hb i (by omega)
    rw [key i (by omega), if_pos hi] at h
    exact ⟨_, h⟩
  · intro i hi hip m hm
    have h := g3 b hb i hip
    rw [key i hip, if_neg (by omega)] at h
    simp only [List.nil_append, List.length_nil, Nat.sub_zero] at h
    have := congrArg (fun l => l[m]?) h
    simpa [hm] using this

/-- **C02 and C03 together.** Converting a dense list to a sparse one and summing the gathered values of the neighbours
there gives the sums of the dense format, for every batch entry, node and feature. -/
theorem C03_sum_after_conversion {α : Type} [LinearOrder α] [AddCommMonoid α] (dt : Dtype α)
    (hdt : dt.isInteger || dt.isFloating) (x : NDArray α) (adj : NDArray ℕ) (mask : NDArray Bool) (B rest : List ℕ)
    (N M : ℕ) (hx : x.shape = B ++ N :: rest) (ha : adj.shape = B ++ [N, M]) (hm : mask.shape = B ++ [N, M])
    (hrest : rest.prod ≠ 0)
    (hmask : ∀ b i m, InShape b B → i < N → m < M → entry mask (b ++ [i, m]) = decide (entry adj (b ++ [i, m]) < N))
    (hedge : ∃ b, InShape b B ∧ denseGraph adj N N M b ≠ []) :
    ∃ dst src g g' r r', denseToSparseND adj (some N) = .ok (dst, src) ∧
      gatherSrcND x (some adj) none = .ok g ∧ gatherSrcND x none (some src) = .ok g' ∧
      indexedSumND dt g false (some adj) (some mask) none none = .ok r ∧
      indexedSumND dt g' false none none (some dst) (some N) = .ok r' ∧
      r.shape = B ++ [N] ++ rest ∧ r'.shape = r.shape ∧
      ∀ b i t, InShape b B → i < N → InShape t rest →
        entry r (b ++ [i] ++ t) = (neighbourValues x (denseGraph adj N N M b) b i t).sum ∧
        entry r' (b ++ [i] ++ t) = entry r (b ++ [i] ++ t) := by
  obtain ⟨dst, src, P, h1, h2, h3, h4, h5⟩ := C02_dense_to_sparse_nd adj N B N M ha le_rfl
  obtain ⟨b₀, hb₀, hne₀⟩ := hedge
  have hNM : N ≠ 0 ∧ M ≠ 0 := by
    constructor <;> rintro rfl <;> exact hne₀ (by simp [denseGraph])
  have hP : P ≠ 0 := by
    rintro rfl
    apply hne₀
    rw [← (h5 b₀ hb₀).1]
    rfl
  obtain ⟨g, g', r, r', h⟩ := C03_formats_sum dt hdt x adj dst src mask B rest N N M P hNM.1 hx ha hm h2 h3
    (.inr ⟨hrest, Nat.mul_ne_zero hNM.1 hNM.2, hP⟩) hmask (fun b hb => .of_eq (h5 b hb).1.symm)
  exact ⟨dst, src, g, g', r, r', h1, h⟩

/-- **C02 (finding).** A sparse list without entries becomes a dense list without rows, whatever padding value (number of
nodes) is given: an edgeless graph of `n` nodes does not come back as `n` rows of padding. -/
theorem C02_no_edges_no_rows (dst src : NDArray ℕ) (pad : Option ℕ) (B : List ℕ) (hd : dst.shape = B ++ [0])
    (hs : src.shape = B ++ [0]) :
    ∃ adj, sparseToDenseND dst src pad = .ok adj ∧ adj.shape = B ++ [0, 0] := by
  have hnd : dst.ndim - 1 = B.length := by unfold NDArray.ndim; rw [hd]; simp
  unfold sparseToDenseND
  rw [if_neg (by rw [hd, hs]; simp), if_pos (by rw [hd]; simp), hnd, hd, List.take_left' rfl]
  exact ⟨_, rfl, rfl⟩

/-- **C02 (errors, any rank).** -/
theorem C02_conversions_reject (adj dst src : NDArray ℕ) (pad : Option ℕ) :
    (adj.shape.length < 2 → denseToSparseND adj pad = .error .valueError) ∧
    (dst.shape ≠ src.shape → sparseToDenseND dst src pad = .error .valueError) ∧
    (dst.shape = [] → src.shape = [] → sparseToDenseND dst src pad = .error .indexError) := by
  refine ⟨?_, ?_, ?_⟩
  · intro h; unfold denseToSparseND NDArray.ndim; rw [if_pos h]
  · intro h; unfold sparseToDenseND; rw [if_pos h]
  · intro h1 h2; unfold sparseToDenseND NDArray.ndim; rw [if_neg (by simp [h1, h2]), if_neg (by simp [h1]), if_pos (by simp [h1])]

-- Non-vacuity: a batch of two graphs with two nodes; the second graph has one edge only.
example : ∃ dst src, denseToSparseND ⟨[2, 2, 1], fun k => [1, 0, 1, 2].getD k 0⟩ (some 2) = .ok (dst, src) ∧
    dst.shape = [2, 2] ∧ (List.range 4).map dst.data = [0, 1, 0, 2] ∧ (List.range 4).map src.data = [1, 0, 1, 2] := by
  refine ⟨_, _, rfl, rfl, ?_, ?_⟩ <;> decide

example : denseGraph ⟨[2, 2, 1], fun k => [1, 0, 1, 2].getD k 0⟩ 2 2 1 [1] = [(0, 1)] := by decide

end E3x
