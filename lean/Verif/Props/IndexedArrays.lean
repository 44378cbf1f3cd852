import Verif.Lemmas.IndexedReduce
import Verif.Props.Reduce
import Mathlib.Order.Bounds.Basic
import Mathlib.Analysis.SpecialFunctions.Exp

/-!
# C54, C03, C04: gather, reduce and softmax on arrays of any rank

Shapes are written as batch axes `B`, then the axis of nodes or the axes of edges, then feature axes `rest`; `b`, `t` are
multi-indices of the batch and feature axes. With batch axes the code reshapes with an extent `-1`, so the theorems ask
for feature and edge axes of non-zero extent in that case.
-/

namespace E3x

open Spec NDArray

variable {α : Type}

/-! ## Gathering -/

/-- **C54 (sources, dense).** `gather_src(inputs, adj_idx=adj)[b, i, m, t]` is `inputs[b, adj[b, i, m], t]`, for every
batch, row, column and feature; an index beyond the last node (padding) reads the last node. -/
theorem C54_gather_src_dense (inputs : NDArray α) (adj : NDArray ℕ) (B rest : List ℕ) (n N M : ℕ)
    (hi : inputs.shape = B ++ n :: rest) (ha : adj.shape = B ++ [N, M]) (hn : n ≠ 0)
    (hsize : B = [] ∨ (rest.prod ≠ 0 ∧ N * M ≠ 0)) :
    ∃ r, gatherSrcND inputs (some adj) none = .ok r ∧ r.shape = B ++ [N, M] ++ rest ∧
      ∀ b i m t, InShape b B → i < N → m < M → InShape t rest →
        (entry adj (b ++ [i, m]) < n → entry r (b ++ [i, m] ++ t) = entry inputs (b ++ [entry adj (b ++ [i, m])] ++ t)) ∧
        (n ≤ entry adj (b ++ [i, m]) → entry r (b ++ [i, m] ++ t) = entry inputs (b ++ [n - 1] ++ t)) := by
  obtain ⟨r, h1, h2, h3⟩ := gatherDense_ok inputs adj B rest n N M hi ha hn hsize
  refine ⟨r, h1, by rw [h2, List.append_assoc], ?_⟩
  intro b i m t hb hii hm ht
  have := h3 b [i, m] t hb (inShape_cons.2 ⟨hii, inShape_cons.2 ⟨hm, inShape_nil⟩⟩) ht
  rw [List.append_assoc, this]
  constructor
  · intro h; rw [min_eq_left (by omega)]; simp
  · intro h; rw [min_eq_right (by omega)]; simp

/-- **C54 (sources, sparse).** `gather_src(inputs, src_idx=src)[b, p, t]` is `inputs[b, src[b, p], t]`. -/
theorem C54_gather_src_sparse (inputs : NDArray α) (src : NDArray ℕ) (B rest : List ℕ) (n P : ℕ)
    (hi : inputs.shape = B ++ n :: rest) (hs : src.shape = B ++ [P]) (hn : n ≠ 0)
    (hsize : B = [] ∨ (rest.prod ≠ 0 ∧ P ≠ 0)) :
    ∃ r, gatherSrcND inputs none (some src) = .ok r ∧ r.shape = B ++ [P] ++ rest ∧
      ∀ b p t, InShape b B → p < P → InShape t rest →
        (entry src (b ++ [p]) < n → entry r (b ++ [p] ++ t) = entry inputs (b ++ [entry src (b ++ [p])] ++ t)) ∧
        (n ≤ entry src (b ++ [p]) → entry r (b ++ [p] ++ t) = entry inputs (b ++ [n - 1] ++ t)) := by
  obtain ⟨r, h1, h2, h3⟩ := gatherSparse_ok inputs src B rest n P hi hs hn hsize
  refine ⟨r, h1, by rw [h2, List.append_assoc], ?_⟩
  intro b p t hb hp ht
  have := h3 b [p] t hb (inShape_cons.2 ⟨hp, inShape_nil⟩) ht
  rw [List.append_assoc, this]
  constructor
  · intro h; rw [min_eq_left (by omega)]; simp
  · intro h; rw [min_eq_right (by omega)]; simp

/-- **C54 (destinations, sparse).** `gather_dst(inputs, dst_idx=dst)[b, p, t]` is `inputs[b, dst[b, p], t]`. -/
theorem C54_gather_dst_sparse (inputs : NDArray α) (dst : NDArray ℕ) (B rest : List ℕ) (n P : ℕ)
    (hi : inputs.shape = B ++ n :: rest) (hs : dst.shape = B ++ [P]) (hn : n ≠ 0)
    (hsize : B = [] ∨ (rest.prod ≠ 0 ∧ P ≠ 0)) :
    ∃ r, gatherDstND inputs none (some dst) = .ok r ∧ r.shape = B ++ [P] ++ rest ∧
      ∀ b p t, InShape b B → p < P → InShape t rest →
        (entry dst (b ++ [p]) < n → entry r (b ++ [p] ++ t) = entry inputs (b ++ [entry dst (b ++ [p])] ++ t)) ∧
        (n ≤ entry dst (b ++ [p]) → entry r (b ++ [p] ++ t) = entry inputs (b ++ [n - 1] ++ t)) :=
  C54_gather_src_sparse inputs dst B rest n P hi hs hn hsize

/-- **C54 (destinations, dense).** `gather_dst(inputs, adj_idx=adj)` inserts a column axis of extent one, so it broadcasts
to one value per column of each row: its entry `[b, i, 0, t]` is `inputs[b, i, t]`. -/
theorem C54_gather_dst_dense (inputs : NDArray α) (adj : NDArray ℕ) (B rest : List ℕ) (n N M : ℕ)
    (hi : inputs.shape = B ++ n :: rest) (ha : adj.shape = B ++ [N, M]) :
    ∃ r, gatherDstND inputs (some adj) none = .ok r ∧ r.shape = B ++ [n, 1] ++ rest ∧
      ∀ b i t, InShape b B → i < n → InShape t rest → entry r (b ++ [i, 0] ++ t) = entry inputs (b ++ [i] ++ t) := by
  have hnd : adj.ndim = B.length + 2 := by unfold NDArray.ndim; rw [ha]; simp
  have hni : inputs.ndim = B.length + (rest.length + 1) := by unfold NDArray.ndim; rw [hi]; simp
  have hax : adj.ndim - 1 = (B ++ [n]).length := by rw [hnd]; simp
  have hi' : inputs.shape = (B ++ [n]) ++ rest := by rw [hi]; simp
  refine ⟨⟨B ++ [n, 1] ++ rest, inputs.data⟩, ?_, rfl, ?_⟩
  · show NDArray.expandDims inputs (adj.ndim - 1) = _
    unfold NDArray.expandDims
    rw [if_pos (by omega), hax, hi', List.take_left' rfl, List.drop_left' rfl]
    simp
  · intro b i t hb hii ht
    have hbi : (b ++ [i]).length = (B ++ [n]).length := by simp [hb.length]
    rw [ndarray_eta inputs _ hi', entry_merge (B ++ [n]) rest inputs.data hbi 0]
    have e : (⟨B ++ [n, 1] ++ rest, inputs.data⟩ : NDArray α) = ⟨(B ++ [n]) ++ 1 :: rest, inputs.data⟩ := by simp
    rw [e, show b ++ [i, 0] ++ t = (b ++ [i]) ++ 0 :: t by simp, entry_merge (B ++ [n]) (1 :: rest) inputs.data hbi 0]
    unfold entry
    simp [ravel]

/-- **C54 (validation, dense).** `gather_src` with a dense index list rejects every pair of shapes that is not of the
documented form with a `ValueError`. -/
theorem C54_gather_src_dense_rejects (inputs : NDArray α) (adj : NDArray ℕ)
    (h : ¬ ∃ B rest n N M, inputs.shape = B ++ n :: rest ∧ adj.shape = B ++ [N, M]) :
    gatherSrcND inputs (some adj) none = .error .valueError := by
  show gatherDenseND inputs adj = _
  unfold gatherDenseND
  by_cases h1 : adj.ndim < 2
  · rw [if_pos h1]
  by_cases h2 : inputs.ndim < adj.ndim - 1
  · rw [if_neg h1, if_pos h2]
  by_cases h3 : adj.shape.take (adj.ndim - 2) ≠ inputs.shape.take (adj.ndim - 2)
  · rw [if_neg h1, if_neg h2, if_pos h3]
  exfalso
  apply h
  have l2 : (adj.shape.drop (adj.ndim - 2)).length = 2 := by
    rw [List.length_drop]; unfold NDArray.ndim at *; omega
  have l1 : (inputs.shape.drop (adj.ndim - 2)).length ≠ 0 := by
    rw [List.length_drop]; unfold NDArray.ndim at *; omega
  obtain ⟨N, M, e2⟩ := List.length_eq_two.1 l2
  obtain ⟨n, rest, e1⟩ := List.exists_cons_of_ne_nil (fun e => l1 (by rw [e]; rfl) :
    inputs.shape.drop (adj.ndim - 2) ≠ [])
  refine ⟨adj.shape.take (adj.ndim - 2), rest, n, N, M, ?_, ?_⟩
  · rw [not_not.1 h3, ← e1, List.take_append_drop]
  · rw [← e2, List.take_append_drop]

/-- **C54 (validation, sparse).** -/
theorem C54_gather_src_sparse_rejects (inputs : NDArray α) (src : NDArray ℕ)
    (h : ¬ ∃ B rest n P, inputs.shape = B ++ n :: rest ∧ src.shape = B ++ [P]) :
    gatherSrcND inputs none (some src) = .error .valueError := by
  show gatherSparseND inputs src = _
  unfold gatherSparseND
  by_cases h1 : src.ndim < 1
  · rw [if_pos h1]
  by_cases h2 : inputs.ndim < src.ndim
  · rw [if_neg h1, if_pos h2]
  by_cases h3 : src.shape.take (src.ndim - 1) ≠ inputs.shape.take (src.ndim - 1)
  · rw [if_neg h1, if_neg h2, if_pos h3]
  exfalso
  apply h
  have l2 : (src.shape.drop (src.ndim - 1)).length = 1 := by
    rw [List.length_drop]; unfold NDArray.ndim at *; omega
  have l1 : (inputs.shape.drop (src.ndim - 1)).length ≠ 0 := by
    rw [List.length_drop]; unfold NDArray.ndim at *; omega
  obtain ⟨P, e2⟩ := List.length_eq_one_iff.1 l2
  obtain ⟨n, rest, e1⟩ := List.exists_cons_of_ne_nil (fun e => l1 (by rw [e]; rfl) :
    inputs.shape.drop (src.ndim - 1) ≠ [])
  refine ⟨src.shape.take (src.ndim - 1), rest, n, P, ?_, ?_⟩
  · rw [not_not.1 h3, ← e1, List.take_append_drop]
  · rw [← e2, List.take_append_drop]

/-- **C54 (validation, formats).** Neither or both formats: `RuntimeError`. -/
theorem C54_gather_formats (inputs : NDArray α) (adj idx : NDArray ℕ) :
    gatherSrcND inputs none none = .error .runtimeError ∧ gatherSrcND inputs (some adj) (some idx) = .error .runtimeError ∧
    gatherDstND inputs none none = .error .runtimeError ∧ gatherDstND inputs (some adj) (some idx) = .error .runtimeError :=
  ⟨rfl, rfl, rfl, rfl⟩

/-! ## Reductions -/

/-- The limits of a dtype bound a value: `finfo.min`, `-inf` from below, `finfo.max`, `inf` from above. -/
def Dtype.Bounds [LE α] (dt : Dtype α) (v : α) : Prop :=
  dt.min ≤ v ∧ v ≤ dt.max ∧ dt.segmentMaxInit ≤ v ∧ v ≤ dt.segmentMinInit

theorem foldl_max_isGreatest [LinearOrder α] (l : List α) (a : α) (hl : ∀ x ∈ l, a ≤ x) (hne : l ≠ []) :
    IsGreatest {v | v ∈ l} (l.foldl max a) := foldl_max_spec l a hl hne

theorem foldl_min_isLeast [LinearOrder α] (l : List α) (a : α) (hl : ∀ x ∈ l, x ≤ a) (hne : l ≠ []) :
    IsLeast {v | v ∈ l} (l.foldl min a) := foldl_max_spec (α := αᵒᵈ) l a hl hne

variable [AddCommMonoid α] [LinearOrder α]

/-- **C03 (sum, dense, any rank).** `indexed_sum(inputs, adj_idx=adj, where=mask)[b, i, t]` is the sum of
`inputs[b, i, m, t]` over the columns `m` with `mask[b, i, m]`; `keepdims` only inserts an axis of extent one. -/
theorem C03_sum_dense (dt : Dtype α) (hdt : dt.isInteger || dt.isFloating) (inputs : NDArray α) (adj : NDArray ℕ)
    (mask : NDArray Bool) (keep : Bool) (num : Option ℕ) (B rest : List ℕ) (N M : ℕ)
    (hi : inputs.shape = B ++ [N, M] ++ rest) (ha : adj.shape = B ++ [N, M]) (hm : mask.shape = B ++ [N, M]) :
    ∃ r, indexedSumND dt inputs keep (some adj) (some mask) none num = .ok r ∧
      r.shape = B ++ [N] ++ (if keep then [1] else []) ++ rest ∧
      ∀ b i t, InShape b B → i < N → InShape t rest →
        entry r (b ++ [i] ++ (if keep then [0] else []) ++ t) =
          ∑ m ∈ (Finset.range M).filter (fun m => entry mask (b ++ [i, m]) = true), entry inputs (b ++ [i, m] ++ t) := by
  obtain ⟨r, h1, h2, h3⟩ := reduceDense_ok .sum dt hdt inputs adj mask keep num B rest N M
    (by rw [hi, List.append_assoc]) ha hm
  refine ⟨r, h1, h2, fun b i t hb hii ht => ?_⟩
  rw [h3 b i t hb hii ht]
  show (denseValues inputs mask M b i t).foldl (· + ·) 0 = _
  rw [← List.sum_eq_foldl]
  unfold denseValues
  rw [Finset.sum_eq_multiset_sum]
  show _ = (Multiset.map _ (Multiset.filter _ (Multiset.range M))).sum
  rw [← Multiset.coe_range, Multiset.filter_coe, Multiset.map_coe, Multiset.sum_coe]
  simp

/-- **C03 (sum, sparse, any rank).** `indexed_sum(inputs, dst_idx=dst, num_segments=num)[b, i, t]` is the sum of
`inputs[b, p, t]` over the positions `p` with `dst[b, p] = i`. -/
theorem C03_sum_sparse (dt : Dtype α) (hdt : dt.isInteger || dt.isFloating) (inputs : NDArray α) (dst : NDArray ℕ)
    (mask : Option (NDArray Bool)) (num : ℕ) (B rest : List ℕ) (P : ℕ)
    (hi : inputs.shape = B ++ [P] ++ rest) (hd : dst.shape = B ++ [P]) (hsize : B = [] ∨ (rest.prod ≠ 0 ∧ P ≠ 0)) :
    ∃ r, indexedSumND dt inputs false none mask (some dst) (some num) = .ok r ∧ r.shape = B ++ [num] ++ rest ∧
      ∀ b i t, InShape b B → i < num → InShape t rest →
        entry r (b ++ [i] ++ t) =
          ∑ p ∈ (Finset.range P).filter (fun p => entry dst (b ++ [p]) = i), entry inputs (b ++ [p] ++ t) := by
  obtain ⟨r, h1, h2, h3⟩ := reduceSparse_ok .sum dt hdt inputs dst mask num B rest P
    (by rw [hi, List.append_assoc]) hd hsize
  refine ⟨r, h1, h2, fun b i t hb hii ht => ?_⟩
  rw [h3 b i t hb hii ht]
  show (sparseValues inputs dst P b i t).foldl (· + ·) 0 = _
  rw [← List.sum_eq_foldl]
  unfold sparseValues
  rw [Finset.sum_eq_multiset_sum]
  show _ = (Multiset.map _ (Multiset.filter _ (Multiset.range P))).sum
  rw [← Multiset.coe_range, Multiset.filter_coe, Multiset.map_coe, Multiset.sum_coe]

/-- **C03 (max and min, dense, any rank).** For a node with an unmasked entry, `indexed_max`/`indexed_min` are the largest
and smallest of the unmasked values. -/
theorem C03_max_min_dense (dt : Dtype α) (hdt : dt.isInteger || dt.isFloating) (inputs : NDArray α) (adj : NDArray ℕ)
    (mask : NDArray Bool) (keep : Bool) (num : Option ℕ) (B rest : List ℕ) (N M : ℕ)
    (hi : inputs.shape = B ++ [N, M] ++ rest) (ha : adj.shape = B ++ [N, M]) (hm : mask.shape = B ++ [N, M])
    (hb : ∀ idx, InShape idx inputs.shape → dt.Bounds (entry inputs idx)) :
    ∃ hi lo, indexedMaxND dt inputs keep (some adj) (some mask) none num = .ok hi ∧
      indexedMinND dt inputs keep (some adj) (some mask) none num = .ok lo ∧
      hi.shape = B ++ [N] ++ (if keep then [1] else []) ++ rest ∧ lo.shape = hi.shape ∧
      ∀ b i t, InShape b B → i < N → InShape t rest → (∃ m < M, entry mask (b ++ [i, m]) = true) →
        IsGreatest {v | ∃ m < M, entry mask (b ++ [i, m]) = true ∧ v = entry inputs (b ++ [i, m] ++ t)}
          (entry hi (b ++ [i] ++ (if keep then [0] else []) ++ t)) ∧
        IsLeast {v | ∃ m < M, entry mask (b ++ [i, m]) = true ∧ v = entry inputs (b ++ [i, m] ++ t)}
          (entry lo (b ++ [i] ++ (if keep then [0] else []) ++ t)) := by
  obtain ⟨r, h1, h2, h3⟩ := reduceDense_ok .max dt hdt inputs adj mask keep num B rest N M
    (by rw [hi, List.append_assoc]) ha hm
  obtain ⟨r', h1', h2', h3'⟩ := reduceDense_ok .min dt hdt inputs adj mask keep num B rest N M
    (by rw [hi, List.append_assoc]) ha hm
  refine ⟨r, r', h1, h1', h2, by rw [h2, h2'], fun b i t hbb hii ht hex => ?_⟩
  rw [h3 b i t hbb hii ht, h3' b i t hbb hii ht]
  have hmem : ∀ v, v ∈ denseValues inputs mask M b i t ↔
      ∃ m < M, entry mask (b ++ [i, m]) = true ∧ v = entry inputs (b ++ [i, m] ++ t) := by
    intro v
    unfold denseValues
    simp only [List.mem_map, List.mem_filter, List.mem_range]
    constructor
    · rintro ⟨m, ⟨h, h'⟩, rfl⟩; exact ⟨m, h, h', rfl⟩
    · rintro ⟨m, h, h', rfl⟩; exact ⟨m, ⟨h, h'⟩, rfl⟩
  have hne : denseValues inputs mask M b i t ≠ [] := by
    obtain ⟨m, h, h'⟩ := hex
    exact List.ne_nil_of_mem ((hmem _).2 ⟨m, h, h', rfl⟩)
  have hbd : ∀ v ∈ denseValues inputs mask M b i t, dt.Bounds v := by
    intro v hv
    obtain ⟨m, h, _, rfl⟩ := (hmem v).1 hv
    apply hb
    rw [hi]
    exact inShape_append (inShape_append hbb (inShape_cons.2 ⟨hii, inShape_cons.2 ⟨h, inShape_nil⟩⟩)) ht
  simp only [← hmem]
  exact ⟨foldl_max_isGreatest _ _ (fun v hv => (hbd v hv).1) hne, foldl_min_isLeast _ _ (fun v hv => (hbd v hv).2.1) hne⟩

/-- **C03 (max and min, sparse, any rank).** -/
theorem C03_max_min_sparse (dt : Dtype α) (hdt : dt.isInteger || dt.isFloating) (inputs : NDArray α) (dst : NDArray ℕ)
    (mask : Option (NDArray Bool)) (num : ℕ) (B rest : List ℕ) (P : ℕ)
    (hi : inputs.shape = B ++ [P] ++ rest) (hd : dst.shape = B ++ [P]) (hsize : B = [] ∨ (rest.prod ≠ 0 ∧ P ≠ 0))
    (hb : ∀ idx, InShape idx inputs.shape → dt.Bounds (entry inputs idx)) :
    ∃ hi lo, indexedMaxND dt inputs false none mask (some dst) (some num) = .ok hi ∧
      indexedMinND dt inputs false none mask (some dst) (some num) = .ok lo ∧
      hi.shape = B ++ [num] ++ rest ∧ lo.shape = hi.shape ∧
      ∀ b i t, InShape b B → i < num → InShape t rest → (∃ p < P, entry dst (b ++ [p]) = i) →
        IsGreatest {v | ∃ p < P, entry dst (b ++ [p]) = i ∧ v = entry inputs (b ++ [p] ++ t)} (entry hi (b ++ [i] ++ t)) ∧
        IsLeast {v | ∃ p < P, entry dst (b ++ [p]) = i ∧ v = entry inputs (b ++ [p] ++ t)} (entry lo (b ++ [i] ++ t)) := by
  obtain ⟨r, h1, h2, h3⟩ := reduceSparse_ok .max dt hdt inputs dst mask num B rest P
    (by rw [hi, List.append_assoc]) hd hsize
  obtain ⟨r', h1', h2', h3'⟩ := reduceSparse_ok .min dt hdt inputs dst mask num B rest P
    (by rw [hi, List.append_assoc]) hd hsize
  refine ⟨r, r', h1, h1', h2, by rw [h2, h2'], fun b i t hbb hii ht hex => ?_⟩
  rw [h3 b i t hbb hii ht, h3' b i t hbb hii ht]
  have hmem : ∀ v, v ∈ sparseValues inputs dst P b i t ↔
      ∃ p < P, entry dst (b ++ [p]) = i ∧ v = entry inputs (b ++ [p] ++ t) := by
    intro v
    unfold sparseValues
    simp only [List.mem_map, List.mem_filter, List.mem_range, decide_eq_true_eq]
    constructor
    · rintro ⟨m, ⟨h, h'⟩, rfl⟩; exact ⟨m, h, h', rfl⟩
    · rintro ⟨m, h, h', rfl⟩; exact ⟨m, ⟨h, h'⟩, rfl⟩
  have hne : sparseValues inputs dst P b i t ≠ [] := by
    obtain ⟨m, h, h'⟩ := hex
    exact List.ne_nil_of_mem ((hmem _).2 ⟨m, h, h', rfl⟩)
  have hbd : ∀ v ∈ sparseValues inputs dst P b i t, dt.Bounds v := by
    intro v hv
    obtain ⟨m, h, _, rfl⟩ := (hmem v).1 hv
    apply hb
    rw [hi]
    exact inShape_append (inShape_append hbb (inShape_cons.2 ⟨h, inShape_nil⟩)) ht
  simp only [← hmem]
  exact ⟨foldl_max_isGreatest _ _ (fun v hv => (hbd v hv).2.2.1) hne,
    foldl_min_isLeast _ _ (fun v hv => (hbd v hv).2.2.2) hne⟩

/-! ## The two formats -/

/-- **C03 (formats agree, neighbour sums, any rank).** Let a dense list (with mask `adj < n`) and a sparse list describe
the same graph in every batch entry (the same multiset of edges, in any order, with any amount of padding). Then gathering
node values along the edges and summing them per node gives the same array in both formats: the sum over the neighbours. -/
theorem C03_formats_sum (dt : Dtype α) (hdt : dt.isInteger || dt.isFloating) (x : NDArray α) (adj dst src : NDArray ℕ)
    (mask : NDArray Bool) (B rest : List ℕ) (n N M P : ℕ) (hn : n ≠ 0) (hx : x.shape = B ++ n :: rest)
    (ha : adj.shape = B ++ [N, M]) (hm : mask.shape = B ++ [N, M]) (hd : dst.shape = B ++ [P]) (hs : src.shape = B ++ [P])
    (hsize : B = [] ∨ (rest.prod ≠ 0 ∧ N * M ≠ 0 ∧ P ≠ 0))
    (hmask : ∀ b i m, InShape b B → i < N → m < M → entry mask (b ++ [i, m]) = decide (entry adj (b ++ [i, m]) < n))
    (hE : ∀ b, InShape b B → (denseGraph adj n N M b).Perm (sparseGraph dst src N P b)) :
    ∃ g g' r r', gatherSrcND x (some adj) none = .ok g ∧ gatherSrcND x none (some src) = .ok g' ∧
      indexedSumND dt g false (some adj) (some mask) none none = .ok r ∧
      indexedSumND dt g' false none none (some dst) (some N) = .ok r' ∧
      r.shape = B ++ [N] ++ rest ∧ r'.shape = r.shape ∧
      ∀ b i t, InShape b B → i < N → InShape t rest →
        entry r (b ++ [i] ++ t) = (neighbourValues x (denseGraph adj n N M b) b i t).sum ∧
        entry r' (b ++ [i] ++ t) = entry r (b ++ [i] ++ t) := by
  obtain ⟨g, g1, g2, g3⟩ := C54_gather_src_dense x adj B rest n N M hx ha hn (hsize.imp_right fun h => ⟨h.1, h.2.1⟩)
  obtain ⟨g', g1', g2', g3'⟩ := C54_gather_src_sparse x src B rest n P hx hs hn (hsize.imp_right fun h => ⟨h.1, h.2.2⟩)
  obtain ⟨r, r1, r2, r3⟩ := reduceDense_ok .sum dt hdt g adj mask false none B rest N M
    (by rw [g2, List.append_assoc]) ha hm
  obtain ⟨r', r1', r2', r3'⟩ := reduceSparse_ok .sum dt hdt g' dst none N B rest P
    (by rw [g2', List.append_assoc]) hd (hsize.imp_right fun h => ⟨h.1, h.2.2⟩)
  refine ⟨g, g', r, r', g1, g1', r1, r1', by rw [r2]; simp, by rw [r2, r2']; simp, ?_⟩
  intro b i t hb hi ht
  have e1 := r3 b i t hb hi ht
  rw [denseValues_gathered x g adj mask B rest n N M (fun b i m t h1 h2 h3 h4 h5 => (g3 b i m t h1 h2 h3 h4).1 h5) hmask
    b i t hb hi ht] at e1
  have e2 := r3' b i t hb hi ht
  rw [sparseValues_gathered x g' dst src B rest n N P (fun b p t h1 h2 h3 h4 => (g3' b p t h1 h2 h3).1 h4)
    b i t hb hi ht (fun e he => denseGraph_lt adj n N M b e ((hE b hb).mem_iff.2 he))] at e2
  have e1 : entry r (b ++ [i] ++ t) = (neighbourValues x (denseGraph adj n N M b) b i t).foldl (· + ·) 0 := by
    simp only [Bool.false_eq_true, if_false, List.append_nil] at e1; exact e1
  have e2 : entry r' (b ++ [i] ++ t) = (neighbourValues x (sparseGraph dst src N P b) b i t).foldl (· + ·) 0 := e2
  rw [← List.sum_eq_foldl] at e1 e2
  exact ⟨e1, by rw [e1, e2]; exact ((neighbourValues_perm x (hE b hb) b i t).sum_eq).symm⟩

/-- **C03 (formats agree, neighbour maxima and minima, any rank).** As `C03_formats_sum`; for nodes with at least one edge. -/
theorem C03_formats_max_min (dt : Dtype α) (hdt : dt.isInteger || dt.isFloating) (x : NDArray α) (adj dst src : NDArray ℕ)
    (mask : NDArray Bool) (B rest : List ℕ) (n N M P : ℕ) (hn : n ≠ 0) (hx : x.shape = B ++ n :: rest)
    (ha : adj.shape = B ++ [N, M]) (hm : mask.shape = B ++ [N, M]) (hd : dst.shape = B ++ [P]) (hs : src.shape = B ++ [P])
    (hsize : B = [] ∨ (rest.prod ≠ 0 ∧ N * M ≠ 0 ∧ P ≠ 0))
    (hmask : ∀ b i m, InShape b B → i < N → m < M → entry mask (b ++ [i, m]) = decide (entry adj (b ++ [i, m]) < n))
    (hE : ∀ b, InShape b B → (denseGraph adj n N M b).Perm (sparseGraph dst src N P b))
    (hbd : ∀ idx, InShape idx x.shape → dt.Bounds (entry x idx)) :
    ∃ g g' hi lo hi' lo', gatherSrcND x (some adj) none = .ok g ∧ gatherSrcND x none (some src) = .ok g' ∧
      indexedMaxND dt g false (some adj) (some mask) none none = .ok hi ∧
      indexedMinND dt g false (some adj) (some mask) none none = .ok lo ∧
      indexedMaxND dt g' false none none (some dst) (some N) = .ok hi' ∧
      indexedMinND dt g' false none none (some dst) (some N) = .ok lo' ∧
      hi.shape = B ++ [N] ++ rest ∧ lo.shape = hi.shape ∧ hi'.shape = hi.shape ∧ lo'.shape = hi.shape ∧
      ∀ b i t, InShape b B → i < N → InShape t rest → (∃ j, (i, j) ∈ denseGraph adj n N M b) →
        IsGreatest {v | v ∈ neighbourValues x (denseGraph adj n N M b) b i t} (entry hi (b ++ [i] ++ t)) ∧
        IsLeast {v | v ∈ neighbourValues x (denseGraph adj n N M b) b i t} (entry lo (b ++ [i] ++ t)) ∧
        entry hi' (b ++ [i] ++ t) = entry hi (b ++ [i] ++ t) ∧ entry lo' (b ++ [i] ++ t) = entry lo (b ++ [i] ++ t) := by
  obtain ⟨g, g1, g2, g3⟩ := C54_gather_src_dense x adj B rest n N M hx ha hn (hsize.imp_right fun h => ⟨h.1, h.2.1⟩)
  obtain ⟨g', g1', g2', g3'⟩ := C54_gather_src_sparse x src B rest n P hx hs hn (hsize.imp_right fun h => ⟨h.1, h.2.2⟩)
  have dense : ∀ mode : Reduction, ∃ r, indexedReduceND mode dt g false (some adj) (some mask) none none = .ok r ∧
      r.shape = B ++ [N] ++ rest ∧ ∀ b i t, InShape b B → i < N → InShape t rest →
        entry r (b ++ [i] ++ t) = (neighbourValues x (denseGraph adj n N M b) b i t).foldl mode.op (mode.denseInit dt) := by
    intro mode
    obtain ⟨r, r1, r2, r3⟩ := reduceDense_ok mode dt hdt g adj mask false none B rest N M
      (by rw [g2, List.append_assoc]) ha hm
    refine ⟨r, r1, by rw [r2]; simp, fun b i t hb hi ht => ?_⟩
    have e1 := r3 b i t hb hi ht
    rw [denseValues_gathered x g adj mask B rest n N M (fun b i m t h1 h2 h3 h4 h5 => (g3 b i m t h1 h2 h3 h4).1 h5) hmask
      b i t hb hi ht] at e1
    simpa using e1
  have sparse : ∀ mode : Reduction, ∃ r, indexedReduceND mode dt g' false none none (some dst) (some N) = .ok r ∧
      r.shape = B ++ [N] ++ rest ∧ ∀ b i t, InShape b B → i < N → InShape t rest →
        entry r (b ++ [i] ++ t) =
          (neighbourValues x (sparseGraph dst src N P b) b i t).foldl mode.op (mode.segmentInit dt) := by
    intro mode
    obtain ⟨r, r1, r2, r3⟩ := reduceSparse_ok mode dt hdt g' dst none N B rest P
      (by rw [g2', List.append_assoc]) hd (hsize.imp_right fun h => ⟨h.1, h.2.2⟩)
    refine ⟨r, r1, r2, fun b i t hb hi ht => ?_⟩
    have e2 := r3 b i t hb hi ht
    rwa [sparseValues_gathered x g' dst src B rest n N P (fun b p t h1 h2 h3 h4 => (g3' b p t h1 h2 h3).1 h4)
      b i t hb hi ht (fun e he => denseGraph_lt adj n N M b e ((hE b hb).mem_iff.2 he))] at e2
  obtain ⟨hi, a1, a2, a3⟩ := dense .max
  obtain ⟨lo, b1, b2, b3⟩ := dense .min
  obtain ⟨hi', c1, c2, c3⟩ := sparse .max
  obtain ⟨lo', d1, d2, d3⟩ := sparse .min
  refine ⟨g, g', hi, lo, hi', lo', g1, g1', a1, b1, c1, d1, a2, by rw [b2, a2], by rw [c2, a2], by rw [d2, a2], ?_⟩
  intro b i t hb hii ht ⟨j, hj⟩
  have hne : neighbourValues x (denseGraph adj n N M b) b i t ≠ [] := by
    apply List.ne_nil_of_mem (a := entry x (b ++ [j] ++ t))
    unfold neighbourValues
    exact List.mem_map.2 ⟨(i, j), List.mem_filter.2 ⟨hj, by simp⟩, rfl⟩
  have hperm := neighbourValues_perm x (hE b hb) b i t
  have hne' : neighbourValues x (sparseGraph dst src N P b) b i t ≠ [] := fun h => hne (by
    rw [h] at hperm; exact hperm.eq_nil)
  have hbv : ∀ v ∈ neighbourValues x (denseGraph adj n N M b) b i t, dt.Bounds v := by
    intro v hv
    unfold neighbourValues at hv
    obtain ⟨e, he, rfl⟩ := List.mem_map.1 hv
    apply hbd
    rw [hx, List.append_assoc]
    exact inShape_append hb (inShape_cons.2 ⟨denseGraph_lt adj n N M b e (List.mem_filter.1 he).1, ht⟩)
  have hbv' : ∀ v ∈ neighbourValues x (sparseGraph dst src N P b) b i t, dt.Bounds v :=
    fun v hv => hbv v (hperm.mem_iff.2 hv)
  have G : IsGreatest {v | v ∈ neighbourValues x (denseGraph adj n N M b) b i t} (entry hi (b ++ [i] ++ t)) := by
    rw [a3 b i t hb hii ht]
    exact foldl_max_isGreatest _ _ (fun v hv => (hbv v hv).1) hne
  have L : IsLeast {v | v ∈ neighbourValues x (denseGraph adj n N M b) b i t} (entry lo (b ++ [i] ++ t)) := by
    rw [b3 b i t hb hii ht]
    exact foldl_min_isLeast _ _ (fun v hv => (hbv v hv).2.1) hne
  have G' : IsGreatest {v | v ∈ neighbourValues x (denseGraph adj n N M b) b i t} (entry hi' (b ++ [i] ++ t)) := by
    rw [c3 b i t hb hii ht]
    simp only [hperm.mem_iff]
    exact foldl_max_isGreatest _ _ (fun v hv => (hbv' v hv).2.2.1) hne'
  have L' : IsLeast {v | v ∈ neighbourValues x (denseGraph adj n N M b) b i t} (entry lo' (b ++ [i] ++ t)) := by
    rw [d3 b i t hb hii ht]
    simp only [hperm.mem_iff]
    exact foldl_min_isLeast _ _ (fun v hv => (hbv' v hv).2.2.2) hne'
  exact ⟨G, L, G'.unique G, L'.unique L⟩

/-! ## `keepdims` and validation -/

/-- **C03 (`keepdims`, sparse).** With `keepdims=True` position `p` receives the reduced value of its own segment. -/
theorem C03_keepdims_sparse (mode : Reduction) (dt : Dtype α) (hdt : dt.isInteger || dt.isFloating) (inputs : NDArray α)
    (dst : NDArray ℕ) (num : ℕ) (B rest : List ℕ) (P : ℕ) (hnum : num ≠ 0)
    (hi : inputs.shape = B ++ [P] ++ rest) (hd : dst.shape = B ++ [P]) (hsize : B = [] ∨ (rest.prod ≠ 0 ∧ P ≠ 0)) :
    ∃ r r', indexedReduceND mode dt inputs false none none (some dst) (some num) = .ok r ∧
      indexedReduceND mode dt inputs true none none (some dst) (some num) = .ok r' ∧ r'.shape = inputs.shape ∧
      ∀ b p t, InShape b B → p < P → InShape t rest → entry dst (b ++ [p]) < num →
        entry r' (b ++ [p] ++ t) = entry r (b ++ [entry dst (b ++ [p])] ++ t) := by
  obtain ⟨r, r1, r2, r3⟩ := reduceSparse_ok mode dt hdt inputs dst none num B rest P
    (by rw [hi, List.append_assoc]) hd hsize
  obtain ⟨r', g1, g2, g3⟩ := C54_gather_src_sparse r dst B rest num P (by rw [r2]; simp) hd hnum hsize
  refine ⟨r, r', r1, ?_, by rw [g2, hi], fun b p t hb hp ht h => (g3 b p t hb hp ht).1 h⟩
  have hnd : dst.ndim = B.length + 1 := by unfold NDArray.ndim; rw [hd]; simp
  have hni : inputs.ndim = dst.ndim + rest.length := by
    rw [hnd]; unfold NDArray.ndim; rw [hi]; simp; omega
  have hc : ¬ ((!dt.isInteger && !dt.isFloating) = true) := by
    cases h : dt.isInteger <;> cases h' : dt.isFloating <;> simp_all
  have key : ∀ keep, indexedReduceND mode dt inputs keep none none (some dst) (some num) = (do
      let outputs ← indexedReduceND mode dt inputs false none none (some dst) (some num)
      if keep then gatherSrcND outputs none (some dst) else .ok outputs) := by
    intro keep
    unfold indexedReduceND
    simp only [Option.map_none, Option.map_some, sparse_dst_index, bind, Except.bind]
    have h1 : ¬ inputs.ndim < dst.ndim := by omega
    have h2 : ¬ (dst.shape ≠ List.take dst.ndim inputs.shape) := by
      rw [hi, hnd, hd, List.take_left' (by simp)]; simp
    simp only [if_neg hc, if_neg h1, if_neg h2, Bool.false_eq_true, if_false]
    by_cases h3 : dst.ndim > 1
    · simp only [if_pos h3]
      cases inputs.reshapeHead (List.drop (dst.ndim - 1) inputs.shape) with
      | error e => rfl
      | ok v =>
        cases dst.reshapeHead (List.drop (dst.ndim - 1) dst.shape) with
        | error e => rfl
        | ok v1 =>
          simp only
          cases vmap (fun x i => Except.ok (segment mode.op (Reduction.segmentInit dt mode) num x i)) v v1 with
          | error e => rfl
          | ok v2 =>
            simp only
            cases v2.reshape (List.take (dst.ndim - 1) dst.shape ++ v2.shape.tail) <;> rfl
    · simp only [if_neg h3]
  rw [key true, r1]
  exact g1

/-- **C03 (validation).** What `indexed_sum/min/max` reject, and with which exception. -/
theorem C03_reduce_rejects (mode : Reduction) (dt : Dtype α) (inputs : NDArray α) (keep : Bool) (adj dst : NDArray ℕ)
    (mask : NDArray Bool) (num : ℕ) :
    (∀ m n, indexedReduceND mode dt inputs keep none m none n = .error .runtimeError) ∧
    (∀ m n, indexedReduceND mode dt inputs keep (some adj) m (some dst) n = .error .runtimeError) ∧
    (dt.isInteger = false → dt.isFloating = false →
      (∀ m n, indexedReduceND mode dt inputs keep (some adj) m none n = .error .typeError) ∧
      (∀ m n, indexedReduceND mode dt inputs keep none m (some dst) n = .error .typeError)) ∧
    (dt.isInteger || dt.isFloating →
      (∀ n, indexedReduceND mode dt inputs keep (some adj) none none n = .error .typeError) ∧
      (∀ m, indexedReduceND mode dt inputs keep none m (some dst) none = .error .typeError) ∧
      (∀ n, ¬ adj.shape <+: inputs.shape →
        indexedReduceND mode dt inputs keep (some adj) (some mask) none n = .error .valueError) ∧
      (∀ m, ¬ dst.shape <+: inputs.shape →
        indexedReduceND mode dt inputs keep none m (some dst) (some num) = .error .valueError) ∧
      (∀ n, adj.shape <+: inputs.shape → mask.shape.prod ≠ adj.shape.prod →
        indexedReduceND mode dt inputs keep (some adj) (some mask) none n = .error .typeError)) := by
  refine ⟨fun m n => rfl, fun m n => rfl, ?_, ?_⟩
  · intro h1 h2
    constructor
    · intro m n
      unfold indexedReduceND
      show (if _ then _ else _) = _
      rw [if_pos (by simp [h1, h2])]
    · intro m n
      unfold indexedReduceND
      show (if _ then _ else _) = _
      rw [if_pos (by simp [h1, h2])]
  · intro hdt
    have hc : ¬ ((!dt.isInteger && !dt.isFloating) = true) := by
      cases h : dt.isInteger <;> cases h' : dt.isFloating <;> simp_all
    have hpre : ∀ s : NDArray ℕ, ¬ s.shape <+: inputs.shape →
        inputs.ndim < s.ndim ∨ s.shape ≠ inputs.shape.take s.ndim := by
      intro s hs
      right
      intro h
      exact hs (by rw [h]; exact List.take_prefix _ _)
    refine ⟨?_, ?_, ?_, ?_, ?_⟩
    · intro n
      unfold indexedReduceND
      show (if _ then _ else _) = _
      rw [if_neg hc]
    · intro m
      unfold indexedReduceND
      show (if _ then _ else _) = _
      rw [if_neg hc]
    · intro n h
      unfold indexedReduceND
      show (if _ then _ else _) = _
      rw [if_neg hc]
      show (if _ then _ else _) = _
      rcases hpre adj h with h | h
      · rw [if_pos h]
      · by_cases h' : inputs.ndim < adj.ndim
        · rw [if_pos h']
        · rw [if_neg h', if_pos h]
    · intro m h
      unfold indexedReduceND
      show (if _ then _ else _) = _
      rw [if_neg hc]
      show (if _ then _ else _) = _
      rcases hpre dst h with h | h
      · rw [if_pos h]
      · by_cases h' : inputs.ndim < dst.ndim
        · rw [if_pos h']
        · rw [if_neg h', if_pos h]
    · intro n h hm
      unfold indexedReduceND
      show (if _ then _ else _) = _
      rw [if_neg hc]
      show (if _ then _ else _) = _
      have hle : adj.ndim ≤ inputs.ndim := h.length_le
      have h2 : adj.shape = inputs.shape.take adj.ndim := List.prefix_iff_eq_take.1 h
      rw [if_neg (by omega), if_neg (not_not.2 h2)]
      unfold NDArray.reshape
      rw [if_neg (by simp; exact fun h => hm h.symm)]
      rfl

/-! ## Softmax -/

omit [AddCommMonoid α] [LinearOrder α] in
theorem zip_ok {β γ : Type} (f : α → β → γ) (x : NDArray α) (y : NDArray β)
    (h : List.Forall₂ (fun a b => b = a ∨ b = 1) x.shape y.shape) :
    ∃ r, NDArray.zip f x y = .ok r ∧ r.shape = x.shape ∧
      ∀ idx, InShape idx x.shape → entry r idx = f (entry x idx) (stretched y idx) := by
  have hall : ∀ {s t : List ℕ}, List.Forall₂ (fun a b => b = a ∨ b = 1) s t →
      ((s.zip t).all fun p => p.1 == p.2 || p.1 == 1 || p.2 == 1) = true ∧
      List.zipWith (fun a b => if a = 1 then b else a) s t = s := by
    intro s t h
    induction h with
    | nil => exact ⟨rfl, rfl⟩
    | @cons a b s t hab _ ih =>
      refine ⟨?_, ?_⟩
      · rw [List.zip_cons_cons, List.all_cons, ih.1]
        rcases hab with rfl | rfl <;> simp
      · rw [List.zipWith_cons_cons, ih.2]
        rcases hab with rfl | rfl
        · simp
        · split_ifs with h
          · rw [h]
          · rfl
  obtain ⟨h1, h2⟩ := hall h
  refine ⟨⟨x.shape, fun k => f (stretched x (unravel x.shape k)) (stretched y (unravel x.shape k))⟩, ?_, rfl, ?_⟩
  · unfold NDArray.zip
    rw [if_pos ⟨h.length_eq, h1⟩, h2]
    rfl
  · intro idx hidx
    have := entry_ofFn (s := x.shape) (fun idx => f (stretched x idx) (stretched y idx)) hidx
    refine Eq.trans this ?_
    rw [stretched_inShape x hidx]

theorem forall₂_self (s : List ℕ) : List.Forall₂ (fun a b => b = a ∨ b = 1) s s := by
  induction s with
  | nil => exact .nil
  | cons a s ih => exact .cons (.inl rfl) ih

theorem forall₂_app {s t s' t' : List ℕ} {R : ℕ → ℕ → Prop} (h : List.Forall₂ R s t) (h' : List.Forall₂ R s' t') :
    List.Forall₂ R (s ++ s') (t ++ t') := by
  induction h with
  | nil => exact h'
  | cons a _ ih => exact .cons a ih

/-- The weight of an entry: its exponential times the multiplicative mask. -/
noncomputable def Spec.softWeight (inputs : NDArray ℝ) (mult : Option (NDArray ℝ)) (idx : List ℕ) : ℝ :=
  Real.exp (entry inputs idx) * (match mult with | some w => entry w idx | none => 1)

/-- The numerator of the softmax: shifted weights. -/
theorem softmax_numerator (inputs mx : NDArray ℝ) (mult : Option (NDArray ℝ))
    (hmx : List.Forall₂ (fun a b => b = a ∨ b = 1) inputs.shape mx.shape)
    (hmult : ∀ w, mult = some w → w.shape = inputs.shape) :
    ∃ r, (do
        let numerator ← NDArray.zip (fun x m => Real.exp (x - m)) inputs mx
        match mult with
          | some m => NDArray.zip (· * ·) numerator m
          | none => .ok numerator) = Except.ok r ∧ r.shape = inputs.shape ∧
      ∀ idx, InShape idx inputs.shape →
        entry r idx = softWeight inputs mult idx * Real.exp (- stretched mx idx) := by
  obtain ⟨r, h1, h2, h3⟩ := zip_ok (fun x m => Real.exp (x - m)) inputs mx hmx
  rw [h1]
  cases mult with
  | none =>
    refine ⟨r, rfl, h2, fun idx hidx => ?_⟩
    rw [h3 idx hidx, sub_eq_add_neg, Real.exp_add]
    simp [softWeight]
  | some w =>
    have hw := hmult w rfl
    obtain ⟨r', h1', h2', h3'⟩ := zip_ok (fun a b : ℝ => a * b) r w (by rw [h2, hw]; exact forall₂_self _)
    refine ⟨r', h1', by rw [h2', h2], fun idx hidx => ?_⟩
    rw [h3' idx (by rw [h2]; exact hidx), h3 idx hidx, stretched_inShape w (by rw [hw]; exact hidx), sub_eq_add_neg,
      Real.exp_add]
    simp only [softWeight]
    ring

/-- **C04 (dense, any rank).** `indexed_softmax(inputs, multiplicative_mask, adj_idx=adj, where=mask)` exists for every
consistent set of shapes and its entry `[b, i, m, t]` is the weight of the entry (exponential times multiplicative mask)
divided by the sum of the weights over the unmasked columns of the same row. -/
theorem C04_softmax_dense_nd (dt : Dtype ℝ) (hdt : dt.isFloating) (inputs : NDArray ℝ) (mult : Option (NDArray ℝ))
    (adj : NDArray ℕ) (mask : NDArray Bool) (num : Option ℕ) (B rest : List ℕ) (N M : ℕ)
    (hi : inputs.shape = B ++ [N, M] ++ rest) (ha : adj.shape = B ++ [N, M]) (hm : mask.shape = B ++ [N, M])
    (hmult : ∀ w, mult = some w → w.shape = inputs.shape) :
    ∃ r, indexedSoftmaxND dt inputs mult (some adj) (some mask) none num = .ok r ∧ r.shape = inputs.shape ∧
      ∀ b i m t, InShape b B → i < N → m < M → InShape t rest →
        entry r (b ++ [i, m] ++ t) = softWeight inputs mult (b ++ [i, m] ++ t) /
          ∑ k ∈ (Finset.range M).filter (fun k => entry mask (b ++ [i, k]) = true),
            softWeight inputs mult (b ++ [i, k] ++ t) := by
  have hdt' : (dt.isInteger || dt.isFloating) = true := by simp [hdt]
  obtain ⟨mx, m1, m2, -⟩ := reduceDense_ok .max dt hdt' inputs adj mask true num B rest N M
    (by rw [hi, List.append_assoc]) ha hm
  have hstretch : ∀ y : NDArray ℝ, y.shape = B ++ [N] ++ [1] ++ rest → ∀ b i m t, InShape b B → i < N → InShape t rest →
      stretched y (b ++ [i, m] ++ t) = entry y (b ++ [i] ++ [0] ++ t) := by
    intro y hy b i m t hb hii ht
    unfold stretched
    rw [hy, show b ++ [i, m] ++ t = b ++ [i] ++ [m] ++ t by simp,
      List.zipWith_append (by simp [hb.length]), List.zipWith_append (by simp [hb.length]),
      stretch_inShape (inShape_append hb (inShape_cons.2 ⟨hii, inShape_nil⟩)), stretch_inShape ht]
    rfl
  have hcompat : ∀ y : NDArray ℝ, y.shape = B ++ [N] ++ [1] ++ rest →
      List.Forall₂ (fun a b => b = a ∨ b = 1) inputs.shape y.shape := by
    intro y hy
    rw [hi, hy, show B ++ [N, M] ++ rest = B ++ [N] ++ [M] ++ rest by simp]
    exact forall₂_app (forall₂_app (forall₂_self _) (.cons (.inr rfl) .nil)) (forall₂_self _)
  obtain ⟨nu, n1, n2, n3⟩ := softmax_numerator inputs mx mult (hcompat mx m2) hmult
  obtain ⟨de, d1, d2, d3⟩ := C03_sum_dense dt hdt' nu adj mask true num B rest N M (by rw [n2, hi]) ha hm
  obtain ⟨r, r1, r2, r3⟩ := zip_ok (fun a b : ℝ => a / b) nu de (by rw [n2]; exact hcompat de d2)
  refine ⟨r, ?_, by rw [r2, n2], ?_⟩
  · unfold indexedSoftmaxND
    have hany : ¬ (mult.any fun m => m.shape != inputs.shape) = true := by
      cases mult with
      | none => simp
      | some w => simp [hmult w rfl]
    have m1' : indexedMaxND dt inputs true (some adj) (some mask) none num = .ok mx := m1
    rw [if_neg hany, if_neg (by simp [hdt]), m1']
    simp only [bind, Except.bind] at n1 ⊢
    cases hz : NDArray.zip (fun x m => Real.exp (x - m)) inputs mx with
    | error e => rw [hz] at n1; exact absurd n1 (by simp)
    | ok v =>
      rw [hz] at n1
      cases mult with
      | none =>
        obtain rfl : v = nu := by injection n1
        simp only
        rw [d1]
        exact r1
      | some w =>
        simp only at n1 ⊢
        rw [n1]
        simp only
        rw [d1]
        exact r1
  · intro b i m t hb hii hmm ht
    have hidx : ∀ k < M, InShape (b ++ [i, k] ++ t) inputs.shape := by
      intro k hk
      rw [hi]
      exact inShape_append (inShape_append hb (inShape_cons.2 ⟨hii, inShape_cons.2 ⟨hk, inShape_nil⟩⟩)) ht
    rw [r3 _ (by rw [n2]; exact hidx m hmm), hstretch de d2 b i m t hb hii ht, n3 _ (hidx m hmm),
      hstretch mx m2 b i m t hb hii ht]
    have hd := d3 b i t hb hii ht
    simp only [if_true] at hd
    rw [hd]
    have : ∑ k ∈ (Finset.range M).filter (fun k => entry mask (b ++ [i, k]) = true), entry nu (b ++ [i, k] ++ t) =
        (∑ k ∈ (Finset.range M).filter (fun k => entry mask (b ++ [i, k]) = true),
          softWeight inputs mult (b ++ [i, k] ++ t)) * Real.exp (- entry mx (b ++ [i] ++ [0] ++ t)) := by
      rw [Finset.sum_mul]
      apply Finset.sum_congr rfl
      intro k hk
      rw [n3 _ (hidx k (Finset.mem_range.1 (Finset.mem_filter.1 hk).1)), hstretch mx m2 b i k t hb hii ht]
    rw [this, mul_div_mul_right _ _ (Real.exp_pos _).ne']

/-- **C04 (sparse, any rank).** The entry `[b, p, t]` of `indexed_softmax(inputs, multiplicative_mask, dst_idx=dst,
num_segments=num)` is its weight divided by the sum of the weights of all positions with the same destination. -/
theorem C04_softmax_sparse_nd (dt : Dtype ℝ) (hdt : dt.isFloating) (inputs : NDArray ℝ) (mult : Option (NDArray ℝ))
    (dst : NDArray ℕ) (num : ℕ) (hnum : num ≠ 0) (B rest : List ℕ) (P : ℕ)
    (hi : inputs.shape = B ++ [P] ++ rest) (hd : dst.shape = B ++ [P]) (hsize : B = [] ∨ (rest.prod ≠ 0 ∧ P ≠ 0))
    (hmult : ∀ w, mult = some w → w.shape = inputs.shape) :
    ∃ r, indexedSoftmaxND dt inputs mult none none (some dst) (some num) = .ok r ∧ r.shape = inputs.shape ∧
      ∀ b p t, InShape b B → p < P → InShape t rest → entry dst (b ++ [p]) < num →
        entry r (b ++ [p] ++ t) = softWeight inputs mult (b ++ [p] ++ t) /
          ∑ q ∈ (Finset.range P).filter (fun q => entry dst (b ++ [q]) = entry dst (b ++ [p])),
            softWeight inputs mult (b ++ [q] ++ t) := by
  have hdt' : (dt.isInteger || dt.isFloating) = true := by simp [hdt]
  obtain ⟨mx0, mx, m0, m1, m2, m3⟩ := C03_keepdims_sparse .max dt hdt' inputs dst num B rest P hnum hi hd hsize
  obtain ⟨nu, n1, n2, n3⟩ := softmax_numerator inputs mx mult (by rw [m2]; exact forall₂_self _) hmult
  obtain ⟨de0, de, d0, d1, d2, d3⟩ := C03_keepdims_sparse .sum dt hdt' nu dst num B rest P hnum (by rw [n2, hi]) hd hsize
  obtain ⟨de0', d0', d2', d3'⟩ := C03_sum_sparse dt hdt' nu dst none num B rest P (by rw [n2, hi]) hd hsize
  have hde : de0 = de0' := by
    have : (Except.ok de0 : Except Err (NDArray ℝ)) = .ok de0' := by rw [← d0, ← d0']; rfl
    injection this
  subst hde
  obtain ⟨r, r1, r2, r3⟩ := zip_ok (fun a b : ℝ => a / b) nu de (by rw [d2]; exact forall₂_self _)
  refine ⟨r, ?_, by rw [r2, n2], ?_⟩
  · unfold indexedSoftmaxND
    have hany : ¬ (mult.any fun m => m.shape != inputs.shape) = true := by
      cases mult with
      | none => simp
      | some w => simp [hmult w rfl]
    have m1' : indexedMaxND dt inputs true none none (some dst) (some num) = .ok mx := m1
    have d1' : indexedSumND dt nu true none none (some dst) (some num) = .ok de := d1
    rw [if_neg hany, if_neg (by simp [hdt]), m1']
    simp only [bind, Except.bind] at n1 ⊢
    cases hz : NDArray.zip (fun x m => Real.exp (x - m)) inputs mx with
    | error e => rw [hz] at n1; exact absurd n1 (by simp)
    | ok v =>
      rw [hz] at n1
      cases mult with
      | none =>
        obtain rfl : v = nu := by injection n1
        simp only
        rw [d1']
        exact r1
      | some w =>
        simp only at n1 ⊢
        rw [n1]
        simp only
        rw [d1']
        exact r1
  · intro b p t hb hp ht hlt
    have hidx : ∀ q < P, InShape (b ++ [q] ++ t) inputs.shape := by
      intro q hq
      rw [hi]
      exact inShape_append (inShape_append hb (inShape_cons.2 ⟨hq, inShape_nil⟩)) ht
    have hst : ∀ (y : NDArray ℝ), y.shape = inputs.shape → ∀ q < P, stretched y (b ++ [q] ++ t) = entry y (b ++ [q] ++ t) :=
      fun y hy q hq => stretched_inShape y (by rw [hy]; exact hidx q hq)
    rw [r3 _ (by rw [n2]; exact hidx p hp), hst de (by rw [d2, n2]) p hp, d3 b p t hb hp ht hlt,
      d3' b _ t hb hlt ht, n3 _ (hidx p hp), hst mx m2 p hp, m3 b p t hb hp ht hlt]
    have : ∑ q ∈ (Finset.range P).filter (fun q => entry dst (b ++ [q]) = entry dst (b ++ [p])), entry nu (b ++ [q] ++ t) =
        (∑ q ∈ (Finset.range P).filter (fun q => entry dst (b ++ [q]) = entry dst (b ++ [p])),
          softWeight inputs mult (b ++ [q] ++ t)) * Real.exp (- entry mx0 (b ++ [entry dst (b ++ [p])] ++ t)) := by
      rw [Finset.sum_mul]
      apply Finset.sum_congr rfl
      intro q hq
      obtain ⟨hq1, hq2⟩ := Finset.mem_filter.1 hq
      rw [n3 _ (hidx q (Finset.mem_range.1 hq1)), hst mx m2 q (Finset.mem_range.1 hq1),
        m3 b q t hb (Finset.mem_range.1 hq1) ht (by rw [hq2]; exact hlt), hq2]
    rw [this, mul_div_mul_right _ _ (Real.exp_pos _).ne']

/-- **C04 (validation, any rank).** A multiplicative mask of another shape and inputs that are not floating point numbers
are rejected with a `ValueError`; otherwise, the checks of the reductions apply. -/
theorem C04_softmax_rejects (dt : Dtype ℝ) (inputs : NDArray ℝ) (mult : Option (NDArray ℝ)) (adj dst : Option (NDArray ℕ))
    (mask : Option (NDArray Bool)) (num : Option ℕ) :
    ((∃ w, mult = some w ∧ w.shape ≠ inputs.shape) → indexedSoftmaxND dt inputs mult adj mask dst num = .error .valueError) ∧
    (dt.isFloating = false → indexedSoftmaxND dt inputs mult adj mask dst num = .error .valueError) ∧
    ((∀ w, mult = some w → w.shape = inputs.shape) → dt.isFloating = true → ∀ e,
      indexedMaxND dt inputs true adj mask dst num = .error e →
      indexedSoftmaxND dt inputs mult adj mask dst num = .error e) := by
  refine ⟨?_, ?_, ?_⟩
  · rintro ⟨w, rfl, hw⟩
    unfold indexedSoftmaxND
    rw [if_pos (by simp [hw])]
  · intro h
    unfold indexedSoftmaxND
    split_ifs <;> simp_all
  · intro hw h e he
    unfold indexedSoftmaxND
    have hany : ¬ (mult.any fun m => m.shape != inputs.shape) = true := by
      cases mult with
      | none => simp
      | some w => simp [hw w rfl]
    rw [if_neg hany, if_neg (by simp [h]), he]
    rfl

/-! ## Non-vacuity -/

section Examples

/-- Two batch entries, three nodes, two columns; the entry `3` is padding. -/
private def exAdj : NDArray ℕ := ⟨[2, 3, 2], fun k => [1, 2, 0, 3, 0, 3, 1, 3, 0, 2, 1, 3].getD k 0⟩
private def exMask : NDArray Bool := ⟨[2, 3, 2], fun k => decide (exAdj.data k < 3)⟩
/-- The same graphs in the sparse format, in another order. -/
private def exDst : NDArray ℕ := ⟨[2, 4], fun k => [2, 1, 0, 0, 0, 1, 1, 2].getD k 0⟩
private def exSrc : NDArray ℕ := ⟨[2, 4], fun k => [0, 0, 2, 1, 1, 2, 0, 1].getD k 0⟩
private def exX : NDArray ℤ := ⟨[2, 3, 2], fun k => 10 ^ k⟩
private def exInt : Dtype ℤ := ⟨true, false, -10 ^ 20, 10 ^ 20, -10 ^ 20, 10 ^ 20⟩

private theorem mem_batch {b : List ℕ} (h : InShape b [2]) : b = [0] ∨ b = [1] := by
  cases h with
  | cons h h' =>
    cases h'
    rename_i a
    have : a = 0 ∨ a = 1 := by omega
    rcases this with rfl | rfl <;> simp

example : ∃ g g' r r', gatherSrcND exX (some exAdj) none = .ok g ∧ gatherSrcND exX none (some exSrc) = .ok g' ∧
    indexedSumND exInt g false (some exAdj) (some exMask) none none = .ok r ∧
    indexedSumND exInt g' false none none (some exDst) (some 3) = .ok r' ∧ r.shape = [2, 3, 2] ∧ r'.shape = r.shape ∧
    entry r [0, 0, 1] = 10 ^ 3 + 10 ^ 5 ∧ entry r' [0, 0, 1] = entry r [0, 0, 1] := by
  obtain ⟨g, g', r, r', h1, h2, h3, h4, h5, h6, h7⟩ := C03_formats_sum exInt rfl exX exAdj exDst exSrc exMask [2] [2] 3 3 2 4
    (by decide) rfl rfl rfl rfl rfl (.inr ⟨by decide, by decide, by decide⟩)
    (by
      intro b i m hb hi hm
      rfl)
    (by
      intro b hb
      rcases mem_batch hb with rfl | rfl <;> decide)
  refine ⟨g, g', r, r', h1, h2, h3, h4, h5, h6, ?_⟩
  obtain ⟨e1, e2⟩ := h7 [0] 0 [1] (inShape_cons.2 ⟨by decide, inShape_nil⟩) (by decide)
    (inShape_cons.2 ⟨by decide, inShape_nil⟩)
  refine ⟨?_, e2⟩
  have e1 : entry r [0, 0, 1] = _ := e1
  rw [e1]
  decide

end Examples

end E3x
