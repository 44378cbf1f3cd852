import Verif.Lemmas.IndexedArrays

/-!
# Reductions on arrays of any rank
-/

namespace E3x

open Spec NDArray

variable {α : Type}

theorem stretch_inShape {is s : List ℕ} (h : InShape is s) :
    List.zipWith (fun n i => if n = 1 then 0 else i) s is = is := by
  induction h with
  | nil => rfl
  | @cons i n is s hi _ ih =>
    rw [List.zipWith_cons_cons, ih]
    split_ifs with h1
    · have : i = 0 := by omega
      rw [this]
    · rfl

theorem stretched_inShape (w : NDArray α) {is : List ℕ} (h : InShape is w.shape) : stretched w is = entry w is := by
  unfold stretched; rw [stretch_inShape h]

theorem stretch_ones (k : ℕ) (t : List ℕ) (h : t.length = k) :
    List.zipWith (fun n i => if n = 1 then 0 else i) (List.replicate k 1) t = List.replicate k 0 := by
  induction k generalizing t with
  | zero => simp
  | succ k ih =>
    cases t with
    | nil => simp at h
    | cons a t =>
      rw [List.replicate_succ, List.zipWith_cons_cons, ih t (by simpa using h)]
      simp [List.replicate_succ]

theorem ravel_zeros (k : ℕ) : ravel (List.replicate k 1) (List.replicate k 0) = 0 := by
  induction k with
  | zero => rfl
  | succ k ih => rw [List.replicate_succ, List.replicate_succ, ravel, ih]; simp

/-- A mask with trailing axes of extent one does not depend on the trailing indices. -/
theorem stretched_ones (s : List ℕ) (k : ℕ) (d : ℕ → α) {is t : List ℕ} (h : InShape is s) (ht : t.length = k) :
    stretched ⟨s ++ List.replicate k 1, d⟩ (is ++ t) = entry ⟨s, d⟩ is := by
  unfold stretched
  simp only
  rw [List.zipWith_append (by rw [h.length]), stretch_inShape h, stretch_ones k t ht]
  unfold entry
  simp only
  rw [ravel_append h.length, ravel_zeros]
  simp

theorem foldl_filter_map (l : List ℕ) (p : ℕ → Bool) (f : ℕ → α) (op : α → α → α) (init : α) :
    l.foldl (fun acc m => if p m then op acc (f m) else acc) init = ((l.filter p).map f).foldl op init := by
  induction l generalizing init with
  | nil => rfl
  | cons a l ih =>
    rw [List.foldl_cons, ih, List.filter_cons]
    by_cases h : p a <;> simp [h]

theorem foldl_range_congr (n : ℕ) (f g : α → ℕ → α) (h : ∀ acc, ∀ m < n, f acc m = g acc m) (init : α) :
    (List.range n).foldl f init = (List.range n).foldl g init := by
  have : ∀ (l : List ℕ) (init : α), (∀ m ∈ l, m < n) → l.foldl f init = l.foldl g init := by
    intro l
    induction l with
    | nil => intro _ _; rfl
    | cons a l ih =>
      intro init hl
      rw [List.foldl_cons, List.foldl_cons, h _ a (hl a (by simp)), ih _ fun m hm => hl m (by simp [hm])]
  exact this _ _ fun m hm => List.mem_range.1 hm

/-- Reduction along the axis after the axes `s`, with a mask that does not depend on the later axes. -/
theorem reduceAxis_ok (op : α → α → α) (init : α) (s rest : List ℕ) (M : ℕ) (d : ℕ → α) (w : ℕ → Bool) (keep : Bool) :
    let r := reduceAxis op init ⟨s ++ M :: rest, d⟩ s.length ⟨(s ++ [M]) ++ List.replicate rest.length 1, w⟩ keep
    r.shape = s ++ (if keep then [1] else []) ++ rest ∧
    ∀ is t, InShape is s → InShape t rest →
      entry r (is ++ (if keep then [0] else []) ++ t) =
        (((List.range M).filter fun m => entry ⟨s ++ [M], w⟩ (is ++ [m])).map
          fun m => entry ⟨s ++ M :: rest, d⟩ (is ++ m :: t)).foldl op init := by
  intro r
  have hshape : r.shape = s ++ (if keep then [1] else []) ++ rest := by
    show List.take s.length (s ++ M :: rest) ++ _ ++ List.drop (s.length + 1) (s ++ M :: rest) = _
    rw [List.take_left' rfl, ← List.drop_drop, List.drop_left' rfl]
    rfl
  refine ⟨hshape, ?_⟩
  intro is t his ht
  have hin : InShape (is ++ (if keep then [0] else []) ++ t) r.shape := by
    rw [hshape]
    refine inShape_append (inShape_append his ?_) ht
    cases keep
    · exact inShape_nil
    · exact inShape_cons.2 ⟨by omega, inShape_nil⟩
  have h := entry_ofFn (s := r.shape) (fun idx =>
    (List.range ((s ++ M :: rest).getD s.length 0)).foldl (fun acc m =>
      let full := idx.take s.length ++ m :: idx.drop (s.length + if keep then 1 else 0)
      if stretched ⟨(s ++ [M]) ++ List.replicate rest.length 1, w⟩ full then
        op acc (Spec.entry ⟨s ++ M :: rest, d⟩ full) else acc) init) hin
  refine Eq.trans h ?_
  have hM : (s ++ M :: rest).getD s.length 0 = M := by simp [List.getD]
  have htake : (is ++ (if keep then [0] else []) ++ t).take s.length = is := by
    rw [List.append_assoc, List.take_left' his.length]
  have hdrop : (is ++ (if keep then [0] else []) ++ t).drop (s.length + if keep then 1 else 0) = t := by
    rw [List.drop_left']
    cases keep <;> simp [his.length]
  simp only [hM, htake, hdrop]
  rw [← foldl_filter_map (List.range M) (fun m => entry ⟨s ++ [M], w⟩ (is ++ [m]))
    (fun m => entry ⟨s ++ M :: rest, d⟩ (is ++ m :: t)) op init]
  apply foldl_range_congr
  intro acc m hm
  have e : is ++ m :: t = (is ++ [m]) ++ t := by simp
  have := stretched_ones (s ++ [M]) rest.length w
    (inShape_append his (inShape_cons.2 ⟨hm, inShape_nil⟩)) ht.length
  rw [← e] at this
  rw [this]

/-- Segment reduction of the rows of an array. -/
theorem segment_ok (op : α → α → α) (init : α) (num P : ℕ) (rest : List ℕ) (d : ℕ → α) (dst : NDArray ℕ) :
    (segment op init num ⟨P :: rest, d⟩ dst).shape = num :: rest ∧
    ∀ i t, i < num → InShape t rest →
      entry (segment op init num ⟨P :: rest, d⟩ dst) (i :: t) =
        (((List.range P).filter fun p => decide (entry dst [p] = i)).map
          fun p => entry ⟨P :: rest, d⟩ (p :: t)).foldl op init := by
  refine ⟨rfl, ?_⟩
  intro i t hi ht
  unfold segment
  simp only [List.tail_cons]
  rw [entry_ofFn _ (show InShape (i :: t) (num :: rest) from inShape_cons.2 ⟨hi, ht⟩)]
  rw [← foldl_filter_map (List.range P) (fun p => decide (entry dst [p] = i))
    (fun p => entry ⟨P :: rest, d⟩ (p :: t)) op init]
  simp

theorem dense_index (s : List ℕ) : determineIndexType (some s) none none = .ok .dense := rfl
theorem sparse_dst_index (s : List ℕ) : determineIndexType none (some s) none = .ok .sparse := rfl
theorem sparse_src_index (s : List ℕ) : determineIndexType none none (some s) = .ok .sparse := rfl

section
variable [Add α] [Zero α] [Max α] [Min α]

theorem reduceDense_ok (mode : Reduction) (dt : Dtype α) (hdt : dt.isInteger || dt.isFloating)
    (inputs : NDArray α) (adj : NDArray ℕ) (mask : NDArray Bool) (keep : Bool) (num : Option ℕ)
    (B rest : List ℕ) (N M : ℕ) (hi : inputs.shape = B ++ ([N, M] ++ rest)) (ha : adj.shape = B ++ [N, M])
    (hm : mask.shape = B ++ [N, M]) :
    ∃ r, indexedReduceND mode dt inputs keep (some adj) (some mask) none num = .ok r ∧
      r.shape = B ++ [N] ++ (if keep then [1] else []) ++ rest ∧
      ∀ b i t, InShape b B → i < N → InShape t rest →
        entry r (b ++ [i] ++ (if keep then [0] else []) ++ t) =
          (denseValues inputs mask M b i t).foldl mode.op (mode.denseInit dt) := by
  have hnd : adj.ndim = (B ++ [N]).length + 1 := by unfold NDArray.ndim; rw [ha]; simp
  have hni : inputs.ndim = adj.ndim + rest.length := by
    rw [hnd]; unfold NDArray.ndim; rw [hi]; simp; omega
  obtain ⟨h1, h2⟩ := reduceAxis_ok mode.op (mode.denseInit dt) (B ++ [N]) rest M inputs.data mask.data keep
  refine ⟨_, ?_, h1, ?_⟩
  · unfold indexedReduceND
    show (if _ then _ else _) = _
    rw [if_neg (by cases h : dt.isInteger <;> cases h' : dt.isFloating <;> simp_all)]
    rw [if_neg (by omega), if_neg (by
      rw [hi, hnd, ha, ← List.append_assoc, List.take_left' (by simp)]; simp)]
    have hk : inputs.ndim - adj.ndim = rest.length := by omega
    have hresh : mask.reshape (adj.shape ++ List.replicate (inputs.ndim - adj.ndim) 1) =
        .ok ⟨((B ++ [N]) ++ [M]) ++ List.replicate rest.length 1, mask.data⟩ := by
      unfold NDArray.reshape
      rw [hm, ha, hk, if_pos (by simp)]
      simp
    rw [hresh]
    show Except.ok _ = _
    rw [hnd, Nat.add_sub_cancel]
    congr 2
    rw [ndarray_eta inputs _ hi]
    simp
  · intro b i t hb hii ht
    have := h2 (b ++ [i]) t (inShape_append hb (inShape_cons.2 ⟨hii, inShape_nil⟩)) ht
    rw [this]
    unfold denseValues
    rw [ndarray_eta inputs _ hi, ndarray_eta mask _ hm]
    simp

theorem reduceSparse_ok (mode : Reduction) (dt : Dtype α) (hdt : dt.isInteger || dt.isFloating)
    (inputs : NDArray α) (dst : NDArray ℕ) (mask : Option (NDArray Bool)) (num : ℕ)
    (B rest : List ℕ) (P : ℕ) (hi : inputs.shape = B ++ ([P] ++ rest)) (hd : dst.shape = B ++ [P])
    (hsize : B = [] ∨ (rest.prod ≠ 0 ∧ P ≠ 0)) :
    ∃ r, indexedReduceND mode dt inputs false none mask (some dst) (some num) = .ok r ∧
      r.shape = B ++ [num] ++ rest ∧
      ∀ b i t, InShape b B → i < num → InShape t rest →
        entry r (b ++ [i] ++ t) = (sparseValues inputs dst P b i t).foldl mode.op (mode.segmentInit dt) := by
  have hnd : dst.ndim = B.length + 1 := by unfold NDArray.ndim; rw [hd]; simp
  have hni : inputs.ndim = dst.ndim + rest.length := by
    rw [hnd]; unfold NDArray.ndim; rw [hi]; simp; omega
  have hstart : ∀ o, indexedReduceND mode dt inputs false none mask (some dst) (some num) = o ↔ (do
        let outputs ←
          if dst.ndim > 1 then do
            let reshapedInputs ← inputs.reshapeHead (inputs.shape.drop (dst.ndim - 1))
            let reshapedDst ← dst.reshapeHead (dst.shape.drop (dst.ndim - 1))
            let outputs ← vmap (fun x i => .ok (segment mode.op (mode.segmentInit dt) num x i)) reshapedInputs reshapedDst
            outputs.reshape (dst.shape.take (dst.ndim - 1) ++ outputs.shape.tail)
          else .ok (segment mode.op (mode.segmentInit dt) num inputs dst)
        Except.ok outputs) = o := by
    intro o
    have : indexedReduceND mode dt inputs false none mask (some dst) (some num) = (do
        let outputs ←
          if dst.ndim > 1 then do
            let reshapedInputs ← inputs.reshapeHead (inputs.shape.drop (dst.ndim - 1))
            let reshapedDst ← dst.reshapeHead (dst.shape.drop (dst.ndim - 1))
            let outputs ← vmap (fun x i => .ok (segment mode.op (mode.segmentInit dt) num x i)) reshapedInputs reshapedDst
            outputs.reshape (dst.shape.take (dst.ndim - 1) ++ outputs.shape.tail)
          else .ok (segment mode.op (mode.segmentInit dt) num inputs dst)
        Except.ok outputs) := by
      unfold indexedReduceND
      show (if _ then _ else _) = _
      rw [if_neg (by cases h : dt.isInteger <;> cases h' : dt.isFloating <;> simp_all)]
      dsimp only
      rw [if_neg (by omega), if_neg (by
        rw [hi, hnd, hd, ← List.append_assoc, List.take_left' (by simp)]; simp)]
      rfl
    rw [this]
  by_cases hB : B = []
  · subst hB
    obtain ⟨h1, h2⟩ := segment_ok mode.op (mode.segmentInit dt) num P rest inputs.data dst
    have he : inputs = ⟨P :: rest, inputs.data⟩ := ndarray_eta inputs _ hi
    refine ⟨_, (hstart _).2 ?_, h1, ?_⟩
    · rw [if_neg (by simp at hnd; omega)]
      show Except.ok _ = _
      rw [← he]
    · intro b i t hb hii ht
      obtain rfl : b = [] := by cases hb; rfl
      have := h2 i t hii ht
      refine Eq.trans this ?_
      unfold sparseValues
      rw [← he]
      simp
  · rcases hsize with h | ⟨hrest, hP⟩
    · exact absurd h hB
    have hPr : (P :: rest).prod ≠ 0 := by rw [List.prod_cons]; exact Nat.mul_ne_zero hP hrest
    have hd1 : dst.ndim - 1 = B.length := by omega
    have hi : inputs.shape = B ++ P :: rest := hi
    have he : inputs = ⟨B ++ P :: rest, inputs.data⟩ := ndarray_eta inputs _ hi
    have hde : dst = ⟨B ++ [P], dst.data⟩ := ndarray_eta dst _ hd
    obtain ⟨r, hr1, hr2, hr3⟩ := vmap_ok (fun x i => .ok (segment mode.op (mode.segmentInit dt) num x i)) B.prod
      (P :: rest) [P] (num :: rest) inputs.data dst.data
      (fun b => segment mode.op (mode.segmentInit dt) num (slice ⟨B.prod :: P :: rest, inputs.data⟩ b)
        (slice ⟨B.prod :: [P], dst.data⟩ b)) (fun _ => rfl) (fun _ => rfl)
    obtain ⟨r', h1, h2, h3⟩ := reshape_restore r B (num :: rest) hr2
    refine ⟨r', (hstart _).2 ?_, by rw [h2]; simp, ?_⟩
    · rw [if_pos (by have := List.length_pos_iff.2 hB; omega), hd1, hi, hd, List.drop_left' rfl, List.drop_left' rfl,
        List.take_left' rfl, he, hde, reshapeHead_append B (P :: rest) _ hPr, reshapeHead_append B [P] _ (by simpa using hP)]
      have : vmap (fun x i => Except.ok (segment mode.op (mode.segmentInit dt) num x i)) ⟨B.prod :: P :: rest, inputs.data⟩
        ⟨B.prod :: [P], dst.data⟩ = .ok r := hr1
      simp only [bind, Except.bind, this, h1]
    · intro b i t hb hii ht
      rw [List.append_assoc, h3 b _ hb.length]
      rw [show [i] ++ t = i :: t from rfl, hr3 _ _ (inShape_cons.2 ⟨hii, ht⟩)]
      have := (segment_ok mode.op (mode.segmentInit dt) num P rest
        (slice ⟨B.prod :: P :: rest, inputs.data⟩ (ravel B b)).data (slice ⟨B.prod :: [P], dst.data⟩ (ravel B b))).2 i t hii ht
      refine Eq.trans this ?_
      unfold sparseValues
      congr 1
      have e1 : ∀ p, entry (slice ⟨B.prod :: [P], dst.data⟩ (ravel B b)) [p] = entry dst (b ++ [p]) := by
        intro p
        rw [slice_entry, ← entry_merge B [P] dst.data hb.length, ← hde]
      have e2 : ∀ p, entry ⟨P :: rest, (slice ⟨B.prod :: P :: rest, inputs.data⟩ (ravel B b)).data⟩ (p :: t) =
          entry inputs (b ++ [p] ++ t) := by
        intro p
        have : entry (slice ⟨B.prod :: P :: rest, inputs.data⟩ (ravel B b)) (p :: t) = entry inputs (b ++ [p] ++ t) := by
          rw [slice_entry, ← entry_merge B (P :: rest) inputs.data hb.length, ← he]
          simp
        exact this
      simp only [e1, e2]

end

theorem flatMap_pair_filter {β : Type} (N i : ℕ) (L : ℕ → List β) :
    (((List.range N).flatMap fun k => (L k).map fun j => (k, j)).filter fun e => decide (e.1 = i)).map Prod.snd =
      if i < N then L i else [] := by
  induction N with
  | zero => simp
  | succ N ih =>
    rw [List.range_succ, List.flatMap_append, List.filter_append, List.map_append, ih]
    simp only [List.flatMap_cons, List.flatMap_nil, List.append_nil]
    by_cases h : N = i
    · subst h
      have : ((L N).map fun j => (N, j)).filter (fun e => decide (e.1 = N)) = (L N).map fun j => (N, j) := by
        rw [List.filter_eq_self]
        rintro ⟨a, c⟩ hh
        simp at hh; simp [hh.2]
      rw [this]
      simp
    · have : ((L N).map fun j => (N, j)).filter (fun e => decide (e.1 = i)) = [] := by
        rw [List.filter_eq_nil_iff]
        rintro ⟨a, c⟩ hh
        simp at hh; simp [← hh.2, h]
      rw [this]
      simp only [List.map_nil, List.append_nil]
      by_cases h1 : i < N
      · rw [if_pos h1, if_pos (by omega)]
      · rw [if_neg h1, if_neg (by omega)]

/-- Values gathered with a dense index list, unmasked entries of row `i`. -/
theorem denseValues_gathered (x g : NDArray α) (adj : NDArray ℕ) (mask : NDArray Bool) (B rest : List ℕ) (n N M : ℕ)
    (hg : ∀ b i m t, InShape b B → i < N → m < M → InShape t rest → entry adj (b ++ [i, m]) < n →
      entry g (b ++ [i, m] ++ t) = entry x (b ++ [entry adj (b ++ [i, m])] ++ t))
    (hmask : ∀ b i m, InShape b B → i < N → m < M → entry mask (b ++ [i, m]) = decide (entry adj (b ++ [i, m]) < n))
    (b : List ℕ) (i : ℕ) (t : List ℕ) (hb : InShape b B) (hi : i < N) (ht : InShape t rest) :
    denseValues g mask M b i t = neighbourValues x (denseGraph adj n N M b) b i t := by
  unfold neighbourValues denseGraph denseValues
  have e : (fun e : ℕ × ℕ => entry x (b ++ [e.2] ++ t)) = (fun j => entry x (b ++ [j] ++ t)) ∘ Prod.snd := rfl
  rw [e, ← List.map_map, flatMap_pair_filter, if_pos hi, List.filter_map, List.map_map]
  have h1 : (List.range M).filter (fun m => entry mask (b ++ [i, m])) =
      (List.range M).filter ((fun j => decide (j < n)) ∘ fun m => entry adj (b ++ [i, m])) := by
    apply List.filter_congr
    intro m hm
    rw [hmask b i m hb hi (List.mem_range.1 hm)]
    rfl
  rw [h1]
  apply List.map_congr_left
  intro m hm
  obtain ⟨h2, h3⟩ := List.mem_filter.1 hm
  exact hg b i m t hb hi (List.mem_range.1 h2) ht (by simpa using h3)

/-- Values gathered with a sparse index list, positions with destination `i`. -/
theorem sparseValues_gathered (x g : NDArray α) (dst src : NDArray ℕ) (B rest : List ℕ) (n N P : ℕ)
    (hg : ∀ b p t, InShape b B → p < P → InShape t rest → entry src (b ++ [p]) < n →
      entry g (b ++ [p] ++ t) = entry x (b ++ [entry src (b ++ [p])] ++ t))
    (b : List ℕ) (i : ℕ) (t : List ℕ) (hb : InShape b B) (hi : i < N) (ht : InShape t rest)
    (hsrc : ∀ e ∈ sparseGraph dst src N P b, e.2 < n) :
    sparseValues g dst P b i t = neighbourValues x (sparseGraph dst src N P b) b i t := by
  have h0 : ∀ p < P, entry dst (b ++ [p]) < N → entry src (b ++ [p]) < n := by
    intro p hp h
    apply hsrc (entry dst (b ++ [p]), entry src (b ++ [p]))
    unfold sparseGraph
    rw [List.mem_filter, List.mem_map]
    exact ⟨⟨p, List.mem_range.2 hp, rfl⟩, by simpa using h⟩
  unfold neighbourValues sparseGraph sparseValues
  rw [List.filter_filter, List.filter_map, List.map_map]
  have h1 : (List.range P).filter ((fun a : ℕ × ℕ => decide (a.1 = i) && decide (a.1 < N)) ∘
      fun p => (entry dst (b ++ [p]), entry src (b ++ [p]))) =
      (List.range P).filter fun p => decide (entry dst (b ++ [p]) = i) := by
    apply List.filter_congr
    intro p _
    simp only [Function.comp]
    by_cases h : entry dst (b ++ [p]) = i <;> simp [h, hi]
  rw [h1]
  apply List.map_congr_left
  intro p hp
  obtain ⟨h2, h3⟩ := List.mem_filter.1 hp
  have h3 : entry dst (b ++ [p]) = i := by simpa using h3
  exact hg b p t hb (List.mem_range.1 h2) ht (h0 p (List.mem_range.1 h2) (by omega))

theorem neighbourValues_perm (x : NDArray α) {E E' : List (ℕ × ℕ)} (h : E.Perm E') (b : List ℕ) (i : ℕ) (t : List ℕ) :
    (neighbourValues x E b i t).Perm (neighbourValues x E' b i t) := (h.filter _).map _

theorem denseGraph_lt (adj : NDArray ℕ) (n N M : ℕ) (b : List ℕ) : ∀ e ∈ denseGraph adj n N M b, e.2 < n := by
  intro e he
  unfold denseGraph at he
  simp only [List.mem_flatMap, List.mem_map, List.mem_filter] at he
  obtain ⟨_, _, _, ⟨_, h⟩, rfl⟩ := he
  simpa using h

end E3x
