import Verif.Lemmas.Indexed
import Mathlib.Data.List.Nodup

/-!
# C01: pairwise index lists enumerate every ordered pair exactly once
-/

namespace E3x

theorem filter_map_flatten {α β : Type _} (l : List α) (p : α → Bool) (f : α → β) :
    (l.filter p).map f = (l.map fun a => if p a then [f a] else []).flatten := by
  induction l with
  | nil => rfl
  | cons a l ih => cases h : p a <;> simp [h, ih]

theorem allPairs_eq (n : Nat) (m : Bool) :
    Spec.allPairs n m = ((List.range (n * n)).filter fun k => !(m && k / n == k % n)).map
      fun k => (k / n, k % n) := by
  have := range_mul_map (fun i j => if !(m && i == j) then [(i, j)] else []) n n
  have h2 := congrArg List.flatten this
  have e1 : Spec.allPairs n m = (List.flatMap (fun i => List.map (fun j =>
      if !(m && i == j) then [(i, j)] else []) (List.range n)) (List.range n)).flatten := by
    unfold Spec.allPairs
    rw [List.flatMap_def, List.flatMap_def, List.flatten_flatten]
    congr 1
    rw [List.map_map]
    apply List.map_congr_left
    intro i _
    simp only [Function.comp]
    exact filter_map_flatten _ (fun j => !(m && i == j)) _
  rw [e1, h2]
  exact (filter_map_flatten (List.range (n*n)) (fun k => !(m && k / n == k % n)) _).symm

/-- The specification list contains exactly the allowed ordered pairs … -/
theorem mem_allPairs {n : Nat} {m : Bool} {i j : Nat} :
    (i, j) ∈ Spec.allPairs n m ↔ i < n ∧ j < n ∧ (m = true → i ≠ j) := by
  simp only [Spec.allPairs, List.mem_flatMap, List.mem_range, List.mem_map, List.mem_filter,
    Prod.mk.injEq]
  constructor
  · rintro ⟨a, h1, b, ⟨h2, h3⟩, rfl, rfl⟩
    exact ⟨h1, h2, by rintro rfl rfl; simp at h3⟩
  · rintro ⟨h1, h2, h3⟩
    exact ⟨i, h1, j, ⟨h2, by cases m <;> simp_all⟩, rfl, rfl⟩

/-- … each of them once. -/
theorem nodup_allPairs (n : Nat) (m : Bool) : (Spec.allPairs n m).Nodup := by
  rw [allPairs_eq]
  refine List.Nodup.map_on ?_ (List.nodup_range.filter _)
  intro a _ b _ h
  simp only [Prod.mk.injEq] at h
  rw [← Nat.div_add_mod a n, ← Nat.div_add_mod b n, h.1, h.2]

/-- **C01 (sparse).** For `num ≥ 1` the destination/source vectors of `sparse_pairwise_indices` are, edge by
edge, the lexicographic enumeration of all ordered pairs (without loops iff `mask_self`). -/
theorem C01_sparse_pairwise (n : Nat) (hn : 1 ≤ n) (m : Bool) :
    sparsePairwiseIndices n m =
      .ok ((Spec.allPairs n m).map Prod.fst, (Spec.allPairs n m).map Prod.snd) := by
  unfold sparsePairwiseIndices
  rw [if_neg (by omega)]
  simp only [Int.toNat_natCast, repeatEach_range, tile_range, allPairs_eq, List.map_map]
  cases m with
  | false => simp [Function.comp_def]
  | true =>
    simp only [if_true, deleteSlice_map_range]
    have : (List.range (n*n)).filter (fun k => !(k % (n+1) == 0)) =
        (List.range (n*n)).filter (fun k => !(true && k / n == k % n)) := by
      apply List.filter_congr
      intro k hk
      have := diag_iff (List.mem_range.1 hk)
      simp [this]
    rw [this]; rfl

/-- **C01 (sparse), membership form**: every allowed ordered pair occurs exactly once as an edge of the
returned vectors, and nothing else occurs. -/
theorem C01_sparse_pairwise_complete (n : Nat) (hn : 1 ≤ n) (m : Bool) :
    ∃ dst src, sparsePairwiseIndices n m = .ok (dst, src) ∧ dst.length = src.length ∧
      ∀ i j, (dst.zip src).count (i, j) =
        if i < n ∧ j < n ∧ (m = true → i ≠ j) then 1 else 0 := by
  refine ⟨_, _, C01_sparse_pairwise n hn m, by simp, ?_⟩
  intro i j
  have e : ((Spec.allPairs n m).map Prod.fst).zip ((Spec.allPairs n m).map Prod.snd)
      = Spec.allPairs n m := by
    rw [List.zip_map']; simp
  rw [e]
  split
  · next h => exact List.count_eq_one_of_mem (nodup_allPairs n m) (mem_allPairs.2 h)
  · next h => exact List.count_eq_zero_of_not_mem (fun hm => h (mem_allPairs.1 hm))

theorem filter_ne_length {n i : Nat} (hi : i < n) :
    ((List.range n).filter fun j => !(true && i == j)).length = n - 1 := by
  have h1 : ((List.range n).filter fun j => !(true && i == j)) = (List.range n).erase i := by
    rw [List.nodup_range.erase_eq_filter]
    apply List.filter_congr
    intro x _
    by_cases h : i = x
    · subst h; simp
    · rw [show (i == x) = false by simpa using h, show (x != i) = true by simpa using Ne.symm h]
      rfl
  rw [h1, List.length_erase_of_mem (by simpa using hi), List.length_range]

/-- **C01 (dense).** For `num ≥ 1`, `dense_pairwise_indices` returns `num` rows; row `i` lists, in
increasing order, every `j < num` (without `i` itself iff `mask_self`). -/
theorem C01_dense_pairwise (n : Nat) (hn : 1 ≤ n) (m : Bool) :
    densePairwiseIndices n m =
      .ok ((List.range n).map fun i => (List.range n).filter fun j => !(m && i == j)) := by
  unfold densePairwiseIndices
  rw [if_neg (by omega)]
  simp only [Int.toNat_natCast]
  congr 1
  have key : (if m = true then deleteSlice (tile (List.range n) n) 0 (n*n) (n+1)
      else tile (List.range n) n) =
      ((List.range n).map fun i => (List.range n).filter fun j => !(m && i == j)).flatten := by
    have hs := C01_sparse_pairwise n hn m
    unfold sparsePairwiseIndices at hs
    rw [if_neg (by omega)] at hs
    simp only [Int.toNat_natCast] at hs
    have hsnd : (Spec.allPairs n m).map Prod.snd =
        ((List.range n).map fun i => (List.range n).filter fun j => !(m && i == j)).flatten := by
      unfold Spec.allPairs
      rw [List.map_flatMap, List.flatMap_def]
      congr 1
      apply List.map_congr_left
      intro i _
      simp [Function.comp_def]
    rw [← hsnd]
    cases m with
    | false => simp only [Bool.false_eq_true, if_false, Except.ok.injEq, Prod.mk.injEq] at hs ⊢; exact hs.2
    | true => simp only [if_true, Except.ok.injEq, Prod.mk.injEq] at hs ⊢; exact hs.2
  rw [key]
  have := reshapeRows_flatten
    ((List.range n).map fun i => (List.range n).filter fun j => !(m && i == j))
    (if m then n - 1 else n) (by
      intro r hr
      simp only [List.mem_map, List.mem_range] at hr
      obtain ⟨i, hi, rfl⟩ := hr
      cases m with
      | false => simp
      | true => simpa using filter_ne_length hi)
  simpa using this

/-- **C01 (errors).** `num < 1` raises `ValueError` in both functions. -/
theorem C01_pairwise_error (num : Int) (h : num < 1) (m : Bool) :
    densePairwiseIndices num m = .error .valueError ∧
    sparsePairwiseIndices num m = .error .valueError := by
  simp [densePairwiseIndices, sparsePairwiseIndices, h]

-- Non-vacuity: the docstring-style example with three nodes.
example : sparsePairwiseIndices 3 = .ok ([0, 0, 1, 1, 2, 2], [1, 2, 0, 2, 0, 1]) := by decide
example : densePairwiseIndices 3 = .ok [[1, 2], [0, 2], [0, 1]] := by decide
example : densePairwiseIndices 1 = .ok [[]] := by decide

end E3x
