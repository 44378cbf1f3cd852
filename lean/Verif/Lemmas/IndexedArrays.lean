import Verif.Lemmas.Arrays
import Verif.Model.IndexedArrays

/-!
# Gather and reduce on arrays of any rank
-/

namespace E3x

open Spec NDArray

variable {α : Type}

theorem ndarray_eta (x : NDArray α) (s : List ℕ) (h : x.shape = s) : x = ⟨s, x.data⟩ := by cases x; simp only at h; rw [h]

/-- The common core of `_gather_dense` and `_gather_sparse`: batch axes `B`, index axes `s`. -/
theorem gather_core (inputs : NDArray α) (idx : NDArray ℕ) (B s rest : List ℕ) (n : ℕ)
    (hi : inputs.shape = B ++ n :: rest) (hx : idx.shape = B ++ s) (hn : n ≠ 0)
    (hB : B ≠ []) (hrest : rest.prod ≠ 0) (hs : s.prod ≠ 0) :
    ∃ r, (do
        let reshapedInputs ← inputs.reshapeHead (inputs.shape.drop B.length)
        let reshapedIdx ← idx.reshapeHead (idx.shape.drop B.length)
        let gathered ← vmap NDArray.take reshapedInputs reshapedIdx
        gathered.reshape (idx.shape.take B.length ++ gathered.shape.tail)) = Except.ok r ∧
      r.shape = B ++ (s ++ rest) ∧
      ∀ b is t, InShape b B → InShape is s → InShape t rest →
        entry r (b ++ (is ++ t)) = entry inputs (b ++ min (entry idx (b ++ is)) (n - 1) :: t) := by
  rw [ndarray_eta inputs _ hi, ndarray_eta idx _ hx]
  have hnr : (n :: rest).prod ≠ 0 := by rw [List.prod_cons]; exact Nat.mul_ne_zero hn hrest
  simp only [List.drop_left' rfl, List.take_left' rfl]
  rw [reshapeHead_append B (n :: rest) _ hnr, reshapeHead_append B s _ hs]
  have key : ∀ b, ∃ g : NDArray α, NDArray.take (slice ⟨B.prod :: n :: rest, inputs.data⟩ b)
      (slice ⟨B.prod :: s, idx.data⟩ b) = .ok g ∧ g.shape = s ++ rest ∧
      ∀ is js, InShape is s → InShape js rest → entry g (is ++ js) =
        entry (slice ⟨B.prod :: n :: rest, inputs.data⟩ b)
          (min (entry (slice ⟨B.prod :: s, idx.data⟩ b) is) (n - 1) :: js) :=
    fun b => take_ok n rest _ _ hn
  choose g hg1 hg2 hg3 using key
  obtain ⟨r, hr1, hr2, hr3⟩ := vmap_ok NDArray.take B.prod (n :: rest) s (s ++ rest) inputs.data idx.data g hg1 hg2
  obtain ⟨r', h1, h2, h3⟩ := reshape_restore r B (s ++ rest) hr2
  refine ⟨r', ?_, h2, ?_⟩
  · show (do
      let gathered ← vmap NDArray.take _ _
      gathered.reshape (B ++ gathered.shape.tail)) = _
    rw [hr1]
    exact h1
  · intro b is t hb his ht
    rw [h3 b _ hb.length, hr3 _ _ (inShape_append his ht), hg3 _ _ _ his ht, slice_entry, slice_entry,
      ← entry_merge B s idx.data hb.length, ← entry_merge B (n :: rest) inputs.data hb.length]

theorem gatherDense_ok (inputs : NDArray α) (adj : NDArray ℕ) (B rest : List ℕ) (n N M : ℕ)
    (hi : inputs.shape = B ++ n :: rest) (ha : adj.shape = B ++ [N, M]) (hn : n ≠ 0)
    (hsize : B = [] ∨ (rest.prod ≠ 0 ∧ N * M ≠ 0)) :
    ∃ r, gatherDenseND inputs adj = .ok r ∧ r.shape = B ++ ([N, M] ++ rest) ∧
      ∀ b is t, InShape b B → InShape is [N, M] → InShape t rest →
        entry r (b ++ (is ++ t)) = entry inputs (b ++ min (entry adj (b ++ is)) (n - 1) :: t) := by
  have hnd : adj.ndim = B.length + 2 := by unfold NDArray.ndim; rw [ha]; simp
  have hni : inputs.ndim = B.length + (rest.length + 1) := by unfold NDArray.ndim; rw [hi]; simp
  unfold gatherDenseND
  rw [if_neg (by omega), if_neg (by omega), if_neg]
  · by_cases hB : B = []
    · subst hB
      rw [if_neg (by simp at hnd; omega)]
      obtain ⟨r, h1, h2, h3⟩ := take_ok n rest inputs.data adj hn
      refine ⟨r, ?_, by rw [h2, ha]; simp, ?_⟩
      · rw [← h1]; congr 1; exact ndarray_eta _ _ hi
      · intro b is t hb his ht
        obtain rfl : b = [] := by cases hb; rfl
        simp only [List.nil_append]
        rw [h3 is t (by rw [ha]; exact his) ht]
        exact entry_congr (ndarray_eta _ _ hi).symm
    · rw [if_pos (by have := List.length_pos_iff.2 hB; omega)]
      have h2 : adj.ndim - 2 = B.length := by omega
      rw [h2]
      rcases hsize with h | ⟨h, h'⟩
      · exact absurd h hB
      · exact gather_core inputs adj B [N, M] rest n hi ha hn hB h (by simpa using h')
  · have h2 : adj.ndim - 2 = B.length := by omega
    rw [h2, ha, hi, List.take_left' rfl, List.take_left' rfl]
    simp

theorem gatherSparse_ok (inputs : NDArray α) (src : NDArray ℕ) (B rest : List ℕ) (n P : ℕ)
    (hi : inputs.shape = B ++ n :: rest) (ha : src.shape = B ++ [P]) (hn : n ≠ 0)
    (hsize : B = [] ∨ (rest.prod ≠ 0 ∧ P ≠ 0)) :
    ∃ r, gatherSparseND inputs src = .ok r ∧ r.shape = B ++ ([P] ++ rest) ∧
      ∀ b is t, InShape b B → InShape is [P] → InShape t rest →
        entry r (b ++ (is ++ t)) = entry inputs (b ++ min (entry src (b ++ is)) (n - 1) :: t) := by
  have hnd : src.ndim = B.length + 1 := by unfold NDArray.ndim; rw [ha]; simp
  have hni : inputs.ndim = B.length + (rest.length + 1) := by unfold NDArray.ndim; rw [hi]; simp
  unfold gatherSparseND
  rw [if_neg (by omega), if_neg (by omega), if_neg]
  · by_cases hB : B = []
    · subst hB
      rw [if_neg (by simp at hnd; omega)]
      obtain ⟨r, h1, h2, h3⟩ := take_ok n rest inputs.data src hn
      refine ⟨r, ?_, by rw [h2, ha]; simp, ?_⟩
      · rw [← h1]; congr 1; exact ndarray_eta _ _ hi
      · intro b is t hb his ht
        obtain rfl : b = [] := by cases hb; rfl
        simp only [List.nil_append]
        rw [h3 is t (by rw [ha]; exact his) ht]
        exact entry_congr (ndarray_eta _ _ hi).symm
    · rw [if_pos (by have := List.length_pos_iff.2 hB; omega)]
      have h2 : src.ndim - 1 = B.length := by omega
      rw [h2]
      rcases hsize with h | ⟨h, h'⟩
      · exact absurd h hB
      · exact gather_core inputs src B [P] rest n hi ha hn hB h (by simpa using h')
  · have h2 : src.ndim - 1 = B.length := by omega
    rw [h2, ha, hi, List.take_left' rfl, List.take_left' rfl]
    simp

end E3x
