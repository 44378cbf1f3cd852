import Verif.Lemmas.TensorIndices

/-!
# Compositions of tensor conversions
-/

namespace E3x

noncomputable section

open Finset Spec

/-! ## tensors of an array -/

/-- the tensor at one position of the batch -/
def tensorAt (x : NdArray) (l : ℕ) (b : List ℕ) (α : List (Fin 3)) : ℝ := x.val (b ++ tensorIndex l α)

theorem tensorIndex_pos {l : ℕ} (hl : 1 ≤ l) (α : List (Fin 3)) : tensorIndex l α = α.map Fin.val := if_neg (by omega)

theorem map_val_inj {α β : List (Fin 3)} (h : (α.map Fin.val).Perm (β.map Fin.val)) : α.Perm β :=
  (List.map_perm_map_iff Fin.val_injective).mp h

theorem isSymmetric_iff (batch : List ℕ) {l : ℕ} (hl : 1 ≤ l) (x : NdArray) : IsSymmetric batch l x ↔
    ∀ b, InBounds b batch → ∀ α β : List (Fin 3), α.length = l → α.Perm β → tensorAt x l b α = tensorAt x l b β := by
  unfold tensorAt
  simp only [tensorIndex_pos hl]
  constructor
  · intro h b hb α β hα hp
    exact h b hb _ _ ((inBounds_replicate l _).mpr ⟨α, hα, rfl⟩) (hp.map _)
  · intro h b hb α β hα hp
    obtain ⟨α', h1, rfl⟩ := (inBounds_replicate l _).mp hα
    obtain ⟨β', -, rfl⟩ : ∃ β' : List (Fin 3), β'.length = l ∧ β = β'.map Fin.val := by
      rw [← inBounds_replicate]
      unfold InBounds
      have : ∀ k ∈ β, k < 3 := fun k hk => by
        obtain ⟨a, -, rfl⟩ := List.mem_map.mp (hp.mem_iff.mpr hk)
        exact a.2
      refine List.forall₂_iff_get.mpr ⟨by rw [← hp.length_eq, List.length_map, List.length_replicate, h1], fun i h2 h3 => ?_⟩
      simp only [List.get_eq_getElem, List.getElem_replicate]
      exact this _ (List.getElem_mem h2)
    exact h b hb _ _ h1 (map_val_inj hp)

theorem isSymmetric_tensorAt {batch : List ℕ} {l : ℕ} {x : NdArray} (h : IsSymmetric batch l x) {b : List ℕ}
    (hb : InBounds b batch) : ∀ α β : List (Fin 3), α.length = l → α.Perm β → tensorAt x l b α = tensorAt x l b β := by
  by_cases hl : l = 0
  · subst hl
    intro α β _ _
    simp [tensorAt, tensorIndex]
  · exact (isSymmetric_iff batch (by omega) x).mp h b hb

theorem sum_range_three (f : ℕ → ℝ) : ∑ k ∈ range 3, f k = ∑ k : Fin 3, f k := (Fin.sum_univ_eq_sum_range f 3).symm

theorem isTraceless_tensorAt {batch : List ℕ} {l : ℕ} {x : NdArray} (h : IsTraceless batch l x) {b : List ℕ}
    (hb : InBounds b batch) : TraceFree l (tensorAt x l b) := by
  intro β hβ
  have := h b hb [] [] (β.map Fin.val) (by simp; omega) ((inBounds_replicate _ _).mpr ⟨β, by omega, rfl⟩)
  rw [sum_range_three] at this
  unfold tensorAt
  simpa [tensorIndex, show l ≠ 0 by omega] using this

theorem isTraceless_of {batch : List ℕ} {l : ℕ} {x : NdArray}
    (hs : ∀ b, InBounds b batch → ∀ α β : List (Fin 3), α.length = l → α.Perm β → tensorAt x l b α = tensorAt x l b β)
    (h : ∀ b, InBounds b batch → TraceFree l (tensorAt x l b)) : IsTraceless batch l x := by
  intro b hb α β γ hlen hin
  obtain ⟨δ, hδ, e⟩ := (inBounds_replicate _ _).mp hin
  obtain ⟨δ1, γ', rfl, e1, rfl⟩ := List.append_eq_map_iff.mp e
  obtain ⟨α', β', rfl, rfl, rfl⟩ := List.map_eq_append_iff.mp e1
  rw [sum_range_three, ← h b hb (α' ++ β' ++ γ') (by simpa [add_assoc] using hlen)]
  refine sum_congr rfl fun k _ => ?_
  simp only [List.length_map] at hlen
  have e2 : b ++ (List.map Fin.val α' ++ [(k : ℕ)] ++ List.map Fin.val β' ++ [(k : ℕ)] ++ List.map Fin.val γ') =
      b ++ tensorIndex l (α' ++ [k] ++ β' ++ [k] ++ γ') := by
    rw [tensorIndex_pos (by omega)]
    simp
  rw [e2]
  refine hs b hb _ _ (by simp; omega) ?_
  simp only [List.append_assoc]
  refine (List.perm_middle (a := k) (l₁ := α')).trans (.cons k ?_)
  have := List.perm_middle (a := k) (l₁ := α' ++ β') (l₂ := γ')
  simpa [List.append_assoc] using this

/-! ## values -/

/-- the coefficient of the component `k` in the entry `α`, without normalisation -/
def toTensor (cart : Bool) (l k : ℕ) (α : List (Fin 3)) : ℝ := detraceConst l * shTensor l (componentOrder cart (l ^ 2 + k)) α

theorem toTensor_stored (cart : Bool) {l k : ℕ} (hk : k < 2 * l + 1) (i : Fin (numCartMonomials l)) :
    toTensor cart l k ((storedIndices l).getD i []) = s2tMatrix l ⟨rowOf cart l k, rowOf_lt cart hk⟩ i := by
  rw [s2tMatrix_apply, toTensor]
  dsimp only
  rw [rowOf_order cart hk]

theorem toTensor_perm (cart : Bool) (l k : ℕ) {α β : List (Fin 3)} (h : α.Perm β) :
    toTensor cart l k α = toTensor cart l k β := by
  unfold toTensor
  rw [shTensor_perm l _ _ _ h]

/-- sums over the components of a degree are sums over the orders -/
theorem sum_block_orders (cart : Bool) (l : ℕ) (g : ℤ → ℝ) :
    ∑ k ∈ range (2 * l + 1), g (componentOrder cart (l ^ 2 + k)) = ∑ m ∈ Icc (-(l : ℤ)) l, g m := by
  rw [← sum_fin_orders, ← sum_rowOf cart l]
  refine sum_congr rfl fun k hk => ?_
  have hk : k < 2 * l + 1 := mem_range.mp hk
  rw [dif_pos (rowOf_lt cart hk)]
  dsimp only
  rw [rowOf_order cart hk]

/-- `s2t @ t2s` is the identity, in the order of the components -/
theorem toTensor_inverse (cart : Bool) {l k k' : ℕ} (hk : k < 2 * l + 1) (hk' : k' < 2 * l + 1) :
    ∑ i : Fin (numCartMonomials l), toTensor cart l k' ((storedIndices l).getD i []) *
      t2sMatrix l i ⟨rowOf cart l k, rowOf_lt cart hk⟩ = if k' = k then 1 else 0 := by
  have h := congrFun (congrFun (s2t_t2s l) ⟨rowOf cart l k', rowOf_lt cart hk'⟩) ⟨rowOf cart l k, rowOf_lt cart hk⟩
  rw [Matrix.mul_apply, Matrix.one_apply] at h
  rw [sum_congr rfl fun i _ => by rw [toTensor_stored cart hk' i], h]
  by_cases e : k' = k
  · subst e
    rw [if_pos rfl, if_pos rfl]
  · rw [if_neg e, if_neg fun h => e (rowOf_inj cart hk' hk (Fin.mk.inj h))]

/-- symmetric traceless tensors are determined by their components -/
theorem tensor_reconstruct (cart : Bool) (l : ℕ) (t : List (Fin 3) → ℝ)
    (ht : ∀ α β : List (Fin 3), α.length = l → α.Perm β → t α = t β) (htr : TraceFree l t) (α : List (Fin 3))
    (hα : α.length = l) :
    ∑ k ∈ (range (2 * l + 1)).attach, (∑ i : Fin (numCartMonomials l), t ((storedIndices l).getD i []) *
      t2sMatrix l i ⟨rowOf cart l k, rowOf_lt cart (mem_range.mp k.2)⟩) * toTensor cart l k α = t α := by
  set v : ℕ → ℝ := fun k => sumTup l fun α => t α * shTensor l (componentOrder cart (l ^ 2 + k)) α with hv
  have hexp : ∀ α : List (Fin 3), α.length = l → t α = ∑ k ∈ range (2 * l + 1), v k * toTensor cart l k α := by
    intro α hα
    rw [tensor_expansion l t ht htr α hα, ← sum_block_orders cart l]
    refine sum_congr rfl fun k _ => ?_
    rw [hv, toTensor]
    ring
  have hcomp : ∀ k (hk : k < 2 * l + 1), ∑ i : Fin (numCartMonomials l), t ((storedIndices l).getD i []) *
      t2sMatrix l i ⟨rowOf cart l k, rowOf_lt cart hk⟩ = v k := by
    intro k hk
    rw [sum_congr rfl fun i _ => by rw [hexp _ (by obtain ⟨h1, h2, h3⟩ := stored_get l i i.2; rw [h2, h3]), sum_mul], sum_comm]
    rw [sum_congr rfl fun k' hk' => by
      rw [sum_congr rfl fun i _ => mul_assoc _ _ _, ← mul_sum, toTensor_inverse cart hk (mem_range.mp hk'), mul_ite, mul_one,
        mul_zero]]
    rw [sum_ite_eq' (range (2 * l + 1)) k v, if_pos (mem_range.mpr hk)]
  rw [hexp α hα, ← sum_attach (range (2 * l + 1))]
  refine sum_congr rfl fun k _ => ?_
  rw [hcomp k (mem_range.mp k.2)]

/-! ## rotations -/

theorem rotateTensor_eq (R : Fin 3 → Fin 3 → ℝ) (n : ℕ) (t : List (Fin 3) → ℝ) (i : Fin n → Fin 3) :
    rotateTensor R t (List.ofFn i) = ∑ j : Fin n → Fin 3, t (List.ofFn j) * ∏ k, R (j k) (i k) := by
  induction n generalizing t with
  | zero => simp [rotateTensor]
  | succ n ih =>
    rw [List.ofFn_succ, rotateTensor, ih, ← Equiv.sum_comp (Fin.consEquiv fun _ : Fin (n + 1) => Fin 3), Fintype.sum_prod_type,
      sum_comm]
    refine sum_congr rfl fun j _ => ?_
    rw [sum_mul]
    refine sum_congr rfl fun b _ => ?_
    rw [Fin.prod_univ_succ]
    simp only [Fin.consEquiv_apply, Fin.cons_zero, Fin.cons_succ, List.ofFn_succ]
    ring

theorem rotateTensor_congr (R : Fin 3 → Fin 3 → ℝ) (n : ℕ) (t u : List (Fin 3) → ℝ) (h : ∀ α, α.length = n → t α = u α)
    (α : List (Fin 3)) (hα : α.length = n) : rotateTensor R t α = rotateTensor R u α := by
  induction α generalizing t u n with
  | nil => exact h [] (by simpa using hα)
  | cons a α ih =>
    rw [rotateTensor, rotateTensor]
    refine ih (n - 1) _ _ (fun β hβ => ?_) (by simp at hα; omega)
    refine sum_congr rfl fun b _ => ?_
    rw [h _ (by simp at hα; simp; omega)]

theorem rotateTensor_toTensor (cart : Bool) {R : Fin 3 → Fin 3 → ℝ} (hR : IsOrthogonal R) {l k : ℕ} (hk : k < 2 * l + 1)
    (α : List (Fin 3)) (hα : α.length = l) : rotateTensor R (toTensor cart l k) α =
      ∑ j ∈ range (2 * l + 1), dMatrix cart R (l ^ 2 + k) (l ^ 2 + j) * toTensor cart l j α := by
  have hb := componentOrder_bounds cart (l ^ 2 + k)
  rw [degreeOf_block hk] at hb
  have e : rotateTensor R (toTensor cart l k) α =
      detraceConst l * rotateTensor R (shTensor l (componentOrder cart (l ^ 2 + k))) α := by
    have := rotateTensor_add R ({()} : Finset Unit) (fun _ => detraceConst l)
      (fun _ => shTensor l (componentOrder cart (l ^ 2 + k))) α
    simp only [sum_singleton] at this
    exact this
  rw [e, rotateTensor_shTensor hR l _ hb α hα, ← sum_block_orders cart l, mul_sum]
  refine sum_congr rfl fun j hj => ?_
  have hj := mem_range.mp hj
  rw [dMatrix, degreeOf_block hk, degreeOf_block hj, if_pos rfl, toTensor]
  ring

end

end E3x
