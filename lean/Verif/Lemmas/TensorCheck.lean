import Verif.Lemmas.TensorResults

/-!
# Permutations of axes
-/

namespace E3x

noncomputable section

open Finset Spec

theorem map_getD_range (a : List ℕ) : (List.range a.length).map (fun k => a.getD k 0) = a := by
  apply List.ext_getElem
  · simp
  · intro i h1 h2
    rw [List.getElem_map, List.getElem_range, List.getD_eq_getElem?_getD, List.getElem?_eq_getElem h2, Option.getD_some]

/-- the tensor index in `x` of the entry `a` of the transposed array -/
def permutedIndex (nb l : ℕ) (p a : List ℕ) : List ℕ := (List.range l).map fun j => a.getD (p.idxOf (nb + j)) 0

theorem permutedIndex_perm {nb l : ℕ} {p a : List ℕ} (hp : p.Perm (List.range' nb l)) (ha : a.length = l) :
    (permutedIndex nb l p a).Perm a := by
  have hlen : p.length = l := by rw [hp.length_eq, List.length_range']
  have hmem : ∀ j < l, nb + j ∈ p := fun j hj => hp.mem_iff.mpr (List.mem_range'_1.mpr ⟨by omega, by omega⟩)
  have h : ((List.range l).map fun j => p.idxOf (nb + j)).Perm (List.range l) := by
    refine List.Subperm.perm_of_length_le (List.subperm_of_subset ?_ ?_) (by simp)
    · refine List.Nodup.map_on (fun a ha b _ e => ?_) List.nodup_range
      have := (List.idxOf_inj (hmem a (List.mem_range.mp ha))).mp e
      omega
    · intro k hk
      obtain ⟨j, hj, rfl⟩ := List.mem_map.mp hk
      rw [List.mem_range, ← hlen]
      exact List.idxOf_lt_length_iff.mpr (hmem j (List.mem_range.mp hj))
  have := h.map fun k => a.getD k 0
  rw [List.map_map] at this
  refine this.trans ?_
  rw [← ha, map_getD_range]

theorem exists_permutedIndex {nb l : ℕ} {a β : List ℕ} (ha : a.length = l) (h : β.Perm a) :
    ∃ p, p.Perm (List.range' nb l) ∧ permutedIndex nb l p a = β := by
  have h' : β.Perm ((List.range l).map fun k => a.getD k 0) := by rw [← ha, map_getD_range]; exact h
  have hc := congrFun (congrFun (List.eq_map_comp_perm fun k => a.getD k 0) β) (List.range l)
  obtain ⟨q, rfl, hq⟩ : (Relation.Comp (fun x1 x2 => x1 = List.map (fun k => a.getD k 0) x2) fun x1 x2 => x1.Perm x2) β
    (List.range l) := by rw [hc]; exact h'
  have hqlen : q.length = l := by rw [hq.length_eq, List.length_range]
  have hqn : q.Nodup := hq.nodup_iff.mpr List.nodup_range
  have hqm : ∀ k < l, k ∈ q := fun k hk => hq.mem_iff.mpr (List.mem_range.mpr hk)
  have hpn : ((List.range l).map fun k => nb + q.idxOf k).Nodup := by
    refine List.Nodup.map_on (fun a ha b _ e => ?_) List.nodup_range
    exact (List.idxOf_inj (hqm a (List.mem_range.mp ha))).mp (by omega)
  refine ⟨(List.range l).map fun k => nb + q.idxOf k, ?_, ?_⟩
  · refine List.Subperm.perm_of_length_le (List.subperm_of_subset hpn ?_) (by simp)
    intro k hk
    obtain ⟨j, hj, rfl⟩ := List.mem_map.mp hk
    have := List.idxOf_lt_length_iff.mpr (hqm j (List.mem_range.mp hj))
    rw [List.mem_range'_1]
    omega
  · unfold permutedIndex
    apply List.ext_getElem
    · simp [hqlen]
    · intro j h1 h2
      rw [List.getElem_map, List.getElem_range, List.getElem_map]
      congr 1
      have hj : j < q.length := by simpa using h2
      have hql : q[j] < l := List.mem_range.mp (hq.mem_iff.mp (List.getElem_mem hj))
      have e : ((List.range l).map fun k => nb + q.idxOf k)[q[j]]'(by simpa using hql) = nb + j := by
        rw [List.getElem_map, List.getElem_range, hqn.idxOf_getElem]
      rw [← e, hpn.idxOf_getElem]

theorem transposeAxes_val {batch : List ℕ} {l : ℕ} (x : NdArray) (hx : x.shape = batch ++ List.replicate l 3) {p : List ℕ}
    (hp : p.Perm (List.range' batch.length l)) {b a : List ℕ} (hb : b.length = batch.length) :
    (transposeAxes x (List.range batch.length ++ p)).val (b ++ a) = x.val (b ++ permutedIndex batch.length l p a) := by
  unfold transposeAxes permutedIndex
  dsimp only
  congr 1
  rw [hx, List.length_append, List.length_replicate, List.range_add, List.map_append, List.map_map]
  congr 1
  · rw [← hb]
    conv_rhs => rw [← map_getD_range b]
    refine List.map_congr_left fun k hk => ?_
    have hk := List.mem_range.mp hk
    have hk' : k < (List.range b.length).length := by simpa using hk
    rw [List.idxOf_append_of_mem (List.mem_range.mpr hk)]
    have : (List.range b.length).idxOf k = k := by
      have := (List.nodup_range (n := b.length)).idxOf_getElem k hk'
      rwa [List.getElem_range] at this
    rw [this, List.getD_append _ _ _ _ hk]
  · refine List.map_congr_left fun j _ => ?_
    simp only [Function.comp_apply]
    rw [List.idxOf_append_of_notMem (by simp), List.length_range, List.getD_append_right _ _ _ _ (by omega), hb]
    congr 1
    omega

open Classical in
/-- What `is_traceless_symmetric` checks. -/
theorem isTracelessSymmetric_eq (batch : List ℕ) {l : ℕ} (hl : 2 ≤ l) (x : NdArray)
    (hx : x.shape = batch ++ List.replicate l 3) (rtol atol : ℝ) :
    ∃ r, isTracelessSymmetric x l rtol atol = .ok r ∧ (r = true ↔
      (∀ b, InBounds b batch → ∀ α β, InBounds α (List.replicate l 3) → α.Perm β →
        |x.val (b ++ α) - x.val (b ++ β)| ≤ atol + rtol * |x.val (b ++ β)|) ∧
      ∀ b, InBounds b batch → ∀ α, InBounds α (List.replicate (l - 2) 3) →
        |∑ k ∈ range 3, x.val (b ++ (α ++ [k, k]))| ≤ atol) := by
  have hc : checkTensorShape x.shape (l : ℤ) = .ok () := by
    have := checkTensorShape_ok batch l
    rwa [tensorAxes, if_neg (by omega), ← hx] at this
  unfold isTracelessSymmetric
  rw [if_neg (by omega), hc]
  dsimp only
  rw [if_neg (by omega)]
  have hlen : x.shape.length - (l : ℤ).toNat = batch.length := by simp [hx]
  rw [hlen, Int.toNat_natCast]
  have hsym : (((List.range' batch.length l).permutations.all fun p => decide
      (AllClose x.shape x.val (transposeAxes x (List.range batch.length ++ p)).val rtol atol)) = true) ↔
      ∀ b, InBounds b batch → ∀ α β, InBounds α (List.replicate l 3) → α.Perm β →
        |x.val (b ++ α) - x.val (b ++ β)| ≤ atol + rtol * |x.val (b ++ β)| := by
    rw [List.all_eq_true]
    constructor
    · intro h b hb α β hα hp
      have hla : α.length = l := by simpa using hα.length_eq
      obtain ⟨p, hp1, hp2⟩ := exists_permutedIndex (nb := batch.length) hla hp.symm
      have := of_decide_eq_true (h p (List.mem_permutations.mpr hp1)) (b ++ α)
        (by rw [hx, inBounds_append]; exact ⟨b, α, rfl, hb, hα⟩)
      rwa [transposeAxes_val x hx hp1 hb.length_eq, hp2] at this
    · intro h p hp
      rw [List.mem_permutations] at hp
      refine decide_eq_true fun idx hidx => ?_
      rw [hx, inBounds_append] at hidx
      obtain ⟨b, α, rfl, hb, hα⟩ := hidx
      rw [transposeAxes_val x hx hp hb.length_eq]
      exact h b hb α _ hα (permutedIndex_perm hp (by simpa using hα.length_eq)).symm
  have htr : (AllClose (traceLastAxes x).shape (traceLastAxes x).val (fun _ => 0) rtol atol) ↔
      ∀ b, InBounds b batch → ∀ α, InBounds α (List.replicate (l - 2) 3) →
        |∑ k ∈ range 3, x.val (b ++ (α ++ [k, k]))| ≤ atol := by
    have e1 : (traceLastAxes x).shape = batch ++ List.replicate (l - 2) 3 := by
      obtain ⟨n, rfl⟩ : ∃ n, l = n + 2 := ⟨l - 2, by omega⟩
      rw [traceLastAxes, hx, show List.replicate (n + 2) 3 = List.replicate n 3 ++ [3] ++ [3] by
        rw [List.replicate_succ', List.replicate_succ'], ← List.append_assoc, List.dropLast_concat, ← List.append_assoc,
        List.dropLast_concat]
      rfl
    have e2 : ∀ idx, (traceLastAxes x).val idx = ∑ k ∈ range 3, x.val (idx ++ [k, k]) := by
      intro idx
      unfold traceLastAxes
      dsimp only
      have h1 : ∀ j, 1 ≤ j → j ≤ l → x.shape.getD (x.shape.length - j) 0 = 3 := by
        intro j hj1 hj
        rw [hx, List.getD_append_right _ _ _ _ (by simp; omega), List.getD_eq_getElem?_getD, List.getElem?_replicate, if_pos
          (by simp; omega), Option.getD_some]
      rw [h1 2 (by omega) hl, h1 1 (by omega) (by omega), min_self]
    unfold AllClose
    simp only [e1, e2, sub_zero, abs_zero, mul_zero, add_zero]
    constructor
    · intro h b hb α hα
      have := h (b ++ α) ((inBounds_append _ _ _).mpr ⟨b, α, rfl, hb, hα⟩)
      simpa only [List.append_assoc] using this
    · intro h idx hidx
      obtain ⟨b, α, rfl, hb, hα⟩ := (inBounds_append _ _ _).mp hidx
      simpa only [List.append_assoc] using h b hb α hα
  by_cases h1 : ((List.range' batch.length l).permutations.all fun p => decide
      (AllClose x.shape x.val (transposeAxes x (List.range batch.length ++ p)).val rtol atol)) = true
  · rw [if_pos h1]
    refine ⟨_, rfl, ?_⟩
    rw [decide_eq_true_iff, htr]
    exact ⟨fun h => ⟨hsym.mp h1, h⟩, fun h => h.2⟩
  · rw [if_neg h1]
    refine ⟨_, rfl, ?_⟩
    constructor
    · intro h
      simp at h
    · intro h
      exact absurd (hsym.mpr h.1) h1

end

end E3x
