import Verif.Lemmas.LookupTables
import Verif.Lemmas.LutGeneric

/-!
# The four generators satisfy `LutCorrect`
-/

namespace E3x

open Spec

/-! ## Clebsch-Gordan coefficients -/

theorem mem_cgDegreesAndOrders (lstart L l1 l2 l3 : Nat) (m1 m2 m3 : ℤ) :
    ((l1, m1), (l2, m2), (l3, m3)) ∈ cgDegreesAndOrders lstart L ↔
      ((l1 ≤ L ∧ l2 ≤ L ∧ l3 ≤ L) ∧ (l3 ≤ l1 + l2 ∧ l1 ≤ l2 + l3 ∧ l2 ≤ l1 + l3) ∧
        (m3 = m1 + m2 ∨ m3 = m1 - m2 ∨ m3 = m2 - m1 ∨ m3 = -m1 - m2)) ∧
      (|m1| ≤ l1 ∧ |m2| ≤ l2 ∧ |m3| ≤ l3) ∧ ¬ (l1 < lstart ∧ l2 < lstart ∧ l3 < lstart) := by
  unfold cgDegreesAndOrders
  simp only [List.mem_flatMap, List.mem_range, List.mem_range'_1]
  constructor
  · rintro ⟨a1, h1, a2, h2, a3, h3, h⟩
    split at h
    · simp at h
    · rename_i hs
      simp only [List.mem_flatMap, List.mem_map, List.mem_filter, mem_orders] at h
      obtain ⟨b1, hb1, b2, hb2, b3, ⟨hb3, hb4⟩, heq⟩ := h
      simp only [Prod.mk.injEq] at heq
      obtain ⟨⟨rfl, rfl⟩, ⟨rfl, rfl⟩, rfl, rfl⟩ := heq
      simp only [List.mem_cons, List.not_mem_nil, or_false] at hb3
      simp only [not_lt, decide_eq_true_eq] at hb4
      exact ⟨⟨⟨by omega, by omega, by omega⟩, ⟨by omega, by omega, by omega⟩, hb3⟩, ⟨hb1, hb2, hb4⟩, hs⟩
  · rintro ⟨⟨h1, h2, h3⟩, ⟨h4, h5, h6⟩, hs⟩
    refine ⟨l1, by omega, l2, by omega, l3, by omega, ?_⟩
    rw [if_neg hs]
    simp only [List.mem_flatMap, List.mem_map, List.mem_filter, mem_orders]
    refine ⟨m1, h4, m2, h5, m3, ⟨by simpa using h3, ?_⟩, rfl⟩
    simpa using h6

theorem cgExtend_apply (sym : Nat → ℤ → Nat → ℤ → Nat → ℤ → ℝ) (lstart L : Nat) (t : CGTable) (i j k : Nat) :
    assign t.cg ((cgDegreesAndOrders lstart L).map fun x =>
      ((lmIndex x.1.1 x.1.2, lmIndex x.2.1.1 x.2.1.2, lmIndex x.2.2.1 x.2.2.2),
        sym x.1.1 x.1.2 x.2.1.1 x.2.1.2 x.2.2.1 x.2.2.2)) (i, j, k) =
      if degreeOf i < lstart ∧ degreeOf j < lstart ∧ degreeOf k < lstart then t.cg (i, j, k)
      else if (degreeOf i ≤ L ∧ degreeOf j ≤ L ∧ degreeOf k ≤ L) ∧
        (degreeOf k ≤ degreeOf i + degreeOf j ∧ degreeOf i ≤ degreeOf j + degreeOf k ∧
          degreeOf j ≤ degreeOf i + degreeOf k) ∧
        (orderOf k = orderOf i + orderOf j ∨ orderOf k = orderOf i - orderOf j ∨
          orderOf k = orderOf j - orderOf i ∨ orderOf k = -orderOf i - orderOf j) then
        sym (degreeOf i) (orderOf i) (degreeOf j) (orderOf j) (degreeOf k) (orderOf k)
      else t.cg (i, j, k) := by
  have hmem : ∀ p ∈ ((cgDegreesAndOrders lstart L).map fun x =>
      ((lmIndex x.1.1 x.1.2, lmIndex x.2.1.1 x.2.1.2, lmIndex x.2.2.1 x.2.2.2),
        sym x.1.1 x.1.2 x.2.1.1 x.2.1.2 x.2.2.1 x.2.2.2)), p.1 = (i, j, k) →
      ((degreeOf i, orderOf i), (degreeOf j, orderOf j), (degreeOf k, orderOf k)) ∈ cgDegreesAndOrders lstart L ∧
      p.2 = sym (degreeOf i) (orderOf i) (degreeOf j) (orderOf j) (degreeOf k) (orderOf k) := by
    intro p hp hpi
    obtain ⟨⟨⟨l1, m1⟩, ⟨l2, m2⟩, ⟨l3, m3⟩⟩, hx, rfl⟩ := List.mem_map.1 hp
    have hx' := (mem_cgDegreesAndOrders _ _ _ _ _ _ _ _).1 hx
    simp only [Prod.mk.injEq] at hpi
    obtain ⟨rfl, rfl, rfl⟩ := hpi
    obtain ⟨h1, h2, h3⟩ := hx'.2.1
    rw [lmIndex_degree _ _ h1, lmIndex_degree _ _ h2, lmIndex_degree _ _ h3, lmIndex_order _ _ h1,
      lmIndex_order _ _ h2, lmIndex_order _ _ h3]
    exact ⟨hx, rfl⟩
  by_cases hin : ((degreeOf i, orderOf i), (degreeOf j, orderOf j), (degreeOf k, orderOf k)) ∈
      cgDegreesAndOrders lstart L
  · obtain ⟨h1, _, h3⟩ := (mem_cgDegreesAndOrders _ _ _ _ _ _ _ _).1 hin
    rw [if_neg h3, if_pos h1]
    apply assign_of_mem
    · refine ⟨_, List.mem_map.2 ⟨_, hin, rfl⟩, ?_⟩
      simp only [lmIndex_eq]
    · intro p hp hpi
      exact (hmem p hp hpi).2
  · rw [assign_of_notMem _ _ _ (fun p hp hpi => hin (hmem p hp hpi).1)]
    rw [mem_cgDegreesAndOrders] at hin
    split
    · rfl
    · split
      · rename_i h1 h2
        exact absurd ⟨h2, ⟨orderOf_abs i, orderOf_abs j, orderOf_abs k⟩, h1⟩ hin
      · rfl

/-- `_compress` followed by `_load_from_cache`, at any degree not above the stored one. -/
theorem cg_roundtrip (t : CGTable) (n L : Nat) (hn : t.maxDegree = n)
    (ht : ∀ i j k, ¬ (degreeOf i ≤ n ∧ degreeOf j ≤ n ∧ degreeOf k ≤ n) → t.cg (i, j, k) = 0) (hL : L ≤ n) :
    cgLoad L (cgCompress t) = .ok ((n : ℤ), ⟨L, slice3 (totalSphericalHarmonics L) t.cg⟩) := by
  have hcg : assign (fun _ => 0) (cgCompress t).entries = t.cg := by
    funext ⟨i, j, k⟩
    apply assign_entries t.cg
    intro hp
    by_contra hne
    apply hp
    rw [List.mem_filter]
    have hin : degreeOf i ≤ n ∧ degreeOf j ≤ n ∧ degreeOf k ≤ n := by
      by_contra h
      exact hne (ht i j k h)
    simp only [hn, Int.toNat_natCast]
    refine ⟨?_, by simpa using hne⟩
    simp only [List.mem_product, List.mem_range, degree_le_iff]
    exact hin
  unfold cgLoad
  have hdeg : (cgCompress t).maxDegree = n := hn
  rw [if_neg (by rw [hdeg]; omega)]
  dsimp only
  rw [if_pos, hcg, hdeg, if_pos (by omega)]
  rw [List.all_eq_true]
  intro e he
  obtain ⟨p, hp, rfl⟩ := List.mem_map.1 he
  have := (List.mem_filter.1 hp).1
  obtain ⟨i, j, k⟩ := p
  simp only [List.mem_product, List.mem_range, hn, Int.toNat_natCast] at this
  simp only [hdeg, Int.toNat_natCast, Bool.and_eq_true, decide_eq_true_eq]
  exact ⟨⟨this.1, this.2.1⟩, this.2.2⟩

theorem slice3_apply (L i j k : Nat) (t : Nat × Nat × Nat → ℝ) :
    slice3 (totalSphericalHarmonics L) t (i, j, k) =
      if degreeOf i ≤ L ∧ degreeOf j ≤ L ∧ degreeOf k ≤ L then t (i, j, k) else 0 := by
  unfold slice3
  simp only [degree_le_iff]

theorem cgTable_slice (sym : Nat → ℤ → Nat → ℤ → Nat → ℤ → ℝ) (n L : Nat) (h : L ≤ n) :
    slice3 (totalSphericalHarmonics L) (cgTable sym n).cg = (cgTable sym L).cg := by
  funext ⟨i, j, k⟩
  rw [slice3_apply]
  unfold cgTable
  dsimp only
  split
  · rename_i hL
    have hn : degreeOf i ≤ n ∧ degreeOf j ≤ n ∧ degreeOf k ≤ n := ⟨by omega, by omega, by omega⟩
    simp only [hL, hn, true_and, and_true]
  · rename_i hL
    rw [if_neg (fun h => hL h.1)]

theorem cgTable_outside (sym : Nat → ℤ → Nat → ℤ → Nat → ℤ → ℝ) (n i j k : Nat)
    (h : ¬ (degreeOf i ≤ n ∧ degreeOf j ≤ n ∧ degreeOf k ≤ n)) : (cgTable sym n).cg (i, j, k) = 0 := by
  unfold cgTable
  dsimp only
  rw [if_neg (fun hc => h hc.1)]

/-- what a successful load at the stored degree says about the entries -/
theorem cgLoad_self {c : CGCompressed} {n : Nat} {t : CGTable} (hc : c.maxDegree = n)
    (h : cgLoad n c = .ok ((n : ℤ), t)) :
    c.entries.all (fun e => e.1.1 < totalSphericalHarmonics n && e.1.2.1 < totalSphericalHarmonics n &&
        e.1.2.2 < totalSphericalHarmonics n) ∧
      slice3 (totalSphericalHarmonics n) (assign (fun _ => 0) c.entries) = t.cg := by
  unfold cgLoad at h
  rw [if_neg (by omega)] at h
  dsimp only at h
  rw [hc] at h
  simp only [Int.toNat_natCast, le_refl, if_true] at h
  split at h
  · rename_i hall
    refine ⟨hall, ?_⟩
    injection h with h
    rw [← (Prod.mk.inj h).2]
  · simp at h

theorem cg_correct (sym : Nat → ℤ → Nat → ℤ → Nat → ℤ → ℝ) : LutCorrect (cgKind sym) (cgTable sym) where
  scratch L := by
    show Except.ok _ = Except.ok _
    congr 1
    unfold cgTable
    congr 1
    funext ⟨i, j, k⟩
    rw [cgExtend_apply, if_neg (by omega)]
    rfl
  negative c L h := by
    show cgLoad L c = _
    have h' : c.maxDegree < 0 := h
    unfold cgLoad
    rw [if_pos h']
    rfl
  degree_compress n := rfl
  roundtrip n := by
    have := cg_roundtrip (cgTable sym n) n n rfl (cgTable_outside sym n) (le_refl n)
    rw [cgTable_slice sym n n (le_refl n)] at this
    exact this
  smaller c n L hc h hL := by
    obtain ⟨h1, h2⟩ := cgLoad_self hc h
    show cgLoad L c = _
    unfold cgLoad
    have hc' : c.maxDegree = (n : ℤ) := hc
    rw [if_neg (by omega)]
    dsimp only
    rw [hc']
    simp only [Int.toNat_natCast]
    rw [if_pos h1, if_pos (by omega)]
    congr 2
    show CGTable.mk _ _ = CGTable.mk _ (cgTable sym L).cg
    congr 1
    rw [← cgTable_slice sym n L hL, ← h2]
    funext ⟨i, j, k⟩
    simp only [slice3_apply]
    split
    · rw [if_pos ⟨by omega, by omega, by omega⟩]
    · rfl
  larger c n L hc h hL := by
    obtain ⟨h1, h2⟩ := cgLoad_self hc h
    have hc' : c.maxDegree = (n : ℤ) := hc
    refine ⟨⟨L, (cgTable sym n).cg⟩, ?_, ?_⟩
    · show cgLoad L c = _
      unfold cgLoad
      rw [if_neg (by omega)]
      dsimp only
      rw [hc']
      simp only [Int.toNat_natCast]
      rw [if_pos h1, if_neg (by omega)]
      rw [← h2]
      rfl
    · show Except.ok _ = Except.ok _
      congr 1
      show CGTable.mk _ _ = CGTable.mk _ (cgTable sym L).cg
      congr 1
      funext ⟨i, j, k⟩
      rw [cgExtend_apply sym (n + 1) L ⟨L, (cgTable sym n).cg⟩]
      split
      · rename_i hlt
        have h3 : degreeOf i ≤ n ∧ degreeOf j ≤ n ∧ degreeOf k ≤ n := ⟨by omega, by omega, by omega⟩
        have h4 : degreeOf i ≤ L ∧ degreeOf j ≤ L ∧ degreeOf k ≤ L := ⟨by omega, by omega, by omega⟩
        unfold cgTable
        simp only [h3, h4, and_true, true_and]
      · rename_i hlt
        split
        · rename_i hyes
          unfold cgTable
          dsimp only
          rw [if_pos hyes]
        · rename_i hno
          rw [cgTable_outside sym n i j k (by omega)]
          unfold cgTable
          dsimp only
          rw [if_neg hno]

end E3x
