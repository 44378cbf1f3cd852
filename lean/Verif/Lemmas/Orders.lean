import Verif.Spec.Irreps
import Verif.Lemmas.Degrees
import Verif.Lemmas.LookupTables
import Verif.Props.Common
import Mathlib.Tactic.ByContra

/-!
# Flat indices, degrees and orders
-/

namespace E3x

open Finset Spec

theorem degreeOf_eq_deg (i : ℕ) : degreeOf i = deg i := rfl

/-- the flat index in Cartesian order -/
def cartIndex (l : ℕ) (m : ℤ) : ℕ :=
  l ^ 2 + if m = 0 then 2 * l else if 0 < m then (2 * (l - m)).toNat else (2 * (l + m) + 1).toNat

theorem cartIndex_degree (l : ℕ) (m : ℤ) (h : |m| ≤ l) : degreeOf (cartIndex l m) = l := by
  rw [abs_le] at h
  unfold cartIndex
  refine deg_sq_add ?_
  split_ifs <;> omega

theorem cartIndex_order (l : ℕ) (m : ℤ) (h : |m| ≤ l) : cartesianOrderOf (cartIndex l m) = m := by
  unfold cartesianOrderOf
  dsimp only
  rw [cartIndex_degree l m h]
  rw [abs_le] at h
  unfold cartIndex
  rw [Nat.add_sub_cancel_left]
  split_ifs <;> omega

theorem cartesianOrderOf_bounds (i : ℕ) : |cartesianOrderOf i| ≤ (degreeOf i : ℤ) := by
  obtain ⟨h1, h2⟩ := (deg_eq_iff i (degreeOf i)).mp rfl
  unfold cartesianOrderOf
  dsimp only
  generalize degreeOf i = l at *
  have h3 : (l + 1) ^ 2 = l ^ 2 + 2 * l + 1 := by ring
  generalize l ^ 2 = s at *
  rw [abs_le]
  split_ifs <;> omega

theorem cartIndex_eq (i : ℕ) : cartIndex (degreeOf i) (cartesianOrderOf i) = i := by
  obtain ⟨h1, h2⟩ := (deg_eq_iff i (degreeOf i)).mp rfl
  have h0 : cartesianOrderOf i = if i - degreeOf i ^ 2 = 2 * degreeOf i then 0 else
      if (i - degreeOf i ^ 2) % 2 = 0 then (degreeOf i : ℤ) - ((i - degreeOf i ^ 2) / 2 : ℕ)
      else -((degreeOf i : ℤ) - ((i - degreeOf i ^ 2) / 2 : ℕ)) := rfl
  unfold cartIndex
  generalize degreeOf i = l at h0 h1 h2 ⊢
  have h3 : (l + 1) ^ 2 = l ^ 2 + 2 * l + 1 := by ring
  rw [h3] at h2
  obtain ⟨k, rfl⟩ : ∃ k, i = l ^ 2 + k := ⟨i - l ^ 2, by omega⟩
  rw [Nat.add_sub_cancel_left] at h0
  generalize cartesianOrderOf (l ^ 2 + k) = m at *
  congr 1
  split_ifs at h0 ⊢ <;> omega

/-- the flat index of degree `l` and order `m` -/
def flatIndex (cart : Bool) (l : ℕ) (m : ℤ) : ℕ := if cart then cartIndex l m else lmIndex l m

variable (cart : Bool)

theorem flatIndex_degree (l : ℕ) (m : ℤ) (h : |m| ≤ l) : degreeOf (flatIndex cart l m) = l := by
  cases cart
  · exact lmIndex_degree l m h
  · exact cartIndex_degree l m h

theorem flatIndex_order (l : ℕ) (m : ℤ) (h : |m| ≤ l) : componentOrder cart (flatIndex cart l m) = m := by
  cases cart
  · exact lmIndex_order l m h
  · exact cartIndex_order l m h

theorem componentOrder_bounds (i : ℕ) : |componentOrder cart i| ≤ (degreeOf i : ℤ) := by
  cases cart
  · exact orderOf_abs i
  · exact cartesianOrderOf_bounds i

theorem flatIndex_eq (i : ℕ) : flatIndex cart (degreeOf i) (componentOrder cart i) = i := by
  cases cart
  · exact lmIndex_eq i
  · exact cartIndex_eq i

theorem component_inj {i j : ℕ} (h1 : degreeOf i = degreeOf j) (h2 : componentOrder cart i = componentOrder cart j) :
    i = j := by rw [← flatIndex_eq cart i, h1, h2, flatIndex_eq]

/-- A sum over components in which only one degree contributes is a sum over the orders of this degree. -/
theorem sum_components {L l : ℕ} (hl : l ≤ L) (f : ℕ → ℝ) (g : ℤ → ℝ)
    (h1 : ∀ i, degreeOf i = l → f i = g (componentOrder cart i)) (h0 : ∀ i, degreeOf i ≠ l → f i = 0) :
    ∑ i ∈ range ((L + 1) ^ 2), f i = ∑ m ∈ Icc (-(l : ℤ)) l, g m := by
  have e : ∑ i ∈ range ((L + 1) ^ 2), f i = ∑ i ∈ (range ((L + 1) ^ 2)).filter (fun i => degreeOf i = l), f i := by
    rw [sum_filter]
    refine sum_congr rfl fun i _ => ?_
    split_ifs with h
    · rfl
    · exact h0 i h
  rw [e]
  refine sum_bij' (fun i _ => componentOrder cart i) (fun m _ => flatIndex cart l m) ?_ ?_ ?_ ?_ ?_
  · intro i hi
    rw [mem_filter] at hi
    rw [mem_Icc, ← abs_le, ← hi.2]
    exact componentOrder_bounds cart i
  · intro m hm
    rw [mem_Icc, ← abs_le] at hm
    have := flatIndex_degree cart l m hm
    rw [mem_filter, mem_range]
    refine ⟨(deg_le_iff _ _).mp (by rw [← degreeOf_eq_deg, this]; exact hl), this⟩
  · intro i hi
    rw [mem_filter] at hi
    rw [← hi.2, flatIndex_eq]
  · intro m hm
    rw [mem_Icc, ← abs_le] at hm
    exact flatIndex_order cart l m hm
  · intro i hi
    rw [mem_filter] at hi
    exact h1 i hi.2

/-- the entry of the permutation for degree `l` at position `k` -/
theorem cartPermDeg_get (l k : ℕ) (hk : k < 2 * l + 1) :
    (cartPermDeg l)[k]? = some ((cartesianOrderOf (l ^ 2 + k) + l).toNat) := by
  obtain ⟨h1, h2⟩ := C20_cartesian_order l
  have hd : degreeOf (l ^ 2 + k) = l := deg_sq_add hk
  unfold cartesianOrderOf
  dsimp only
  rw [hd, Nat.add_sub_cancel_left]
  have key : ∀ m : ℤ, ((cartPermDeg l)[k]?).map (fun p : Nat => (p : Int) - l) = some m →
      (cartPermDeg l)[k]? = some (m + l).toNat := by
    intro m hm
    cases h : (cartPermDeg l)[k]? with
    | none => rw [h] at hm; simp at hm
    | some p =>
      rw [h] at hm
      simp only [Option.map_some, Option.some.injEq] at hm
      congr 1
      omega
  apply key
  split_ifs with c1 c2
  · rw [c1]; exact h2
  · have := (h1 (k / 2) (by omega)).1
    rwa [show 2 * (k / 2) = k by omega] at this
  · have := (h1 (k / 2) (by omega)).2
    rwa [show 2 * (k / 2) + 1 = k by omega] at this

/-- The permutation finds the component of the same order. -/
theorem cartPerm_get (L j : ℕ) (hj : j < (L + 1) ^ 2) :
    (cartPerm L)[j]? = some (lmIndex (degreeOf j) (cartesianOrderOf j)) := by
  obtain ⟨h1, h2⟩ := (deg_eq_iff j (degreeOf j)).mp rfl
  have hl : degreeOf j ≤ L := deg_le_of_lt hj
  have hb := cartesianOrderOf_bounds j
  set l := degreeOf j with hl'
  have h3 : (l + 1) ^ 2 = l ^ 2 + 2 * l + 1 := by ring
  have h4 := C20_blocks L l (j - l ^ 2) hl (by omega)
  rw [Nat.add_sub_cancel' h1] at h4
  rw [h4, cartPermDeg_get l (j - l ^ 2) (by omega), Nat.add_sub_cancel' h1]
  simp only [Option.map_some, Option.some.injEq, lmIndex]
  rw [abs_le] at hb
  push_cast
  have : (l : ℤ) ^ 2 = l * l := by ring
  zify
  rw [Int.toNat_of_nonneg (by omega), Int.toNat_of_nonneg (by nlinarith [hb.1])]
  ring

end E3x
