import Verif.Model.Features
import Mathlib.Tactic.Ring
import Mathlib.Tactic.Linarith

/-! Lemmas about the degree of a flat component index. -/

namespace E3x

theorem deg_eq_iff (i l : ℕ) : deg i = l ↔ l ^ 2 ≤ i ∧ i < (l + 1) ^ 2 := by
  unfold deg
  constructor
  · rintro rfl
    exact ⟨Nat.sqrt_le' i, Nat.lt_succ_sqrt' i⟩
  · rintro ⟨h1, h2⟩
    have a : Nat.sqrt i < l + 1 := Nat.sqrt_lt'.2 h2
    have b : l ≤ Nat.sqrt i := Nat.le_sqrt'.2 h1
    omega

theorem deg_le_iff (i L : ℕ) : deg i ≤ L ↔ i < (L + 1) ^ 2 := by
  unfold deg
  rw [← Nat.lt_succ_iff, Nat.sqrt_lt']

theorem deg_le_of_lt {i L : ℕ} (h : i < (L + 1) ^ 2) : deg i ≤ L := (deg_le_iff i L).2 h

theorem deg_sq_add {l k : ℕ} (h : k < 2 * l + 1) : deg (l ^ 2 + k) = l := by
  rw [deg_eq_iff]
  constructor
  · omega
  · have : (l + 1) ^ 2 = l ^ 2 + 2 * l + 1 := by ring
    omega

@[simp] theorem deg_zero : deg 0 = 0 := by simp [deg]

theorem deg_eq_zero {i : ℕ} : deg i = 0 ↔ i = 0 := by
  rw [deg_eq_iff]; simp

/-- Concatenating, for `l = 0, …, L`, the slices `l² : (l+1)²` of arrays `g l` yields at position `i`
the entry `i` of `g ⌊√i⌋`. -/
theorem concat_blocks {α : Type _} (g : ℕ → ℕ → α) (L : ℕ) :
    ((List.range (L + 1)).flatMap fun l => (List.range' (l ^ 2) ((l + 1) ^ 2 - l ^ 2)).map (g l)) =
      (List.range ((L + 1) ^ 2)).map fun i => g (deg i) i := by
  induction L with
  | zero => simp [List.range_succ]
  | succ L ih =>
    rw [List.range_succ, List.flatMap_append, ih]
    have e : (L + 1 + 1) ^ 2 = (L + 1) ^ 2 + (2 * (L + 1) + 1) := by ring
    rw [show (L + 1 + 1) ^ 2 = (L + 1) ^ 2 + (2 * (L + 1) + 1) from e]
    rw [List.range_add, List.map_append]
    congr 1
    simp only [List.flatMap_cons, List.flatMap_nil, List.append_nil]
    rw [e, Nat.add_sub_cancel_left, List.range'_eq_map_range, List.map_map, List.map_map]
    apply List.map_congr_left
    intro k hk
    have := List.mem_range.1 hk
    simp only [Function.comp]
    rw [deg_sq_add this]

end E3x
