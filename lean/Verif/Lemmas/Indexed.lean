import Verif.Model.Indexed
import Verif.Spec.Graph
import Mathlib.Data.List.Basic
import Mathlib.Data.List.Range
import Mathlib.Data.List.Flatten
import Mathlib.Data.List.Forall2
import Mathlib.Tactic.Ring
import Mathlib.Tactic.Linarith

namespace E3x

theorem tile_succ_aux {α : Type _} (xs : List α) (n : Nat) : tile xs (n+1) = xs ++ tile xs n := by
  simp [tile, List.replicate_succ]

theorem range_mul_map {α : Type _} (f : Nat → Nat → α) (m n : Nat) :
    (List.range m).flatMap (fun i => (List.range n).map (f i)) =
      (List.range (m * n)).map (fun k => f (k / n) (k % n)) := by
  induction m with
  | zero => simp
  | succ m ih =>
    rw [List.range_succ, List.flatMap_append, ih, Nat.succ_mul, List.range_add, List.map_append]
    congr 1
    simp only [List.flatMap_cons, List.flatMap_nil, List.append_nil, List.map_map]
    apply List.map_congr_left
    intro k hk
    have hk := List.mem_range.1 hk
    have hn : 0 < n := by omega
    simp only [Function.comp]
    rw [Nat.mul_comm m n, Nat.mul_add_div hn, Nat.mul_add_mod, Nat.div_eq_of_lt hk,
      Nat.mod_eq_of_lt hk, Nat.add_zero]

theorem repeatEach_range (m n : Nat) :
    repeatEach (List.range m) n = (List.range (m * n)).map (· / n) := by
  have := range_mul_map (fun i _ => i) m n
  rw [← this]
  unfold repeatEach
  congr 1; funext i
  simp [List.map_const']

theorem tile_range (m n : Nat) :
    tile (List.range n) m = (List.range (m * n)).map (· % n) := by
  have := range_mul_map (fun _ j => j) m n
  rw [← this]
  unfold tile
  rw [List.flatMap_def]
  simp [List.map_const']

theorem deleteSlice_map_range {α : Type _} (f : Nat → α) (N step : Nat) :
    deleteSlice ((List.range N).map f) 0 N step =
      ((List.range N).filter fun k => !(k % step == 0)).map f := by
  have : ((List.range N).map f).zipIdx = (List.range N).map (fun k => (f k, k)) := by
    apply List.ext_getElem <;> simp
  simp only [deleteSlice, this, List.filter_map, List.map_map]
  have h2 : List.filter ((fun p : α × Nat => !(decide (0 ≤ p.2) && decide (p.2 < N) &&
      (p.2 - 0) % step == 0)) ∘ fun k => (f k, k)) (List.range N) =
      List.filter (fun k => !(k % step == 0)) (List.range N) := by
    apply List.filter_congr
    intro k hk
    simp [List.mem_range.1 hk]
  rw [h2]; rfl

theorem diag_iff {n k : Nat} (hk : k < n * n) : k % (n + 1) = 0 ↔ k / n = k % n := by
  have hn : 0 < n := Nat.pos_of_ne_zero (by rintro rfl; simp at hk)
  constructor
  · intro h
    obtain ⟨t, rfl⟩ := Nat.dvd_of_mod_eq_zero h
    have ht : t < n := by
      by_contra hge
      have : n * n ≤ (n+1) * t := Nat.mul_le_mul (by omega) (by omega)
      omega
    have e : (n + 1) * t = n * t + t := by ring
    rw [e, Nat.mul_add_div hn, Nat.mul_add_mod, Nat.div_eq_of_lt ht, Nat.mod_eq_of_lt ht]; simp
  · intro h
    have e := Nat.div_add_mod k n
    rw [← h] at e
    have : k = (n + 1) * (k / n) := by
      have e2 : (n + 1) * (k / n) = n * (k/n) + k/n := by ring
      omega
    exact Nat.mod_eq_zero_of_dvd ⟨_, this⟩

/-- chunking a concatenation of equally long rows gives back the rows -/
theorem reshapeRows_flatten {α : Type _} (rows : List (List α)) (w : Nat)
    (h : ∀ r ∈ rows, r.length = w) : reshapeRows rows.flatten rows.length = rows := by
  have hl : rows.flatten.length = rows.length * w := by
    rw [List.length_flatten, List.map_congr_left (g := fun _ => w) (by simpa using h)]
    simp
  unfold reshapeRows
  apply List.ext_getElem
  · simp
  intro i h1 h2
  have hpos : 0 < rows.length := by omega
  simp only [List.getElem_map, List.getElem_range, hl, Nat.mul_div_cancel_left _ hpos]
  clear hl h1 hpos
  induction rows generalizing i with
  | nil => simp at h2
  | cons r rows ih =>
    have hr : r.length = w := h r (by simp)
    cases i with
    | zero => simp [← hr]
    | succ i =>
      have e : (i + 1) * w = r.length + i * w := by rw [hr]; ring
      simp only [List.flatten_cons, List.getElem_cons_succ, e, List.drop_length_add_append]
      exact ih (fun r hr => h r (by simp [hr])) i (by simpa using h2)

end E3x
