import Verif.Model.Arrays
import Mathlib.Algebra.Order.BigOperators.Group.List
import Mathlib.Tactic.Ring
import Mathlib.Tactic.Linarith

/-!
# Row-major positions and multi-indices
-/

namespace E3x

open Spec NDArray

variable {α β γ : Type}

theorem inShape_cons {i n : ℕ} {is s : List ℕ} : InShape (i :: is) (n :: s) ↔ i < n ∧ InShape is s := by
  unfold InShape; exact List.forall₂_cons

theorem inShape_nil : InShape [] [] := List.Forall₂.nil

theorem Spec.InShape.length {is s : List ℕ} (h : InShape is s) : is.length = s.length := List.Forall₂.length_eq h

theorem inShape_append {is js s t : List ℕ} (h : InShape is s) (h' : InShape js t) : InShape (is ++ js) (s ++ t) := by
  induction h with
  | nil => exact h'
  | cons a _ ih => exact List.Forall₂.cons a ih

theorem ravel_lt {is s : List ℕ} (h : InShape is s) : ravel s is < s.prod := by
  induction h with
  | nil => simp [ravel]
  | @cons i n is s hi _ ih =>
    rw [ravel, List.prod_cons]
    calc i * s.prod + ravel s is < i * s.prod + s.prod := by omega
      _ = (i + 1) * s.prod := by ring
      _ ≤ n * s.prod := Nat.mul_le_mul_right _ hi

theorem ravel_append {is s : List ℕ} (h : is.length = s.length) (js t : List ℕ) :
    ravel (s ++ t) (is ++ js) = ravel s is * t.prod + ravel t js := by
  induction s generalizing is with
  | nil =>
    obtain rfl : is = [] := List.length_eq_zero_iff.1 h
    cases t <;> cases js <;> simp [ravel]
  | cons n s ih =>
    cases is with
    | nil => simp at h
    | cons i is =>
      simp only [List.cons_append, ravel]
      rw [ih (by simpa using h), List.prod_append]
      ring

theorem exists_ravel (s : List ℕ) : ∀ k < s.prod, ∃ is, InShape is s ∧ ravel s is = k := by
  induction s with
  | nil => intro k hk; exact ⟨[], inShape_nil, by simp at hk; simp [ravel, hk]⟩
  | cons n s ih =>
    intro k hk
    rw [List.prod_cons] at hk
    have hpos : 0 < s.prod := Nat.pos_of_ne_zero fun h => by rw [h] at hk; omega
    obtain ⟨is, h1, h2⟩ := ih (k % s.prod) (Nat.mod_lt _ hpos)
    refine ⟨k / s.prod :: is, inShape_cons.2 ⟨(Nat.div_lt_iff_lt_mul hpos).2 hk, h1⟩, ?_⟩
    rw [ravel, h2, Nat.mul_comm, Nat.div_add_mod]

theorem unravel_ravel {is s : List ℕ} (h : InShape is s) : unravel s (ravel s is) = is := by
  induction h with
  | nil => rfl
  | @cons i n is s hi h ih =>
    have hl := ravel_lt (show InShape is s from h)
    have hpos : 0 < s.prod := by omega
    rw [ravel, unravel, Nat.add_comm, Nat.add_mul_div_right _ _ hpos, Nat.div_eq_of_lt hl, Nat.add_mul_mod_self_right,
      Nat.mod_eq_of_lt hl, ih]
    simp

@[simp] theorem ofFn_shape (s : List ℕ) (f : List ℕ → α) : (ofFn s f).shape = s := rfl

theorem entry_ofFn {s : List ℕ} (f : List ℕ → α) {is : List ℕ} (h : InShape is s) : entry (ofFn s f) is = f is := by
  show f (unravel s (ravel s is)) = f is
  rw [unravel_ravel h]

theorem entry_congr {x y : NDArray α} {is : List ℕ} (h : x = y) : entry x is = entry y is := by rw [h]

/-- Merging leading axes into one. -/
theorem entry_merge (s t : List ℕ) (d : ℕ → α) {is js : List ℕ} (h : is.length = s.length) (n : ℕ) :
    entry ⟨s ++ t, d⟩ (is ++ js) = entry ⟨n :: t, d⟩ (ravel s is :: js) := by
  unfold entry
  simp only
  rw [ravel_append h, ravel]

theorem slice_entry (n : ℕ) (t : List ℕ) (d : ℕ → α) (b : ℕ) (js : List ℕ) :
    entry (slice ⟨n :: t, d⟩ b) js = entry ⟨n :: t, d⟩ (b :: js) := rfl

theorem reshape_ok {x r : NDArray α} {s : List ℕ} (h : x.reshape s = .ok r) :
    s.prod = x.shape.prod ∧ r = ⟨s, x.data⟩ := by
  unfold reshape at h
  split_ifs at h with h1
  exact ⟨h1, by injection h with h; exact h.symm⟩

/-- `x.reshape((-1, *t))` for an array with trailing extents `t`. -/
theorem reshapeHead_append (s t : List ℕ) (d : ℕ → α) (ht : t.prod ≠ 0) :
    reshapeHead ⟨s ++ t, d⟩ t = .ok ⟨s.prod :: t, d⟩ := by
  unfold reshapeHead reshape
  rw [if_neg ht]
  simp only [List.prod_append]
  rw [Nat.mul_div_cancel _ (Nat.pos_of_ne_zero ht), List.prod_cons, if_pos rfl]

/-- Entries of a mapped function, when all slices give arrays of the same shape. -/
theorem vmap_ok (f : NDArray α → NDArray β → Except Err (NDArray γ)) (n : ℕ) (s t u : List ℕ) (d : ℕ → α) (d' : ℕ → β)
    (g : ℕ → NDArray γ)
    (hf : ∀ b, f (slice ⟨n :: s, d⟩ b) (slice ⟨n :: t, d'⟩ b) = .ok (g b)) (hg : ∀ b, (g b).shape = u) :
    ∃ r : NDArray γ, vmap f ⟨n :: s, d⟩ ⟨n :: t, d'⟩ = .ok r ∧ r.shape = n :: u ∧
      ∀ b js, InShape js u → entry r (b :: js) = entry (g b) js := by
  refine ⟨⟨n :: u, fun k => (g (k / u.prod)).data (k % u.prod)⟩, ?_, rfl, ?_⟩
  · unfold vmap
    simp only [List.head?_cons, reduceCtorEq, ne_eq, not_true_eq_false, or_self, if_false]
    rw [hf 0]
    simp only [List.headI_cons, hg, hf]
  · intro b js hjs
    have hl := ravel_lt hjs
    have hpos : 0 < u.prod := by omega
    unfold entry
    simp only [hg]
    rw [ravel, Nat.add_comm, Nat.add_mul_div_right _ _ hpos, Nat.div_eq_of_lt hl, Nat.add_mul_mod_self_right,
      Nat.mod_eq_of_lt hl, Nat.zero_add]

theorem vmap_error (f : NDArray α → NDArray β → Except Err (NDArray γ)) (x : NDArray α) (y : NDArray β) (e : Err)
    (h : f (x.slice 0) (y.slice 0) = .error e) : ∃ e', vmap f x y = .error e' := by
  unfold vmap
  split_ifs
  · exact ⟨_, rfl⟩
  · rw [h]; exact ⟨_, rfl⟩

/-- Splitting one axis into several: the reshape that restores the batch axes. -/
theorem reshape_restore (r : NDArray α) (s u : List ℕ) (hr : r.shape = s.prod :: u) :
    ∃ r', r.reshape (s ++ r.shape.tail) = .ok r' ∧ r'.shape = s ++ u ∧
      ∀ is js, is.length = s.length → entry r' (is ++ js) = entry r (ravel s is :: js) := by
  refine ⟨⟨s ++ u, r.data⟩, ?_, rfl, ?_⟩
  · unfold reshape
    rw [hr]
    simp only [List.tail_cons, List.prod_append, List.prod_cons, if_true]
  · intro is js h
    rw [entry_merge s u r.data h s.prod]
    congr 1
    cases r; simp only at hr; rw [hr]

/-- `x[i]`. -/
theorem take_ok (n : ℕ) (rest : List ℕ) (d : ℕ → α) (i : NDArray ℕ) (hn : n ≠ 0) :
    ∃ r, NDArray.take ⟨n :: rest, d⟩ i = .ok r ∧ r.shape = i.shape ++ rest ∧
      ∀ is js, InShape is i.shape → InShape js rest →
        entry r (is ++ js) = entry ⟨n :: rest, d⟩ (min (entry i is) (n - 1) :: js) := by
  refine ⟨_, by unfold NDArray.take; simp only [hn, false_and, if_false]; rfl, rfl, ?_⟩
  intro is js his hjs
  rw [entry_ofFn _ (inShape_append his hjs)]
  have : i.ndim = is.length := his.length.symm
  rw [this, List.take_left' rfl, List.drop_left' rfl]

end E3x
