import Mathlib.Data.Int.Order.Basic
import Mathlib.Order.Basic
import Mathlib.Tactic.Linarith
import Mathlib.Data.List.Basic
import Verif.Model.Quadrature

/-!
# C37: quadrature grid selection
-/

namespace E3x

namespace Spec

/-- Entry `i` is the right choice for a requested minimal precision `p`: the smallest available precision which is at
least `p`, or, if there is none, the largest available one. -/
def BestPrecision (avail : List Int) (p : Int) (i : ℕ) : Prop :=
  ∃ h : i < avail.length,
    ((∃ a ∈ avail, p ≤ a) → p ≤ avail[i] ∧ ∀ a ∈ avail, p ≤ a → avail[i] ≤ a) ∧
    ((¬ ∃ a ∈ avail, p ≤ a) → ∀ a ∈ avail, a ≤ avail[i])

/-- Entry `i` is the right choice for a requested maximal number of points `n`: the largest available number which is
at most `n`, or, if there is none, the smallest available one. -/
def BestNum (avail : List Int) (n : Int) (i : ℕ) : Prop :=
  ∃ h : i < avail.length,
    ((∃ a ∈ avail, a ≤ n) → avail[i] ≤ n ∧ ∀ a ∈ avail, a ≤ n → a ≤ avail[i]) ∧
    ((¬ ∃ a ∈ avail, a ≤ n) → ∀ a ∈ avail, avail[i] ≤ a)

end Spec

theorem npMax_spec (l : List Int) (a : Int) :
    (∀ b ∈ a :: l, b ≤ l.foldl max a) ∧ l.foldl max a ∈ a :: l := by
  induction l generalizing a with
  | nil => simp
  | cons c l ih =>
    obtain ⟨h1, h2⟩ := ih (max a c)
    simp only [List.foldl_cons]
    constructor
    · intro b hb
      simp only [List.mem_cons] at hb
      have hm : max a c ≤ l.foldl max (max a c) := h1 _ (by simp)
      rcases hb with rfl | rfl | hb
      · exact le_trans (le_max_left _ _) hm
      · exact le_trans (le_max_right _ _) hm
      · exact h1 b (by simp [hb])
    · simp only [List.mem_cons] at h2 ⊢
      rcases h2 with h2 | h2
      · rw [h2]
        rcases le_total a c with h | h
        · rw [max_eq_right h]; simp
        · rw [max_eq_left h]; simp
      · exact Or.inr (Or.inr h2)

theorem npMin_spec (l : List Int) (a : Int) :
    (∀ b ∈ a :: l, l.foldl min a ≤ b) ∧ l.foldl min a ∈ a :: l := by
  induction l generalizing a with
  | nil => simp
  | cons c l ih =>
    obtain ⟨h1, h2⟩ := ih (min a c)
    simp only [List.foldl_cons]
    constructor
    · intro b hb
      simp only [List.mem_cons] at hb
      have hm : l.foldl min (min a c) ≤ min a c := h1 _ (by simp)
      rcases hb with rfl | rfl | hb
      · exact le_trans hm (min_le_left _ _)
      · exact le_trans hm (min_le_right _ _)
      · exact h1 b (by simp [hb])
    · simp only [List.mem_cons] at h2 ⊢
      rcases h2 with h2 | h2
      · rw [h2]
        rcases le_total a c with h | h
        · rw [min_eq_left h]; simp
        · rw [min_eq_right h]; simp
      · exact Or.inr (Or.inr h2)

/-- What `nanargmin` returns. -/
theorem nanargmin_spec (l : List (Option Int)) :
    (nanargmin l = none → ∀ a, some a ∉ l) ∧
    ∀ i b, nanargmin l = some (i, b) → (∃ h : i < l.length, l[i] = some b) ∧ ∀ a, some a ∈ l → b ≤ a := by
  induction l with
  | nil => simp [nanargmin]
  | cons c l ih =>
    cases c with
    | none =>
      constructor
      · intro h a ha
        simp only [nanargmin, Option.map_eq_none_iff] at h
        simp only [List.mem_cons, reduceCtorEq, false_or] at ha
        exact ih.1 h a ha
      · intro i b h
        simp only [nanargmin, Option.map_eq_some_iff] at h
        obtain ⟨⟨j, d⟩, hj, he⟩ := h
        simp only [Prod.mk.injEq] at he
        obtain ⟨rfl, rfl⟩ := he
        obtain ⟨⟨hl, hv⟩, hmin⟩ := ih.2 j d hj
        refine ⟨⟨by simpa using hl, by simpa using hv⟩, fun a ha => hmin a (by simpa using ha)⟩
    | some e =>
      cases hn : nanargmin l with
      | none =>
        constructor
        · intro h; simp [nanargmin, hn] at h
        · intro i b h
          simp only [nanargmin, hn, Option.some.injEq, Prod.mk.injEq] at h
          obtain ⟨rfl, rfl⟩ := h
          refine ⟨⟨by simp, by simp⟩, fun a ha => ?_⟩
          simp only [List.mem_cons, Option.some.injEq] at ha
          rcases ha with rfl | ha
          · exact le_rfl
          · exact absurd ha (ih.1 hn a)
      | some p =>
        obtain ⟨j, d⟩ := p
        obtain ⟨⟨hl, hv⟩, hmin⟩ := ih.2 j d hn
        constructor
        · intro h
          simp only [nanargmin, hn] at h
          split_ifs at h
        · intro i b h
          simp only [nanargmin, hn] at h
          split_ifs at h with hlt
          · simp only [Option.some.injEq, Prod.mk.injEq] at h
            obtain ⟨rfl, rfl⟩ := h
            refine ⟨⟨by simpa using hl, by simpa using hv⟩, fun a ha => ?_⟩
            simp only [List.mem_cons, Option.some.injEq] at ha
            rcases ha with rfl | ha
            · exact hlt.le
            · exact hmin a ha
          · simp only [Option.some.injEq, Prod.mk.injEq] at h
            obtain ⟨rfl, rfl⟩ := h
            refine ⟨⟨by simp, by simp⟩, fun a ha => ?_⟩
            simp only [List.mem_cons, Option.some.injEq] at ha
            rcases ha with rfl | ha
            · exact le_rfl
            · exact le_trans (not_lt.mp hlt) (hmin a ha)

theorem nanargmin_diff (avail : List Int) (f : Int → Int) (hex : ∃ a ∈ avail, 0 ≤ f a) :
    ∃ i b, nanargmin (nanNegative (avail.map f)) = some (i, b) ∧ ∃ h : i < avail.length,
      0 ≤ f avail[i] ∧ ∀ a ∈ avail, 0 ≤ f a → f avail[i] ≤ f a := by
  obtain ⟨a, ha, hfa⟩ := hex
  have hs := nanargmin_spec (nanNegative (avail.map f))
  cases hr : nanargmin (nanNegative (avail.map f)) with
  | none =>
    exfalso
    refine hs.1 hr (f a) ?_
    simp only [nanNegative, List.mem_map]
    exact ⟨f a, ⟨a, ha, rfl⟩, by rw [if_neg (by omega)]⟩
  | some p =>
    obtain ⟨i, b⟩ := p
    obtain ⟨⟨hl, hv⟩, hmin⟩ := hs.2 i b hr
    have hl' : i < avail.length := by simpa [nanNegative] using hl
    simp only [nanNegative, List.getElem_map] at hv
    split_ifs at hv with hneg
    have hv' : f avail[i] = b := by injection hv
    refine ⟨i, b, rfl, hl', by omega, ?_⟩
    intro c hc hfc
    rw [hv']
    refine hmin (f c) ?_
    simp only [nanNegative, List.mem_map]
    exact ⟨f c, ⟨c, hc, rfl⟩, by rw [if_neg (by omega)]⟩

/-- **C37.** For every non-empty strictly increasing table of non-negative precisions and every requested precision
(negative ones included), the selected grid is the right choice. -/
theorem C37_precision (avail : List Int) (hne : avail ≠ []) (hsorted : avail.Pairwise (· < ·))
    (hpos : ∀ a ∈ avail, 0 ≤ a) (p : Int) : ∃ i, selectByPrecision avail p = .ok i ∧ Spec.BestPrecision avail p i := by
  obtain ⟨x, l, rfl⟩ : ∃ x l, avail = x :: l := by
    cases avail with
    | nil => exact absurd rfl hne
    | cons x l => exact ⟨x, l, rfl⟩
  obtain ⟨hmax, hmem⟩ := npMax_spec l x
  unfold selectByPrecision
  simp only [npMax]
  by_cases hp : p > l.foldl max x
  · rw [if_pos hp]
    refine ⟨_, rfl, by simp, ?_, ?_⟩
    · rintro ⟨a, ha, hpa⟩
      have := hmax a ha
      omega
    · intro _ a ha
      obtain ⟨j, hj, rfl⟩ := List.getElem_of_mem ha
      rcases Nat.lt_or_ge j ((x :: l).length - 1) with h | h
      · exact (List.pairwise_iff_getElem.mp hsorted j _ hj (by simp) h).le
      · have : j = (x :: l).length - 1 := by omega
        subst this; exact le_rfl
  · rw [if_neg hp]
    obtain ⟨i, b, hi, hl, h1, h2⟩ := nanargmin_diff (x :: l) (fun a => a - max p 0)
      ⟨l.foldl max x, hmem, by have := hpos _ hmem; omega⟩
    rw [hi]
    refine ⟨i, rfl, hl, fun _ => ⟨by omega, ?_⟩, ?_⟩
    · intro a ha hpa
      have := h2 a ha (by have := hpos a ha; omega)
      omega
    · intro hno
      exact absurd ⟨l.foldl max x, hmem, by omega⟩ hno

/-- **C37.** For every non-empty strictly increasing table of non-negative numbers of points and every requested
number, the selected grid is the right choice. -/
theorem C37_num (avail : List Int) (hne : avail ≠ []) (hsorted : avail.Pairwise (· < ·))
    (hpos : ∀ a ∈ avail, 0 ≤ a) (n : Int) : ∃ i, selectByNum avail n = .ok i ∧ Spec.BestNum avail n i := by
  obtain ⟨x, l, rfl⟩ : ∃ x l, avail = x :: l := by
    cases avail with
    | nil => exact absurd rfl hne
    | cons x l => exact ⟨x, l, rfl⟩
  obtain ⟨hmin, hmem⟩ := npMin_spec l x
  unfold selectByNum
  simp only [npMin]
  by_cases hn : n < l.foldl min x
  · rw [if_pos hn]
    refine ⟨_, rfl, by simp, ?_, ?_⟩
    · rintro ⟨a, ha, hpa⟩
      have := hmin a ha
      omega
    · intro _ a ha
      simp only [List.getElem_cons_zero]
      simp only [List.mem_cons] at ha
      rcases ha with rfl | ha
      · exact le_rfl
      · exact (List.rel_of_pairwise_cons hsorted ha).le
  · rw [if_neg hn]
    obtain ⟨i, b, hi, hl, h1, h2⟩ := nanargmin_diff (x :: l) (fun a => max n 0 - a)
      ⟨l.foldl min x, hmem, by have := hpos _ hmem; omega⟩
    rw [hi]
    have hn0 : 0 ≤ n := by have := hpos _ hmem; omega
    refine ⟨i, rfl, hl, fun _ => ⟨by omega, ?_⟩, ?_⟩
    · intro a ha hpa
      have := h2 a ha (by omega)
      omega
    · intro hno
      exact absurd ⟨l.foldl min x, hmem, by omega⟩ hno

/-- **C37.** `lebedev_quadrature` and `delley_quadrature` return the grid selected by the table of their own file;
exactly one of `precision` and `num` must be given, and the kind must be known, else ValueError. -/
theorem C37_load {G : Type} (files : String → GridFile G) (kind : String) (precision num : Option Int) :
    (kind ∉ ["Lebedev", "Delley"] → loadGrid files kind precision num = .error .valueError) ∧
    (precision.isSome = num.isSome → loadGrid files kind precision num = .error .valueError) ∧
    (∀ p i, kind ∈ ["Lebedev", "Delley"] → precision = some p → num = none →
      selectByPrecision (files kind).precision p = .ok i →
      loadGrid files kind precision num = .ok ((files kind).grid i)) ∧
    (∀ n i, kind ∈ ["Lebedev", "Delley"] → precision = none → num = some n →
      selectByNum (files kind).num n = .ok i → loadGrid files kind precision num = .ok ((files kind).grid i)) ∧
    lebedevQuadrature files precision num = loadGrid files "Lebedev" precision num ∧
    delleyQuadrature files precision num = loadGrid files "Delley" precision num := by
  refine ⟨?_, ?_, ?_, ?_, rfl, rfl⟩
  · intro h; simp only [loadGrid, h, not_false_eq_true, if_true]
  · intro h
    unfold loadGrid
    split_ifs
    · cases precision <;> cases num <;> simp_all
    · rfl
  · rintro p i hk rfl rfl hi
    simp only [loadGrid, hk, not_true, if_false, hi, Except.map]
  · rintro p i hk rfl rfl hi
    simp only [loadGrid, hk, not_true, if_false, hi, Except.map]

/-- The table of precisions shipped in `_lebedev_grids.npz`. -/
def lebedevPrecisions : List Int :=
  [3, 5, 7, 9, 11, 13, 15, 17, 19, 21, 23, 25, 27, 29, 31, 35, 41, 47, 53, 59, 65, 71, 77, 83, 89, 95, 101, 107, 113,
    119, 125, 131]

/-- The table of numbers of points shipped in `_lebedev_grids.npz`. -/
def lebedevNums : List Int :=
  [6, 14, 26, 38, 50, 74, 86, 110, 146, 170, 194, 230, 266, 302, 350, 434, 590, 770, 974, 1202, 1454, 1730, 2030,
    2354, 2702, 3074, 3470, 3890, 4334, 4802, 5294, 5810]

/-- The table of precisions shipped in `_delley_grids.npz`. -/
def delleyPrecisions : List Int := [5, 7, 11, 17, 23, 29, 35, 41, 47, 53, 59, 65, 71, 77, 83, 89, 95, 101]

/-- The table of numbers of points shipped in `_delley_grids.npz`. -/
def delleyNums : List Int :=
  [14, 26, 50, 110, 194, 302, 434, 590, 770, 974, 1202, 1454, 1730, 2030, 2354, 2702, 3074, 3470]

/-- **C37.** The four tables which are shipped meet the hypotheses of `C37_precision` and `C37_num`. -/
theorem C37_shipped_tables :
    ∀ t ∈ [lebedevPrecisions, lebedevNums, delleyPrecisions, delleyNums],
      t ≠ [] ∧ t.Pairwise (· < ·) ∧ ∀ a ∈ t, (0 : Int) ≤ a := by
  decide +kernel

example : selectByPrecision lebedevPrecisions 30 = .ok 14 ∧ selectByNum delleyNums 193 = .ok 3 ∧
    selectByPrecision lebedevPrecisions 1000 = .ok 31 ∧ selectByNum delleyNums 3 = .ok 0 := by
  decide +kernel

end E3x
