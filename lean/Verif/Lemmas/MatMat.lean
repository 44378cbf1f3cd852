import Verif.Spec.MatMat
import Verif.Lemmas.Irreps
import Mathlib.Data.List.Count
import Mathlib.Data.Set.Function

/-!
# Lemmas about matrix/matmat.py
-/

namespace E3x

noncomputable section

open Finset Spec

/-! ## the multiplicities -/

theorem dictGet_incr (l k : ℕ) (d : List (ℕ × ℕ)) : dictGet (dictIncr l d) k = dictGet d k + if k = l then 1 else 0 := by
  induction d with
  | nil =>
    unfold dictIncr dictGet
    simp only [List.lookup]
    by_cases h : k = l
    · subst h; simp
    · rw [if_neg h]
      have : (k == l) = false := by simpa using h
      rw [this]; rfl
  | cons x d ih =>
    obtain ⟨a, c⟩ := x
    unfold dictIncr
    by_cases hal : a = l
    · subst hal
      rw [if_pos rfl]
      unfold dictGet
      simp only [List.lookup]
      by_cases h : k = a
      · subst h; simp
      · rw [if_neg h]
        have : (k == a) = false := by simpa using h
        rw [this]; rfl
    · rw [if_neg hal]
      unfold dictGet at ih ⊢
      simp only [List.lookup]
      by_cases h : k = a
      · subst h
        rw [if_neg hal]
        simp
      · have : (k == a) = false := by simpa using h
        rw [this]
        exact ih

theorem dictGet_incr_foldl (ls : List ℕ) (k : ℕ) (d : List (ℕ × ℕ)) :
    dictGet (ls.foldl (fun d l => dictIncr l d) d) k = dictGet d k + ls.count k := by
  induction ls generalizing d with
  | nil => simp
  | cons l ls ih =>
    rw [List.foldl_cons, ih, dictGet_incr, List.count_cons]
    simp only [beq_iff_eq, eq_comm (a := l)]
    ring

theorem keys_incr (l k : ℕ) (d : List (ℕ × ℕ)) : k ∈ (dictIncr l d).map Prod.fst ↔ k = l ∨ k ∈ d.map Prod.fst := by
  induction d with
  | nil => simp [dictIncr]
  | cons x d ih =>
    obtain ⟨a, c⟩ := x
    unfold dictIncr
    by_cases hal : a = l
    · subst hal
      rw [if_pos rfl]
      simp
    · rw [if_neg hal, List.map_cons, List.mem_cons, ih, List.map_cons, List.mem_cons]
      tauto

theorem keys_incr_foldl (ls : List ℕ) (k : ℕ) (d : List (ℕ × ℕ)) :
    k ∈ (ls.foldl (fun d l => dictIncr l d) d).map Prod.fst ↔ k ∈ ls ∨ k ∈ d.map Prod.fst := by
  induction ls generalizing d with
  | nil => simp
  | cons l ls ih =>
    rw [List.foldl_cons, ih, keys_incr, List.mem_cons]
    tauto

theorem triangle_iff (la lb l : ℕ) : Triangle la lb l ↔ absDiff la lb ≤ l ∧ l ≤ la + lb := by
  unfold Triangle absDiff
  rw [abs_le]
  omega

/-- the degrees visited for one pair -/
def visited (dmax : Option ℕ) (la lb : ℕ) : List ℕ :=
  List.range' (absDiff la lb) ((match dmax with | none => la + lb | some d => min (la + lb) d) + 1 - absDiff la lb)

theorem mem_visited (dmax : Option ℕ) (la lb l : ℕ) :
    l ∈ visited dmax la lb ↔ Triangle la lb l ∧ ∀ d ∈ dmax, l ≤ d := by
  unfold visited
  rw [List.mem_range'_1, triangle_iff]
  have : absDiff la lb ≤ la + lb := by unfold absDiff; omega
  cases dmax with
  | none => simp; omega
  | some d => simp; omega

theorem count_visited (dmax : Option ℕ) (la lb l : ℕ) :
    (visited dmax la lb).count l = if Triangle la lb l ∧ ∀ d ∈ dmax, l ≤ d then 1 else 0 := by
  have hn : (visited dmax la lb).Nodup := List.nodup_range' _ (by omega)
  by_cases h : l ∈ visited dmax la lb
  · rw [List.count_eq_one_of_mem hn h, if_pos ((mem_visited _ _ _ _).mp h)]
  · rw [List.count_eq_zero_of_not_mem h, if_neg (fun h' => h ((mem_visited _ _ _ _).mpr h'))]

/-- the number of pairs which couple to degree `l` -/
def pairCount (pairs : List (ℕ × ℕ)) (l : ℕ) : ℕ := pairs.countP fun x => decide (Triangle x.1 x.2 l)

theorem makeDict_fold (dmax : Option ℕ) (pairs : List (ℕ × ℕ)) (d : List (ℕ × ℕ)) (l : ℕ) (h : ∀ k ∈ dmax, l ≤ k) :
    dictGet (pairs.foldl (fun r x => (visited dmax x.1 x.2).foldl (fun r l => dictIncr l r) r) d) l =
      dictGet d l + pairCount pairs l := by
  induction pairs generalizing d with
  | nil => simp [pairCount]
  | cons x pairs ih =>
    rw [List.foldl_cons, ih, dictGet_incr_foldl, count_visited]
    unfold pairCount
    rw [List.countP_cons]
    by_cases ht : Triangle x.1 x.2 l
    · rw [if_pos ⟨ht, h⟩, if_pos (by simpa using ht)]; ring
    · rw [if_neg (fun h' => ht h'.1), if_neg (by simpa using ht)]; ring

theorem makeDict_eq (degrees : List ℕ) (dmax : Option ℕ) : makeDictIrrepsMult degrees dmax =
    (degrees.product degrees).foldl (fun r x => (visited dmax x.1 x.2).foldl (fun r l => dictIncr l r) r) [] := rfl

theorem makeDict_get (degrees : List ℕ) (dmax : Option ℕ) (l : ℕ) (h : ∀ k ∈ dmax, l ≤ k) :
    dictGet (makeDictIrrepsMult degrees dmax) l = pairCount (degrees.product degrees) l := by
  rw [makeDict_eq, makeDict_fold dmax _ _ _ h]
  simp [dictGet]

theorem makeDict_keys_fold (dmax : Option ℕ) (pairs : List (ℕ × ℕ)) (d : List (ℕ × ℕ)) (l : ℕ) :
    l ∈ (pairs.foldl (fun r x => (visited dmax x.1 x.2).foldl (fun r l => dictIncr l r) r) d).map Prod.fst ↔
      (∃ x ∈ pairs, Triangle x.1 x.2 l ∧ ∀ k ∈ dmax, l ≤ k) ∨ l ∈ d.map Prod.fst := by
  induction pairs generalizing d with
  | nil => simp
  | cons x pairs ih =>
    rw [List.foldl_cons, ih, keys_incr_foldl, mem_visited]
    simp only [List.mem_cons, exists_eq_or_imp]
    rw [or_left_comm, or_assoc]

theorem makeDict_keys (degrees : List ℕ) (dmax : Option ℕ) (l : ℕ) :
    l ∈ (makeDictIrrepsMult degrees dmax).map Prod.fst ↔
      ∃ la ∈ degrees, ∃ lb ∈ degrees, Triangle la lb l ∧ ∀ k ∈ dmax, l ≤ k := by
  rw [makeDict_eq, makeDict_keys_fold]
  simp only [List.map_nil, List.not_mem_nil, or_false, Prod.exists, List.pair_mem_product]
  constructor
  · rintro ⟨a, b, ⟨h1, h2⟩, h3⟩
    exact ⟨a, h1, b, h2, h3⟩
  · rintro ⟨a, h1, b, h2, h3⟩
    exact ⟨a, b, ⟨h1, h2⟩, h3⟩

/-! ## one rectangle -/

theorem getAll_range' (irreps : List Arr2) (lo n : ℕ) (h : lo + n ≤ irreps.length) :
    getAll irreps (List.range' lo n) = .ok ((List.range' lo n).map fun l => (l, irrepsAt irreps l)) := by
  induction n generalizing lo with
  | zero => rfl
  | succ n ih =>
    rw [List.range'_succ, List.map_cons]
    unfold getAll
    rw [ih (lo + 1) (by omega), List.getElem?_eq_getElem (by omega)]
    simp only [irrepsAt, List.getD_eq_getElem?_getD]
    rw [List.getElem?_eq_getElem (by omega)]
    rfl

theorem advance_range' (x : ℕ → Arr2) (m2 lo n : ℕ) (idx : ℕ → ℕ) :
    advance m2 ((List.range' lo n).map fun l => (l, x l)) idx =
      if ∀ l, lo ≤ l → l < lo + n → idx l + m2 ≤ (x l).cols then
        .ok fun k => if lo ≤ k ∧ k < lo + n then idx k + m2 else idx k
      else .error .valueError := by
  induction n generalizing lo idx with
  | zero =>
    rw [if_pos (fun l h1 h2 => by omega)]
    unfold advance
    simp only [List.range'_zero, List.map_nil]
    congr 1
    funext k
    rw [if_neg (by omega)]
  | succ n ih =>
    rw [List.range'_succ, List.map_cons]
    unfold advance
    by_cases h0 : idx lo + m2 > (x lo).cols
    · rw [if_pos h0, if_neg (fun h => by have := h lo (le_refl _) (by omega); omega)]
    · rw [if_neg h0, ih]
      by_cases h1 : ∀ l, lo ≤ l → l < lo + (n + 1) → idx l + m2 ≤ (x l).cols
      · rw [if_pos h1, if_pos (fun l a b => by rw [if_neg (by omega)]; exact h1 l (by omega) (by omega))]
        congr 1
        funext k
        by_cases hk : k = lo
        · subst hk
          rw [if_neg (by omega), if_pos rfl, if_pos (by omega)]
        · rw [if_neg hk]
          by_cases hk' : lo + 1 ≤ k ∧ k < lo + 1 + n
          · rw [if_pos hk', if_pos (by omega)]
          · rw [if_neg hk', if_neg (by omega)]
      · rw [if_neg h1, if_neg]
        intro h2
        apply h1
        intro l a b
        by_cases hl : l = lo
        · subst hl; omega
        · have := h2 l (by omega) (by omega)
          rwa [if_neg hl] at this

theorem concatRows_cons (x y : Arr2) (ys : List Arr2) : concatRows (x :: y :: ys) =
    match concatRows (y :: ys) with
    | .error e => .error e
    | .ok y =>
      if x.cols ≠ y.cols then .error .typeError
      else .ok { rows := x.rows + y.rows, cols := x.cols,
                 val := fun i j => if i < x.rows then x.val i j else y.val (i - x.rows) j } := by
  conv_lhs => unfold concatRows
  rfl

/-- concatenation of arrays with `2l+1` rows and the same number of columns, for consecutive `l` -/
theorem concat_range' (y : ℕ → Arr2) (w lo n : ℕ) (hr : ∀ l, lo ≤ l → l ≤ lo + n → (y l).rows = 2 * l + 1)
    (hc : ∀ l, lo ≤ l → l ≤ lo + n → (y l).cols = w) :
    ∃ v, concatRows ((List.range' lo (n + 1)).map y) = .ok v ∧ v.rows = (lo + n + 1) ^ 2 - lo ^ 2 ∧ v.cols = w ∧
      ∀ (f : ℕ) (g : ℕ → ℝ), ∑ m ∈ range v.rows, v.val m f * g (lo ^ 2 + m) =
        ∑ l ∈ Icc lo (lo + n), ∑ m ∈ range (2 * l + 1), (y l).val m f * g (l ^ 2 + m) := by
  induction n generalizing lo with
  | zero =>
    refine ⟨y lo, rfl, ?_, hc lo (le_refl _) (by omega), fun f g => ?_⟩
    · rw [hr lo (le_refl _) (by omega), show (lo + 0 + 1) ^ 2 = lo ^ 2 + (2 * lo + 1) by ring]; omega
    · rw [show lo + 0 = lo from rfl, Icc_self, sum_singleton, hr lo (le_refl _) (by omega)]
  | succ n ih =>
    obtain ⟨v, h1, h2, h3, h4⟩ := ih (lo + 1) (fun l a b => hr l (by omega) (by omega)) (fun l a b => hc l (by omega) (by omega))
    have h0 := hr lo (le_refl _) (by omega)
    refine ⟨{ rows := (y lo).rows + v.rows, cols := (y lo).cols,
              val := fun i j => if i < (y lo).rows then (y lo).val i j else v.val (i - (y lo).rows) j }, ?_, ?_, ?_, ?_⟩
    · have e : (List.range' lo (n + 1 + 1)).map y = y lo :: (List.range' (lo + 1) (n + 1)).map y := by
        rw [List.range'_succ, List.map_cons]
      have e' : (List.range' (lo + 1) (n + 1)).map y = y (lo + 1) :: (List.range' (lo + 1 + 1) n).map y := by
        rw [List.range'_succ, List.map_cons]
      rw [e]
      rw [e'] at h1 ⊢
      rw [concatRows_cons, h1]
      dsimp only
      rw [if_neg (by rw [h3, hc lo (le_refl _) (by omega)]; simp)]
    · dsimp only
      rw [h0, h2]
      have e1 : (lo + 1 + n + 1) ^ 2 = (lo + (n + 1) + 1) ^ 2 := by ring
      have e2 : (lo + 1) ^ 2 = lo ^ 2 + (2 * lo + 1) := by ring
      have e3 : (lo + 1) ^ 2 ≤ (lo + (n + 1) + 1) ^ 2 := Nat.pow_le_pow_left (by omega) 2
      omega
    · exact hc lo (le_refl _) (by omega)
    · intro f g
      dsimp only
      rw [sum_range_add, h0]
      have e1 : ∀ m ∈ range (2 * lo + 1), (if m < 2 * lo + 1 then (y lo).val m f else v.val (m - (2 * lo + 1)) f) *
          g (lo ^ 2 + m) = (y lo).val m f * g (lo ^ 2 + m) := fun m hm => by rw [if_pos (mem_range.mp hm)]
      have e2 : ∀ m ∈ range v.rows, (if 2 * lo + 1 + m < 2 * lo + 1 then (y lo).val (2 * lo + 1 + m) f
          else v.val (2 * lo + 1 + m - (2 * lo + 1)) f) * g (lo ^ 2 + (2 * lo + 1 + m)) =
          v.val m f * g ((lo + 1) ^ 2 + m) := fun m hm => by
        rw [if_neg (by omega), Nat.add_sub_cancel_left, show lo ^ 2 + (2 * lo + 1 + m) = (lo + 1) ^ 2 + m by ring]
      rw [sum_congr rfl e1, sum_congr rfl e2, h4 f g, show lo + 1 + n = lo + (n + 1) by ring]
      rw [← Finset.add_sum_Ioc_eq_sum_Icc (by omega : lo ≤ lo + (n + 1))]
      congr 1
      refine sum_congr ?_ fun _ _ => rfl
      ext k
      simp only [mem_Icc, mem_Ioc]
      omega

theorem concat_error (xs : List Arr2) (hne : xs ≠ []) {e : Err} (h : concatRows xs = .error e) : e = .typeError := by
  induction xs with
  | nil => exact absurd rfl hne
  | cons x xs ih =>
    cases xs with
    | nil => cases h
    | cons y ys =>
      rw [concatRows_cons] at h
      cases hc : concatRows (y :: ys) with
      | error e' =>
        rw [hc] at h
        dsimp only at h
        cases h
        exact ih (by simp) hc
      | ok v =>
        rw [hc] at h
        dsimp only at h
        split_ifs at h
        cases h; rfl

/-- The table of Clebsch-Gordan coefficients is large enough. -/
def LargeTable (cg : Arr3) (la lb K : ℕ) : Prop :=
  (la + 1) ^ 2 ≤ cg.s1 ∧ (lb + 1) ^ 2 ≤ cg.s2 ∧ (K + 1) ^ 2 ≤ cg.s3

/-- the pointers after a rectangle -/
def advanced (m2 K la lb : ℕ) (idx : ℕ → ℕ) : ℕ → ℕ :=
  fun l => if Triangle la lb l ∧ l ≤ K then idx l + m2 else idx l

theorem rectangle_eq (irreps : List Arr2) (K : ℕ) (hI : IsIrreps irreps K) (idx : ℕ → ℕ) (la lb : ℕ) (cg : Arr3)
    (hcg : LargeTable cg la lb K) (mult : ℕ) :
    ((∀ l ≤ K, Triangle la lb l → idx l + mult * mult ≤ (irrepsAt irreps l).cols) →
      makeRectangularMatrix irreps idx (2 * la + 1) (2 * lb + 1) cg mult =
        .ok (advanced (mult * mult) K la lb idx, fun r c => coupledEntry cg.val irreps K la lb
          (fun l => idx l + (r / (2 * la + 1) * mult + c / (2 * lb + 1))) (r % (2 * la + 1)) (c % (2 * lb + 1)))) ∧
    (¬ (∀ l ≤ K, Triangle la lb l → idx l + mult * mult ≤ (irrepsAt irreps l).cols) →
      makeRectangularMatrix irreps idx (2 * la + 1) (2 * lb + 1) cg mult = .error .valueError ∨
      makeRectangularMatrix irreps idx (2 * la + 1) (2 * lb + 1) cg mult = .error .typeError) := by
  obtain ⟨hlen, hrows⟩ := hI
  have hrow : ∀ l, l ≤ K → (irrepsAt irreps l).rows = 2 * l + 1 := by
    intro l hl
    unfold irrepsAt
    rw [List.getD_eq_getElem?_getD, List.getElem?_eq_getElem (by omega)]
    exact hrows l (by omega)
  have hf : irreps.head? = some (irrepsAt irreps 0) := by
    unfold irrepsAt
    rw [List.head?_eq_getElem?, List.getD_eq_getElem?_getD, List.getElem?_eq_getElem (by omega)]
    rfl
  have hl : irreps.getLast? = some (irrepsAt irreps K) := by
    unfold irrepsAt
    rw [List.getLast?_eq_getElem?, List.getD_eq_getElem?_getD, hlen, Nat.add_sub_cancel, List.getElem?_eq_getElem (by omega)]
    rfl
  unfold makeRectangularMatrix
  rw [hf, hl]
  dsimp only
  rw [hrow 0 (by omega), hrow K (le_refl _), if_neg (by omega), if_neg (by omega), if_neg (by omega),
    show (2 * 0 + 1) / 2 = 0 from rfl, show (2 * K + 1) / 2 = K by omega, show (2 * la + 1) / 2 = la by omega,
    show (2 * lb + 1) / 2 = lb by omega, Nat.max_zero]
  have tri : ∀ l, (Triangle la lb l ∧ l ≤ K) ↔ absDiff la lb ≤ l ∧ l < absDiff la lb + (min (la + lb) K + 1 - absDiff la lb) :=
    fun l => by rw [triangle_iff]; omega
  by_cases hlu : absDiff la lb ≥ min (la + lb) K + 1
  · have none : ∀ l, ¬ (Triangle la lb l ∧ l ≤ K) := fun l h => by rw [tri] at h; omega
    rw [if_pos hlu]
    refine ⟨fun _ => ?_, fun h => absurd (fun l hl ht => absurd ⟨ht, hl⟩ (none l)) h⟩
    congr 2
    · funext l
      unfold advanced
      rw [if_neg (none l)]
    · funext r c
      unfold coupledEntry
      rw [sum_eq_zero]
      intro l hl
      rw [mem_filter, mem_range] at hl
      exact absurd ⟨hl.2, by omega⟩ (none l)
  · have h3 : (min (la + lb) K + 1) ^ 2 ≤ (K + 1) ^ 2 := Nat.pow_le_pow_left (by omega) 2
    obtain ⟨g1, g2, g3⟩ := hcg
    rw [if_neg hlu, if_neg (by omega), if_neg (by omega), if_neg (by omega), getAll_range' _ _ _ (by omega)]
    dsimp only
    rw [List.map_map, advance_range']
    have hcond : (∀ l ≤ K, Triangle la lb l → idx l + mult * mult ≤ (irrepsAt irreps l).cols) ↔
        ∀ l, absDiff la lb ≤ l → l < absDiff la lb + (min (la + lb) K + 1 - absDiff la lb) →
          idx l + mult * mult ≤ (irrepsAt irreps l).cols := by
      constructor
      · intro h l a b
        have := (tri l).mpr ⟨a, b⟩
        exact h l this.2 this.1
      · intro h l a b
        have := (tri l).mp ⟨b, a⟩
        exact h l this.1 this.2
    rw [hcond]
    obtain ⟨n, hn⟩ : ∃ n, min (la + lb) K + 1 - absDiff la lb = n + 1 := ⟨min (la + lb) K - absDiff la lb, by omega⟩
    rw [hn]
    constructor
    · intro h
      rw [if_pos h]
      obtain ⟨v, c1, c2, c3, c4⟩ := concat_range' (fun l => sliceCols (irrepsAt irreps l) (idx l) (idx l + mult * mult))
        (mult * mult) (absDiff la lb) n (fun l a b => hrow l (by omega)) (fun l a b => by
          have := h l a (by omega)
          unfold sliceCols
          dsimp only
          omega)
      have e : ((fun x : ℕ × Arr2 => match x with | (l, x) => sliceCols x (idx l) (idx l + mult * mult)) ∘
          fun l => (l, irrepsAt irreps l)) = fun l => sliceCols (irrepsAt irreps l) (idx l) (idx l + mult * mult) := rfl
      rw [e, c1]
      dsimp only
      have hup : absDiff la lb + n + 1 = min (la + lb) K + 1 := by omega
      rw [if_neg (by rw [c2, hup]; simp), if_neg (by rw [c3]; simp)]
      congr 2
      · funext l
        unfold advanced
        have := tri l
        rw [hn] at this
        by_cases hl : Triangle la lb l ∧ l ≤ K
        · rw [if_pos hl, if_pos (this.mp hl)]
        · rw [if_neg hl, if_neg (fun h => hl (this.mpr h))]
      · funext r c
        rw [c4 _ (fun m => cg.val (la ^ 2 + r % (2 * la + 1)) (lb ^ 2 + c % (2 * lb + 1)) m)]
        unfold coupledEntry
        have hset : (range (K + 1)).filter (fun l => Triangle la lb l) = Icc (absDiff la lb) (absDiff la lb + n) := by
          ext l
          rw [mem_filter, mem_range, mem_Icc]
          have := tri l
          rw [hn] at this
          constructor
          · intro h'
            have := this.mp ⟨h'.2, by omega⟩
            omega
          · intro h'
            have := this.mpr ⟨h'.1, by omega⟩
            exact ⟨by omega, this.1⟩
        rw [hset]
        rfl
    · intro h
      rw [if_neg h]
      cases hc : concatRows (List.map ((fun x : ℕ × Arr2 => match x with | (l, x) => sliceCols x (idx l) (idx l + mult * mult)) ∘
          fun l => (l, irrepsAt irreps l)) (List.range' (absDiff la lb) (n + 1))) with
      | error e => right; rw [concat_error _ (by simp) hc]
      | ok v => left; rfl

end

end E3x
