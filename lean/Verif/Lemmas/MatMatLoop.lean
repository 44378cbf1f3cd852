import Verif.Lemmas.MatMat

/-!
# The loops of `make_square_matrix`
-/

namespace E3x

noncomputable section

open Finset Spec

/-- a rectangle: its first row and column and the degrees -/
structure Rect where
  sa : ℕ
  la : ℕ
  sb : ℕ
  lb : ℕ

def Rect.Contains (mult : ℕ) (R : Rect) (r c : ℕ) : Prop :=
  (R.sa ≤ r ∧ r < R.sa + (2 * R.la + 1) * mult) ∧ (R.sb ≤ c ∧ c < R.sb + (2 * R.lb + 1) * mult)

/-- the entries written for a rectangle -/
def Rect.entry (cg : Arr3) (irreps : List Arr2) (K mult : ℕ) (shift : Bool) (ptr : ℕ → ℕ) (R : Rect) (r c : ℕ) : ℝ :=
  coupledEntry cg.val irreps K R.la R.lb
    (fun l => ptr l + ((r - R.sa) / (2 * R.la + 1) * mult + (c - R.sb) / (2 * R.lb + 1)))
    ((r - R.sa) % (2 * R.la + 1)) ((c - R.sb) % (2 * R.lb + 1)) +
    if shift && R.sa == R.sb then if r - R.sa = c - R.sb then 1 else 0 else 0

/-- one loop over a list of rectangles -/
def runRects (irreps : List Arr2) (cg : Arr3) (mult : ℕ) (shift : Bool) :
    List Rect → (ℕ → ℕ) × (ℕ → ℕ → ℝ) → Except Err ((ℕ → ℕ) × (ℕ → ℕ → ℝ))
  | [], s => .ok s
  | R :: Rs, (idx, result) =>
    match makeRectangularMatrix irreps idx (2 * R.la + 1) (2 * R.lb + 1) cg mult with
    | .error e => .error e
    | .ok (idx', rect) =>
      let rect := if shift && R.sa == R.sb then fun r c => rect r c + if r = c then 1 else 0 else rect
      runRects irreps cg mult shift Rs
        (idx', setRect result R.sa (R.sa + (2 * R.la + 1) * mult) R.sb (R.sb + (2 * R.lb + 1) * mult) rect)

theorem runRects_cons (irreps : List Arr2) (cg : Arr3) (mult : ℕ) (shift : Bool) (R : Rect) (Rs : List Rect)
    (s : (ℕ → ℕ) × (ℕ → ℕ → ℝ)) : runRects irreps cg mult shift (R :: Rs) s =
      match makeRectangularMatrix irreps s.1 (2 * R.la + 1) (2 * R.lb + 1) cg mult with
      | .error e => .error e
      | .ok t => runRects irreps cg mult shift Rs
        (t.1, setRect s.2 R.sa (R.sa + (2 * R.la + 1) * mult) R.sb (R.sb + (2 * R.lb + 1) * mult)
          (if shift && R.sa == R.sb then fun r c => t.2 r c + if r = c then 1 else 0 else t.2)) := by
  obtain ⟨idx, result⟩ := s
  conv_lhs => unfold runRects
  cases makeRectangularMatrix irreps idx (2 * R.la + 1) (2 * R.lb + 1) cg mult with
  | error e => rfl
  | ok t => rfl

theorem runRects_append (irreps : List Arr2) (cg : Arr3) (mult : ℕ) (shift : Bool) (xs ys : List Rect)
    (s : (ℕ → ℕ) × (ℕ → ℕ → ℝ)) : runRects irreps cg mult shift (xs ++ ys) s =
      match runRects irreps cg mult shift xs s with
      | .error e => .error e
      | .ok s' => runRects irreps cg mult shift ys s' := by
  induction xs generalizing s with
  | nil => rfl
  | cons R xs ih =>
    rw [List.cons_append, runRects_cons, runRects_cons]
    cases makeRectangularMatrix irreps s.1 (2 * R.la + 1) (2 * R.lb + 1) cg mult with
    | error e => rfl
    | ok t => exact ih _

/-- the rectangles of the inner loop -/
def rowRects (mult sa la : ℕ) : List ℕ → ℕ → List Rect
  | [], _ => []
  | lb :: ls, sb => ⟨sa, la, sb, lb⟩ :: rowRects mult sa la ls (sb + (2 * lb + 1) * mult)

/-- the rectangles of the outer loop -/
def allRects (mult : ℕ) (degrees : List ℕ) : List ℕ → ℕ → List Rect
  | [], _ => []
  | la :: ls, sa => rowRects mult sa la degrees 0 ++ allRects mult degrees ls (sa + (2 * la + 1) * mult)

theorem squareInner_eq (irreps : List Arr2) (cg : Arr3) (mult : ℕ) (shift : Bool) (sa la : ℕ) (degrees : List ℕ) (sb : ℕ)
    (s : (ℕ → ℕ) × (ℕ → ℕ → ℝ)) :
    squareInner irreps cg mult shift sa (2 * la + 1) (computeSideLengths degrees) sb s =
      runRects irreps cg mult shift (rowRects mult sa la degrees sb) s := by
  induction degrees generalizing sb s with
  | nil => rfl
  | cons lb ls ih =>
    obtain ⟨idx, result⟩ := s
    unfold computeSideLengths at *
    rw [List.map_cons]
    conv_rhs => unfold rowRects
    rw [runRects_cons]
    conv_lhs => unfold squareInner
    dsimp only
    cases makeRectangularMatrix irreps idx (2 * la + 1) (2 * lb + 1) cg mult with
    | error e => rfl
    | ok t => exact ih _ _

theorem squareOuter_eq (irreps : List Arr2) (cg : Arr3) (mult : ℕ) (shift : Bool) (degrees rest : List ℕ) (sa : ℕ)
    (s : (ℕ → ℕ) × (ℕ → ℕ → ℝ)) :
    squareOuter irreps cg mult shift (computeSideLengths degrees) (computeSideLengths rest) sa s =
      runRects irreps cg mult shift (allRects mult degrees rest sa) s := by
  induction rest generalizing sa s with
  | nil => rfl
  | cons la ls ih =>
    unfold allRects
    rw [runRects_append, ← squareInner_eq]
    unfold computeSideLengths at *
    rw [List.map_cons]
    conv_lhs => unfold squareOuter
    cases squareInner irreps cg mult shift sa (2 * la + 1) (degrees.map fun l => 2 * l + 1) 0 s with
    | error e => rfl
    | ok t => exact ih _ _

/-- the number of rectangles that use irreps of degree `l` -/
def rectCount (Rs : List Rect) (l : ℕ) : ℕ := Rs.countP fun R => decide (Triangle R.la R.lb l)

theorem rectCount_cons (R : Rect) (Rs : List Rect) (l : ℕ) :
    rectCount (R :: Rs) l = rectCount Rs l + if Triangle R.la R.lb l then 1 else 0 := by
  unfold rectCount
  rw [List.countP_cons]
  by_cases h : Triangle R.la R.lb l <;> simp [h]

theorem runRects_ok (irreps : List Arr2) (K : ℕ) (hI : IsIrreps irreps K) (cg : Arr3) (mult : ℕ) (shift : Bool)
    (Rs : List Rect) (hcg : ∀ R ∈ Rs, LargeTable cg R.la R.lb K)
    (hd : Rs.Pairwise fun R S => ∀ r c, R.Contains mult r c → ¬ S.Contains mult r c)
    (idx : ℕ → ℕ) (result : ℕ → ℕ → ℝ)
    (h : ∀ l ≤ K, idx l + mult * mult * rectCount Rs l ≤ (irrepsAt irreps l).cols) :
    ∃ s, runRects irreps cg mult shift Rs (idx, result) = .ok s ∧
      (∀ l ≤ K, s.1 l = idx l + mult * mult * rectCount Rs l) ∧
      (∀ k, (hk : k < Rs.length) → ∀ r c, Rs[k].Contains mult r c →
        s.2 r c = Rs[k].entry cg irreps K mult shift (fun l => idx l + mult * mult * rectCount (Rs.take k) l) r c) ∧
      ∀ r c, (∀ R ∈ Rs, ¬ R.Contains mult r c) → s.2 r c = result r c := by
  induction Rs generalizing idx result with
  | nil => exact ⟨_, rfl, fun l _ => by simp [rectCount], fun k hk => absurd hk (by simp), fun r c _ => rfl⟩
  | cons R Rs ih =>
    rw [List.pairwise_cons] at hd
    have hR : ∀ l ≤ K, Triangle R.la R.lb l → idx l + mult * mult ≤ (irrepsAt irreps l).cols := by
      intro l hl ht
      have := h l hl
      rw [rectCount_cons, if_pos ht] at this
      have e : mult * mult * (rectCount Rs l + 1) = mult * mult * rectCount Rs l + mult * mult := by ring
      omega
    have heq := (rectangle_eq irreps K hI idx R.la R.lb cg (hcg R (by simp)) mult).1 hR
    have hadv : ∀ l ≤ K, ∀ n, advanced (mult * mult) K R.la R.lb idx l + mult * mult * n =
        idx l + mult * mult * (n + if Triangle R.la R.lb l then 1 else 0) := by
      intro l hl n
      unfold advanced
      by_cases ht : Triangle R.la R.lb l
      · rw [if_pos ⟨ht, hl⟩, if_pos ht]; ring
      · rw [if_neg (fun h => ht h.1), if_neg ht]; ring
    have h' : ∀ l ≤ K, advanced (mult * mult) K R.la R.lb idx l + mult * mult * rectCount Rs l ≤ (irrepsAt irreps l).cols := by
      intro l hl
      rw [hadv l hl, ← rectCount_cons]
      exact h l hl
    obtain ⟨s, s1, s2, s3, s4⟩ := ih (fun S hS => hcg S (by simp [hS])) hd.2 _
      (setRect result R.sa (R.sa + (2 * R.la + 1) * mult) R.sb (R.sb + (2 * R.lb + 1) * mult)
        (if shift && R.sa == R.sb then fun r c => coupledEntry cg.val irreps K R.la R.lb
          (fun l => idx l + (r / (2 * R.la + 1) * mult + c / (2 * R.lb + 1))) (r % (2 * R.la + 1)) (c % (2 * R.lb + 1)) +
            if r = c then 1 else 0 else fun r c => coupledEntry cg.val irreps K R.la R.lb
          (fun l => idx l + (r / (2 * R.la + 1) * mult + c / (2 * R.lb + 1))) (r % (2 * R.la + 1)) (c % (2 * R.lb + 1)))) h'
    refine ⟨s, ?_, ?_, ?_, ?_⟩
    · unfold runRects
      rw [heq]
      exact s1
    · intro l hl
      rw [s2 l hl, hadv l hl, rectCount_cons]
    · intro k hk r c hc
      cases k with
      | zero =>
        rw [List.getElem_cons_zero] at hc ⊢
        rw [s4 r c (fun S hS => hd.1 S hS r c hc)]
        unfold setRect Rect.entry
        rw [if_pos (show (R.sa ≤ r ∧ r < R.sa + (2 * R.la + 1) * mult) ∧ R.sb ≤ c ∧ c < R.sb + (2 * R.lb + 1) * mult from hc)]
        simp only [List.take_zero, rectCount, List.countP_nil, mul_zero, add_zero]
        by_cases hs : (shift && R.sa == R.sb) = true
        · rw [if_pos hs, if_pos hs]
        · rw [if_neg hs, if_neg hs, add_zero]
      | succ k =>
        rw [List.getElem_cons_succ] at hc ⊢
        rw [List.length_cons] at hk
        rw [s3 k (by omega) r c hc]
        unfold Rect.entry
        congr 1
        unfold coupledEntry
        refine sum_congr rfl fun l hl => ?_
        rw [mem_filter, mem_range] at hl
        refine sum_congr rfl fun m _ => ?_
        dsimp only
        rw [hadv l (by omega), ← rectCount_cons, List.take_succ_cons]
    · intro r c hrc
      rw [s4 r c (fun S hS => hrc S (by simp [hS]))]
      unfold setRect
      rw [if_neg]
      exact hrc R (by simp)

theorem runRects_error (irreps : List Arr2) (K : ℕ) (hI : IsIrreps irreps K) (cg : Arr3) (mult : ℕ) (shift : Bool)
    (Rs : List Rect) (hcg : ∀ R ∈ Rs, LargeTable cg R.la R.lb K) (idx : ℕ → ℕ) (result : ℕ → ℕ → ℝ) (l : ℕ) (hl : l ≤ K)
    (hpos : 0 < rectCount Rs l) (h : (irrepsAt irreps l).cols < idx l + mult * mult * rectCount Rs l) :
    runRects irreps cg mult shift Rs (idx, result) = .error .valueError ∨
      runRects irreps cg mult shift Rs (idx, result) = .error .typeError := by
  induction Rs generalizing idx result with
  | nil => simp [rectCount] at hpos
  | cons R Rs ih =>
    unfold runRects
    by_cases hR : ∀ l ≤ K, Triangle R.la R.lb l → idx l + mult * mult ≤ (irrepsAt irreps l).cols
    · rw [(rectangle_eq irreps K hI idx R.la R.lb cg (hcg R (by simp)) mult).1 hR]
      dsimp only
      rw [rectCount_cons] at hpos h
      have hadv : advanced (mult * mult) K R.la R.lb idx l =
          idx l + mult * mult * if Triangle R.la R.lb l then 1 else 0 := by
        unfold advanced
        by_cases ht : Triangle R.la R.lb l
        · rw [if_pos ⟨ht, hl⟩, if_pos ht]; ring
        · rw [if_neg (fun h => ht h.1), if_neg ht]; ring
      apply ih (fun S hS => hcg S (by simp [hS]))
      · by_contra h0
        have h0 : rectCount Rs l = 0 := by omega
        rw [h0, zero_add] at h hpos
        by_cases ht : Triangle R.la R.lb l
        · rw [if_pos ht] at h
          have := hR l hl ht
          omega
        · rw [if_neg ht] at hpos; omega
      · rw [hadv]
        calc _ < _ := h
          _ = _ := by ring
    · rcases (rectangle_eq irreps K hI idx R.la R.lb cg (hcg R (by simp)) mult).2 hR with e | e
      · rw [e]; left; rfl
      · rw [e]; right; rfl

/-! ## positions of the rectangles -/

theorem rowRects_eq (mult sa la : ℕ) (degrees : List ℕ) (sb : ℕ) : rowRects mult sa la degrees sb =
    (List.range degrees.length).map fun B => ⟨sa, la, sb + blockStart degrees mult B, degreeAt degrees B⟩ := by
  induction degrees generalizing sb with
  | nil => rfl
  | cons lb ls ih =>
    unfold rowRects
    rw [List.length_cons, List.range_succ_eq_map, List.map_cons, List.map_map, ih]
    congr 1
    apply List.map_congr_left
    intro B _
    simp only [Function.comp, blockStart]
    rw [sum_range_succ']
    simp only [degreeAt, List.getD_cons_succ, List.getD_cons_zero]
    congr 1
    ring

theorem allRects_eq (mult : ℕ) (degrees rest : List ℕ) (sa : ℕ) : allRects mult degrees rest sa =
    (List.range rest.length).flatMap fun A => (List.range degrees.length).map fun B =>
      ⟨sa + blockStart rest mult A, degreeAt rest A, blockStart degrees mult B, degreeAt degrees B⟩ := by
  induction rest generalizing sa with
  | nil => rfl
  | cons la ls ih =>
    unfold allRects
    rw [List.length_cons, List.range_succ_eq_map, List.flatMap_cons, ih, rowRects_eq, List.flatMap_map]
    congr 1
    · apply List.map_congr_left
      intro B _
      simp [degreeAt, blockStart]
    · apply List.flatMap_congr
      intro A _
      apply List.map_congr_left
      intro B _
      simp only [blockStart]
      rw [sum_range_succ' _ A]
      simp only [degreeAt, List.getD_cons_succ, List.getD_cons_zero]
      congr 1
      ring

/-! ## the rectangles by their numbers -/

/-- the rectangle of the positions `A` and `B` -/
def rectAt (degrees : List ℕ) (mult A B : ℕ) : Rect :=
  ⟨blockStart degrees mult A, degreeAt degrees A, blockStart degrees mult B, degreeAt degrees B⟩

theorem div_mod_pair {n A B : ℕ} (hB : B < n) : (A * n + B) / n = A ∧ (A * n + B) % n = B := by
  have h0 : 0 < n := by omega
  constructor
  · rw [mul_comm, Nat.mul_add_div h0, Nat.div_eq_of_lt hB, add_zero]
  · rw [mul_comm, Nat.mul_add_mod, Nat.mod_eq_of_lt hB]

theorem div_lt_of_lt_sq {n k : ℕ} (hk : k < n * n) : k / n < n ∧ k % n < n ∧ k / n * n + k % n = k := by
  have h0 : 0 < n := by
    rcases Nat.eq_zero_or_pos n with h | h
    · subst h; omega
    · exact h
  exact ⟨Nat.div_lt_of_lt_mul hk, Nat.mod_lt _ h0, Nat.div_add_mod' k n⟩

theorem flatMap_map_length {α β γ : Type} (xs : List α) (ys : List β) (f : α → β → γ) :
    (xs.flatMap fun a => ys.map fun b => f a b).length = xs.length * ys.length := by
  simp [List.length_flatMap]

theorem allRects_range (mult : ℕ) (degrees : List ℕ) : allRects mult degrees degrees 0 =
    (List.range (degrees.length * degrees.length)).map fun k =>
      rectAt degrees mult (k / degrees.length) (k % degrees.length) := by
  rw [allRects_eq]
  simp only [zero_add]
  apply List.ext_getElem?
  intro k
  by_cases hk : k < degrees.length * degrees.length
  · obtain ⟨h1, h2, h3⟩ := div_lt_of_lt_sq hk
    have := flatMap_map_get (List.range degrees.length) (List.range degrees.length)
      (fun A B => (⟨blockStart degrees mult A, degreeAt degrees A, blockStart degrees mult B, degreeAt degrees B⟩ : Rect))
      degrees.length (k / degrees.length) (k % degrees.length) (k / degrees.length) (k % degrees.length) (by simp)
      (by rw [List.getElem?_range h1]) (by rw [List.getElem?_range h2])
    rw [h3] at this
    rw [this, List.getElem?_map, List.getElem?_range hk]
    rfl
  · rw [List.getElem?_eq_none, List.getElem?_eq_none]
    · simp only [List.length_map, List.length_range]; omega
    · rw [flatMap_map_length]; simp only [List.length_range]; omega

theorem blockStart_succ (degrees : List ℕ) (mult A : ℕ) :
    blockStart degrees mult (A + 1) = blockStart degrees mult A + (2 * degreeAt degrees A + 1) * mult := by
  unfold blockStart
  rw [sum_range_succ]

theorem blockStart_mono (degrees : List ℕ) (mult : ℕ) {A B : ℕ} (h : A ≤ B) :
    blockStart degrees mult A ≤ blockStart degrees mult B := by
  unfold blockStart
  exact sum_le_sum_of_subset (range_subset_range.2 h)

theorem block_unique (degrees : List ℕ) (mult : ℕ) {A B r : ℕ}
    (hA : blockStart degrees mult A ≤ r ∧ r < blockStart degrees mult A + (2 * degreeAt degrees A + 1) * mult)
    (hB : blockStart degrees mult B ≤ r ∧ r < blockStart degrees mult B + (2 * degreeAt degrees B + 1) * mult) : A = B := by
  rw [← blockStart_succ] at hA hB
  rcases lt_trichotomy A B with h | h | h
  · have := blockStart_mono degrees mult (show A + 1 ≤ B by omega)
    omega
  · exact h
  · have := blockStart_mono degrees mult (show B + 1 ≤ A by omega)
    omega

theorem allRects_disjoint (mult : ℕ) (degrees : List ℕ) : (allRects mult degrees degrees 0).Pairwise
    fun R S => ∀ r c, R.Contains mult r c → ¬ S.Contains mult r c := by
  rw [allRects_range, List.pairwise_map]
  refine List.Pairwise.imp ?_ List.pairwise_lt_range
  intro a b hab r c h1 h2
  have e1 := block_unique degrees mult h1.1 h2.1
  have e2 := block_unique degrees mult h1.2 h2.2
  have := Nat.div_add_mod' a degrees.length
  have := Nat.div_add_mod' b degrees.length
  rw [e1, e2] at *
  omega

/-- do the positions of rectangle number `k` admit the degree `l`? -/
def admits (degrees : List ℕ) (l k : ℕ) : Prop :=
  Triangle (degreeAt degrees (k / degrees.length)) (degreeAt degrees (k % degrees.length)) l

instance (degrees : List ℕ) (l : ℕ) : DecidablePred (admits degrees l) := fun _ => inferInstanceAs (Decidable (Triangle _ _ _))

theorem countP_range_eq_count (p : ℕ → Prop) [DecidablePred p] (k : ℕ) :
    (List.range k).countP (fun i => decide (p i)) = Nat.count p k := by
  induction k with
  | zero => rfl
  | succ k ih => rw [List.range_succ, List.countP_append, ih, Nat.count_succ]; by_cases h : p k <;> simp [h]

theorem rectCount_take (mult : ℕ) (degrees : List ℕ) (l k : ℕ) (hk : k ≤ degrees.length * degrees.length) :
    rectCount ((allRects mult degrees degrees 0).take k) l = Nat.count (admits degrees l) k := by
  unfold rectCount
  rw [allRects_range, ← List.map_take, List.take_range, min_eq_left hk, List.countP_map, ← countP_range_eq_count]
  rfl

theorem rowRects_degrees (mult sa la : ℕ) (degrees : List ℕ) (sb : ℕ) :
    (rowRects mult sa la degrees sb).map (fun R => (R.la, R.lb)) = degrees.map (fun lb => (la, lb)) := by
  induction degrees generalizing sb with
  | nil => rfl
  | cons lb ls ih => unfold rowRects; rw [List.map_cons, List.map_cons, ih]

theorem allRects_degrees (mult : ℕ) (degrees rest : List ℕ) (sa : ℕ) :
    (allRects mult degrees rest sa).map (fun R => (R.la, R.lb)) = rest.product degrees := by
  induction rest generalizing sa with
  | nil => rfl
  | cons la ls ih => unfold allRects; rw [List.map_append, ih, rowRects_degrees]; rfl

theorem rectCount_all (mult : ℕ) (degrees : List ℕ) (l : ℕ) :
    rectCount (allRects mult degrees degrees 0) l = pairCount (degrees.product degrees) l := by
  rw [← allRects_degrees mult degrees degrees 0]
  unfold rectCount pairCount
  rw [List.countP_map]
  rfl

theorem count_all (degrees : List ℕ) (l : ℕ) :
    Nat.count (admits degrees l) (degrees.length * degrees.length) = pairCount (degrees.product degrees) l := by
  rw [← rectCount_all 0, ← rectCount_take 0 _ _ _ le_rfl, List.take_of_length_le]
  rw [allRects_range]; simp

/-- the column used for the entries of copy `(p, q)` of the rectangle of `A` and `B` -/
def columnOf (degrees : List ℕ) (mult l A B p q : ℕ) : ℕ :=
  mult * mult * Nat.count (admits degrees l) (A * degrees.length + B) + (p * mult + q)

theorem exists_count (P : ℕ → Prop) [DecidablePred P] (N t : ℕ) (h : t < Nat.count P N) :
    ∃ k < N, P k ∧ Nat.count P k = t := by
  induction N with
  | zero => simp at h
  | succ N ih =>
    rw [Nat.count_succ] at h
    by_cases h1 : t < Nat.count P N
    · obtain ⟨k, h2, h3⟩ := ih h1
      exact ⟨k, by omega, h3⟩
    · by_cases hp : P N
      · rw [if_pos hp] at h
        exact ⟨N, by omega, hp, by omega⟩
      · rw [if_neg hp] at h; omega

theorem count_add_one_le {P : ℕ → Prop} [DecidablePred P] {k N : ℕ} (hk : k < N) (hp : P k) :
    Nat.count P k + 1 ≤ Nat.count P N := by
  have := Nat.count_monotone P (show k + 1 ≤ N by omega)
  rw [Nat.count_succ, if_pos hp] at this
  exact this

theorem column_bijection (degrees : List ℕ) (mult l : ℕ) :
    Set.BijOn (fun x : ℕ × ℕ × ℕ × ℕ => columnOf degrees mult l x.1 x.2.1 x.2.2.1 x.2.2.2)
      {x | (x.1 < degrees.length ∧ x.2.1 < degrees.length ∧ Triangle (degreeAt degrees x.1) (degreeAt degrees x.2.1) l) ∧
        x.2.2.1 < mult ∧ x.2.2.2 < mult}
      (Set.Iio (pairCount (degrees.product degrees) l * mult * mult)) := by
  have pq : ∀ p q, p < mult → q < mult → p * mult + q < mult * mult := by
    intro p q hp hq
    calc p * mult + q < p * mult + mult := by omega
      _ = (p + 1) * mult := by ring
      _ ≤ mult * mult := Nat.mul_le_mul_right _ (by omega)
  have ad : ∀ A B, B < degrees.length → (admits degrees l (A * degrees.length + B) ↔
      Triangle (degreeAt degrees A) (degreeAt degrees B) l) := by
    intro A B hB
    unfold admits
    rw [(div_mod_pair hB).1, (div_mod_pair hB).2]
  have lt : ∀ A B, A < degrees.length → B < degrees.length → A * degrees.length + B < degrees.length * degrees.length := by
    intro A B hA hB
    calc A * degrees.length + B < A * degrees.length + degrees.length := by omega
      _ = (A + 1) * degrees.length := by ring
      _ ≤ _ := Nat.mul_le_mul_right _ (by omega)
  rw [← count_all]
  refine ⟨?_, ?_, ?_⟩
  · rintro ⟨A, B, p, q⟩ ⟨⟨hA, hB, ht⟩, hp, hq⟩
    dsimp only at *
    rw [Set.mem_Iio]
    unfold columnOf
    have h1 := count_add_one_le (lt A B hA hB) ((ad A B hB).2 ht)
    calc _ < mult * mult * Nat.count (admits degrees l) (A * degrees.length + B) + mult * mult := by
          have := pq p q hp hq; omega
      _ = (Nat.count (admits degrees l) (A * degrees.length + B) + 1) * (mult * mult) := by ring
      _ ≤ _ := Nat.mul_le_mul_right _ h1
      _ = _ := by ring
  · rintro ⟨A, B, p, q⟩ ⟨⟨hA, hB, ht⟩, hp, hq⟩ ⟨A', B', p', q'⟩ ⟨⟨hA', hB', ht'⟩, hp', hq'⟩ h
    dsimp only at *
    unfold columnOf at h
    have hm : 0 < mult * mult := by have := pq p q hp hq; omega
    have e1 := congrArg (· / (mult * mult)) h
    have e2 := congrArg (· % (mult * mult)) h
    rw [Nat.mul_add_div hm, Nat.mul_add_div hm, Nat.div_eq_of_lt (pq p q hp hq), Nat.div_eq_of_lt (pq p' q' hp' hq'),
      add_zero, add_zero] at e1
    rw [Nat.mul_add_mod, Nat.mul_add_mod, Nat.mod_eq_of_lt (pq p q hp hq), Nat.mod_eq_of_lt (pq p' q' hp' hq')] at e2
    have hk := Nat.count_injective ((ad A B hB).2 ht) ((ad A' B' hB').2 ht') e1
    have a1 := div_mod_pair (A := A) hB
    have a2 := div_mod_pair (A := A') hB'
    have b1 := div_mod_pair (A := p) hq
    have b2 := div_mod_pair (A := p') hq'
    rw [hk] at a1
    rw [e2] at b1
    rw [Prod.mk.injEq, Prod.mk.injEq, Prod.mk.injEq]
    exact ⟨a1.1.symm.trans a2.1, a1.2.symm.trans a2.2, b1.1.symm.trans b2.1, b1.2.symm.trans b2.2⟩
  · intro c hc
    rw [Set.mem_Iio] at hc
    have hm : 0 < mult := by
      rcases Nat.eq_zero_or_pos mult with h | h
      · subst h; simp at hc
      · exact h
    have hm2 : 0 < mult * mult := Nat.mul_pos hm hm
    have ht : c / (mult * mult) < Nat.count (admits degrees l) (degrees.length * degrees.length) := by
      rw [Nat.div_lt_iff_lt_mul hm2, ← mul_assoc]; exact hc
    obtain ⟨k, hk, hp, hcount⟩ := exists_count _ _ _ ht
    obtain ⟨h1, h2, h3⟩ := div_lt_of_lt_sq hk
    have hr : c % (mult * mult) < mult * mult := Nat.mod_lt _ hm2
    obtain ⟨g1, g2, g3⟩ := div_lt_of_lt_sq hr
    refine ⟨(k / degrees.length, k % degrees.length, c % (mult * mult) / mult, c % (mult * mult) % mult),
      ⟨⟨h1, h2, hp⟩, g1, g2⟩, ?_⟩
    dsimp only
    unfold columnOf
    rw [h3, g3, hcount]
    exact Nat.div_add_mod c (mult * mult)

/-! ## the whole matrix -/

theorem le_of_max? {degrees : List ℕ} {md : ℕ} (h : degrees.max? = some md) : ∀ d ∈ degrees, d ≤ md := by
  rw [List.max?_eq_some_iff] at h
  exact h.2

theorem max?_mem {degrees : List ℕ} {md : ℕ} (h : degrees.max? = some md) : md ∈ degrees := by
  rw [List.max?_eq_some_iff] at h
  exact h.1

theorem degreeAt_le {degrees : List ℕ} {md : ℕ} (h : degrees.max? = some md) (A : ℕ) : degreeAt degrees A ≤ md := by
  unfold degreeAt
  rw [List.getD_eq_getElem?_getD]
  by_cases hA : A < degrees.length
  · rw [List.getElem?_eq_getElem hA]
    exact le_of_max? h _ (List.getElem_mem hA)
  · rw [List.getElem?_eq_none (by omega)]
    simp

theorem side_eq (degrees : List ℕ) (mult : ℕ) :
    (computeSideLengths degrees).sum * mult = blockStart degrees mult degrees.length := by
  unfold computeSideLengths blockStart
  induction degrees with
  | nil => simp
  | cons l ls ih =>
    rw [List.map_cons, List.sum_cons, List.length_cons, sum_range_succ', add_mul, ih, add_comm]
    simp [degreeAt]

/-- the table used by `make_square_matrix` -/
def squareTable (md maxDegree : ℕ) : Arr3 :=
  { s1 := (md + 1) ^ 2, s2 := (md + 1) ^ 2, s3 := (maxDegree + 1) ^ 2,
    val := fun i j k => if i < (md + 1) ^ 2 ∧ j < (md + 1) ^ 2 ∧ k < (maxDegree + 1) ^ 2 then cgTensor true i j k else 0 }

theorem makeSquare_run (disk : Disk CGCompressed) (hd : CgDisk disk) (outcome : SaveOutcome) (irreps : List Arr2)
    (degrees : List ℕ) (md mult maxDegree : ℕ) (shift : Bool) (hmd : degrees.max? = some md) (hmax : md ≤ maxDegree)
    (K : ℕ) (hI : IsIrreps irreps K) : makeSquareMatrix disk outcome irreps degrees mult maxDegree shift =
      match runRects irreps (squareTable md maxDegree) mult shift (allRects mult degrees degrees 0)
        (fun _ => 0, fun _ _ => 0) with
      | .error e => .error e
      | .ok s => .ok { rows := blockStart degrees mult degrees.length, cols := blockStart degrees mult degrees.length,
                       val := s.2 } := by
  unfold makeSquareMatrix
  rw [hmd]
  dsimp only
  rw [if_neg (by omega), if_neg, clebschGordan_eq disk hd]
  · dsimp only
    rw [squareOuter_eq, side_eq, Int.toNat_natCast]
    unfold squareTable
    cases runRects irreps _ mult shift (allRects mult degrees degrees 0) (fun _ => 0, fun _ _ => 0) with
    | error e => rfl
    | ok s => rfl
  · rw [List.any_eq_true]
    rintro ⟨x, hx, h⟩
    obtain ⟨l, hl, rfl⟩ := List.getElem_of_mem hx
    rw [hI.2 l hl] at h
    simp at h

theorem largeTable_all (degrees : List ℕ) (md mult maxDegree K : ℕ) (hmd : degrees.max? = some md) (hK : K ≤ maxDegree) :
    ∀ R ∈ allRects mult degrees degrees 0, LargeTable (squareTable md maxDegree) R.la R.lb K := by
  intro R hR
  rw [allRects_range, List.mem_map] at hR
  obtain ⟨k, _, rfl⟩ := hR
  exact ⟨Nat.pow_le_pow_left (Nat.succ_le_succ (degreeAt_le hmd (k / degrees.length))) 2,
    Nat.pow_le_pow_left (Nat.succ_le_succ (degreeAt_le hmd (k % degrees.length))) 2,
    Nat.pow_le_pow_left (by omega) 2⟩

/-- the entries of the matrix -/
def squareEntry (CG : ℕ → ℕ → ℕ → ℝ) (irreps : List Arr2) (K : ℕ) (degrees : List ℕ) (mult : ℕ) (shift : Bool)
    (A p i B q j : ℕ) : ℝ :=
  coupledEntry CG irreps K (degreeAt degrees A) (degreeAt degrees B) (fun l => columnOf degrees mult l A B p q) i j +
    if shift = true ∧ position degrees mult A p i = position degrees mult B q j then 1 else 0

theorem position_block (degrees : List ℕ) (mult A p i : ℕ) (hp : p < mult) (hi : i < 2 * degreeAt degrees A + 1) :
    blockStart degrees mult A ≤ position degrees mult A p i ∧
      position degrees mult A p i < blockStart degrees mult A + (2 * degreeAt degrees A + 1) * mult ∧
      (position degrees mult A p i - blockStart degrees mult A) / (2 * degreeAt degrees A + 1) = p ∧
      (position degrees mult A p i - blockStart degrees mult A) % (2 * degreeAt degrees A + 1) = i := by
  unfold position
  have e := div_mod_pair (A := p) hi
  have e' : blockStart degrees mult A + p * (2 * degreeAt degrees A + 1) + i - blockStart degrees mult A =
      p * (2 * degreeAt degrees A + 1) + i := by omega
  rw [e']
  refine ⟨by omega, ?_, e.1, e.2⟩
  have : p * (2 * degreeAt degrees A + 1) + i < (2 * degreeAt degrees A + 1) * mult := by
    calc p * (2 * degreeAt degrees A + 1) + i < p * (2 * degreeAt degrees A + 1) + (2 * degreeAt degrees A + 1) := by
          omega
      _ = (2 * degreeAt degrees A + 1) * (p + 1) := by ring
      _ ≤ _ := Nat.mul_le_mul_left _ (by omega)
  omega

theorem makeSquare_ok (disk : Disk CGCompressed) (hd : CgDisk disk) (outcome : SaveOutcome) (irreps : List Arr2)
    (degrees : List ℕ) (md mult maxDegree : ℕ) (shift : Bool) (hmd : degrees.max? = some md) (hmax : md ≤ maxDegree)
    (K : ℕ) (hK : K ≤ maxDegree) (hI : IsIrreps irreps K)
    (hc : ∀ l ≤ K, pairCount (degrees.product degrees) l * mult * mult ≤ (irrepsAt irreps l).cols) :
    ∃ M, makeSquareMatrix disk outcome irreps degrees mult maxDegree shift = .ok M ∧
      M.rows = blockStart degrees mult degrees.length ∧ M.cols = blockStart degrees mult degrees.length ∧
      ∀ A < degrees.length, ∀ p < mult, ∀ i < 2 * degreeAt degrees A + 1,
      ∀ B < degrees.length, ∀ q < mult, ∀ j < 2 * degreeAt degrees B + 1,
        M.val (position degrees mult A p i) (position degrees mult B q j) =
          squareEntry (squareTable md maxDegree).val irreps K degrees mult shift A p i B q j := by
  rw [makeSquare_run disk hd outcome irreps degrees md mult maxDegree shift hmd hmax K hI]
  obtain ⟨s, s1, s2, s3, s4⟩ := runRects_ok irreps K hI (squareTable md maxDegree) mult shift
    (allRects mult degrees degrees 0) (largeTable_all degrees md mult maxDegree K hmd hK)
    (allRects_disjoint mult degrees) (fun _ => 0) (fun _ _ => 0)
    (fun l hl => by rw [rectCount_all, zero_add]; calc _ = _ := by ring
                      _ ≤ _ := hc l hl)
  rw [s1]
  refine ⟨_, rfl, rfl, rfl, fun A hA p hp i hi B hB q hq j hj => ?_⟩
  have hk : A * degrees.length + B < degrees.length * degrees.length := by
    calc A * degrees.length + B < A * degrees.length + degrees.length := by omega
      _ = (A + 1) * degrees.length := by ring
      _ ≤ _ := Nat.mul_le_mul_right _ (by omega)
  have hlen : A * degrees.length + B < (allRects mult degrees degrees 0).length := by
    rw [allRects_range]; simpa using hk
  have hget : (allRects mult degrees degrees 0)[A * degrees.length + B] = rectAt degrees mult A B := by
    simp only [allRects_range, List.getElem_map, List.getElem_range]
    rw [(div_mod_pair hB).1, (div_mod_pair hB).2]
  obtain ⟨a1, a2, a3, a4⟩ := position_block degrees mult A p i hp hi
  obtain ⟨b1, b2, b3, b4⟩ := position_block degrees mult B q j hq hj
  have := s3 _ hlen (position degrees mult A p i) (position degrees mult B q j)
    (by rw [hget]; exact ⟨⟨a1, a2⟩, b1, b2⟩)
  dsimp only
  rw [this, hget]
  unfold Rect.entry squareEntry rectAt columnOf
  dsimp only
  rw [a3, a4, b3, b4]
  congr 1
  · simp only [zero_add, rectCount_take mult degrees _ _ hk.le]
  · by_cases hs : shift = true
    · subst hs
      simp only [Bool.true_and, beq_iff_eq, true_and]
      by_cases hAB : A = B
      · subst hAB
        rw [if_pos rfl]
        exact if_congr (by omega) rfl rfl
      · have hne : position degrees mult A p i ≠ position degrees mult B q j := by
          intro h
          rw [h] at a1 a2
          exact hAB (block_unique degrees mult ⟨a1, a2⟩ ⟨b1, b2⟩)
        rw [if_neg hne]
        split_ifs with h1 h2
        · omega
        · rfl
        · rfl
    · simp [hs]

/-- every row is one position -/
theorem exists_position (degrees : List ℕ) (mult n r : ℕ) (hr : r < blockStart degrees mult n) :
    ∃ A < n, ∃ p < mult, ∃ i < 2 * degreeAt degrees A + 1, position degrees mult A p i = r := by
  induction n with
  | zero => simp [blockStart] at hr
  | succ n ih =>
    by_cases h : r < blockStart degrees mult n
    · obtain ⟨A, hA, h⟩ := ih h
      exact ⟨A, by omega, h⟩
    · rw [blockStart_succ] at hr
      refine ⟨n, by omega, (r - blockStart degrees mult n) / (2 * degreeAt degrees n + 1), ?_,
        (r - blockStart degrees mult n) % (2 * degreeAt degrees n + 1), Nat.mod_lt _ (by omega), ?_⟩
      · apply Nat.div_lt_of_lt_mul
        omega
      · unfold position
        have := Nat.div_add_mod' (r - blockStart degrees mult n) (2 * degreeAt degrees n + 1)
        omega

theorem position_lt (degrees : List ℕ) (mult A p i n : ℕ) (hA : A < n) (hp : p < mult)
    (hi : i < 2 * degreeAt degrees A + 1) : position degrees mult A p i < blockStart degrees mult n := by
  have := position_block degrees mult A p i hp hi
  have h2 := blockStart_mono degrees mult (show A + 1 ≤ n by omega)
  rw [blockStart_succ] at h2
  omega

theorem position_inj (degrees : List ℕ) (mult : ℕ) {A p i B q j : ℕ} (hp : p < mult) (hi : i < 2 * degreeAt degrees A + 1)
    (hq : q < mult) (hj : j < 2 * degreeAt degrees B + 1)
    (h : position degrees mult A p i = position degrees mult B q j) : A = B ∧ p = q ∧ i = j := by
  obtain ⟨a1, a2, a3, a4⟩ := position_block degrees mult A p i hp hi
  obtain ⟨b1, b2, b3, b4⟩ := position_block degrees mult B q j hq hj
  rw [h] at a1 a2 a3 a4
  have e := block_unique degrees mult ⟨a1, a2⟩ ⟨b1, b2⟩
  subst e
  exact ⟨rfl, a3.symm.trans b3, a4.symm.trans b4⟩

/-- a sum over all rows -/
theorem sum_position (degrees : List ℕ) (mult n : ℕ) (f : ℕ → ℝ) : ∑ r ∈ range (blockStart degrees mult n), f r =
    ∑ A ∈ range n, ∑ p ∈ range mult, ∑ i ∈ range (2 * degreeAt degrees A + 1), f (position degrees mult A p i) := by
  induction n with
  | zero => simp [blockStart]
  | succ n ih =>
    rw [sum_range_succ, ← ih, blockStart_succ, sum_range_add]
    congr 1
    rw [mul_comm]
    have : ∀ k, ∑ x ∈ range (k * (2 * degreeAt degrees n + 1)), f (blockStart degrees mult n + x) =
        ∑ p ∈ range k, ∑ i ∈ range (2 * degreeAt degrees n + 1), f (position degrees mult n p i) := by
      intro k
      induction k with
      | zero => simp
      | succ k ihk =>
        rw [sum_range_succ, ← ihk, add_mul, one_mul, sum_range_add]
        congr 1
        refine sum_congr rfl fun i _ => ?_
        unfold position
        rw [add_assoc]
    exact this mult

end

end E3x
