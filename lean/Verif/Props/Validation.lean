import Verif.Model.Indexed
import Verif.Spec.Graph
import Mathlib.Tactic.Tauto

/-!
# C05: argument validation of the indexed operations; C06: `is_broadcastable`
-/

namespace E3x

/-- **C05 (index type).** `determineIndexType` accepts iff exactly one of the two formats is supplied and, if
both sparse index vectors are present, their shapes agree; the answer names the supplied format. -/
theorem C05_index_type (adj dst src : Option (List Nat)) (t : IndexType) :
    determineIndexType adj dst src = .ok t ↔
      (t = .dense ∧ adj.isSome ∧ dst = none ∧ src = none) ∨
      (t = .sparse ∧ adj = none ∧ (dst.isSome ∨ src.isSome) ∧
        ∀ d s, dst = some d → src = some s → d = s) := by
  unfold determineIndexType
  cases adj <;> cases dst <;> cases src <;> cases t <;> simp
  all_goals split <;> simp_all

/-- **C05 (index type errors).** Supplying no format or both formats raises `RuntimeError`; a sparse list with
two different shapes raises `ValueError`. -/
theorem C05_index_type_error (adj dst src : Option (List Nat)) :
    (adj = none → dst = none → src = none → determineIndexType adj dst src = .error .runtimeError) ∧
    (adj.isSome → (dst.isSome ∨ src.isSome) → determineIndexType adj dst src = .error .runtimeError) ∧
    (∀ d s, adj = none → dst = some d → src = some s → d ≠ s →
      determineIndexType adj dst src = .error .valueError) := by
  unfold determineIndexType
  refine ⟨?_, ?_, ?_⟩
  · rintro rfl rfl rfl; simp
  · cases adj <;> cases dst <;> cases src <;> simp
  · rintro d s rfl rfl rfl h; simp [h]

/-- **C05 (reductions).** A reduction is accepted iff the input is numeric, exactly one format is supplied, the
argument required by that format is present, and the index shape is a prefix of the input shape. -/
theorem C05_reduce (isNumeric : Bool) (inputs : List Nat) (adj dst : Option (List Nat))
    (hasWhere hasNum : Bool) (t : IndexType) :
    indexedReduceCheck isNumeric inputs adj dst hasWhere hasNum = .ok t ↔
      isNumeric = true ∧
      ((t = .dense ∧ dst = none ∧ hasWhere = true ∧ ∃ a, adj = some a ∧ a <+: inputs) ∨
       (t = .sparse ∧ adj = none ∧ hasNum = true ∧ ∃ d, dst = some d ∧ d <+: inputs)) := by
  have key : ∀ a : List Nat, a <+: inputs ↔ ¬ inputs.length < a.length ∧ a = inputs.take a.length := by
    intro a
    rw [List.prefix_iff_eq_take]
    constructor
    · intro h
      refine ⟨?_, h⟩
      have := congrArg List.length h
      rw [List.length_take] at this; omega
    · exact fun h => h.2
  unfold indexedReduceCheck determineIndexType
  have gen : ∀ (a : List Nat) (t' : IndexType),
      ((if inputs.length < a.length then (.error .valueError : Except Err IndexType)
        else if a ≠ inputs.take a.length then .error .valueError else .ok t') = .ok t) ↔
      t = t' ∧ a <+: inputs := by
    intro a t'
    rw [key]
    by_cases h1 : inputs.length < a.length
    · simp [h1]
    · by_cases h2 : a = inputs.take a.length
      · rw [if_neg h1, if_neg (not_not.2 h2)]
        constructor
        · intro h; injection h with h; exact ⟨h.symm, h1, h2⟩
        · rintro ⟨h, _⟩; rw [h]
      · rw [if_neg h1, if_pos h2]
        constructor
        · intro h; exact absurd h (by simp)
        · rintro ⟨_, _, h⟩; exact absurd h h2
  cases adj with
  | none =>
    cases dst with
    | none => simp [bind, Except.bind]
    | some d =>
      cases isNumeric <;> cases hasNum <;>
        simp [bind, Except.bind]
      simpa using gen d .sparse
  | some a =>
    cases dst with
    | some d => simp [bind, Except.bind]
    | none =>
      cases isNumeric <;> cases hasWhere <;>
        simp [bind, Except.bind]
      simpa using gen a .dense

/-- **C05 (reductions, missing companion argument).** Dense without `where`, sparse without `num_segments`:
`TypeError`, whatever the shapes are. -/
theorem C05_reduce_type_error (inputs : List Nat) (i : List Nat) (b : Bool) :
    indexedReduceCheck true inputs (some i) none false b = .error .typeError ∧
    indexedReduceCheck true inputs none (some i) b false = .error .typeError := by
  simp [indexedReduceCheck, determineIndexType, bind, Except.bind]

/-- the common shape of two reversed shapes -/
private def bcShape : List Nat → List Nat → List Nat
  | [], b => b
  | a, [] => a
  | x :: a, y :: b => (if x = 1 then y else x) :: bcShape a b

private def BRev (a u : List Nat) : Prop :=
  ∃ p q, u = p ++ q ∧ List.Forall₂ (fun a b => a = b ∨ a = 1) a p

private theorem broadcastTo_iff (s u : List Nat) : Spec.BroadcastTo s u ↔ BRev s.reverse u.reverse := by
  constructor
  · rintro ⟨p, q, rfl, h⟩
    exact ⟨q.reverse, p.reverse, by simp, List.forall₂_reverse_iff.2 h⟩
  · rintro ⟨p, q, h1, h2⟩
    refine ⟨q.reverse, p.reverse, ?_, ?_⟩
    · rw [← List.reverse_append, ← h1, List.reverse_reverse]
    · rw [← List.forall₂_reverse_iff, List.reverse_reverse]; exact h2

private theorem bRev_refl (a : List Nat) : BRev a a := by
  refine ⟨a, [], by simp, ?_⟩
  induction a with
  | nil => exact .nil
  | cons x a ih => exact .cons (Or.inl rfl) ih

private theorem brev_iff (a b : List Nat) :
    ((a.zip b).all fun p => p.1 == p.2 || p.1 == 1 || p.2 == 1) = true ↔
      ∃ u, BRev a u ∧ BRev b u := by
  constructor
  · intro h
    refine ⟨bcShape a b, ?_⟩
    induction a generalizing b with
    | nil => exact ⟨⟨[], b, by simp [bcShape], .nil⟩, by simpa [bcShape] using bRev_refl b⟩
    | cons x a ih =>
      cases b with
      | nil => exact ⟨by simpa [bcShape] using bRev_refl (x :: a), ⟨[], x :: a, by simp [bcShape], .nil⟩⟩
      | cons y b =>
        simp only [List.zip_cons_cons, List.all_cons, Bool.and_eq_true, Bool.or_eq_true, beq_iff_eq] at h
        obtain ⟨⟨p, q, hu, hf⟩, ⟨p', q', hu', hf'⟩⟩ := ih b (by simpa using h.2)
        rw [bcShape]
        refine ⟨⟨(if x = 1 then y else x) :: p, q, by rw [hu]; rfl, .cons ?_ hf⟩,
          ⟨(if x = 1 then y else x) :: p', q', by rw [hu']; rfl, .cons ?_ hf'⟩⟩
        · split <;> simp_all
        · split
          · simp
          · omega
  · rintro ⟨u, ⟨p, q, rfl, h1⟩, ⟨p', q', h2, h3⟩⟩
    induction a generalizing b p p' with
    | nil => simp
    | cons x a ih =>
      cases b with
      | nil => simp
      | cons y b =>
        cases h1 with
        | cons h1 h1t =>
          cases h3 with
          | cons h3 h3t =>
            simp only [List.cons_append, List.cons.injEq] at h2
            have := ih b _ h1t _ h2.2 h3t
            simp only [List.zip_cons_cons, List.all_cons, this, Bool.and_true, Bool.or_eq_true, beq_iff_eq]
            omega

/-- **C06.** `is_broadcastable(s, t)` holds iff a common broadcast shape exists. -/
theorem C06_is_broadcastable (s t : List Nat) :
    isBroadcastable s t = true ↔ ∃ u, Spec.BroadcastTo s u ∧ Spec.BroadcastTo t u := by
  unfold isBroadcastable
  rw [brev_iff]
  constructor
  · rintro ⟨u, h1, h2⟩
    refine ⟨u.reverse, ?_, ?_⟩ <;> rw [broadcastTo_iff, List.reverse_reverse]
    · exact h1
    · exact h2
  · rintro ⟨u, h1, h2⟩
    exact ⟨u.reverse, (broadcastTo_iff _ _).1 h1, (broadcastTo_iff _ _).1 h2⟩

/-- **C06.** Symmetric and reflexive. -/
theorem C06_symm_refl (s t : List Nat) :
    isBroadcastable s t = isBroadcastable t s ∧ isBroadcastable s s = true := by
  constructor
  · unfold isBroadcastable
    rw [Bool.eq_iff_iff, List.all_eq_true, List.all_eq_true]
    generalize s.reverse = a
    generalize t.reverse = b
    have : ∀ a b : List Nat, (∀ p ∈ a.zip b, (p.1 == p.2 || p.1 == 1 || p.2 == 1) = true) →
        ∀ p ∈ b.zip a, (p.1 == p.2 || p.1 == 1 || p.2 == 1) = true := by
      intro a b h p hp
      have hp' : (p.2, p.1) ∈ a.zip b := by
        obtain ⟨k, hk, rfl⟩ := List.getElem_of_mem hp
        simp only [List.length_zip] at hk
        have hk2 : k < (a.zip b).length := by simp; omega
        have := List.getElem_mem hk2
        simpa using this
      have := h _ hp'
      simp only [Bool.or_eq_true, beq_iff_eq] at this ⊢
      omega
    exact ⟨this a b, this b a⟩
  · unfold isBroadcastable
    rw [List.all_eq_true]
    generalize s.reverse = a
    intro p hp
    have : p.1 = p.2 := by
      induction a with
      | nil => simp at hp
      | cons x a ih =>
        rw [List.zip_cons_cons, List.mem_cons] at hp
        rcases hp with rfl | hp
        · rfl
        · exact ih hp
    simp [this]

-- Non-vacuity
example : determineIndexType none (some [4, 7]) (some [4, 7]) = .ok .sparse := by decide
example : indexedReduceCheck true [2, 5, 3, 8] (some [2, 5, 3]) none true false = .ok .dense := by decide
example : isBroadcastable [3, 1, 5] [4, 5] = true ∧ isBroadcastable [3, 2] [3] = false := by decide

end E3x
