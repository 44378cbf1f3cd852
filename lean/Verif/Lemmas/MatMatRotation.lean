import Verif.Lemmas.MatMatLoop
import Verif.Lemmas.Representation
import Verif.Lemmas.SphericalHarmonics

/-!
# Rotations of assembled matrices
-/

namespace E3x

noncomputable section

open Finset Spec

theorem degreeOf_flat {l m : ℕ} (hm : m < 2 * l + 1) : degreeOf (l ^ 2 + m) = l := by
  unfold degreeOf
  rw [pow_two]
  have := Nat.sqrt_add_eq l (show m ≤ l + l by omega)
  exact this

theorem degreeOf_lt {l c : ℕ} (hc : c < l ^ 2) : degreeOf c < l := by
  unfold degreeOf
  rw [Nat.sqrt_lt']
  exact hc

theorem flat_lt {l L m : ℕ} (h : l ≤ L) (hm : m < 2 * l + 1) : l ^ 2 + m < (L + 1) ^ 2 := by
  have : (l + 1) ^ 2 ≤ (L + 1) ^ 2 := Nat.pow_le_pow_left (by omega) 2
  have e : (l + 1) ^ 2 = l ^ 2 + 2 * l + 1 := by ring
  omega

theorem sum_degree_block (l : ℕ) (f : ℕ → ℝ) (hf : ∀ c, degreeOf c ≠ l → f c = 0) :
    ∑ c ∈ range ((l + 1) ^ 2), f c = ∑ m ∈ range (2 * l + 1), f (l ^ 2 + m) := by
  rw [show (l + 1) ^ 2 = l ^ 2 + (2 * l + 1) by ring, sum_range_add, sum_eq_zero, zero_add]
  intro c hc
  exact hf c (degreeOf_lt (mem_range.1 hc)).ne

theorem dMatrix_block {R : Fin 3 → Fin 3 → ℝ} {a b : ℕ} (h : degreeOf a ≠ degreeOf b) : dMatrix true R a b = 0 := by
  unfold dMatrix
  rw [if_neg h]

theorem couples_blocks {R : Fin 3 → Fin 3 → ℝ} (hR : IsOrthogonal R) (hdet : det3x3 R = 1) {la lb l i' j' m : ℕ}
    (hi : i' < 2 * la + 1) (hj : j' < 2 * lb + 1) (hm : m < 2 * l + 1) :
    ∑ k ∈ range (2 * l + 1), cgTensor true (la ^ 2 + i') (lb ^ 2 + j') (l ^ 2 + k) * dMatrix true R (l ^ 2 + m) (l ^ 2 + k) =
      ∑ i ∈ range (2 * la + 1), ∑ j ∈ range (2 * lb + 1), cgTensor true (la ^ 2 + i) (lb ^ 2 + j) (l ^ 2 + m) *
        dMatrix true R (la ^ 2 + i) (la ^ 2 + i') * dMatrix true R (lb ^ 2 + j) (lb ^ 2 + j') := by
  have h := dMatrix_couples true hR (L1 := la) (L2 := lb) (L3 := l) (i := la ^ 2 + i') (j := lb ^ 2 + j') (k := l ^ 2 + m)
    (degreeOf_flat hi).le (degreeOf_flat hj).le (degreeOf_flat hm).le
  rw [← det3x3_eq, hdet, one_pow, one_mul, sum_degree_block l, sum_degree_block la] at h
  · rw [← h]
    refine sum_congr rfl fun i _ => ?_
    rw [sum_degree_block lb]
    intro c hc
    rw [dMatrix_block (a := c) (b := lb ^ 2 + j') (by rw [degreeOf_flat hj]; exact hc), mul_zero]
  · intro c hc
    refine sum_eq_zero fun b _ => ?_
    rw [dMatrix_block (a := c) (b := la ^ 2 + i') (by rw [degreeOf_flat hi]; exact hc), mul_zero, zero_mul]
  · intro c hc
    rw [dMatrix_block (a := l ^ 2 + m) (b := c) (by rw [degreeOf_flat hm]; exact fun e => hc e.symm), mul_zero]

theorem dMatrix_block_orth {R : Fin 3 → Fin 3 → ℝ} (hR : IsOrthogonal R) {l a b : ℕ} (ha : a < 2 * l + 1) :
    ∑ i ∈ range (2 * l + 1), dMatrix true R (l ^ 2 + i) (l ^ 2 + a) * dMatrix true R (l ^ 2 + i) (l ^ 2 + b) =
      if a = b then 1 else 0 := by
  have h := dMatrix_orth true hR.transpose (L := l) (i := l ^ 2 + a) (j := l ^ 2 + b) (degreeOf_flat ha).le
  rw [sum_degree_block l] at h
  · simp only [dMatrix_transpose true hR, add_right_inj] at h
    exact h
  · intro c hc
    rw [dMatrix_block (a := l ^ 2 + a) (b := c) (by rw [degreeOf_flat ha]; exact fun e => hc e.symm), zero_mul]

theorem dMatrix_block_orth_rows {R : Fin 3 → Fin 3 → ℝ} (hR : IsOrthogonal R) {l a b : ℕ} (ha : a < 2 * l + 1) :
    ∑ i ∈ range (2 * l + 1), dMatrix true R (l ^ 2 + a) (l ^ 2 + i) * dMatrix true R (l ^ 2 + b) (l ^ 2 + i) =
      if a = b then 1 else 0 := by
  have h := dMatrix_orth true hR (L := l) (i := l ^ 2 + a) (j := l ^ 2 + b) (degreeOf_flat ha).le
  rw [sum_degree_block l] at h
  · simp only [add_right_inj] at h
    exact h
  · intro c hc
    rw [dMatrix_block (a := l ^ 2 + a) (b := c) (by rw [degreeOf_flat ha]; exact fun e => hc e.symm), zero_mul]

theorem coupledEntry_rotated {R : Fin 3 → Fin 3 → ℝ} (hR : IsOrthogonal R) (hdet : det3x3 R = 1)
    (irreps irreps' : List Arr2) (K : ℕ) (h : RotatedIrreps (dMatrix true R) irreps irreps' K) (la lb : ℕ) (col : ℕ → ℕ)
    (hcol : ∀ l ≤ K, Triangle la lb l → col l < (irrepsAt irreps l).cols) {i' j' : ℕ} (hi : i' < 2 * la + 1)
    (hj : j' < 2 * lb + 1) : coupledEntry (cgTensor true) irreps' K la lb col i' j' =
      ∑ i ∈ range (2 * la + 1), ∑ j ∈ range (2 * lb + 1), dMatrix true R (la ^ 2 + i) (la ^ 2 + i') *
        coupledEntry (cgTensor true) irreps K la lb col i j * dMatrix true R (lb ^ 2 + j) (lb ^ 2 + j') := by
  unfold coupledEntry
  have e : ∀ l ∈ (range (K + 1)).filter (fun l => Triangle la lb l), ∑ m ∈ range (2 * l + 1),
      (irrepsAt irreps' l).val m (col l) * cgTensor true (la ^ 2 + i') (lb ^ 2 + j') (l ^ 2 + m) =
      ∑ m ∈ range (2 * l + 1), (irrepsAt irreps l).val m (col l) * ∑ i ∈ range (2 * la + 1), ∑ j ∈ range (2 * lb + 1),
        cgTensor true (la ^ 2 + i) (lb ^ 2 + j) (l ^ 2 + m) *
        dMatrix true R (la ^ 2 + i) (la ^ 2 + i') * dMatrix true R (lb ^ 2 + j) (lb ^ 2 + j') := by
    intro l hl
    rw [mem_filter, mem_range] at hl
    have e1 : ∀ m ∈ range (2 * l + 1),
        (irrepsAt irreps' l).val m (col l) * cgTensor true (la ^ 2 + i') (lb ^ 2 + j') (l ^ 2 + m) =
        ∑ m' ∈ range (2 * l + 1), (irrepsAt irreps l).val m' (col l) *
          (cgTensor true (la ^ 2 + i') (lb ^ 2 + j') (l ^ 2 + m) * dMatrix true R (l ^ 2 + m') (l ^ 2 + m)) := by
      intro m hm
      rw [h l (by omega) m (mem_range.1 hm) _ (hcol l (by omega) hl.2), sum_mul]
      exact sum_congr rfl fun _ _ => by ring
    rw [sum_congr rfl e1, sum_comm]
    refine sum_congr rfl fun m' hm' => ?_
    rw [← mul_sum, couples_blocks hR hdet hi hj (mem_range.1 hm')]
  rw [sum_congr rfl e]
  simp only [mul_sum, sum_mul]
  rw [sum_congr rfl fun l _ => sum_comm]
  rw [sum_comm]
  refine sum_congr rfl fun i _ => ?_
  rw [sum_congr rfl fun l _ => sum_comm]
  rw [sum_comm]
  refine sum_congr rfl fun j _ => sum_congr rfl fun l _ => sum_congr rfl fun m _ => ?_
  ring

theorem coupledEntry_table (md maxDegree : ℕ) (irreps : List Arr2) (K la lb : ℕ) (col : ℕ → ℕ) {i j : ℕ}
    (ha : la ≤ md) (hb : lb ≤ md) (hK : K ≤ maxDegree) (hi : i < 2 * la + 1) (hj : j < 2 * lb + 1) :
    coupledEntry (squareTable md maxDegree).val irreps K la lb col i j =
      coupledEntry (cgTensor true) irreps K la lb col i j := by
  unfold coupledEntry squareTable
  refine sum_congr rfl fun l hl => sum_congr rfl fun m hm => ?_
  rw [mem_filter, mem_range] at hl
  dsimp only
  rw [if_pos ⟨flat_lt ha hi, flat_lt hb hj, flat_lt (by omega) (mem_range.1 hm)⟩]

theorem squareEntry_rotated {R : Fin 3 → Fin 3 → ℝ} (hR : IsOrthogonal R) (hdet : det3x3 R = 1) (md maxDegree : ℕ)
    (irreps irreps' : List Arr2) (K : ℕ) (hK : K ≤ maxDegree) (h : RotatedIrreps (dMatrix true R) irreps irreps' K)
    (degrees : List ℕ) (hmd : degrees.max? = some md) (mult : ℕ) (shift : Bool)
    (hc : ∀ l ≤ K, pairCount (degrees.product degrees) l * mult * mult ≤ (irrepsAt irreps l).cols)
    (A p i' B q j' : ℕ) (hA : A < degrees.length) (hB : B < degrees.length) (hp : p < mult) (hq : q < mult)
    (hi : i' < 2 * degreeAt degrees A + 1) (hj : j' < 2 * degreeAt degrees B + 1) :
    squareEntry (squareTable md maxDegree).val irreps' K degrees mult shift A p i' B q j' =
      ∑ i ∈ range (2 * degreeAt degrees A + 1), ∑ j ∈ range (2 * degreeAt degrees B + 1),
        dMatrix true R (degreeAt degrees A ^ 2 + i) (degreeAt degrees A ^ 2 + i') *
          squareEntry (squareTable md maxDegree).val irreps K degrees mult shift A p i B q j *
            dMatrix true R (degreeAt degrees B ^ 2 + j) (degreeAt degrees B ^ 2 + j') := by
  unfold squareEntry
  rw [coupledEntry_table md maxDegree irreps' K _ _ _ (degreeAt_le hmd A) (degreeAt_le hmd B) hK hi hj,
    coupledEntry_rotated hR hdet irreps irreps' K h _ _ _ (fun l hl ht => ?_) hi hj]
  · have e : ∀ i ∈ range (2 * degreeAt degrees A + 1), ∀ j ∈ range (2 * degreeAt degrees B + 1),
        dMatrix true R (degreeAt degrees A ^ 2 + i) (degreeAt degrees A ^ 2 + i') *
          (coupledEntry (squareTable md maxDegree).val irreps K (degreeAt degrees A) (degreeAt degrees B)
            (fun l => columnOf degrees mult l A B p q) i j +
            if shift = true ∧ position degrees mult A p i = position degrees mult B q j then 1 else 0) *
              dMatrix true R (degreeAt degrees B ^ 2 + j) (degreeAt degrees B ^ 2 + j') =
        dMatrix true R (degreeAt degrees A ^ 2 + i) (degreeAt degrees A ^ 2 + i') *
          coupledEntry (cgTensor true) irreps K (degreeAt degrees A) (degreeAt degrees B)
            (fun l => columnOf degrees mult l A B p q) i j *
              dMatrix true R (degreeAt degrees B ^ 2 + j) (degreeAt degrees B ^ 2 + j') +
        if shift = true ∧ position degrees mult A p i = position degrees mult B q j then
          dMatrix true R (degreeAt degrees A ^ 2 + i) (degreeAt degrees A ^ 2 + i') *
            dMatrix true R (degreeAt degrees B ^ 2 + j) (degreeAt degrees B ^ 2 + j') else 0 := by
      intro i hi j hj
      rw [coupledEntry_table md maxDegree irreps K _ _ _ (degreeAt_le hmd A) (degreeAt_le hmd B) hK (mem_range.1 hi)
        (mem_range.1 hj)]
      split_ifs <;> ring
    rw [sum_congr rfl fun i hi => sum_congr rfl fun j hj => e i hi j hj]
    simp only [sum_add_distrib]
    congr 1
    by_cases hs : shift = true
    · by_cases hAB : A = B ∧ p = q
      · obtain ⟨rfl, rfl⟩ := hAB
        have e2 : ∀ i ∈ range (2 * degreeAt degrees A + 1), ∑ j ∈ range (2 * degreeAt degrees A + 1),
            (if shift = true ∧ position degrees mult A p i = position degrees mult A p j then
              dMatrix true R (degreeAt degrees A ^ 2 + i) (degreeAt degrees A ^ 2 + i') *
              dMatrix true R (degreeAt degrees A ^ 2 + j) (degreeAt degrees A ^ 2 + j') else 0) =
            dMatrix true R (degreeAt degrees A ^ 2 + i) (degreeAt degrees A ^ 2 + i') *
              dMatrix true R (degreeAt degrees A ^ 2 + i) (degreeAt degrees A ^ 2 + j') := by
          intro i hi
          have : ∀ j, (shift = true ∧ position degrees mult A p i = position degrees mult A p j) ↔ j = i := by
            intro j
            unfold position
            constructor
            · rintro ⟨_, h⟩; omega
            · rintro rfl; exact ⟨hs, rfl⟩
          simp only [this]
          rw [sum_ite_eq' _ i, if_pos hi]
        rw [sum_congr rfl e2, dMatrix_block_orth hR hi]
        exact if_congr ⟨fun h => by have := h.2; unfold position at this; omega, fun h => ⟨hs, by rw [h]⟩⟩ rfl rfl
      · rw [if_neg, sum_eq_zero]
        · intro i hi
          refine sum_eq_zero fun j hj => ?_
          rw [if_neg]
          rintro ⟨_, h⟩
          obtain ⟨h1, h2, _⟩ := position_inj degrees mult hp (mem_range.1 hi) hq (mem_range.1 hj) h
          exact hAB ⟨h1, h2⟩
        · rintro ⟨_, h⟩
          obtain ⟨h1, h2, _⟩ := position_inj degrees mult hp hi hq hj h
          exact hAB ⟨h1, h2⟩
    · simp [hs]
  · have := (column_bijection degrees mult l).mapsTo (show (A, B, p, q) ∈ _ from ⟨⟨hA, hB, ht⟩, hp, hq⟩)
    exact lt_of_lt_of_le this (hc l hl)

/-! ## the block diagonal matrix -/

open Classical in
/-- the degree and the order of a row -/
def decode (degrees : List ℕ) (mult r : ℕ) : ℕ × ℕ × ℕ :=
  if h : ∃ x : ℕ × ℕ × ℕ, x.1 < degrees.length ∧ x.2.1 < mult ∧ x.2.2 < 2 * degreeAt degrees x.1 + 1 ∧
      position degrees mult x.1 x.2.1 x.2.2 = r then h.choose else (0, 0, 0)

theorem decode_position (degrees : List ℕ) (mult : ℕ) {A p i : ℕ} (hA : A < degrees.length) (hp : p < mult)
    (hi : i < 2 * degreeAt degrees A + 1) : decode degrees mult (position degrees mult A p i) = (A, p, i) := by
  unfold decode
  have h : ∃ x : ℕ × ℕ × ℕ, x.1 < degrees.length ∧ x.2.1 < mult ∧ x.2.2 < 2 * degreeAt degrees x.1 + 1 ∧
      position degrees mult x.1 x.2.1 x.2.2 = position degrees mult A p i := ⟨(A, p, i), hA, hp, hi, rfl⟩
  rw [dif_pos h]
  obtain ⟨_, h2, h3, h4⟩ := h.choose_spec
  obtain ⟨e1, e2, e3⟩ := position_inj degrees mult h2 h3 hp hi h4
  exact Prod.ext e1 (Prod.ext e2 e3)

def blockRotation (D : ℕ → ℕ → ℝ) (degrees : List ℕ) (mult r c : ℕ) : ℝ :=
  if (decode degrees mult r).1 = (decode degrees mult c).1 ∧ (decode degrees mult r).2.1 = (decode degrees mult c).2.1 then
    D (degreeAt degrees (decode degrees mult r).1 ^ 2 + (decode degrees mult r).2.2)
      (degreeAt degrees (decode degrees mult r).1 ^ 2 + (decode degrees mult c).2.2) else 0

theorem blockRotation_spec (D : ℕ → ℕ → ℝ) (degrees : List ℕ) (mult : ℕ) :
    IsBlockRotation D degrees mult (blockRotation D degrees mult) := by
  intro A hA p hp i hi A' hA' p' hp' i' hi'
  unfold blockRotation
  rw [decode_position degrees mult hA hp hi, decode_position degrees mult hA' hp' hi']

/-- a sum over one index of a block diagonal matrix -/
theorem sum_blockRotation (degrees : List ℕ) (mult : ℕ) (B D : ℕ → ℕ → ℝ)
    (hB : IsBlockRotation D degrees mult B)
    (f : ℕ → ℝ) {A p i : ℕ} (hA : A < degrees.length) (hp : p < mult) (hi : i < 2 * degreeAt degrees A + 1) :
    ∑ r ∈ range (blockStart degrees mult degrees.length), B r (position degrees mult A p i) * f r =
      ∑ k ∈ range (2 * degreeAt degrees A + 1), D (degreeAt degrees A ^ 2 + k) (degreeAt degrees A ^ 2 + i) *
        f (position degrees mult A p k) := by
  rw [sum_position, sum_eq_single A]
  · rw [sum_eq_single p]
    · refine sum_congr rfl fun k hk => ?_
      rw [hB A hA p hp k (mem_range.1 hk) A hA p hp i hi, if_pos ⟨rfl, rfl⟩]
    · intro p' hp' hne
      refine sum_eq_zero fun k hk => ?_
      rw [hB A hA p' (mem_range.1 hp') k (mem_range.1 hk) A hA p hp i hi, if_neg (fun h => hne h.2), zero_mul]
    · intro h; exact absurd (mem_range.2 hp) h
  · intro A' hA' hne
    refine sum_eq_zero fun p' hp' => sum_eq_zero fun k hk => ?_
    rw [hB A' (mem_range.1 hA') p' (mem_range.1 hp') k (mem_range.1 hk) A hA p hp i hi, if_neg (fun h => hne h.1), zero_mul]
  · intro h; exact absurd (mem_range.2 hA) h

/-! ## traces -/

theorem getTraces_eq (mat : ℕ → ℕ → ℝ) (mult : ℕ) (shift : Bool) (degrees : List ℕ) (start : ℕ) :
    getTraces mat mult shift degrees start = (List.range degrees.length).flatMap fun A =>
      ((List.range mult).product (List.range mult)).map fun x =>
        ∑ i ∈ range (2 * degreeAt degrees A + 1),
          mat (start + position degrees mult A x.1 i) (start + position degrees mult A x.2 i) -
          if shift = true ∧ x.1 = x.2 then ((2 * degreeAt degrees A + 1 : ℕ) : ℝ) else 0 := by
  induction degrees generalizing start with
  | nil => rfl
  | cons l ls ih =>
    unfold getTraces
    dsimp only
    rw [List.length_cons, List.range_succ_eq_map, List.flatMap_cons, ih, List.flatMap_map]
    congr 1
    · apply List.map_congr_left
      rintro ⟨p, q⟩ _
      have e : traceOf mat (start + p * (2 * l + 1)) (start + (p + 1) * (2 * l + 1)) (start + q * (2 * l + 1))
          (start + (q + 1) * (2 * l + 1)) = ∑ i ∈ range (2 * degreeAt (l :: ls) 0 + 1),
            mat (start + position (l :: ls) mult 0 p i) (start + position (l :: ls) mult 0 q i) := by
        unfold traceOf
        have e1 : ∀ p, start + (p + 1) * (2 * l + 1) - (start + p * (2 * l + 1)) = 2 * l + 1 := by
          intro p; rw [add_mul]; omega
        rw [e1, e1, min_self]
        simp only [degreeAt, position, blockStart, List.getD_cons_zero, range_zero, sum_empty, zero_add, add_assoc]
      dsimp only
      rw [e]
      by_cases h : shift = true ∧ p = q
      · obtain ⟨rfl, rfl⟩ := h
        simp [degreeAt]
      · rw [if_neg h, if_neg, sub_zero]
        simpa using h
    · apply List.flatMap_congr
      intro A _
      apply List.map_congr_left
      rintro ⟨p, q⟩ _
      have e : ∀ p i, start + (2 * l + 1) * mult + position ls mult A p i = start + position (l :: ls) mult (A + 1) p i := by
        intro p i
        unfold position blockStart
        rw [sum_range_succ' _ A]
        simp only [degreeAt, List.getD_cons_succ, List.getD_cons_zero]
        ring
      simp only [e]
      rfl

end

end E3x
