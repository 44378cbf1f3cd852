import Verif.Lemmas.TensorSound
import Verif.Lemmas.ShippedTensorCheck1

/-!
# How much the shipped tensor-conversion matrices amplify errors
-/

namespace E3x.Coefficients

open Finset

/-- `2ᶠ` times the absolute value of an entry, or more -/
noncomputable def fabs (F : ℕ) (e : ShippedEntry) : ℕ :=
  ShippedEntry.rec (fun _ _ M E => Nat.mul M (Nat.pow 2 (Nat.sub F E))) e

theorem fabs_spec (F : ℕ) (e : ShippedEntry) : |e.value| * 2 ^ F ≤ fabs F e := by
  obtain ⟨j, neg, M, E⟩ := e
  have h : fabs F ⟨j, neg, M, E⟩ = M * 2 ^ (F - E) := rfl
  have hv : |(ShippedEntry.mk j neg M E).value| = M / 2 ^ E := by
    unfold ShippedEntry.value
    dsimp only
    rw [abs_div, abs_mul, abs_of_nonneg (by positivity : (0 : ℝ) ≤ M), abs_of_nonneg (by positivity : (0 : ℝ) ≤ 2 ^ E)]
    cases neg <;> simp
  rw [h, hv]
  push_cast
  rw [div_mul_eq_mul_div, div_le_iff₀ (by positivity), mul_assoc, ← pow_add]
  exact mul_le_mul_of_nonneg_left (pow_le_pow_right₀ (by norm_num) (by omega)) (Nat.cast_nonneg _)

/-- the sum of the absolute values in column `i` -/
noncomputable def fcolSum (F : ℕ) (X : List (List ShippedEntry)) (i : ℕ) : ℕ :=
  List.rec 0 (fun row _ ih => Nat.add (fabs F (rowEntry row i)) ih) X

theorem fcolSum_spec (F : ℕ) (X : List (List ShippedEntry)) (i : ℕ) :
    (∑ k ∈ range X.length, |sparseArray X k i|) * 2 ^ F ≤ fcolSum F X i := by
  induction X with
  | nil => simp
  | cons row X ih =>
    have h : fcolSum F (row :: X) i = fabs F (rowEntry row i) + fcolSum F X i := rfl
    rw [h, List.length_cons, sum_range_succ', add_mul]
    push_cast
    have h0 : sparseArray (row :: X) 0 i = (rowEntry row i).value := by rw [rowEntry_value, List.getD_cons_zero]
    have h1 : ∀ k, sparseArray (row :: X) (k + 1) i = sparseArray X k i := by
      intro k
      rw [rowEntry_value, rowEntry_value, List.getD_cons_succ]
    simp only [h1]
    rw [h0, add_comm]
    exact add_le_add (fabs_spec F _) ih

/-- the list of all column sums -/
noncomputable def fcolSums (F : ℕ) (X : List (List ShippedEntry)) (q : ℕ) : List ℕ → (List ℕ → Bool) → Bool :=
  Nat.rec (fun acc k => k acc) (fun i ih acc k => force (fcolSum F X i) fun s => ih (s :: acc) k) q

theorem fcolSums_eq (F : ℕ) (X : List (List ShippedEntry)) (q : ℕ) (acc : List ℕ) (k : List ℕ → Bool) :
    fcolSums F X q acc k = k ((List.range q).map (fcolSum F X) ++ acc) := by
  induction q generalizing acc with
  | zero => rfl
  | succ q ih =>
    have h : fcolSums F X (q + 1) acc k = force (fcolSum F X q) fun s => fcolSums F X q (s :: acc) k := rfl
    rw [h, force_eq, ih, List.range_succ]
    simp

/-- the weighted sum of the absolute values in column `j` -/
noncomputable def fweighted (F j : ℕ) (Y : List (List ShippedEntry)) : List ℕ → ℕ :=
  List.rec (fun _ => 0)
    (fun row _ ih cs => List.rec 0 (fun c cs' _ => Nat.add (Nat.mul c (fabs F (rowEntry row j))) (ih cs')) cs) Y

theorem fweighted_spec (F j : ℕ) (Y : List (List ShippedEntry)) (cs : List ℕ) (hl : cs.length = Y.length) :
    (∑ i ∈ range Y.length, (cs.getD i 0 : ℝ) * |sparseArray Y i j|) * 2 ^ F ≤ fweighted F j Y cs := by
  induction Y generalizing cs with
  | nil => simp
  | cons row Y ih =>
    obtain _ | ⟨c, cs⟩ := cs
    · simp at hl
    · have h : fweighted F j (row :: Y) (c :: cs) = c * fabs F (rowEntry row j) + fweighted F j Y cs := rfl
      rw [h, List.length_cons, sum_range_succ', add_mul]
      push_cast
      have h0 : sparseArray (row :: Y) 0 j = (rowEntry row j).value := by rw [rowEntry_value, List.getD_cons_zero]
      have h1 : ∀ k, sparseArray (row :: Y) (k + 1) j = sparseArray Y k j := by
        intro k
        rw [rowEntry_value, rowEntry_value, List.getD_cons_succ]
      simp only [h1, List.getD_cons_succ, List.getD_cons_zero]
      rw [h0, add_comm, mul_assoc]
      exact add_le_add (mul_le_mul_of_nonneg_left (fabs_spec F _) (Nat.cast_nonneg _)) (ih cs (by simpa using hl))

/-- the matrix product of the absolute values, summed over the rows, is at most `A` -/
noncomputable def famp (A q r : ℕ) (X Y : List (List ShippedEntry)) : Bool :=
  Nat.beq Y.length q && fcolSums 120 X q [] fun cs =>
    fall (fun j => Nat.ble (fweighted 120 j Y cs) (Nat.mul A (Nat.pow 2 240))) r

theorem famp_sound {A q r : ℕ} {X Y : List (List ShippedEntry)} (h : famp A q r X Y = true) :
    ∀ j < r, ∑ k ∈ range X.length, ∑ i ∈ range q, |sparseArray X k i| * |sparseArray Y i j| ≤ A := by
  unfold famp at h
  rw [Bool.and_eq_true, Nat.beq_eq, fcolSums_eq, List.append_nil] at h
  obtain ⟨hl, h⟩ := h
  intro j hj
  have h1 := fall_spec h j hj
  have h2 : fweighted 120 j Y ((List.range q).map (fcolSum 120 X)) ≤ A * 2 ^ 240 := Nat.le_of_ble_eq_true h1
  have h3 := fweighted_spec 120 j Y ((List.range q).map (fcolSum 120 X)) (by simp [hl])
  have h4 : (fweighted 120 j Y ((List.range q).map (fcolSum 120 X)) : ℝ) ≤ A * 2 ^ 240 := by exact_mod_cast h2
  rw [hl] at h3
  have h5 : (∑ k ∈ range X.length, ∑ i ∈ range q, |sparseArray X k i| * |sparseArray Y i j|) * 2 ^ 240 ≤
      (∑ i ∈ range q, (((List.range q).map (fcolSum 120 X)).getD i 0 : ℝ) * |sparseArray Y i j|) * 2 ^ 120 := by
    rw [sum_comm, show (2 : ℝ) ^ 240 = 2 ^ 120 * 2 ^ 120 by rw [← pow_add], ← mul_assoc]
    refine mul_le_mul_of_nonneg_right ?_ (by positivity)
    rw [sum_mul]
    refine sum_le_sum fun i hi => ?_
    have hi' : i < q := mem_range.1 hi
    have e : ((List.range q).map (fcolSum 120 X)).getD i 0 = fcolSum 120 X i := by
      rw [List.getD_eq_getElem?_getD, List.getElem?_map, List.getElem?_range hi']
      rfl
    rw [e, ← sum_mul, mul_right_comm]
    exact mul_le_mul_of_nonneg_right (fcolSum_spec 120 X i) (abs_nonneg _)
  have h6 := (h5.trans h3).trans h4
  exact le_of_mul_le_mul_right h6 (by positivity)

theorem famp0 : (famp 15 1 1 shippedS2t0 shippedT2s0 && famp 32 1 1 shippedT2s0 shippedS2t0) = true := by
  decide +kernel

theorem famp1 : (famp 15 3 3 shippedS2t1 shippedT2s1 && famp 32 3 3 shippedT2s1 shippedS2t1) = true := by
  decide +kernel

theorem famp2 : (famp 15 6 5 shippedS2t2 shippedT2s2 && famp 32 5 6 shippedT2s2 shippedS2t2) = true := by
  decide +kernel

theorem famp3 : (famp 15 10 7 shippedS2t3 shippedT2s3 && famp 32 7 10 shippedT2s3 shippedS2t3) = true := by
  decide +kernel

theorem famp4 : (famp 15 15 9 shippedS2t4 shippedT2s4 && famp 32 9 15 shippedT2s4 shippedS2t4) = true := by
  decide +kernel

theorem famp5 : (famp 15 21 11 shippedS2t5 shippedT2s5 && famp 32 11 21 shippedT2s5 shippedS2t5) = true := by
  decide +kernel

theorem famp6 : (famp 15 28 13 shippedS2t6 shippedT2s6 && famp 32 13 28 shippedT2s6 shippedS2t6) = true := by
  decide +kernel

theorem famp7 : (famp 15 36 15 shippedS2t7 shippedT2s7 && famp 32 15 36 shippedT2s7 shippedS2t7) = true := by
  decide +kernel

theorem famp8 : (famp 15 45 17 shippedS2t8 shippedT2s8 && famp 32 17 45 shippedT2s8 shippedS2t8) = true := by
  decide +kernel

theorem famp9 : (famp 15 55 19 shippedS2t9 shippedT2s9 && famp 32 19 55 shippedT2s9 shippedS2t9) = true := by
  decide +kernel

theorem famp10 : (famp 15 66 21 shippedS2t10 shippedT2s10 && famp 32 21 66 shippedT2s10 shippedS2t10) = true := by
  decide +kernel

theorem famp11 : (famp 15 78 23 shippedS2t11 shippedT2s11 && famp 32 23 78 shippedT2s11 shippedS2t11) = true := by
  decide +kernel

theorem famp12 : (famp 15 91 25 shippedS2t12 shippedT2s12 && famp 32 25 91 shippedT2s12 shippedS2t12) = true := by
  decide +kernel

theorem famp13 : (famp 15 105 27 shippedS2t13 shippedT2s13 && famp 32 27 105 shippedT2s13 shippedS2t13) = true := by
  decide +kernel

theorem famp14 : (famp 15 120 29 shippedS2t14 shippedT2s14 && famp 32 29 120 shippedT2s14 shippedS2t14) = true := by
  decide +kernel

theorem famp15 : (famp 15 136 31 shippedS2t15 shippedT2s15 && famp 32 31 136 shippedT2s15 shippedS2t15) = true := by
  decide +kernel

end E3x.Coefficients
