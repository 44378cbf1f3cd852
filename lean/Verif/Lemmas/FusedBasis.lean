import Mathlib.LinearAlgebra.Matrix.Trace
import Verif.Props.Fused
import Verif.Props.Exchange
import Verif.Props.Universal
import Verif.Lemmas.Schur

/-!
# The basis of matrices used by FusedTensor

The Clebsch-Gordan coefficients which couple the degree `lam` to itself are an orthonormal basis of the matrices with
`2 lam + 1` rows.
-/

namespace E3x

noncomputable section

open Finset Spec Matrix

/-- the matrix which belongs to component `n` -/
def basisMatrix (cart : Bool) (lam n : ℕ) : Matrix (Fin (2 * lam + 1)) (Fin (2 * lam + 1)) ℝ :=
  Matrix.of fun a b => cgTensor cart (lam ^ 2 + a) (lam ^ 2 + b) n

/-- the Wigner-D matrix of one degree -/
def blockMatrix (cart : Bool) (R : Fin 3 → Fin 3 → ℝ) (lam : ℕ) : Matrix (Fin (2 * lam + 1)) (Fin (2 * lam + 1)) ℝ :=
  Matrix.of fun a b => dMatrix cart R (lam ^ 2 + a) (lam ^ 2 + b)

variable {cart : Bool} {lam : ℕ}

theorem sum_Ico_block (lam : ℕ) (g : ℕ → ℝ) :
    ∑ i ∈ Ico (lam ^ 2) ((lam + 1) ^ 2), g i = ∑ a : Fin (2 * lam + 1), g (lam ^ 2 + a) := by
  rw [Finset.sum_Ico_eq_sum_range, show (lam + 1) ^ 2 - lam ^ 2 = 2 * lam + 1 by
    rw [show (lam + 1) ^ 2 = 2 * lam + 1 + lam ^ 2 by ring]; omega, Finset.sum_range]

theorem basisMatrix_orthonormal {n n' : ℕ} (hn : deg n ≤ 2 * lam) (hn' : deg n' ≤ 2 * lam) :
    trace (basisMatrix cart lam n * (basisMatrix cart lam n')ᵀ) = if n = n' then 1 else 0 := by
  have ht : ∀ l : ℕ, l ≤ 2 * lam → Triangle lam lam l := fun l h => ⟨by simp, by omega⟩
  rw [← cgTensor_orthonormal cart lam lam n n' (ht _ hn) (ht _ hn'), sum_Ico_block]
  simp only [trace, Matrix.diag, mul_apply, transpose_apply, basisMatrix, of_apply]
  exact sum_congr rfl fun a _ => by rw [sum_Ico_block]

theorem basisMatrix_complete (a b a' b' : Fin (2 * lam + 1)) :
    ∑ n ∈ range ((2 * lam + 1) ^ 2), basisMatrix cart lam n a b * basisMatrix cart lam n a' b' =
      if a = a' ∧ b = b' then 1 else 0 := by
  have hd : ∀ a : Fin (2 * lam + 1), degreeOf (lam ^ 2 + a) = lam := fun a => deg_sq_add a.2
  have h := cgTensor_complete cart (2 * lam) (lam ^ 2 + a) (lam ^ 2 + a') (lam ^ 2 + b) (lam ^ 2 + b') (by rw [hd, hd])
    (by rw [hd, hd]) (by rw [hd, hd]; omega)
  simp only [basisMatrix, of_apply]
  rw [h]
  simp [Fin.ext_iff]

theorem basisMatrix_transpose (n : ℕ) : (basisMatrix cart lam n)ᵀ = ((-1 : ℝ) ^ deg n) • basisMatrix cart lam n := by
  ext a b
  have hd : ∀ a : Fin (2 * lam + 1), degreeOf (lam ^ 2 + a) = lam := fun a => deg_sq_add a.2
  simp only [transpose_apply, Matrix.smul_apply, basisMatrix, of_apply, smul_eq_mul]
  rw [cgTensor_swap, hd, hd, pow_add, ← two_mul, pow_mul, neg_one_sq, one_pow, one_mul]
  rfl

theorem basisMatrix_rotate {R : Fin 3 → Fin 3 → ℝ} (hR : IsOrthogonal R) (hdet : det3x3 R = 1) {n L : ℕ} (hn : deg n ≤ L) :
    blockMatrix cart R lam * basisMatrix cart lam n * (blockMatrix cart R lam)ᵀ =
      ∑ k ∈ range ((L + 1) ^ 2), dMatrix cart R k n • basisMatrix cart lam k := by
  ext a b
  have h := intertwines_block (dMatrix_isRotation cart hR hdet) (lam := lam) (a := a) (b := b) (n := n) (L := L) (mem_range.2 a.2) (mem_range.2 b.2) hn
  rw [Matrix.sum_apply]
  simp only [mul_apply, transpose_apply, Matrix.smul_apply, smul_eq_mul, sum_mul, blockMatrix, basisMatrix, of_apply]
  rw [sum_comm]
  simp only [Finset.sum_range] at h ⊢
  refine Eq.trans (sum_congr rfl fun i _ => sum_congr rfl fun j _ => ?_) (h.trans (sum_congr rfl fun k _ => ?_))
  · unfold cgSlice; ring
  · unfold cgSlice; ring

theorem blockMatrix_orth {R : Fin 3 → Fin 3 → ℝ} (hR : IsOrthogonal R) (hdet : det3x3 R = 1) :
    (blockMatrix cart R lam)ᵀ * blockMatrix cart R lam = 1 := by
  ext a b
  have h := orth_col (dMatrix_isRotation cart hR hdet) (lam := lam) (a := a) (b := b) (mem_range.2 a.2) (mem_range.2 b.2)
  simp only [mul_apply, transpose_apply, blockMatrix, of_apply]
  rw [Finset.sum_range] at h
  rw [h, one_apply]
  simp [Fin.ext_iff]

/-- a matrix which commutes with all rotations is a multiple of the identity -/
theorem schur_block (B : Matrix (Fin (2 * lam + 1)) (Fin (2 * lam + 1)) ℝ)
    (hB : ∀ R, IsOrthogonal R → det3x3 R = 1 → blockMatrix cart R lam * B * (blockMatrix cart R lam)ᵀ = B) :
    ∃ c : ℝ, B = c • (1 : Matrix (Fin (2 * lam + 1)) (Fin (2 * lam + 1)) ℝ) := by
  set T : ℕ → ℕ → ℝ := fun i j => if h : (lam ^ 2 ≤ i ∧ i < (lam + 1) ^ 2) ∧ (lam ^ 2 ≤ j ∧ j < (lam + 1) ^ 2) then
    B ⟨i - lam ^ 2, by have := h.1.2; rw [show (lam + 1) ^ 2 = lam ^ 2 + (2 * lam + 1) by ring] at this; omega⟩
      ⟨j - lam ^ 2, by have := h.2.2; rw [show (lam + 1) ^ 2 = lam ^ 2 + (2 * lam + 1) by ring] at this; omega⟩ else 0 with hT
  have hTa : ∀ a b : Fin (2 * lam + 1), T (lam ^ 2 + a) (lam ^ 2 + b) = B a b := by
    intro a b
    have ha := a.2
    have hb := b.2
    simp only [hT]
    rw [dif_pos (by rw [show (lam + 1) ^ 2 = lam ^ 2 + (2 * lam + 1) by ring]; omega)]
    congr 1 <;> simp
  have hT0 : ∀ i j, ¬ ((lam ^ 2 ≤ i ∧ i < (lam + 1) ^ 2) ∧ (lam ^ 2 ≤ j ∧ j < (lam + 1) ^ 2)) → T i j = 0 := fun i j h => dif_neg h
  have hdeg : ∀ i, deg i = lam ↔ (lam ^ 2 ≤ i ∧ i < (lam + 1) ^ 2) := fun i => deg_eq_iff i lam
  obtain ⟨c, hc⟩ := schur cart lam lam T (by
    intro R hR hdet i hi j hj
    have hrot := dMatrix_isRotation cart hR hdet
    have hcomm : blockMatrix cart R lam * B = B * blockMatrix cart R lam := by
      have h := congrArg (· * blockMatrix cart R lam) (hB R hR hdet)
      rwa [Matrix.mul_assoc, blockMatrix_orth hR hdet, Matrix.mul_one] at h
    rw [sum_block lam (fun i' => dMatrix cart R i i' * T i' j) (fun k hk => by
        rw [hT0 _ _ (fun h => hk ((hdeg k).2 h.1)), mul_zero]),
      sum_block lam (fun j' => T i j' * dMatrix cart R j' j) (fun k hk => by
        rw [hT0 _ _ (fun h => hk ((hdeg k).2 h.2)), zero_mul])]
    by_cases hii : deg i = lam
    · by_cases hjj : deg j = lam
      · obtain ⟨a, rfl⟩ : ∃ a : Fin (2 * lam + 1), i = lam ^ 2 + a := by
          have := (hdeg i).1 hii
          rw [show (lam + 1) ^ 2 = lam ^ 2 + (2 * lam + 1) by ring] at this
          exact ⟨⟨i - lam ^ 2, by omega⟩, by simp; omega⟩
        obtain ⟨b, rfl⟩ : ∃ b : Fin (2 * lam + 1), j = lam ^ 2 + b := by
          have := (hdeg j).1 hjj
          rw [show (lam + 1) ^ 2 = lam ^ 2 + (2 * lam + 1) by ring] at this
          exact ⟨⟨j - lam ^ 2, by omega⟩, by simp; omega⟩
        have h := congrFun (congrFun hcomm a) b
        simp only [mul_apply, blockMatrix, of_apply] at h
        rw [Finset.sum_range, Finset.sum_range]
        simp only [hTa]
        exact h
      · rw [sum_eq_zero, sum_eq_zero]
        · intro k hk
          rw [hrot.blockDiag _ _ (by rw [deg_block hk]; exact fun h => hjj h.symm), mul_zero]
        · intro k hk
          rw [hT0 _ _ (fun h => hjj ((hdeg j).2 h.2)), mul_zero]
    · rw [sum_eq_zero, sum_eq_zero]
      · intro k hk
        rw [hT0 _ _ (fun h => hii ((hdeg i).2 h.1)), zero_mul]
      · intro k hk
        rw [hrot.blockDiag _ _ (by rw [deg_block hk]; exact hii), zero_mul])
  refine ⟨c lam, ?_⟩
  ext a b
  have ha := a.2
  have hb := b.2
  have h := hc (lam ^ 2 + a) (by rw [show (lam + 1) ^ 2 = lam ^ 2 + (2 * lam + 1) by ring]; omega) (lam ^ 2 + b)
    (by rw [show (lam + 1) ^ 2 = lam ^ 2 + (2 * lam + 1) by ring]; omega)
  rw [hTa] at h
  rw [h, show degreeOf (lam ^ 2 + b) = lam from deg_sq_add hb, Matrix.smul_apply, one_apply]
  simp [Fin.ext_iff]

theorem basisMatrix_triangle {n : ℕ} (h : 2 * lam < deg n) : basisMatrix cart lam n = 0 := by
  ext a b
  by_contra hn
  have := cgTensor_triangle cart hn
  have hd : ∀ a : Fin (2 * lam + 1), degreeOf (lam ^ 2 + a) = lam := fun a => deg_sq_add a.2
  rw [hd, hd] at this
  have h2 := this.2
  have : degreeOf n = deg n := rfl
  omega

/-- the scalar belongs to a multiple of the identity -/
theorem basisMatrix_zero : ∃ c : ℝ, c ^ 2 * (2 * lam + 1) = 1 ∧
    basisMatrix cart lam 0 = c • (1 : Matrix (Fin (2 * lam + 1)) (Fin (2 * lam + 1)) ℝ) := by
  obtain ⟨c, hc⟩ := schur_block (cart := cart) (basisMatrix cart lam 0) (by
    intro R hR hdet
    rw [basisMatrix_rotate hR hdet (L := 0) (by decide +kernel)]
    rw [show (0 + 1) ^ 2 = 1 from rfl, sum_range_one, (dMatrix_isRotation cart hR hdet).scalar, one_smul])
  refine ⟨c, ?_, hc⟩
  have h := basisMatrix_orthonormal (cart := cart) (lam := lam) (n := 0) (n' := 0)
    (by rw [show deg 0 = 0 by decide +kernel]; omega) (by rw [show deg 0 = 0 by decide +kernel]; omega)
  rw [hc, if_pos rfl] at h
  simp [trace_smul] at h
  linarith

theorem basisMatrix_trace {n : ℕ} (hn : deg n ≤ 2 * lam) :
    trace (basisMatrix cart lam n) ^ 2 = if n = 0 then (2 * lam + 1 : ℝ) else 0 := by
  obtain ⟨c, h1, h2⟩ := basisMatrix_zero (cart := cart) (lam := lam)
  have h := basisMatrix_orthonormal (cart := cart) hn (n' := 0) (by rw [show deg 0 = 0 by decide +kernel]; omega)
  rw [h2] at h
  simp [trace_smul] at h
  have hc : c ≠ 0 := by rintro rfl; simp at h1
  by_cases h0 : n = 0
  · rw [if_pos h0] at h ⊢
    have : c ^ 2 * trace (basisMatrix cart lam n) ^ 2 = c ^ 2 * (2 * lam + 1) := by
      rw [← mul_pow, h, h1]; norm_num
    exact mul_left_cancel₀ (pow_ne_zero 2 hc) this
  · rw [if_neg h0] at h ⊢
    rcases mul_eq_zero.1 h with h | h
    · exact absurd h hc
    · rw [h]; norm_num

/-- all components of one degree together -/
theorem basisMatrix_degree {l : ℕ} (hl : l ≤ 2 * lam) :
    ∑ n ∈ Ico (l ^ 2) ((l + 1) ^ 2), basisMatrix cart lam n * (basisMatrix cart lam n)ᵀ =
      ((2 * l + 1) / (2 * lam + 1) : ℝ) • (1 : Matrix (Fin (2 * lam + 1)) (Fin (2 * lam + 1)) ℝ) := by
  obtain ⟨c, hc⟩ := schur_block (cart := cart) (∑ n ∈ Ico (l ^ 2) ((l + 1) ^ 2), basisMatrix cart lam n * (basisMatrix cart lam n)ᵀ) (by
    intro R hR hdet
    have hrot := dMatrix_isRotation cart hR hdet
    set D := blockMatrix cart R lam with hD
    have e : ∀ n ∈ Ico (l ^ 2) ((l + 1) ^ 2), D * (basisMatrix cart lam n * (basisMatrix cart lam n)ᵀ) * Dᵀ =
        ∑ k ∈ Ico (l ^ 2) ((l + 1) ^ 2), ∑ k' ∈ Ico (l ^ 2) ((l + 1) ^ 2), (dMatrix cart R k n * dMatrix cart R k' n) •
          (basisMatrix cart lam k * (basisMatrix cart lam k')ᵀ) := by
      intro n hn
      have hdn : deg n = l := degreeOf_Ico.1 hn
      have h1 : D * (basisMatrix cart lam n * (basisMatrix cart lam n)ᵀ) * Dᵀ =
          (D * basisMatrix cart lam n * Dᵀ) * (D * basisMatrix cart lam n * Dᵀ)ᵀ := by
        simp only [transpose_mul, transpose_transpose]
        calc D * (basisMatrix cart lam n * (basisMatrix cart lam n)ᵀ) * Dᵀ
            = D * basisMatrix cart lam n * 1 * ((basisMatrix cart lam n)ᵀ * Dᵀ) := by simp only [Matrix.mul_assoc, Matrix.one_mul]
          _ = _ := by rw [← blockMatrix_orth (cart := cart) hR hdet]; simp only [Matrix.mul_assoc, hD]
      have h2 : ∑ k ∈ range ((l + 1) ^ 2), dMatrix cart R k n • basisMatrix cart lam k =
          ∑ k ∈ Ico (l ^ 2) ((l + 1) ^ 2), dMatrix cart R k n • basisMatrix cart lam k := by
        symm
        refine sum_subset (fun k hk => mem_range.2 (mem_Ico.1 hk).2) fun k _ hk => ?_
        rw [hrot.blockDiag _ _ (fun h => hk (degreeOf_Ico.2 (h.trans hdn))), zero_smul]
      rw [h1, basisMatrix_rotate hR hdet (le_of_eq hdn), h2, transpose_sum, sum_mul]
      refine sum_congr rfl fun k _ => ?_
      rw [mul_sum]
      refine sum_congr rfl fun k' _ => ?_
      rw [transpose_smul, Matrix.smul_mul, Matrix.mul_smul, smul_smul]
    rw [mul_sum, sum_mul, sum_congr rfl e, sum_comm]
    refine sum_congr rfl fun k hk => ?_
    rw [sum_comm]
    have ho : ∀ k' ∈ Ico (l ^ 2) ((l + 1) ^ 2), ∑ n ∈ Ico (l ^ 2) ((l + 1) ^ 2), (dMatrix cart R k n * dMatrix cart R k' n) •
        (basisMatrix cart lam k * (basisMatrix cart lam k')ᵀ) = if k = k' then basisMatrix cart lam k * (basisMatrix cart lam k')ᵀ else 0 := by
      intro k' _
      have h := (hrot.orthogonal k k').1
      have hdk : deg k = l := degreeOf_Ico.1 hk
      rw [← sum_smul]
      have h2 : ∑ n ∈ Ico (l ^ 2) ((l + 1) ^ 2), dMatrix cart R k n * dMatrix cart R k' n = if k = k' then 1 else 0 := by
        rw [← h, hdk]
        refine sum_subset (fun n hn => mem_range.2 (mem_Ico.1 hn).2) fun n _ hn => ?_
        rw [hrot.blockDiag _ _ (fun h => hn (degreeOf_Ico.2 (h.symm.trans hdk))), zero_mul]
      rw [h2, ite_smul, one_smul, zero_smul]
    rw [sum_congr rfl ho, sum_ite_eq, if_pos hk])
  rw [hc]
  have h := congrArg trace hc
  rw [trace_sum, sum_congr rfl (g := fun _ => (1 : ℝ)) (fun n hn => by
    have hdn : deg n = l := degreeOf_Ico.1 hn
    rw [basisMatrix_orthonormal (by omega) (by omega), if_pos rfl])] at h
  simp [trace_smul, Nat.card_Ico] at h
  have hN : (2 * lam + 1 : ℝ) ≠ 0 := by positivity
  congr 1
  rw [eq_div_iff hN, ← h, Nat.cast_sub (by gcongr; omega)]
  push_cast
  ring

/-! ## Coupling strengths -/

/-- how strongly the components `n₁` and `n₂` of the inputs contribute to the component `n` of the output -/
def fusedStrength (cart : Bool) (lam n₁ n₂ n : ℕ) : ℝ :=
  trace (basisMatrix cart lam n₁ * basisMatrix cart lam n₂ * (basisMatrix cart lam n)ᵀ)

/-- the strength of whole degrees -/
def degreeStrength (cart : Bool) (lam l₁ l₂ n : ℕ) : ℝ :=
  ∑ i ∈ Ico (l₁ ^ 2) ((l₁ + 1) ^ 2), ∑ j ∈ Ico (l₂ ^ 2) ((l₂ + 1) ^ 2), fusedStrength cart lam i j n ^ 2

theorem degreeStrength_nonneg (l₁ l₂ n : ℕ) : 0 ≤ degreeStrength cart lam l₁ l₂ n :=
  sum_nonneg fun _ _ => sum_nonneg fun _ _ => sq_nonneg _

theorem fusedStrength_swap (n₁ n₂ n : ℕ) : fusedStrength cart lam n₁ n₂ n ^ 2 = fusedStrength cart lam n₂ n₁ n ^ 2 := by
  unfold fusedStrength
  rw [← trace_transpose, transpose_mul, transpose_mul, transpose_transpose, trace_mul_comm, basisMatrix_transpose,
    basisMatrix_transpose, basisMatrix_transpose]
  simp only [Matrix.smul_mul, Matrix.mul_smul, trace_smul, smul_eq_mul]
  have hs : ∀ k : ℕ, ((-1 : ℝ) ^ k) ^ 2 = 1 := fun k => by rw [← pow_mul, mul_comm, pow_mul]; norm_num
  simp only [mul_pow, hs, one_mul]

theorem degreeStrength_swap (l₁ l₂ n : ℕ) : degreeStrength cart lam l₁ l₂ n = degreeStrength cart lam l₂ l₁ n := by
  unfold degreeStrength
  rw [sum_comm]
  exact sum_congr rfl fun i _ => sum_congr rfl fun j _ => fusedStrength_swap _ _ _

/-- Parseval's identity for the basis of matrices -/
theorem basisMatrix_parseval (X Y : Matrix (Fin (2 * lam + 1)) (Fin (2 * lam + 1)) ℝ) :
    ∑ n ∈ range ((2 * lam + 1) ^ 2), trace (X * basisMatrix cart lam n) * trace (Y * basisMatrix cart lam n) = trace (X * Yᵀ) := by
  have e : ∀ n, trace (X * basisMatrix cart lam n) * trace (Y * basisMatrix cart lam n) =
      ∑ a, ∑ b, ∑ a', ∑ b', X a b * Y a' b' * (basisMatrix cart lam n b a * basisMatrix cart lam n b' a') := by
    intro n
    simp only [trace, Matrix.diag, mul_apply]
    simp only [sum_mul]
    refine sum_congr rfl fun a _ => sum_congr rfl fun b _ => ?_
    simp only [mul_sum]
    exact sum_congr rfl fun a' _ => sum_congr rfl fun b' _ => by ring
  simp only [e]
  rw [sum_comm]
  simp only [trace, Matrix.diag, mul_apply, transpose_apply]
  refine sum_congr rfl fun a _ => ?_
  rw [sum_comm]
  refine sum_congr rfl fun b _ => ?_
  rw [sum_comm, sum_eq_single a]
  · rw [sum_comm, sum_eq_single b]
    · rw [← mul_sum, basisMatrix_complete, if_pos ⟨rfl, rfl⟩, mul_one]
    · intro b' _ hb
      rw [← mul_sum, basisMatrix_complete, if_neg (fun h => hb h.1.symm), mul_zero]
    · simp
  · intro a' _ ha
    rw [sum_comm]
    refine sum_eq_zero fun b' _ => ?_
    rw [← mul_sum, basisMatrix_complete, if_neg (fun h => ha h.2.symm), mul_zero]
  · simp

theorem sum_by_degree' (L : ℕ) (g : ℕ → ℝ) :
    ∑ l ∈ range ((L + 1) ^ 2), g l = ∑ a ∈ range (L + 1), ∑ l ∈ Ico (a ^ 2) ((a + 1) ^ 2), g l := by
  induction L with
  | zero =>
    rw [show (0 + 1) ^ 2 = 1 from rfl, sum_range_one, sum_range_one]
    rw [show Ico (0 ^ 2) ((0 + 1) ^ 2) = {0} by decide, sum_singleton]
  | succ L ih =>
    rw [sum_range_succ _ (L + 1), ← ih, ← sum_range_add_sum_Ico _ (show (L + 1) ^ 2 ≤ (L + 1 + 1) ^ 2 by gcongr; omega)]

/-- one degree of the first input together with all degrees of the second -/
theorem degreeStrength_sum {l₁ n : ℕ} (hl : l₁ ≤ 2 * lam) (hn : deg n ≤ 2 * lam) :
    ∑ l₂ ∈ range (2 * lam + 1), degreeStrength cart lam l₁ l₂ n = (2 * l₁ + 1) / (2 * lam + 1) := by
  unfold degreeStrength
  rw [sum_comm]
  have e : ∀ i ∈ Ico (l₁ ^ 2) ((l₁ + 1) ^ 2),
      ∑ l₂ ∈ range (2 * lam + 1), ∑ j ∈ Ico (l₂ ^ 2) ((l₂ + 1) ^ 2), fusedStrength cart lam i j n ^ 2 =
      trace ((basisMatrix cart lam n)ᵀ * (basisMatrix cart lam i * (basisMatrix cart lam i)ᵀ) * basisMatrix cart lam n) := by
    intro i _
    rw [← sum_by_degree' (2 * lam) (fun j => fusedStrength cart lam i j n ^ 2)]
    have h := basisMatrix_parseval (cart := cart) ((basisMatrix cart lam n)ᵀ * basisMatrix cart lam i)
      ((basisMatrix cart lam n)ᵀ * basisMatrix cart lam i)
    rw [transpose_mul, transpose_transpose] at h
    rw [show (basisMatrix cart lam n)ᵀ * (basisMatrix cart lam i * (basisMatrix cart lam i)ᵀ) * basisMatrix cart lam n =
      (basisMatrix cart lam n)ᵀ * basisMatrix cart lam i * ((basisMatrix cart lam i)ᵀ * basisMatrix cart lam n) by
        simp only [Matrix.mul_assoc], ← h]
    refine sum_congr rfl fun j _ => ?_
    unfold fusedStrength
    rw [sq, trace_mul_comm, Matrix.mul_assoc]
  rw [sum_congr rfl e, ← trace_sum, ← sum_mul, ← mul_sum, basisMatrix_degree hl]
  simp only [Matrix.mul_smul, Matrix.smul_mul, Matrix.mul_one, trace_smul, smul_eq_mul]
  rw [trace_mul_comm, basisMatrix_orthonormal hn hn, if_pos rfl, mul_one]

/-- alternating signs -/
theorem degreeStrength_signs {n : ℕ} (hn : deg n ≤ 2 * lam) :
    ∑ l₁ ∈ range (2 * lam + 1), ∑ l₂ ∈ range (2 * lam + 1), (-1) ^ (l₁ + l₂) * degreeStrength cart lam l₁ l₂ n =
      if n = 0 then (2 * lam + 1 : ℝ) else 0 := by
  have e1 : ∀ l₁ l₂, (-1) ^ (l₁ + l₂) * degreeStrength cart lam l₁ l₂ n =
      ∑ i ∈ Ico (l₁ ^ 2) ((l₁ + 1) ^ 2), ∑ j ∈ Ico (l₂ ^ 2) ((l₂ + 1) ^ 2),
        trace ((basisMatrix cart lam n)ᵀ * basisMatrix cart lam i * basisMatrix cart lam j) *
        trace ((basisMatrix cart lam i * basisMatrix cart lam n) * basisMatrix cart lam j) := by
    intro l₁ l₂
    unfold degreeStrength
    rw [mul_sum]
    refine sum_congr rfl fun i hi => ?_
    rw [mul_sum]
    refine sum_congr rfl fun j hj => ?_
    have hi' : deg i = l₁ := degreeOf_Ico.1 hi
    have hj' : deg j = l₂ := degreeOf_Ico.1 hj
    have h1 : fusedStrength cart lam i j n = trace ((basisMatrix cart lam n)ᵀ * basisMatrix cart lam i * basisMatrix cart lam j) := by
      unfold fusedStrength
      rw [trace_mul_comm, Matrix.mul_assoc]
    have h2 : trace ((basisMatrix cart lam i * basisMatrix cart lam n) * basisMatrix cart lam j) =
        (-1) ^ (l₁ + l₂) * fusedStrength cart lam i j n := by
      unfold fusedStrength
      rw [← trace_transpose, transpose_mul, transpose_mul, basisMatrix_transpose j, basisMatrix_transpose i, hi', hj']
      simp only [Matrix.smul_mul, Matrix.mul_smul, trace_smul, smul_eq_mul]
      rw [← Matrix.mul_assoc, trace_mul_comm, ← Matrix.mul_assoc, pow_add]
      ring
    rw [← h1, h2, sq]
    ring
  simp only [e1]
  have e2 : ∀ l₁ ∈ range (2 * lam + 1), ∑ l₂ ∈ range (2 * lam + 1), ∑ i ∈ Ico (l₁ ^ 2) ((l₁ + 1) ^ 2),
      ∑ j ∈ Ico (l₂ ^ 2) ((l₂ + 1) ^ 2), trace ((basisMatrix cart lam n)ᵀ * basisMatrix cart lam i * basisMatrix cart lam j) *
        trace ((basisMatrix cart lam i * basisMatrix cart lam n) * basisMatrix cart lam j) =
      ∑ i ∈ Ico (l₁ ^ 2) ((l₁ + 1) ^ 2), trace ((basisMatrix cart lam n)ᵀ * basisMatrix cart lam i *
        (basisMatrix cart lam i * basisMatrix cart lam n)ᵀ) := by
    intro l₁ _
    rw [sum_comm]
    refine sum_congr rfl fun i _ => ?_
    rw [← sum_by_degree' (2 * lam) (fun j => trace ((basisMatrix cart lam n)ᵀ * basisMatrix cart lam i * basisMatrix cart lam j) *
        trace ((basisMatrix cart lam i * basisMatrix cart lam n) * basisMatrix cart lam j)), basisMatrix_parseval]
  rw [sum_congr rfl e2, ← sum_by_degree' (2 * lam) (fun i => trace ((basisMatrix cart lam n)ᵀ * basisMatrix cart lam i *
        (basisMatrix cart lam i * basisMatrix cart lam n)ᵀ)), ← basisMatrix_trace (cart := cart) hn]
  have e3 : ∀ i, trace ((basisMatrix cart lam n)ᵀ * basisMatrix cart lam i * (basisMatrix cart lam i * basisMatrix cart lam n)ᵀ) =
      ∑ a, ∑ c, ∑ b, ∑ d, basisMatrix cart lam n b a * basisMatrix cart lam n d c *
        (basisMatrix cart lam i b c * basisMatrix cart lam i a d) := by
    intro i
    rw [transpose_mul]
    simp only [trace, Matrix.diag, mul_apply, transpose_apply]
    refine sum_congr rfl fun a _ => sum_congr rfl fun c _ => ?_
    rw [sum_mul]
    refine sum_congr rfl fun b _ => ?_
    rw [mul_sum]
    exact sum_congr rfl fun d _ => by ring
  simp only [e3]
  rw [sum_comm]
  simp only [trace, Matrix.diag]
  rw [sq (∑ i, basisMatrix cart lam n i i), sum_mul]
  refine sum_congr rfl fun a _ => ?_
  rw [sum_comm, mul_sum]
  refine sum_congr rfl fun c _ => ?_
  rw [sum_comm, sum_eq_single a]
  · rw [sum_comm, sum_eq_single c]
    · rw [← mul_sum, basisMatrix_complete, if_pos ⟨rfl, rfl⟩, mul_one]
    · intro d _ hd
      rw [← mul_sum, basisMatrix_complete, if_neg (fun h => hd h.2.symm), mul_zero]
    · simp
  · intro b _ hb
    rw [sum_comm]
    refine sum_eq_zero fun d _ => ?_
    rw [← mul_sum, basisMatrix_complete, if_neg (fun h => hb h.1), mul_zero]
  · simp

/-- couplings with the scalar component of the first input -/
theorem degreeStrength_zero {l n : ℕ} (hl : l ≤ 2 * lam) (hn : deg n ≤ 2 * lam) :
    degreeStrength cart lam 0 l n = if l = deg n then (1 / (2 * lam + 1) : ℝ) else 0 := by
  obtain ⟨c, h1, h2⟩ := basisMatrix_zero (cart := cart) (lam := lam)
  have hN : (2 * lam + 1 : ℝ) ≠ 0 := by positivity
  unfold degreeStrength fusedStrength
  rw [show Ico (0 ^ 2) ((0 + 1) ^ 2) = {0} by decide, sum_singleton, h2]
  have e : ∀ j ∈ Ico (l ^ 2) ((l + 1) ^ 2), trace (c • (1 : Matrix (Fin (2 * lam + 1)) (Fin (2 * lam + 1)) ℝ) *
      basisMatrix cart lam j * (basisMatrix cart lam n)ᵀ) ^ 2 = if j = n then (1 / (2 * lam + 1) : ℝ) else 0 := by
    intro j hj
    have hdj : deg j = l := degreeOf_Ico.1 hj
    simp only [Matrix.smul_mul, Matrix.one_mul, trace_smul, smul_eq_mul]
    rw [basisMatrix_orthonormal (by omega) hn]
    split_ifs
    · rw [mul_one, eq_div_iff hN, h1]
    · simp
  rw [sum_congr rfl e, sum_ite_eq']
  exact if_congr (degreeOf_Ico.trans eq_comm) rfl rfl

/-- couplings to the scalar component of the output -/
theorem degreeStrength_scalar {l₁ l₂ : ℕ} (h₁ : l₁ ≤ 2 * lam) (h₂ : l₂ ≤ 2 * lam) :
    degreeStrength cart lam l₁ l₂ 0 = if l₁ = l₂ then ((2 * l₁ + 1) / (2 * lam + 1) : ℝ) else 0 := by
  obtain ⟨c, h1, h2⟩ := basisMatrix_zero (cart := cart) (lam := lam)
  have hN : (2 * lam + 1 : ℝ) ≠ 0 := by positivity
  unfold degreeStrength fusedStrength
  rw [h2]
  have e : ∀ i ∈ Ico (l₁ ^ 2) ((l₁ + 1) ^ 2), ∀ j ∈ Ico (l₂ ^ 2) ((l₂ + 1) ^ 2), trace (basisMatrix cart lam i *
      basisMatrix cart lam j * (c • (1 : Matrix (Fin (2 * lam + 1)) (Fin (2 * lam + 1)) ℝ))ᵀ) ^ 2 =
      if i = j then (1 / (2 * lam + 1) : ℝ) else 0 := by
    intro i hi j hj
    have hdi : deg i = l₁ := degreeOf_Ico.1 hi
    have hdj : deg j = l₂ := degreeOf_Ico.1 hj
    have ht : basisMatrix cart lam j = ((-1 : ℝ) ^ deg j) • (basisMatrix cart lam j)ᵀ := by
      rw [basisMatrix_transpose, smul_smul, ← mul_pow]
      norm_num
    rw [transpose_smul, transpose_one, ht]
    simp only [Matrix.smul_mul, Matrix.mul_smul, Matrix.mul_one, trace_smul, smul_eq_mul]
    rw [basisMatrix_orthonormal (by omega) (by omega), mul_pow, mul_pow, ← pow_mul, mul_comm (deg j), pow_mul, neg_one_sq,
      one_pow, one_mul]
    split_ifs
    · rw [one_pow, mul_one, eq_div_iff hN, h1]
    · simp
  rw [sum_congr rfl fun i hi => sum_congr rfl fun j hj => e i hi j hj]
  by_cases h : l₁ = l₂
  · subst h
    rw [if_pos rfl, sum_congr rfl (g := fun _ => (1 / (2 * lam + 1) : ℝ)) (fun i hi => by rw [sum_ite_eq, if_pos hi]), sum_const,
      Nat.card_Ico, nsmul_eq_mul, Nat.cast_sub (by gcongr; omega)]
    push_cast
    ring
  · rw [if_neg h]
    refine sum_eq_zero fun i hi => sum_eq_zero fun j hj => if_neg fun hij => h ?_
    rw [← degreeOf_Ico.1 hi, ← degreeOf_Ico.1 hj, hij]

/-- the strength of all couplings of components of degree at most `L` and `M` -/
def totalStrength (cart : Bool) (lam L M n : ℕ) : ℝ :=
  ∑ l₁ ∈ range (L + 1), ∑ l₂ ∈ range (M + 1), degreeStrength cart lam l₁ l₂ n

/-- the same with signs -/
def signedStrength (cart : Bool) (lam L M n : ℕ) : ℝ :=
  ∑ l₁ ∈ range (L + 1), ∑ l₂ ∈ range (M + 1), (-1) ^ (l₁ + l₂) * degreeStrength cart lam l₁ l₂ n

theorem totalStrength_swap (L M n : ℕ) : totalStrength cart lam L M n = totalStrength cart lam M L n := by
  unfold totalStrength
  rw [sum_comm]
  exact sum_congr rfl fun _ _ => sum_congr rfl fun _ _ => degreeStrength_swap _ _ _

theorem sum_odd_numbers (L : ℕ) (N : ℝ) : ∑ l ∈ range (L + 1), (2 * (l : ℝ) + 1) / N = (L + 1) ^ 2 / N := by
  induction L with
  | zero => simp
  | succ L ih => rw [sum_range_succ, ih]; push_cast; ring

theorem totalStrength_full {L n : ℕ} (hL : L ≤ 2 * lam) (hn : deg n ≤ 2 * lam) :
    totalStrength cart lam L (2 * lam) n = (L + 1) ^ 2 / (2 * lam + 1) := by
  unfold totalStrength
  rw [← sum_odd_numbers]
  refine sum_congr rfl fun l hl => degreeStrength_sum ?_ hn
  rw [mem_range] at hl
  omega

theorem totalStrength_mono {L M M' n : ℕ} (h : M ≤ M') : totalStrength cart lam L M n ≤ totalStrength cart lam L M' n := by
  unfold totalStrength
  refine sum_le_sum fun l _ => sum_le_sum_of_subset_of_nonneg ?_ fun _ _ _ => degreeStrength_nonneg _ _ _
  exact range_subset_range.2 (by omega)

theorem totalStrength_le {L M n : ℕ} (hL : L ≤ 2 * lam) (hM : M ≤ 2 * lam) (hn : deg n ≤ 2 * lam) :
    totalStrength cart lam L M n ≤ ((min L M : ℕ) + 1) ^ 2 / (2 * lam + 1) := by
  rcases le_total L M with h | h
  · rw [min_eq_left h, ← totalStrength_full hL hn]
    exact totalStrength_mono hM
  · rw [min_eq_right h, ← totalStrength_full hM hn, totalStrength_swap]
    exact totalStrength_mono hL

theorem totalStrength_max {L M n : ℕ} (h : max L M = 2 * lam) (hn : deg n ≤ 2 * lam) :
    totalStrength cart lam L M n = ((min L M : ℕ) + 1) ^ 2 / (2 * lam + 1) := by
  rcases le_total L M with hLM | hLM
  · rw [max_eq_right hLM] at h
    rw [min_eq_left hLM, h, totalStrength_full (by omega) hn]
  · rw [max_eq_left hLM] at h
    rw [min_eq_right hLM, h, totalStrength_swap, totalStrength_full (by omega) hn]

theorem sum_diagonal {L M : ℕ} (g : ℕ → ℝ) :
    ∑ l₁ ∈ range (L + 1), ∑ l₂ ∈ range (M + 1), (if l₁ = l₂ then g l₁ else 0) = ∑ l ∈ range (min L M + 1), g l := by
  have e : ∀ l ∈ range (L + 1), ∑ l₂ ∈ range (M + 1), (if l = l₂ then g l else 0) = if l < M + 1 then g l else 0 := by
    intro l _
    rw [sum_ite_eq]
    simp only [mem_range]
  rw [sum_congr rfl e, ← sum_filter]
  refine sum_congr ?_ fun _ _ => rfl
  ext l
  simp only [mem_filter, mem_range]
  omega

theorem totalStrength_scalar {L M : ℕ} (hL : L ≤ 2 * lam) (hM : M ≤ 2 * lam) :
    totalStrength cart lam L M 0 = ((min L M : ℕ) + 1) ^ 2 / (2 * lam + 1) := by
  unfold totalStrength
  rw [← sum_odd_numbers, ← sum_diagonal]
  refine sum_congr rfl fun l₁ h₁ => sum_congr rfl fun l₂ h₂ => ?_
  rw [mem_range] at h₁ h₂
  exact degreeStrength_scalar (by omega) (by omega)

theorem signedStrength_scalar {L M : ℕ} (hL : L ≤ 2 * lam) (hM : M ≤ 2 * lam) :
    signedStrength cart lam L M 0 = totalStrength cart lam L M 0 := by
  unfold signedStrength totalStrength
  refine sum_congr rfl fun l₁ h₁ => sum_congr rfl fun l₂ h₂ => ?_
  rw [mem_range] at h₁ h₂
  rw [degreeStrength_scalar (by omega) (by omega)]
  split_ifs with h
  · subst h
    rw [← two_mul, pow_mul, neg_one_sq, one_pow, one_mul]
  · simp

theorem totalStrength_zero {M n : ℕ} (hM : M ≤ 2 * lam) (hn : deg n ≤ M) :
    totalStrength cart lam 0 M n = 1 / (2 * lam + 1) := by
  unfold totalStrength
  rw [sum_range_one, sum_eq_single (deg n)]
  · rw [degreeStrength_zero (by omega) (by omega), if_pos rfl]
  · intro l hl h
    rw [mem_range] at hl
    rw [degreeStrength_zero (by omega) (by omega), if_neg h]
  · intro h
    exact absurd (mem_range.2 (by omega)) h

theorem signedStrength_zero {M n : ℕ} (hM : M ≤ 2 * lam) (hn : deg n ≤ M) :
    signedStrength cart lam 0 M n = (-1) ^ deg n / (2 * lam + 1) := by
  unfold signedStrength
  rw [sum_range_one, sum_eq_single (deg n)]
  · rw [degreeStrength_zero (by omega) (by omega), if_pos rfl, zero_add]
    ring
  · intro l hl h
    rw [mem_range] at hl
    rw [degreeStrength_zero (by omega) (by omega), if_neg h, mul_zero]
  · intro h
    exact absurd (mem_range.2 (by omega)) h

theorem signedStrength_swap (L M n : ℕ) : signedStrength cart lam L M n = signedStrength cart lam M L n := by
  unfold signedStrength
  rw [sum_comm]
  exact sum_congr rfl fun _ _ => sum_congr rfl fun _ _ => by rw [degreeStrength_swap, add_comm]

/-- three by three matrices, vectors -/
theorem strength_one {n : ℕ} (hn : deg n = 1) :
    totalStrength cart 1 1 1 n = 11 / 12 ∧ signedStrength cart 1 1 1 n = -5 / 12 := by
  have z : ∀ l ≤ 2, degreeStrength cart 1 0 l n = if l = 1 then (1 / 3 : ℝ) else 0 := by
    intro l hl
    rw [degreeStrength_zero (by omega) (by omega), hn]
    norm_num
  have s := degreeStrength_signs (cart := cart) (lam := 1) (n := n) (by omega)
  have t := fun l (hl : l ≤ 2) => degreeStrength_sum (cart := cart) (lam := 1) (l₁ := l) (n := n) (by omega) (by omega)
  have hn0 : n ≠ 0 := by rintro rfl; revert hn; decide +kernel
  rw [if_neg hn0] at s
  have t1 := t 1 (by omega)
  have t2 := t 2 (by omega)
  have w := fun a b => degreeStrength_swap (cart := cart) (lam := 1) a b n
  simp only [show 2 * 1 + 1 = 3 from rfl, sum_range_succ, sum_range_zero, zero_add, w 1 0, w 2 0, w 2 1,
    z 0 (by omega), z 1 (by omega), z 2 (by omega)] at s t1 t2
  unfold totalStrength signedStrength
  simp only [sum_range_succ, sum_range_zero, zero_add, w 1 0, z 0 (by omega), z 1 (by omega)]
  norm_num at s t1 t2 ⊢
  constructor <;> linarith

end

end E3x
