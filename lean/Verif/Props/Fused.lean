import Mathlib.Data.Matrix.Mul
import Verif.Props.Tensor
import Verif.Props.Dense

/-!
# C16: the FusedTensor layer; C17: TensorDense
-/

namespace E3x

open Spec
open Finset (range)

/-! ## The matrix basis -/

/-- Only the block of degree `lam` contributes to a sum against a row of that degree. -/
theorem sum_block (lam : ℕ) (g : ℕ → ℝ) (hg : ∀ k, deg k ≠ lam → g k = 0) :
    ∑ k ∈ range ((lam + 1) ^ 2), g k = ∑ a ∈ range (2 * lam + 1), g (lam ^ 2 + a) := by
  have e : (lam + 1) ^ 2 = lam ^ 2 + (2 * lam + 1) := by ring
  rw [e, Finset.sum_range_add]
  rw [Finset.sum_eq_zero, zero_add]
  intro k hk
  apply hg
  intro h
  have := ((deg_eq_iff k lam).1 h).1
  have := Finset.mem_range.1 hk
  omega

section Block

variable {cg : ℕ → ℕ → ℕ → ℝ} {D : ℕ → ℕ → ℝ}

theorem deg_block {lam a : ℕ} (ha : a ∈ range (2 * lam + 1)) : deg (lam ^ 2 + a) = lam :=
  deg_sq_add (Finset.mem_range.1 ha)

theorem intertwines_block (h : IsRotation cg D) {lam a b n L : ℕ} (ha : a ∈ range (2 * lam + 1))
    (hb : b ∈ range (2 * lam + 1)) (hn : deg n ≤ L) :
    ∑ i ∈ range (2 * lam + 1), ∑ j ∈ range (2 * lam + 1),
      D (lam ^ 2 + a) (lam ^ 2 + i) * D (lam ^ 2 + b) (lam ^ 2 + j) * cgSlice cg lam i j n =
    ∑ k ∈ range ((L + 1) ^ 2), cgSlice cg lam a b k * D k n := by
  have key := intertwines_ranges h.blockDiag h.intertwines (a := lam ^ 2 + a) (b := lam ^ 2 + b) (n := n)
    (L1 := lam) (L2 := lam) (by rw [deg_block ha]) (by rw [deg_block hb]) hn
  unfold cgSlice
  rw [← key]
  rw [sum_block lam]
  · apply Finset.sum_congr rfl
    intro i _
    rw [sum_block lam]
    intro k hk
    rw [h.blockDiag (lam ^ 2 + b) k (by rw [deg_block hb]; exact Ne.symm hk)]; ring
  · intro k hk
    apply Finset.sum_eq_zero
    intro j _
    rw [h.blockDiag (lam ^ 2 + a) _ (by rw [deg_block ha]; exact Ne.symm hk)]; ring

theorem orth_row (h : IsRotation cg D) {lam a b : ℕ} (ha : a ∈ range (2 * lam + 1)) (_hb : b ∈ range (2 * lam + 1)) :
    ∑ i ∈ range (2 * lam + 1), D (lam ^ 2 + a) (lam ^ 2 + i) * D (lam ^ 2 + b) (lam ^ 2 + i) =
      if a = b then 1 else 0 := by
  have key := (h.orthogonal (lam ^ 2 + a) (lam ^ 2 + b)).1
  rw [deg_block ha, sum_block lam] at key
  · rw [key]; simp
  · intro k hk
    rw [h.blockDiag (lam ^ 2 + a) _ (by rw [deg_block ha]; exact Ne.symm hk)]; ring

theorem orth_col (h : IsRotation cg D) {lam a b : ℕ} (ha : a ∈ range (2 * lam + 1)) (_hb : b ∈ range (2 * lam + 1)) :
    ∑ i ∈ range (2 * lam + 1), D (lam ^ 2 + i) (lam ^ 2 + a) * D (lam ^ 2 + i) (lam ^ 2 + b) =
      if a = b then 1 else 0 := by
  have key := (h.orthogonal (lam ^ 2 + a) (lam ^ 2 + b)).2
  rw [deg_block ha, sum_block lam] at key
  · rw [key]; simp
  · intro k hk
    rw [h.blockDiag _ (lam ^ 2 + a) (by rw [deg_block ha]; exact hk)]; ring

/-- The transposed form of the intertwining property. -/
theorem intertwines_transposed (h : IsRotation cg D) {lam i j m L : ℕ} (hi : i ∈ range (2 * lam + 1))
    (hj : j ∈ range (2 * lam + 1)) (hm : deg m ≤ L) :
    ∑ n ∈ range ((L + 1) ^ 2), D m n * cgSlice cg lam i j n =
    ∑ a ∈ range (2 * lam + 1), ∑ b ∈ range (2 * lam + 1),
      D (lam ^ 2 + a) (lam ^ 2 + i) * D (lam ^ 2 + b) (lam ^ 2 + j) * cgSlice cg lam a b m := by
  set R := range (2 * lam + 1) with hR
  set N := range ((L + 1) ^ 2) with hN
  let P : ℕ → ℕ → ℝ := fun a i => D (lam ^ 2 + a) (lam ^ 2 + i)
  -- first step: insert the orthogonality relations
  have s1 : ∀ n ∈ N, cgSlice cg lam i j n =
      ∑ a ∈ R, ∑ b ∈ R, P a i * P b j * ∑ k ∈ N, cgSlice cg lam a b k * D k n := by
    intro n hn
    have hn' : deg n ≤ L := deg_le_of_lt (Finset.mem_range.1 hn)
    have e : ∀ a ∈ R, ∀ b ∈ R, P a i * P b j * ∑ k ∈ N, cgSlice cg lam a b k * D k n =
        ∑ i' ∈ R, ∑ j' ∈ R, (P a i' * P a i) * ((P b j' * P b j) * cgSlice cg lam i' j' n) := by
      intro a ha b hb
      rw [← intertwines_block h ha hb hn', Finset.mul_sum]
      apply Finset.sum_congr rfl
      intro i' _
      rw [Finset.mul_sum]
      apply Finset.sum_congr rfl
      intro j' _
      ring
    rw [Finset.sum_congr rfl fun a ha => Finset.sum_congr rfl fun b hb => e a ha b hb]
    have : ∑ a ∈ R, ∑ b ∈ R, ∑ i' ∈ R, ∑ j' ∈ R,
        (P a i' * P a i) * ((P b j' * P b j) * cgSlice cg lam i' j' n) =
        ∑ i' ∈ R, ∑ j' ∈ R, (∑ a ∈ R, P a i' * P a i) * ((∑ b ∈ R, P b j' * P b j) * cgSlice cg lam i' j' n) := by
      calc _ = ∑ a ∈ R, ∑ i' ∈ R, ∑ b ∈ R, ∑ j' ∈ R,
              (P a i' * P a i) * ((P b j' * P b j) * cgSlice cg lam i' j' n) :=
            Finset.sum_congr rfl fun a _ => Finset.sum_comm
        _ = ∑ i' ∈ R, ∑ a ∈ R, ∑ b ∈ R, ∑ j' ∈ R,
              (P a i' * P a i) * ((P b j' * P b j) * cgSlice cg lam i' j' n) := Finset.sum_comm
        _ = ∑ i' ∈ R, ∑ a ∈ R, ∑ j' ∈ R, ∑ b ∈ R,
              (P a i' * P a i) * ((P b j' * P b j) * cgSlice cg lam i' j' n) :=
            Finset.sum_congr rfl fun i' _ => Finset.sum_congr rfl fun a _ => Finset.sum_comm
        _ = ∑ i' ∈ R, ∑ j' ∈ R, ∑ a ∈ R, ∑ b ∈ R,
              (P a i' * P a i) * ((P b j' * P b j) * cgSlice cg lam i' j' n) :=
            Finset.sum_congr rfl fun i' _ => Finset.sum_comm
        _ = _ := by
            apply Finset.sum_congr rfl
            intro i' _
            apply Finset.sum_congr rfl
            intro j' _
            rw [Finset.sum_mul]
            apply Finset.sum_congr rfl
            intro a _
            rw [Finset.sum_mul, Finset.mul_sum]
    rw [this]
    rw [Finset.sum_eq_single i]
    · rw [Finset.sum_eq_single j]
      · rw [orth_col h hi hi, orth_col h hj hj]; simp
      · intro j' hj' hne
        rw [orth_col h hj' hj]; simp [hne]
      · intro hc; exact absurd hj hc
    · intro i' hi' hne
      apply Finset.sum_eq_zero
      intro j' _
      rw [orth_col h hi' hi]; simp [hne]
    · intro hc; exact absurd hi hc
  have s2 : ∑ n ∈ N, D m n * cgSlice cg lam i j n =
      ∑ a ∈ R, ∑ b ∈ R, P a i * P b j * ∑ k ∈ N, cgSlice cg lam a b k * ∑ n ∈ N, D k n * D m n := by
    rw [Finset.sum_congr rfl fun n hn => by rw [s1 n hn]]
    simp only [Finset.mul_sum]
    rw [Finset.sum_comm]
    apply Finset.sum_congr rfl
    intro a _
    rw [Finset.sum_comm]
    apply Finset.sum_congr rfl
    intro b _
    rw [Finset.sum_comm]
    apply Finset.sum_congr rfl
    intro k _
    apply Finset.sum_congr rfl
    intro n _
    ring
  rw [s2]
  apply Finset.sum_congr rfl
  intro a _
  apply Finset.sum_congr rfl
  intro b _
  congr 1
  have s3 : ∀ k ∈ N, ∑ n ∈ N, D k n * D m n = if k = m then 1 else 0 := by
    intro k hk
    have hk' : deg k ≤ L := deg_le_of_lt (Finset.mem_range.1 hk)
    rw [hN, sum_row_extend h.blockDiag (fun n => D m n) hk' (le_refl (deg k))]
    exact (h.orthogonal k m).1
  rw [Finset.sum_congr rfl fun k hk => by rw [s3 k hk]]
  rw [Finset.sum_eq_single m]
  · simp
  · intro k _ hne; simp [hne]
  · intro hc; exact absurd (Finset.mem_range.2 ((deg_le_iff _ _).1 hm)) hc

end Block

/-- The matrix of a rotated array is the conjugated matrix. -/
theorem toMatrix_rotate {cg : ℕ → ℕ → ℕ → ℝ} {D : ℕ → ℕ → ℝ} (h : IsRotation cg D) (w : ℕ → ℝ) (lam : ℕ) (x : Feat)
    (p f : ℕ) {i j : ℕ} (hi : i ∈ range (2 * lam + 1)) (hj : j ∈ range (2 * lam + 1)) :
    toMatrix w cg lam (rotate x D) p f i j =
      ∑ a ∈ range (2 * lam + 1), ∑ b ∈ range (2 * lam + 1),
        D (lam ^ 2 + a) (lam ^ 2 + i) * toMatrix w cg lam x p f a b * D (lam ^ 2 + b) (lam ^ 2 + j) := by
  set R := range (2 * lam + 1) with hR
  set N := range ((x.L + 1) ^ 2) with hN
  have lhs : toMatrix w cg lam (rotate x D) p f i j =
      ∑ m ∈ N, w (deg m) * comp x p m f * ∑ n ∈ N, D m n * cgSlice cg lam i j n := by
    unfold toMatrix
    simp only [Finset.mul_sum]
    rw [Finset.sum_comm (s := N) (t := N)]
    apply Finset.sum_congr rfl
    intro n hn
    rw [C10_rotate x D h.blockDiag p n f (Finset.mem_range.1 hn), Finset.mul_sum, Finset.sum_mul]
    apply Finset.sum_congr rfl
    intro m _
    unfold cgSlice
    by_cases hmn : deg m = deg n
    · rw [hmn]; ring
    · rw [h.blockDiag m n hmn]; ring
  rw [lhs, Finset.sum_congr rfl fun m hm => by
    rw [intertwines_transposed h hi hj (deg_le_of_lt (Finset.mem_range.1 hm))]]
  unfold toMatrix
  simp only [Finset.mul_sum, Finset.sum_mul]
  rw [Finset.sum_comm]
  apply Finset.sum_congr rfl
  intro a _
  rw [Finset.sum_comm]
  apply Finset.sum_congr rfl
  intro b _
  apply Finset.sum_congr rfl
  intro m _
  unfold cgSlice
  ring

/-- Products of conjugated matrices are the conjugated products. -/
theorem product_rotate {cg : ℕ → ℕ → ℕ → ℝ} {D : ℕ → ℕ → ℝ} (h : IsRotation cg D) (lam : ℕ) (X Y : ℕ → ℕ → ℝ)
    {i j : ℕ} :
    ∑ c ∈ range (2 * lam + 1),
      (∑ a ∈ range (2 * lam + 1), ∑ b ∈ range (2 * lam + 1), D (lam ^ 2 + a) (lam ^ 2 + i) * X a b *
        D (lam ^ 2 + b) (lam ^ 2 + c)) *
      (∑ a ∈ range (2 * lam + 1), ∑ b ∈ range (2 * lam + 1), D (lam ^ 2 + a) (lam ^ 2 + c) * Y a b *
        D (lam ^ 2 + b) (lam ^ 2 + j)) =
    ∑ a ∈ range (2 * lam + 1), ∑ b ∈ range (2 * lam + 1), D (lam ^ 2 + a) (lam ^ 2 + i) *
      (∑ c ∈ range (2 * lam + 1), X a c * Y c b) * D (lam ^ 2 + b) (lam ^ 2 + j) := by
  set d := 2 * lam + 1 with hd
  let P : Matrix (Fin d) (Fin d) ℝ := Matrix.of fun a b => D (lam ^ 2 + a) (lam ^ 2 + b)
  let u : Matrix (Fin 1) (Fin d) ℝ := Matrix.of fun _ a => D (lam ^ 2 + a) (lam ^ 2 + i)
  let v : Matrix (Fin d) (Fin 1) ℝ := Matrix.of fun b _ => D (lam ^ 2 + b) (lam ^ 2 + j)
  let X' : Matrix (Fin d) (Fin d) ℝ := Matrix.of fun a b => X a b
  let Y' : Matrix (Fin d) (Fin d) ℝ := Matrix.of fun a b => Y a b
  have hPP : P * P.transpose = 1 := by
    ext a b
    rw [Matrix.mul_apply, Matrix.one_apply]
    have := orth_row h (lam := lam) (Finset.mem_range.2 a.2) (Finset.mem_range.2 b.2)
    rw [← hd, Finset.sum_range] at this
    refine Eq.trans ?_ (this.trans ?_)
    · rfl
    · simp [Fin.ext_iff]
  have main : (u * X' * P) * (P.transpose * Y' * v) = u * (X' * Y') * v := by
    calc (u * X' * P) * (P.transpose * Y' * v) = u * X' * (P * P.transpose) * Y' * v := by
          simp only [Matrix.mul_assoc]
      _ = _ := by rw [hPP, Matrix.mul_one]; simp only [Matrix.mul_assoc]
  have tri : ∀ {p q : ℕ} (A : Matrix (Fin p) (Fin d) ℝ) (B : Matrix (Fin d) (Fin d) ℝ) (C : Matrix (Fin d) (Fin q) ℝ)
      (s : Fin p) (t : Fin q), (A * B * C) s t = ∑ a, ∑ b, A s a * B a b * C b t := by
    intro p q A B C s t
    rw [Matrix.mul_apply, Finset.sum_comm]
    apply Finset.sum_congr rfl
    intro b _
    rw [Matrix.mul_apply, Finset.sum_mul]
  have := congrFun (congrFun main 0) 0
  rw [Matrix.mul_apply, tri] at this
  simp only [tri, Matrix.mul_apply (M := X') (N := Y')] at this
  simp only [Finset.sum_range]
  exact this

/-- **C16 (meaning).** The FusedTensor layer computes the documented fused product: each input parity is turned into a
matrix of odd side length, matrices are multiplied, and the product is turned back; parities add up. -/
theorem C16_fused (cfg : TensorCfg) (K : FusedKernels) (cg : ℕ → ℕ → ℕ → ℝ) (x y : Feat)
    (hL : cfg.maxDegree.getD (max x.L y.L) ≤ x.L + y.L) (hF : x.F = y.F) :
    ∃ z, fusedTensor cfg K cg x y = .ok z ∧ z.L = cfg.maxDegree.getD (max x.L y.L) ∧ z.F = x.F ∧
      (z.pseudo = true ↔ cfg.includePseudo = true ∧ ¬ (x.pseudo = false ∧ y.pseudo = false ∧
        (x.L = 0 ∨ y.L = 0 ∨ cfg.maxDegree.getD (max x.L y.L) = 0))) ∧
      ∀ r n f, comp z r n f =
        if r < 2 ∧ n < (z.L + 1) ^ 2 ∧ (z.pseudo = true ∨ r = deg n % 2) then
          fusedCoupled (fun p l => if p = 0 then K.e1 l f else K.o1 l f)
            (fun q l => if q = 0 then K.e2 l f else K.o2 l f)
            (fun p q l => if p = 0 then (if q = 0 then K.eee l f else K.eoo l f)
              else (if q = 0 then K.oeo l f else K.ooe l f))
            cg ((max (max x.L y.L) z.L + 1) / 2) x y r n f
        else 0 := by
  have h1 : ¬ x.L + y.L < outDegree cfg x y := by unfold outDegree; omega
  unfold fusedTensor
  rw [if_neg h1, if_neg (by simpa using hF)]
  refine ⟨_, rfl, rfl, rfl, outPseudo_iff cfg x y, ?_⟩
  intro r n f
  by_cases hc : r < 2 ∧ n < (outDegree cfg x y + 1) ^ 2 ∧ (outPseudo cfg x y = true ∨ r = deg n % 2)
  swap
  · rw [if_neg hc]
    unfold comp
    dsimp only
    split
    · rfl
    · rename_i ho
      rw [not_or, not_le, not_le] at ho
      have : ¬ (outPseudo cfg x y = true ∨ r = deg n % 2) := fun h => hc ⟨ho.2, ho.1, h⟩
      rw [not_or] at this
      rw [if_neg this.1, if_neg this.2]
  rw [if_pos hc]
  obtain ⟨hr, hn, hpar⟩ := hc
  rw [comp_of_mem _ hr hn hpar]
  dsimp only
  have hMx : x.L ≤ fusedM cfg x y := le_trans (le_max_left _ _) (le_max_left _ _)
  have hMy : y.L ≤ fusedM cfg x y := le_trans (le_max_right _ _) (le_max_left _ _)
  have hMz : outDegree cfg x y ≤ fusedM cfg x y := le_max_right _ _
  have mono : ∀ {a b i : ℕ}, a ≤ b → i < (a + 1) ^ 2 → i < (b + 1) ^ 2 := by
    intro a b i hab hi
    exact lt_of_lt_of_le hi (Nat.pow_le_pow_left (by omega) 2)
  have hsplit : ∀ z : Feat, z.L ≤ fusedM cfg x y → ∀ p < 2, ∀ i < (z.L + 1) ^ 2,
      splitParity (fusedM cfg x y) z p i f = comp z p i f := by
    intro z hz p hp i hi
    unfold splitParity comp
    rw [if_neg (show ¬ ((z.L + 1) ^ 2 ≤ i ∨ 2 ≤ p) by omega)]
    cases hps : z.pseudo
    · simp only [Bool.false_eq_true, if_false]
      have hp2 : p = 0 ∨ p = 1 := by omega
      rcases hp2 with rfl | rfl
      · simp only [if_true, fusedMask_eq false (mono hz hi), Bool.false_eq_true, if_false]
        by_cases hd : deg i % 2 = 0
        · simp [hd]
        · simp [hd, Ne.symm hd]
      · simp only [one_ne_zero, if_false, fusedMask_eq true (mono hz hi), if_true]
        by_cases hd : deg i % 2 = 1
        · simp [hd]
        · simp [hd, Ne.symm hd]
    · simp
  have hmat : ∀ z : Feat, z.L ≤ fusedM cfg x y → ∀ p < 2, ∀ (k : ℕ → ℕ → ℝ) (a b : ℕ),
      fusedToMatrix (cgSlice cg (matrixDegree cfg x y)) z.L (splitParity (fusedM cfg x y) z p) k a b f =
        toMatrix (fun l => k l f) cg (matrixDegree cfg x y) z p f a b := by
    intro z hz p hp k a b
    unfold fusedToMatrix toMatrix cgSlice
    apply Finset.sum_congr rfl
    intro m hm
    rw [hsplit z hz p hp m (Finset.mem_range.1 hm), dup_eq (Finset.mem_range.1 hm)]
    ring
  -- one path
  have path : ∀ p < 2, ∀ q < 2, ∀ k1 k2 k3 : ℕ → ℕ → ℝ,
      fusedToVector (cgSlice cg (matrixDegree cfg x y)) (matrixDegree cfg x y) (outDegree cfg x y)
        (fusedCouple (matrixDegree cfg x y)
          (fusedToMatrix (cgSlice cg (matrixDegree cfg x y)) x.L (splitParity (fusedM cfg x y) x p) k1)
          (fusedToMatrix (cgSlice cg (matrixDegree cfg x y)) y.L (splitParity (fusedM cfg x y) y q) k2)) k3 n f =
      ∑ a ∈ range (2 * matrixDegree cfg x y + 1), ∑ b ∈ range (2 * matrixDegree cfg x y + 1), k3 (deg n) f *
        (∑ c ∈ range (2 * matrixDegree cfg x y + 1),
          toMatrix (fun l => k1 l f) cg (matrixDegree cfg x y) x p f a c *
          toMatrix (fun l => k2 l f) cg (matrixDegree cfg x y) y q f c b) *
          cg (matrixDegree cfg x y ^ 2 + a) (matrixDegree cfg x y ^ 2 + b) n := by
    intro p hp q hq k1 k2 k3
    unfold fusedToVector fusedCouple
    apply Finset.sum_congr rfl
    intro a _
    apply Finset.sum_congr rfl
    intro b _
    simp only [hmat x hMx p hp, hmat y hMy q hq, dup_eq hn, cgSlice]
    ring
  have hlam : (max (max x.L y.L) (outDegree cfg x y) + 1) / 2 = matrixDegree cfg x y := rfl
  rw [hlam]
  -- the value of the output
  have hval : fusedVal cfg K cg x y (slot (outPseudo cfg x y) r) n f =
      if r = 0 then
        fusedToVector (cgSlice cg (matrixDegree cfg x y)) (matrixDegree cfg x y) (outDegree cfg x y)
          (fusedCouple (matrixDegree cfg x y)
            (fusedToMatrix (cgSlice cg (matrixDegree cfg x y)) x.L (splitParity (fusedM cfg x y) x 0) K.e1)
            (fusedToMatrix (cgSlice cg (matrixDegree cfg x y)) y.L (splitParity (fusedM cfg x y) y 0) K.e2))
          K.eee n f +
        fusedToVector (cgSlice cg (matrixDegree cfg x y)) (matrixDegree cfg x y) (outDegree cfg x y)
          (fusedCouple (matrixDegree cfg x y)
            (fusedToMatrix (cgSlice cg (matrixDegree cfg x y)) x.L (splitParity (fusedM cfg x y) x 1) K.o1)
            (fusedToMatrix (cgSlice cg (matrixDegree cfg x y)) y.L (splitParity (fusedM cfg x y) y 1) K.o2))
          K.ooe n f
      else
        fusedToVector (cgSlice cg (matrixDegree cfg x y)) (matrixDegree cfg x y) (outDegree cfg x y)
          (fusedCouple (matrixDegree cfg x y)
            (fusedToMatrix (cgSlice cg (matrixDegree cfg x y)) x.L (splitParity (fusedM cfg x y) x 0) K.e1)
            (fusedToMatrix (cgSlice cg (matrixDegree cfg x y)) y.L (splitParity (fusedM cfg x y) y 1) K.o2))
          K.eoo n f +
        fusedToVector (cgSlice cg (matrixDegree cfg x y)) (matrixDegree cfg x y) (outDegree cfg x y)
          (fusedCouple (matrixDegree cfg x y)
            (fusedToMatrix (cgSlice cg (matrixDegree cfg x y)) x.L (splitParity (fusedM cfg x y) x 1) K.o1)
            (fusedToMatrix (cgSlice cg (matrixDegree cfg x y)) y.L (splitParity (fusedM cfg x y) y 0) K.e2))
          K.oeo n f := by
    unfold fusedVal
    cases ho : outPseudo cfg x y
    · simp only [ho, Bool.false_eq_true, false_or] at hpar
      simp only [Bool.false_eq_true, if_false, fusedMask_eq _ (mono hMz hn), if_true]
      have hr2 : r = 0 ∨ r = 1 := by omega
      rcases hr2 with rfl | rfl
      · simp [← hpar]
      · simp [← hpar]
    · simp [slot]
  rw [hval]
  unfold fusedCoupled
  simp only [Finset.sum_range_succ (n := 1), Finset.sum_range_succ (n := 0), Finset.range_zero, Finset.sum_empty,
    zero_add]
  have hr2 : r = 0 ∨ r = 1 := by omega
  rcases hr2 with rfl | rfl
  · rw [if_pos rfl, path 0 (by norm_num) 0 (by norm_num), path 1 (by norm_num) 1 (by norm_num)]
    simp only [Nat.reduceAdd, Nat.reduceMod, if_true, one_ne_zero, if_false, add_zero, zero_add]
  · rw [if_neg (by norm_num), path 0 (by norm_num) 1 (by norm_num), path 1 (by norm_num) 0 (by norm_num)]
    simp only [Nat.reduceAdd, Nat.reduceMod, if_true, one_ne_zero, if_false, add_zero, zero_add,
      zero_ne_one]

/-- **C16 (errors).** -/
theorem C16_fused_error (cfg : TensorCfg) (K : FusedKernels) (cg : ℕ → ℕ → ℕ → ℝ) (x y : Feat) (e : Err) :
    fusedTensor cfg K cg x y = .error e ↔
      e = .valueError ∧ (x.L + y.L < cfg.maxDegree.getD (max x.L y.L) ∨ x.F ≠ y.F) := by
  unfold fusedTensor outDegree
  constructor
  · intro h
    split at h
    · rename_i h1; injection h with h; exact ⟨h.symm, Or.inl h1⟩
    · split at h
      · rename_i h1; injection h with h; exact ⟨h.symm, Or.inr h1⟩
      · cases h
  · rintro ⟨rfl, h⟩
    split
    · rfl
    · rename_i h1
      split
      · rfl
      · rename_i h2
        rcases h with h | h
        · exact absurd h h1
        · exact absurd h h2

theorem fusedCoupled_reflect (w1 w2 : ℕ → ℕ → ℝ) (w3 : ℕ → ℕ → ℕ → ℝ) (cg : ℕ → ℕ → ℕ → ℝ) (lam : ℕ) (x y : Feat)
    (r n f : ℕ) :
    fusedCoupled w1 w2 w3 cg lam (reflect x) (reflect y) r n f =
      (-1) ^ r * fusedCoupled w1 w2 w3 cg lam x y r n f := by
  have hr := fun y => (C10_reflect y 0 0 0).2
  have hm : ∀ (w : ℕ → ℝ) (z : Feat) p a b,
      toMatrix w cg lam (reflect z) p f a b = (-1) ^ p * toMatrix w cg lam z p f a b := by
    intro w z p a b
    unfold toMatrix
    rw [(hr z).2.1, Finset.mul_sum]
    apply Finset.sum_congr rfl
    intro m _
    rw [(C10_reflect _ _ _ _).1]; ring
  unfold fusedCoupled
  rw [Finset.mul_sum]
  apply Finset.sum_congr rfl
  intro p _
  rw [Finset.mul_sum]
  apply Finset.sum_congr rfl
  intro q _
  split
  · rename_i hpq
    have hs : (-1 : ℝ) ^ p * (-1) ^ q = (-1) ^ r := by
      rw [← pow_add, ← hpq, ← neg_one_pow_eq_pow_mod_two]
    rw [Finset.mul_sum]
    apply Finset.sum_congr rfl
    intro a _
    rw [Finset.mul_sum]
    apply Finset.sum_congr rfl
    intro b _
    simp only [hm]
    have : ∑ c ∈ range (2 * lam + 1), (-1) ^ p * toMatrix (w1 p) cg lam x p f a c *
        ((-1) ^ q * toMatrix (w2 q) cg lam y q f c b) =
        (-1) ^ r * ∑ c ∈ range (2 * lam + 1), toMatrix (w1 p) cg lam x p f a c * toMatrix (w2 q) cg lam y q f c b := by
      rw [Finset.mul_sum]
      apply Finset.sum_congr rfl
      intro c _
      rw [← hs]; ring
    rw [this]; ring
  · simp

theorem fusedCoupled_rotate {cg : ℕ → ℕ → ℕ → ℝ} {D : ℕ → ℕ → ℝ} (h : IsRotation cg D) (w1 w2 : ℕ → ℕ → ℝ)
    (w3 : ℕ → ℕ → ℕ → ℝ) (lam : ℕ) (x y : Feat) (r f : ℕ) {n L : ℕ} (hn : deg n ≤ L) :
    fusedCoupled w1 w2 w3 cg lam (rotate x D) (rotate y D) r n f =
      ∑ k ∈ range ((L + 1) ^ 2), fusedCoupled w1 w2 w3 cg lam x y r k f * D k n := by
  unfold fusedCoupled
  simp only [Finset.sum_mul]
  rw [Finset.sum_comm (s := range ((L + 1) ^ 2))]
  apply Finset.sum_congr rfl
  intro p _
  rw [Finset.sum_comm (s := range ((L + 1) ^ 2))]
  apply Finset.sum_congr rfl
  intro q _
  split
  swap
  · simp
  set Z : ℕ → ℕ → ℝ := fun a b => ∑ c ∈ range (2 * lam + 1),
    toMatrix (w1 p) cg lam x p f a c * toMatrix (w2 q) cg lam y q f c b with hZ
  -- the product of the rotated matrices
  have hprod : ∀ i ∈ range (2 * lam + 1), ∀ j ∈ range (2 * lam + 1), ∑ c ∈ range (2 * lam + 1),
      toMatrix (w1 p) cg lam (rotate x D) p f i c * toMatrix (w2 q) cg lam (rotate y D) q f c j =
      ∑ a ∈ range (2 * lam + 1), ∑ b ∈ range (2 * lam + 1), D (lam ^ 2 + a) (lam ^ 2 + i) * Z a b *
        D (lam ^ 2 + b) (lam ^ 2 + j) := by
    intro i hi j hj
    rw [hZ, ← product_rotate h lam (fun a c => toMatrix (w1 p) cg lam x p f a c)
      (fun c b => toMatrix (w2 q) cg lam y q f c b)]
    apply Finset.sum_congr rfl
    intro c hc
    rw [toMatrix_rotate h _ _ _ _ _ hi hc, toMatrix_rotate h _ _ _ _ _ hc hj]
  rw [Finset.sum_congr rfl fun i hi => Finset.sum_congr rfl fun j hj => by rw [hprod i hi j hj]]
  -- bring the sums over a, b to the front
  have lhs : ∑ i ∈ range (2 * lam + 1), ∑ j ∈ range (2 * lam + 1), w3 p q (deg n) *
      (∑ a ∈ range (2 * lam + 1), ∑ b ∈ range (2 * lam + 1), D (lam ^ 2 + a) (lam ^ 2 + i) * Z a b *
        D (lam ^ 2 + b) (lam ^ 2 + j)) * cg (lam ^ 2 + i) (lam ^ 2 + j) n =
      ∑ a ∈ range (2 * lam + 1), ∑ b ∈ range (2 * lam + 1), w3 p q (deg n) * Z a b *
        ∑ i ∈ range (2 * lam + 1), ∑ j ∈ range (2 * lam + 1),
          D (lam ^ 2 + a) (lam ^ 2 + i) * D (lam ^ 2 + b) (lam ^ 2 + j) * cgSlice cg lam i j n := by
    simp only [Finset.mul_sum, Finset.sum_mul]
    calc _ = ∑ i ∈ range (2 * lam + 1), ∑ a ∈ range (2 * lam + 1), ∑ j ∈ range (2 * lam + 1),
            ∑ b ∈ range (2 * lam + 1), w3 p q (deg n) * (D (lam ^ 2 + a) (lam ^ 2 + i) * Z a b *
              D (lam ^ 2 + b) (lam ^ 2 + j)) * cg (lam ^ 2 + i) (lam ^ 2 + j) n :=
          Finset.sum_congr rfl fun i _ => Finset.sum_comm
      _ = ∑ a ∈ range (2 * lam + 1), ∑ i ∈ range (2 * lam + 1), ∑ j ∈ range (2 * lam + 1),
            ∑ b ∈ range (2 * lam + 1), w3 p q (deg n) * (D (lam ^ 2 + a) (lam ^ 2 + i) * Z a b *
              D (lam ^ 2 + b) (lam ^ 2 + j)) * cg (lam ^ 2 + i) (lam ^ 2 + j) n := Finset.sum_comm
      _ = ∑ a ∈ range (2 * lam + 1), ∑ i ∈ range (2 * lam + 1), ∑ b ∈ range (2 * lam + 1),
            ∑ j ∈ range (2 * lam + 1), w3 p q (deg n) * (D (lam ^ 2 + a) (lam ^ 2 + i) * Z a b *
              D (lam ^ 2 + b) (lam ^ 2 + j)) * cg (lam ^ 2 + i) (lam ^ 2 + j) n :=
          Finset.sum_congr rfl fun a _ => Finset.sum_congr rfl fun i _ => Finset.sum_comm
      _ = ∑ a ∈ range (2 * lam + 1), ∑ b ∈ range (2 * lam + 1), ∑ i ∈ range (2 * lam + 1),
            ∑ j ∈ range (2 * lam + 1), w3 p q (deg n) * (D (lam ^ 2 + a) (lam ^ 2 + i) * Z a b *
              D (lam ^ 2 + b) (lam ^ 2 + j)) * cg (lam ^ 2 + i) (lam ^ 2 + j) n :=
          Finset.sum_congr rfl fun a _ => Finset.sum_comm
      _ = _ := by
          apply Finset.sum_congr rfl
          intro a _
          apply Finset.sum_congr rfl
          intro b _
          apply Finset.sum_congr rfl
          intro i _
          apply Finset.sum_congr rfl
          intro j _
          unfold cgSlice
          ring
  rw [lhs]
  rw [Finset.sum_congr rfl fun a ha => Finset.sum_congr rfl fun b hb => by rw [intertwines_block h ha hb hn]]
  simp only [Finset.mul_sum, Finset.sum_mul]
  rw [Finset.sum_comm (s := range ((L + 1) ^ 2))]
  apply Finset.sum_congr rfl
  intro a _
  rw [Finset.sum_comm (s := range ((L + 1) ^ 2))]
  apply Finset.sum_congr rfl
  intro b _
  apply Finset.sum_congr rfl
  intro k _
  unfold cgSlice
  by_cases hk : deg k = deg n
  · rw [hk, hZ]; simp only [Finset.mul_sum, Finset.sum_mul]
    apply Finset.sum_congr rfl
    intro c _
    ring
  · rw [h.blockDiag k n hk]; simp

theorem fused_ok {cfg : TensorCfg} {K : FusedKernels} {cg : ℕ → ℕ → ℕ → ℝ} {x y z : Feat}
    (hz : fusedTensor cfg K cg x y = .ok z) : cfg.maxDegree.getD (max x.L y.L) ≤ x.L + y.L ∧ x.F = y.F := by
  by_contra hc
  have : fusedTensor cfg K cg x y = .error .valueError :=
    (C16_fused_error _ _ _ _ _ _).2 ⟨rfl, by by_contra h; push Not at h; exact hc h⟩
  rw [hz] at this; cases this

/-- **C16 (reflections).** -/
theorem C16_fused_reflect (cfg : TensorCfg) (K : FusedKernels) (cg : ℕ → ℕ → ℕ → ℝ) (x y z : Feat)
    (hz : fusedTensor cfg K cg x y = .ok z) :
    ∃ z', fusedTensor cfg K cg (reflect x) (reflect y) = .ok z' ∧ z'.Same (reflect z) := by
  have hr := fun y => (C10_reflect y 0 0 0).2
  have hok := fused_ok hz
  obtain ⟨z0, h0, h1, h2, h3, h4⟩ := C16_fused cfg K cg x y hok.1 hok.2
  rw [hz] at h0; injection h0 with h0; subst h0
  obtain ⟨z', g0, g1, g2, g3, g4⟩ := C16_fused cfg K cg (reflect x) (reflect y)
    (by rw [(hr x).2.1, (hr y).2.1]; exact hok.1) (by rw [(hr x).2.2, (hr y).2.2]; exact hok.2)
  refine ⟨z', g0, ?_⟩
  rw [(hr x).2.1, (hr y).2.1] at g1 g3
  rw [(hr x).1, (hr y).1] at g3
  have hps : z'.pseudo = z.pseudo := by rw [Bool.eq_iff_iff, g3, h3]
  refine same_of_comp _ _ (by rw [hps, (hr z).1]) (by rw [g1, (hr z).2.1, h1])
    (by rw [g2, (hr x).2.2, (hr z).2.2, h2]) ?_
  intro r n f _
  rw [g4, (C10_reflect _ _ _ _).1, h4, hps, g1, h1, (hr x).2.1, (hr y).2.1]
  split
  · rw [fusedCoupled_reflect]
  · simp

/-- **C16 (rotations).** -/
theorem C16_fused_rotate (cfg : TensorCfg) (K : FusedKernels) (cg : ℕ → ℕ → ℕ → ℝ) (D : ℕ → ℕ → ℝ)
    (h : IsRotation cg D) (x y z : Feat) (hz : fusedTensor cfg K cg x y = .ok z) :
    ∃ z', fusedTensor cfg K cg (rotate x D) (rotate y D) = .ok z' ∧ z'.Same (rotate z D) := by
  have hD := h.blockDiag
  have hok := fused_ok hz
  obtain ⟨z0, h0, h1, h2, h3, h4⟩ := C16_fused cfg K cg x y hok.1 hok.2
  rw [hz] at h0; injection h0 with h0; subst h0
  obtain ⟨z', g0, g1, g2, g3, g4⟩ := C16_fused cfg K cg (rotate x D) (rotate y D) hok.1 hok.2
  refine ⟨z', g0, ?_⟩
  have hps : z'.pseudo = z.pseudo := by rw [Bool.eq_iff_iff, h3]; exact g3
  have hL : z'.L = z.L := g1.trans h1.symm
  refine same_of_comp _ (rotate z D) hps hL (g2.trans h2.symm) ?_
  intro r n f _
  by_cases hn : n < (z.L + 1) ^ 2
  · rw [g4, C10_rotate z D hD r n f hn, hps, hL]
    simp only [h4]
    by_cases hc : r < 2 ∧ (z.pseudo = true ∨ r = deg n % 2)
    · rw [if_pos ⟨hc.1, hn, hc.2⟩]
      refine (fusedCoupled_rotate h _ _ _ _ x y r f (deg_le_of_lt hn)).trans ?_
      apply Finset.sum_congr rfl
      intro k hk
      by_cases hkn : deg k = deg n
      · rw [if_pos ⟨hc.1, Finset.mem_range.1 hk, by rw [hkn]; exact hc.2⟩]; rfl
      · rw [hD k n hkn]; simp
    · rw [if_neg (fun h => hc ⟨h.1, h.2.2⟩)]
      symm
      apply Finset.sum_eq_zero
      intro k hk
      by_cases hkn : deg k = deg n
      · rw [if_neg (fun h => hc ⟨h.1, by rw [← hkn]; exact h.2.2⟩), zero_mul]
      · rw [hD k n hkn, mul_zero]
  · rw [comp_out _ _ _ _ (by rw [hL]; omega), comp_out _ _ _ _ (by change (z.L + 1) ^ 2 ≤ n; omega)]

theorem fusedTensor_same (cfg : TensorCfg) (K : FusedKernels) (cg : ℕ → ℕ → ℕ → ℝ) {x x' y y' z : Feat}
    (hx : x.Same x') (hy : y.Same y') (hz : fusedTensor cfg K cg x y = .ok z) :
    ∃ z', fusedTensor cfg K cg x' y' = .ok z' ∧ z.Same z' := by
  have hok := fused_ok hz
  obtain ⟨z0, h0, h1, h2, h3, h4⟩ := C16_fused cfg K cg x y hok.1 hok.2
  rw [hz] at h0; injection h0 with h0; subst h0
  obtain ⟨z', g0, g1, g2, g3, g4⟩ := C16_fused cfg K cg x' y'
    (by rw [← hx.2.1, ← hy.2.1]; exact hok.1) (by rw [← hx.2.2.1, ← hy.2.2.1]; exact hok.2)
  refine ⟨z', g0, ?_⟩
  rw [← hx.2.1, ← hy.2.1] at g1 g3
  rw [← hx.1, ← hy.1] at g3
  have hps : z.pseudo = z'.pseudo := by rw [Bool.eq_iff_iff, g3, h3]
  refine same_of_comp _ _ hps (by rw [g1, h1]) (by rw [g2, h2, hx.2.2.1]) ?_
  intro r n f hf
  rw [h2] at hf
  have hfy : f < y.F := by rw [← hok.2]; exact hf
  rw [g4, h4, ← hps, g1, h1, ← hx.2.1, ← hy.2.1]
  split
  · unfold fusedCoupled toMatrix
    simp only [← hx.2.1, ← hy.2.1, comp_of_same hx hf, comp_of_same hy hfy]
  · rfl

/-! ## C17: TensorDense -/

theorem anyTensor_reflect (cfg : TensorCfg) (T : TensorParams) (cg : ℕ → ℕ → ℕ → ℝ) (x y z : Feat)
    (hz : anyTensor cfg T cg x y = .ok z) :
    ∃ z', anyTensor cfg T cg (reflect x) (reflect y) = .ok z' ∧ z'.Same (reflect z) := by
  cases T with
  | tensor k => exact C15_tensor_reflect cfg k cg x y z hz
  | fused k => exact C16_fused_reflect cfg k cg x y z hz

theorem anyTensor_rotate (cfg : TensorCfg) (T : TensorParams) (cg : ℕ → ℕ → ℕ → ℝ) (D : ℕ → ℕ → ℝ)
    (h : IsRotation cg D) (x y z : Feat) (hz : anyTensor cfg T cg x y = .ok z) :
    ∃ z', anyTensor cfg T cg (rotate x D) (rotate y D) = .ok z' ∧ z'.Same (rotate z D) := by
  cases T with
  | tensor k => exact C14_tensor_rotate cfg k cg D h.blockDiag h.intertwines x y z hz
  | fused k => exact C16_fused_rotate cfg k cg D h x y z hz

theorem anyTensor_same (cfg : TensorCfg) (T : TensorParams) (cg : ℕ → ℕ → ℕ → ℝ) {x x' y y' z : Feat}
    (hx : x.Same x') (hy : y.Same y') (hz : anyTensor cfg T cg x y = .ok z) :
    ∃ z', anyTensor cfg T cg x' y' = .ok z' ∧ z.Same z' := by
  cases T with
  | tensor k => exact tensor_same cfg k cg hx hy hz
  | fused k => exact fusedTensor_same cfg k cg hx hy hz

/-- Taking a range of features. -/
def slice (start n : ℕ) (x : Feat) : Feat := { x with F := n, val := fun p i f => x.val p i (start + f) }

theorem slice_same {x y : Feat} (h : x.Same y) {start n : ℕ} (hn : start + n ≤ x.F) :
    (slice start n x).Same (slice start n y) := by
  obtain ⟨h1, h2, h3, h4⟩ := h
  refine ⟨h1, h2, rfl, ?_⟩
  intro p i f hp hi hf
  exact h4 p i (start + f) hp hi (by simp only [slice] at hf; omega)

theorem slice_rotate (x : Feat) (D : ℕ → ℕ → ℝ) (start n : ℕ) :
    slice start n (rotate x D) = rotate (slice start n x) D := rfl

theorem slice_reflect (x : Feat) (start n : ℕ) :
    slice start n (reflect x) = reflect (slice start n x) := by
  have hfold : ∀ (ls : List ℕ) (v : ℕ → ℕ → ℕ → ℝ),
      ls.foldl negateDegree (fun p i f => v p i (start + f)) =
        fun p i f => (ls.foldl negateDegree v) p i (start + f) := by
    intro ls
    induction ls with
    | nil => intro v; rfl
    | cons l ls ih => intro v; exact ih (negateDegree v l)
  unfold slice reflect
  dsimp only
  by_cases h : x.pseudo
  · rw [if_pos h, if_pos h]
  · rw [if_neg h, if_neg h, hfold]

theorem tensorDense_eq (features : Option ℕ) (useBias : Bool) (cfg : TensorCfg) (P : DenseParams) (T : TensorParams)
    (cg : ℕ → ℕ → ℕ → ℝ) (x : Feat) :
    tensorDense features useBias cfg P T cg x =
      anyTensor cfg T cg (slice 0 (features.getD x.F) (dense (2 * features.getD x.F) useBias P x))
        (slice (features.getD x.F) (features.getD x.F) (dense (2 * features.getD x.F) useBias P x)) := by
  unfold tensorDense slice
  simp

/-- **C17 (rotations).** -/
theorem C17_tensor_dense_rotate (features : Option ℕ) (useBias : Bool) (cfg : TensorCfg) (P : DenseParams)
    (T : TensorParams) (cg : ℕ → ℕ → ℕ → ℝ) (D : ℕ → ℕ → ℝ) (h : IsRotation cg D) (x z : Feat)
    (hz : tensorDense features useBias cfg P T cg x = .ok z) :
    ∃ z', tensorDense features useBias cfg P T cg (rotate x D) = .ok z' ∧ z'.Same (rotate z D) := by
  rw [tensorDense_eq] at hz ⊢
  have hd := C12_dense_rotate (2 * features.getD x.F) useBias P x D h.blockDiag h.scalar
  obtain ⟨z1, h1, h2⟩ := anyTensor_rotate cfg T cg D h _ _ _ hz
  have hF : (dense (2 * features.getD x.F) useBias P (rotate x D)).F = 2 * features.getD x.F := (C12_dense _ _ _ _).2.2.1
  have a := slice_same hd (start := 0) (n := features.getD x.F) (by rw [hF]; omega)
  have b := slice_same hd (start := features.getD x.F) (n := features.getD x.F) (by rw [hF]; omega)
  rw [slice_rotate] at a b
  obtain ⟨z2, h3, h4⟩ := anyTensor_same cfg T cg a.symm b.symm h1
  exact ⟨z2, h3, h4.symm.trans h2⟩

/-- **C17 (reflections).** -/
theorem C17_tensor_dense_reflect (features : Option ℕ) (useBias : Bool) (cfg : TensorCfg) (P : DenseParams)
    (T : TensorParams) (cg : ℕ → ℕ → ℕ → ℝ) (x z : Feat)
    (hz : tensorDense features useBias cfg P T cg x = .ok z) :
    ∃ z', tensorDense features useBias cfg P T cg (reflect x) = .ok z' ∧ z'.Same (reflect z) := by
  have hrF : (reflect x).F = x.F := (C10_reflect x 0 0 0).2.2.2
  rw [tensorDense_eq] at hz ⊢
  rw [hrF]
  have hd := C12_dense_reflect (2 * features.getD x.F) useBias P x
  obtain ⟨z1, h1, h2⟩ := anyTensor_reflect cfg T cg _ _ _ hz
  have hF : (dense (2 * features.getD x.F) useBias P (reflect x)).F = 2 * features.getD x.F := (C12_dense _ _ _ _).2.2.1
  have a := slice_same hd (start := 0) (n := features.getD x.F) (by rw [hF]; omega)
  have b := slice_same hd (start := features.getD x.F) (n := features.getD x.F) (by rw [hF]; omega)
  rw [slice_reflect] at a b
  obtain ⟨z2, h3, h4⟩ := anyTensor_same cfg T cg a.symm b.symm h1
  exact ⟨z2, h3, h4.symm.trans h2⟩

theorem tensorDense_same (features : Option ℕ) (useBias : Bool) (cfg : TensorCfg) (P : DenseParams)
    (T : TensorParams) (cg : ℕ → ℕ → ℕ → ℝ) {x x' z : Feat} (hx : x.Same x')
    (hz : tensorDense features useBias cfg P T cg x = .ok z) :
    ∃ z', tensorDense features useBias cfg P T cg x' = .ok z' ∧ z.Same z' := by
  rw [tensorDense_eq] at hz ⊢
  rw [← hx.2.2.1]
  have hd := dense_same hx (2 * features.getD x.F) useBias P
  have hF : (dense (2 * features.getD x.F) useBias P x).F = 2 * features.getD x.F := (C12_dense _ _ _ _).2.2.1
  have a := slice_same hd (start := 0) (n := features.getD x.F) (by rw [hF]; omega)
  have b := slice_same hd (start := features.getD x.F) (n := features.getD x.F) (by rw [hF]; omega)
  exact anyTensor_same cfg T cg a b hz

/-- **C17 (when it succeeds).** TensorDense returns a result iff the requested maximum degree is at most twice that of
the input. -/
theorem C17_tensor_dense_ok (features : Option ℕ) (useBias : Bool) (cfg : TensorCfg) (P : DenseParams)
    (T : TensorParams) (cg : ℕ → ℕ → ℕ → ℝ) (x : Feat) :
    (∃ z, tensorDense features useBias cfg P T cg x = .ok z) ↔ cfg.maxDegree.getD x.L ≤ 2 * x.L := by
  rw [tensorDense_eq]
  have hL : (dense (2 * features.getD x.F) useBias P x).L = x.L := (C12_dense _ _ _ _).2.1
  constructor
  · rintro ⟨z, hz⟩
    cases T with
    | tensor k =>
      by_contra hc
      have : tensor cfg k cg _ _ = .error .valueError := (C15_tensor_error cfg k cg
        (slice 0 (features.getD x.F) (dense (2 * features.getD x.F) useBias P x))
        (slice (features.getD x.F) (features.getD x.F) (dense (2 * features.getD x.F) useBias P x)) _).2
        ⟨rfl, Or.inl (by simp only [slice, hL, max_self]; omega)⟩
      simp only [anyTensor, this] at hz
      cases hz
    | fused k =>
      have := (fused_ok hz).1
      simp only [slice, hL, max_self] at this; omega
  · intro h
    cases T with
    | tensor k =>
      obtain ⟨z, hz, _⟩ := C15_tensor cfg k cg
        (slice 0 (features.getD x.F) (dense (2 * features.getD x.F) useBias P x))
        (slice (features.getD x.F) (features.getD x.F) (dense (2 * features.getD x.F) useBias P x))
        (by simp only [slice, hL, max_self]; omega) rfl
      exact ⟨z, hz⟩
    | fused k =>
      obtain ⟨z, hz, _⟩ := C16_fused cfg k cg
        (slice 0 (features.getD x.F) (dense (2 * features.getD x.F) useBias P x))
        (slice (features.getD x.F) (features.getD x.F) (dense (2 * features.getD x.F) useBias P x))
        (by simp only [slice, hL, max_self]; omega) rfl
      exact ⟨z, hz⟩

-- Non-vacuity: requests of every kind are accepted, and the hypothesis on `D` is met by the identity (all Wigner-D
-- matrices: Props/WignerD.lean).
example (K : FusedKernels) (cg : ℕ → ℕ → ℕ → ℝ) (v w : ℕ → ℕ → ℕ → ℝ) :
    ∃ z, fusedTensor ⟨some 3, false⟩ K cg ⟨true, 1, 4, v⟩ ⟨false, 2, 4, w⟩ = .ok z ∧ z.L = 3 ∧ z.pseudo = false := by
  obtain ⟨z, h1, h2, _, h3, _⟩ := C16_fused ⟨some 3, false⟩ K cg ⟨true, 1, 4, v⟩ ⟨false, 2, 4, w⟩ (by simp) rfl
  refine ⟨z, h1, h2, ?_⟩
  cases h : z.pseudo
  · rfl
  · exact absurd (h3.1 h).1 (by simp)

theorem isRotation_one (cg : ℕ → ℕ → ℕ → ℝ) : IsRotation cg Spec.one := by
  have h0 : ∀ n, n ∈ range ((deg n + 1) ^ 2) := fun n => Finset.mem_range.2 ((deg_le_iff n (deg n)).1 le_rfl)
  refine ⟨?_, by simp [Spec.one], ?_, ?_⟩
  · intro i j h; unfold Spec.one; rw [if_neg]; rintro rfl; exact h rfl
  · intro i j
    simp only [Spec.one, mul_ite, mul_one, mul_zero, Finset.sum_ite_eq, Finset.sum_ite_eq']
    constructor
    · by_cases h : i = j
      · subst h; simp [h0 i]
      · simp [h]
    · by_cases h : i = j
      · subst h; simp [h0 i]
      · simp [h, Ne.symm h]
  · intro a b n
    simp only [Spec.one, mul_ite, mul_one, mul_zero, ite_mul, one_mul, zero_mul, Finset.sum_ite_eq, Finset.sum_ite_eq',
      h0, if_true]

end E3x
