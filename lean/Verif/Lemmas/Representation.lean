import Verif.Lemmas.Irreps
import Verif.Spec.Tensor

/-!
# The Wigner-D matrices form a representation that intertwines the Clebsch-Gordan coupling
-/

namespace E3x

noncomputable section

open Finset Spec

variable {R S : Fin 3 → Fin 3 → ℝ}

theorem isOrthogonal_iff : IsOrthogonal R ↔ ROrth R := Iff.rfl

theorem Spec.IsOrthogonal.toC (h : IsOrthogonal R) : COrth (toC R) := ROrth.toC h

theorem Spec.IsOrthogonal.transpose (h : IsOrthogonal R) : IsOrthogonal (transpose3 R) := by
  intro i j
  have := h.toC.trans i j
  simp only [ctrans, E3x.toC] at this
  simp only [transpose3]
  split_ifs at this ⊢ <;> exact_mod_cast this

theorem isOrthogonal_identity : IsOrthogonal identity3 := by
  intro i j
  simp only [identity3, ite_mul, one_mul, zero_mul]
  rw [sum_ite_eq' univ i]
  simp

theorem Spec.IsOrthogonal.mul (hR : IsOrthogonal R) (hS : IsOrthogonal S) : IsOrthogonal (matMul R S) := by
  intro i j
  have e : ∀ k, matMul R S k i * matMul R S k j = ∑ a, ∑ b, (S a i * S b j) * (R k a * R k b) := by
    intro k
    simp only [matMul, sum_mul_sum]
    exact sum_congr rfl fun a _ => sum_congr rfl fun b _ => by ring
  rw [sum_congr rfl fun k _ => e k, sum_comm]
  have : ∀ a ∈ (univ : Finset (Fin 3)), ∑ k, ∑ b, S a i * S b j * (R k a * R k b) = S a i * S a j := by
    intro a _
    rw [sum_comm]
    simp only [← mul_sum]
    rw [sum_congr rfl fun b _ => by rw [hR a b]]
    simp
  rw [sum_congr rfl this, hS i j]

theorem det3x3_eq (R : Fin 3 → Fin 3 → ℝ) : det3x3 R = rdet R := by unfold det3x3 rdet; ring

theorem toC_matMul (R S : Fin 3 → Fin 3 → ℝ) : toC (matMul R S) = cmul (toC R) (toC S) := by
  funext i j
  simp only [toC, matMul, cmul]
  push_cast
  rfl

/-! ## matrix entries -/

theorem wigR_mul (l : ℕ) (hR : IsOrthogonal R) (S : Fin 3 → Fin 3 → ℝ) (a b : ℤ) (ha : |a| ≤ l) (hb : |b| ≤ l) :
    wigR l (matMul R S) a b = ∑ c ∈ Icc (-(l : ℤ)) l, wigR l R a c * wigR l S c b := by
  have h := wigC_mul l hR.toC (toC S) a b ha hb
  rw [← toC_matMul, ← wigR_eq l _ a b ha hb] at h
  rw [sum_congr rfl fun c hc => by rw [← wigR_eq l R a c ha (abs_le.mpr (mem_Icc.mp hc)),
    ← wigR_eq l S c b (abs_le.mpr (mem_Icc.mp hc)) hb]] at h
  exact_mod_cast h

theorem wigR_one (l : ℕ) (a b : ℤ) (ha : |a| ≤ l) (hb : |b| ≤ l) : wigR l identity3 a b = if b = a then 1 else 0 := by
  have h := wigC_one l a b ha hb
  have e : toC identity3 = fun i j => if i = j then 1 else 0 := by
    funext i j
    simp only [toC, identity3]
    split_ifs <;> simp
  rw [← e, ← wigR_eq l _ a b ha hb] at h
  split_ifs at h ⊢ <;> exact_mod_cast h

theorem wigR_trans (l : ℕ) (hR : IsOrthogonal R) (a b : ℤ) (ha : |a| ≤ l) (hb : |b| ≤ l) :
    wigR l (transpose3 R) b a = wigR l R a b := by
  have h := wigC_trans l hR.toC a b ha hb
  have e : ctrans (toC R) = toC (transpose3 R) := rfl
  rw [e, ← wigR_eq l _ b a hb ha, ← wigR_eq l _ a b ha hb] at h
  exact_mod_cast h

theorem wigR_orth (l : ℕ) (hR : IsOrthogonal R) (a b : ℤ) (ha : |a| ≤ l) (hb : |b| ≤ l) :
    ∑ c ∈ Icc (-(l : ℤ)) l, wigR l R a c * wigR l R b c = if a = b then 1 else 0 := by
  have h := wigC_orth l hR.toC a b ha hb
  rw [sum_congr rfl fun c hc => by rw [← wigR_eq l R a c ha (abs_le.mpr (mem_Icc.mp hc)),
    ← wigR_eq l R b c hb (abs_le.mpr (mem_Icc.mp hc))]] at h
  simp only [eq_comm (a := b) (b := a)] at h
  split_ifs at h ⊢ <;> exact_mod_cast h

theorem wigR_orth_col (l : ℕ) (hR : IsOrthogonal R) (a b : ℤ) (ha : |a| ≤ l) (hb : |b| ≤ l) :
    ∑ c ∈ Icc (-(l : ℤ)) l, wigR l R c a * wigR l R c b = if a = b then 1 else 0 := by
  rw [← wigR_orth l hR.transpose a b ha hb]
  refine sum_congr rfl fun c hc => ?_
  have hc := abs_le.mpr (mem_Icc.mp hc)
  rw [wigR_trans l hR c a hc ha, wigR_trans l hR c b hc hb]

theorem harmonic_vecMul (l : ℕ) (hR : IsOrthogonal R) (a : ℤ) (ha : |a| ≤ l) (r : Fin 3 → ℝ) :
    harmonic l a (vecMul r R) = ∑ b ∈ Icc (-(l : ℤ)) l, harmonic l b r * wigR l R b a := by
  have h := sphC_mulVec l hR.transpose.toC a ha (fun i => (r i : ℂ))
  have e : cmulVec (toC (transpose3 R)) (fun i => (r i : ℂ)) = fun i => (vecMul r R i : ℂ) := by
    funext i
    simp only [cmulVec, toC, transpose3, vecMul]
    push_cast
    exact sum_congr rfl fun _ _ => mul_comm _ _
  rw [e, sphC_ofReal] at h
  rw [sum_congr rfl fun c hc => by rw [sphC_ofReal, ← wigR_eq l _ a c ha (abs_le.mpr (mem_Icc.mp hc)),
    wigR_trans l hR c a (abs_le.mpr (mem_Icc.mp hc)) ha]] at h
  unfold harmonic
  rw [sum_congr rfl fun c _ => mul_comm _ _]
  exact_mod_cast h

theorem symSH_zero : symSphericalHarmonics 0 0 = 1 := by
  unfold symSphericalHarmonics symPi
  simp

theorem harmonic_zero (r : Fin 3 → ℝ) : harmonic 0 0 r = 1 := by
  unfold harmonic
  rw [symSH_zero, map_one]

theorem wigR_zero (hR : IsOrthogonal R) : wigR 0 R 0 0 = 1 := by
  have h := harmonic_vecMul 0 hR 0 (by simp) (fun _ => 0)
  simpa [harmonic_zero] using h.symm

/-! ## Clebsch-Gordan coefficients -/

/-- contracting the last index with the matrix -/
theorem symCG_intertwines (l1 l2 l3 : ℕ) (h : IsOrthogonal R) (b1 b2 b3 : ℤ) (h1 : |b1| ≤ l1) (h2 : |b2| ≤ l2)
    (h3 : |b3| ≤ l3) :
    ∑ m1 ∈ Icc (-(l1 : ℤ)) l1, ∑ m2 ∈ Icc (-(l2 : ℤ)) l2,
      symClebschGordan l1 m1 l2 m2 l3 b3 * (wigR l1 R m1 b1 * wigR l2 R m2 b2) =
      rdet R ^ (l1 + l2 + l3) * ∑ m3 ∈ Icc (-(l3 : ℤ)) l3, symClebschGordan l1 b1 l2 b2 l3 m3 * wigR l3 R b3 m3 := by
  have inv : ∀ c3 ∈ Icc (-(l3 : ℤ)) l3, rdet R ^ (l1 + l2 + l3) * (symClebschGordan l1 b1 l2 b2 l3 c3 * wigR l3 R b3 c3) =
      ∑ m1 ∈ Icc (-(l1 : ℤ)) l1, ∑ m2 ∈ Icc (-(l2 : ℤ)) l2, ∑ m3 ∈ Icc (-(l3 : ℤ)) l3,
        symClebschGordan l1 m1 l2 m2 l3 m3 * (wigR l1 R m1 b1 * wigR l2 R m2 b2) * (wigR l3 R m3 c3 * wigR l3 R b3 c3) := by
    intro c3 hc
    rw [← mul_assoc, ← symCG_invariant l1 l2 l3 h b1 b2 c3 h1 h2 (abs_le.mpr (mem_Icc.mp hc)), sum_mul]
    refine sum_congr rfl fun m1 _ => ?_
    rw [sum_mul]
    refine sum_congr rfl fun m2 _ => ?_
    rw [sum_mul]
    exact sum_congr rfl fun m3 _ => by ring
  rw [mul_sum, sum_congr rfl inv]
  conv_rhs => rw [sum_comm]
  refine sum_congr rfl fun m1 _ => ?_
  conv_rhs => rw [sum_comm]
  refine sum_congr rfl fun m2 _ => ?_
  rw [sum_comm]
  simp only [← mul_sum]
  rw [sum_congr rfl fun m3 hm3 => by rw [wigR_orth l3 h m3 b3 (abs_le.mpr (mem_Icc.mp hm3)) h3]]
  simp only [mul_ite, mul_one, mul_zero]
  rw [sum_ite_eq' (Icc (-(l3 : ℤ)) l3) b3, if_pos (mem_Icc.mpr (abs_le.mp h3))]

/-! ## in terms of flat indices -/

variable (cart : Bool)

theorem sum_dMatrix_row {L i : ℕ} (hi : degreeOf i ≤ L) (R : Fin 3 → Fin 3 → ℝ) (f : ℕ → ℝ) (g : ℤ → ℝ)
    (h : ∀ k, degreeOf k = degreeOf i → f k = g (componentOrder cart k)) :
    ∑ k ∈ range ((L + 1) ^ 2), dMatrix cart R i k * f k = ∑ c ∈ Icc (-(degreeOf i : ℤ)) (degreeOf i),
      wigR (degreeOf i) R (componentOrder cart i) c * g c :=
  sum_components cart hi _ (fun c => wigR (degreeOf i) R (componentOrder cart i) c * g c)
    (fun k hk => by unfold dMatrix; rw [if_pos hk.symm, h k hk])
    (fun k hk => by unfold dMatrix; rw [if_neg (fun e => hk e.symm), zero_mul])

theorem sum_dMatrix_col {L j : ℕ} (hj : degreeOf j ≤ L) (R : Fin 3 → Fin 3 → ℝ) (f : ℕ → ℝ) (g : ℤ → ℝ)
    (h : ∀ k, degreeOf k = degreeOf j → f k = g (componentOrder cart k)) :
    ∑ k ∈ range ((L + 1) ^ 2), f k * dMatrix cart R k j = ∑ c ∈ Icc (-(degreeOf j : ℤ)) (degreeOf j),
      g c * wigR (degreeOf j) R c (componentOrder cart j) :=
  sum_components cart hj _ (fun c => g c * wigR (degreeOf j) R c (componentOrder cart j))
    (fun k hk => by unfold dMatrix; rw [if_pos hk, h k hk, hk])
    (fun k hk => by unfold dMatrix; rw [if_neg hk, mul_zero])

theorem dMatrix_mul (hR : IsOrthogonal R) (S : Fin 3 → Fin 3 → ℝ) {L i j : ℕ} (hi : degreeOf i ≤ L) :
    ∑ k ∈ range ((L + 1) ^ 2), dMatrix cart R i k * dMatrix cart S k j = dMatrix cart (matMul R S) i j := by
  by_cases hij : degreeOf i = degreeOf j
  · rw [sum_dMatrix_row cart hi R _ (fun c => wigR (degreeOf i) S c (componentOrder cart j))
      (fun k hk => by unfold dMatrix; rw [if_pos (hk.trans hij), hk])]
    unfold dMatrix
    rw [if_pos hij, wigR_mul _ hR S _ _ (componentOrder_bounds cart i) (by rw [hij]; exact componentOrder_bounds cart j)]
  · rw [sum_dMatrix_row cart hi R _ (fun _ => 0)
      (fun k hk => by unfold dMatrix; rw [if_neg (by rw [hk]; exact hij)])]
    unfold dMatrix
    rw [if_neg hij]
    simp

theorem dMatrix_one (i j : ℕ) : dMatrix cart identity3 i j = if i = j then 1 else 0 := by
  unfold dMatrix
  by_cases hij : degreeOf i = degreeOf j
  · rw [if_pos hij, wigR_one _ _ _ (componentOrder_bounds cart i) (by rw [hij]; exact componentOrder_bounds cart j)]
    by_cases h : i = j
    · rw [h, if_pos rfl, if_pos rfl]
    · rw [if_neg h, if_neg (fun e => h (component_inj cart hij e.symm))]
  · rw [if_neg hij, if_neg (fun h => hij (by rw [h]))]

theorem dMatrix_transpose (hR : IsOrthogonal R) (i j : ℕ) : dMatrix cart (transpose3 R) i j = dMatrix cart R j i := by
  unfold dMatrix
  by_cases hij : degreeOf i = degreeOf j
  · rw [if_pos hij, if_pos hij.symm, ← hij, wigR_trans _ hR _ _ (by rw [hij]; exact componentOrder_bounds cart j)
      (componentOrder_bounds cart i)]
  · rw [if_neg hij, if_neg (fun h => hij h.symm)]

theorem dMatrix_orth (hR : IsOrthogonal R) {L i j : ℕ} (hi : degreeOf i ≤ L) :
    ∑ k ∈ range ((L + 1) ^ 2), dMatrix cart R i k * dMatrix cart R j k = if i = j then 1 else 0 := by
  rw [← dMatrix_one cart]
  have e : identity3 = matMul R (transpose3 R) := by
    funext a b
    exact (hR.transpose a b).symm
  rw [e, ← dMatrix_mul cart hR _ hi]
  exact sum_congr rfl fun k _ => by rw [dMatrix_transpose cart hR]

/-- The coupling, for all orthogonal matrices: improper ones contribute a sign. -/
theorem dMatrix_couples (hR : IsOrthogonal R) {L1 L2 L3 i j k : ℕ} (hi : degreeOf i ≤ L1) (hj : degreeOf j ≤ L2)
    (hk : degreeOf k ≤ L3) :
    ∑ a ∈ range ((L1 + 1) ^ 2), ∑ b ∈ range ((L2 + 1) ^ 2), cgTensor cart a b k * dMatrix cart R a i * dMatrix cart R b j =
      rdet R ^ (degreeOf i + degreeOf j + degreeOf k) *
        ∑ c ∈ range ((L3 + 1) ^ 2), cgTensor cart i j c * dMatrix cart R k c := by
  have h1 : ∑ c ∈ range ((L3 + 1) ^ 2), cgTensor cart i j c * dMatrix cart R k c =
      ∑ m3 ∈ Icc (-(degreeOf k : ℤ)) (degreeOf k),
        wigR (degreeOf k) R (componentOrder cart k) m3 * symClebschGordan (degreeOf i) (componentOrder cart i) (degreeOf j)
          (componentOrder cart j) (degreeOf k) m3 := by
    rw [← sum_dMatrix_row cart hk R (fun c => cgTensor cart i j c) (fun m3 => symClebschGordan (degreeOf i)
      (componentOrder cart i) (degreeOf j) (componentOrder cart j) (degreeOf k) m3)
      (fun c hc => by unfold cgTensor; rw [hc])]
    exact sum_congr rfl fun _ _ => mul_comm _ _
  have h2 : ∑ a ∈ range ((L1 + 1) ^ 2), ∑ b ∈ range ((L2 + 1) ^ 2),
      cgTensor cart a b k * dMatrix cart R a i * dMatrix cart R b j =
      ∑ m1 ∈ Icc (-(degreeOf i : ℤ)) (degreeOf i), ∑ m2 ∈ Icc (-(degreeOf j : ℤ)) (degreeOf j),
        symClebschGordan (degreeOf i) m1 (degreeOf j) m2 (degreeOf k) (componentOrder cart k) *
          (wigR (degreeOf i) R m1 (componentOrder cart i) * wigR (degreeOf j) R m2 (componentOrder cart j)) := by
    refine sum_components cart hi _ (fun m1 => ∑ m2 ∈ Icc (-(degreeOf j : ℤ)) (degreeOf j),
        symClebschGordan (degreeOf i) m1 (degreeOf j) m2 (degreeOf k) (componentOrder cart k) *
          (wigR (degreeOf i) R m1 (componentOrder cart i) * wigR (degreeOf j) R m2 (componentOrder cart j))) ?_ ?_
    · intro a ha
      refine sum_components cart hj _ (fun m2 => symClebschGordan (degreeOf i) (componentOrder cart a) (degreeOf j) m2
        (degreeOf k) (componentOrder cart k) * (wigR (degreeOf i) R (componentOrder cart a) (componentOrder cart i) *
          wigR (degreeOf j) R m2 (componentOrder cart j))) ?_ ?_
      · intro b hb
        unfold cgTensor dMatrix
        rw [if_pos ha, if_pos hb, ha, hb]
        ring
      · intro b hb
        unfold dMatrix
        rw [if_neg hb, mul_zero]
    · intro a ha
      refine sum_eq_zero fun b _ => ?_
      unfold dMatrix
      rw [if_neg ha, mul_zero, zero_mul]
  rw [h1, h2, symCG_intertwines _ _ _ hR _ _ _ (componentOrder_bounds cart i) (componentOrder_bounds cart j)
    (componentOrder_bounds cart k)]
  congr 1
  exact sum_congr rfl fun _ _ => mul_comm _ _

theorem rdet_transpose (R : Fin 3 → Fin 3 → ℝ) : rdet (transpose3 R) = rdet R := by
  unfold rdet transpose3; ring

/-- The Wigner-D matrix of a rotation has the properties used for the layers. -/
theorem dMatrix_isRotation (hR : IsOrthogonal R) (hdet : det3x3 R = 1) :
    Spec.IsRotation (cgTensor cart) (dMatrix cart R) := by
  refine ⟨fun i j h => ?_, ?_, fun i j => ⟨?_, ?_⟩, fun a b n => ?_⟩
  · unfold dMatrix
    exact if_neg h
  · have h0 : degreeOf 0 = 0 := rfl
    have ho : |componentOrder cart 0| ≤ ((0 : ℕ) : ℤ) := componentOrder_bounds cart 0
    have ho : componentOrder cart 0 = 0 := by
      rw [abs_le] at ho; omega
    unfold dMatrix
    rw [if_pos rfl, h0, ho, wigR_zero hR]
  · exact dMatrix_orth cart hR (le_refl _)
  · have := dMatrix_orth cart hR.transpose (L := degreeOf i) (i := i) (j := j) (le_refl _)
    rw [← this]
    exact sum_congr rfl fun k _ => by rw [dMatrix_transpose cart hR, dMatrix_transpose cart hR]
  · have h := dMatrix_couples cart hR.transpose (L1 := degreeOf a) (L2 := degreeOf b) (L3 := degreeOf n) (i := a) (j := b)
      (k := n) (le_refl _) (le_refl _) (le_refl _)
    rw [rdet_transpose, ← det3x3_eq, hdet, one_pow, one_mul] at h
    simp only [dMatrix_transpose cart hR] at h
    rw [← degreeOf_eq_deg, ← degreeOf_eq_deg, ← degreeOf_eq_deg, ← h]
    exact sum_congr rfl fun _ _ => sum_congr rfl fun _ _ => by ring

end

end E3x
