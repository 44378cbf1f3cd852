import Verif.Lemmas.ClebschGordan

/-!
# The real Clebsch-Gordan coefficients couple representations of the rotation group
-/

namespace E3x

noncomputable section

open Finset MvPolynomial
open scoped Nat

/-- orders of three degrees -/
def I3 (l1 l2 l3 : ℕ) : Finset (ℤ × ℤ × ℤ) := Icc (-(l1 : ℤ)) l1 ×ˢ Icc (-(l2 : ℤ)) l2 ×ˢ Icc (-(l3 : ℤ)) l3

theorem mem_I3 {l1 l2 l3 : ℕ} {M : ℤ × ℤ × ℤ} : M ∈ I3 l1 l2 l3 ↔ |M.1| ≤ l1 ∧ |M.2.1| ≤ l2 ∧ |M.2.2| ≤ l3 := by
  simp only [I3, mem_product, mem_Icc, abs_le]

theorem sum_prod3 {α β γ : Type} (A : Finset α) (B : Finset β) (G : Finset γ) (f : α → ℂ) (g : β → ℂ) (h : γ → ℂ) :
    ∑ M ∈ A ×ˢ B ×ˢ G, f M.1 * g M.2.1 * h M.2.2 = (∑ x ∈ A, f x) * (∑ y ∈ B, g y) * ∑ z ∈ G, h z := by
  rw [sum_product, mul_assoc]
  have : ∀ x ∈ A, ∑ y ∈ B ×ˢ G, f (x, y).1 * g (x, y).2.1 * h (x, y).2.2 =
      f x * ((∑ y ∈ B, g y) * ∑ z ∈ G, h z) := by
    intro x _
    rw [sum_product, sum_mul_sum, mul_sum]
    refine sum_congr rfl fun y _ => ?_
    rw [mul_sum]
    exact sum_congr rfl fun z _ => by ring
  rw [sum_congr rfl this, ← sum_mul]

theorem sum_conj_basisU (l : ℕ) (m : ℤ) (hm : |m| ≤ l) (f : ℤ → ℂ) :
    ∑ κ ∈ Icc (-(l : ℤ)) l, starRingEnd ℂ (basisU m κ) * f κ =
      starRingEnd ℂ (realCoeff m).1 * f m + starRingEnd ℂ (realCoeff m).2 * f (-m) := by
  have h := congrArg (starRingEnd ℂ) (sum_basisU l m hm (fun κ => starRingEnd ℂ (f κ)))
  simpa only [map_sum, map_mul, map_add, Complex.conj_conj] using h

/-- The real coefficients in terms of the complex ones. -/
theorem symCGC_eq (l1 l2 l3 : ℕ) (M : ℤ × ℤ × ℤ) (hM : M ∈ I3 l1 l2 l3) :
    symClebschGordanC l1 M.1 l2 M.2.1 l3 M.2.2 = Complex.I ^ ((l1 : ℤ) + l2 - l3) *
      ∑ K ∈ I3 l1 l2 l3, basisU M.1 K.1 * basisU M.2.1 K.2.1 * starRingEnd ℂ (basisU M.2.2 K.2.2) *
        (complexCG l1 l2 l3 K.1 K.2.1 K.2.2 : ℂ) := by
  obtain ⟨m1, m2, m3⟩ := M
  obtain ⟨h1, h2, h3⟩ := mem_I3.mp hM
  dsimp only at h1 h2 h3 ⊢
  unfold symClebschGordanC
  rw [I3, sum_product]
  have e : ∀ k1 ∈ Icc (-(l1 : ℤ)) l1, ∑ K ∈ Icc (-(l2 : ℤ)) l2 ×ˢ Icc (-(l3 : ℤ)) l3,
      basisU m1 (k1, K).1 * basisU m2 (k1, K).2.1 * starRingEnd ℂ (basisU m3 (k1, K).2.2) *
        (complexCG l1 l2 l3 (k1, K).1 (k1, K).2.1 (k1, K).2.2 : ℂ) = basisU m1 k1 *
      ((realCoeff m2).1 * (starRingEnd ℂ (realCoeff m3).1 * (complexCG l1 l2 l3 k1 m2 m3 : ℂ) +
          starRingEnd ℂ (realCoeff m3).2 * (complexCG l1 l2 l3 k1 m2 (-m3) : ℂ)) +
        (realCoeff m2).2 * (starRingEnd ℂ (realCoeff m3).1 * (complexCG l1 l2 l3 k1 (-m2) m3 : ℂ) +
          starRingEnd ℂ (realCoeff m3).2 * (complexCG l1 l2 l3 k1 (-m2) (-m3) : ℂ))) := by
    intro k1 _
    rw [sum_product, ← sum_basisU l2 m2 h2 (fun k2 => starRingEnd ℂ (realCoeff m3).1 * (complexCG l1 l2 l3 k1 k2 m3 : ℂ) +
          starRingEnd ℂ (realCoeff m3).2 * (complexCG l1 l2 l3 k1 k2 (-m3) : ℂ)), mul_sum]
    refine sum_congr rfl fun k2 _ => ?_
    rw [← sum_conj_basisU l3 m3 h3 (fun k3 => (complexCG l1 l2 l3 k1 k2 k3 : ℂ)), mul_sum, mul_sum]
    exact sum_congr rfl fun k3 _ => by ring
  rw [sum_congr rfl e, sum_basisU l1 m1 h1]
  ring

theorem sum_sphC_basisU (l : ℕ) (κ : ℤ) (hκ : |κ| ≤ l) (r : Fin 3 → ℂ) :
    ∑ m ∈ Icc (-(l : ℤ)) l, basisU m κ * sphC l m r = altSign κ * cHarm l (-κ) r := by
  have h : ∀ m ∈ Icc (-(l : ℤ)) l, basisU m κ * sphC l m r =
      ∑ κ' ∈ Icc (-(l : ℤ)) l, basisU m κ * basisU m κ' * cHarm l κ' r := by
    intro m hm
    rw [sphC, aeval_symSH l m (abs_le.mpr (mem_Icc.mp hm)), mul_sum]
    exact sum_congr rfl fun _ _ => by ring
  rw [sum_congr rfl h, sum_comm]
  simp only [← sum_mul]
  rw [sum_congr rfl fun κ' _ => by rw [basisU_mul_basisU l κ κ' hκ]]
  simp only [ite_mul, zero_mul]
  rw [sum_ite_eq' (Icc (-(l : ℤ)) l) (-κ), if_pos]
  rw [mem_Icc]; have := abs_le.mp hκ; omega

theorem sum_sphC_conj_basisU (l : ℕ) (κ : ℤ) (hκ : |κ| ≤ l) (r : Fin 3 → ℂ) :
    ∑ m ∈ Icc (-(l : ℤ)) l, starRingEnd ℂ (basisU m κ) * sphC l m r = cHarm l κ r := by
  have h := sum_sphC_basisU l (-κ) (by rwa [abs_neg]) r
  rw [neg_neg, altSign_neg] at h
  have h2 : ∑ m ∈ Icc (-(l : ℤ)) l, starRingEnd ℂ (basisU m κ) * sphC l m r =
      altSign κ * ∑ m ∈ Icc (-(l : ℤ)) l, basisU m (-κ) * sphC l m r := by
    rw [mul_sum]
    exact sum_congr rfl fun m _ => by rw [conj_basisU]; ring
  rw [h2, h, ← mul_assoc, altSign_mul_self, one_mul]

/-- the trilinear form with the Clebsch-Gordan coefficients -/
def triple (l1 l2 l3 : ℕ) (n1 n2 n3 : Fin 3 → ℂ) : ℂ :=
  ∑ M ∈ I3 l1 l2 l3, symClebschGordanC l1 M.1 l2 M.2.1 l3 M.2.2 * (sphC l1 M.1 n1 * sphC l2 M.2.1 n2 * sphC l3 M.2.2 n3)

theorem triple_eq (l1 l2 l3 : ℕ) (n1 n2 n3 : Fin 3 → ℂ) : triple l1 l2 l3 n1 n2 n3 =
    Complex.I ^ ((l1 : ℤ) + l2 - l3) * ∑ K ∈ I3 l1 l2 l3, (complexCG l1 l2 l3 K.1 K.2.1 K.2.2 : ℂ) *
      ((altSign K.1 * cHarm l1 (-K.1) n1) * (altSign K.2.1 * cHarm l2 (-K.2.1) n2) * cHarm l3 K.2.2 n3) := by
  unfold triple
  rw [sum_congr rfl fun M hM => by rw [symCGC_eq l1 l2 l3 M hM, mul_assoc, sum_mul]]
  rw [← mul_sum, sum_comm]
  congr 1
  refine sum_congr rfl fun K hK => ?_
  obtain ⟨h1, h2, h3⟩ := mem_I3.mp hK
  rw [← sum_sphC_basisU l1 K.1 h1, ← sum_sphC_basisU l2 K.2.1 h2, ← sum_sphC_conj_basisU l3 K.2.2 h3, ← sum_prod3,
    mul_sum]
  exact sum_congr rfl fun M _ => by ring

/-- the constant in front of the brackets -/
def tripleConst (l1 l2 l3 a b c : ℕ) : ℂ := Complex.I ^ ((l1 : ℤ) + l2 - l3) * (cgNorm l1 l2 l3 a b c : ℂ) *
  ((kConst l1 * l1 !) * (kConst l2 * l2 !) * (kConst l3 * l3 !)) * ((-1) ^ (l1 + l2) / ((a ! : ℂ) * b ! * c !))

theorem triple_algebra (s1 s2 s3 N S g1 g2 K1 K2 K3 w1 w2 w3 : ℂ) (h1 : s1 ≠ 0) (h2 : s2 ≠ 0) (h3 : s3 ≠ 0) :
    N * (s1 * s2 * s3) * S * (g1 * (K1 / s1 * w1) * (g2 * (K2 / s2 * w2)) * (K3 / s3 * w3)) =
      N * (K1 * K2 * K3) * (S * (g1 * g2) * (w1 * w2 * w3)) := by
  field_simp

theorem triple_term (l1 l2 l3 a b c : ℕ) (h : Tri l1 l2 l3 a b c) (u1 v1 u2 v2 u3 v3 : ℂ) (k1 k2 k3 : ℤ)
    (h1 : |k1| ≤ l1) (h2 : |k2| ≤ l2) (h3 : |k3| ≤ l3) : (complexCG l1 l2 l3 k1 k2 k3 : ℂ) *
      ((altSign k1 * cHarm l1 (-k1) (nullVec u1 v1)) * (altSign k2 * cHarm l2 (-k2) (nullVec u2 v2)) *
        cHarm l3 k3 (nullVec u3 v3)) =
      (cgNorm l1 l2 l3 a b c : ℂ) * ((kConst l1 * l1 !) * (kConst l2 * l2 !) * (kConst l3 * l3 !)) *
      (if k3 = k1 + k2 then
        (∑ i ∈ Icc (cgLo l1 l2 l3 k1 k2) (cgHi l1 l2 l3 k1 k2), (cgTerm l1 l2 l3 k1 k2 i : ℂ)) *
          (altSign k1 * altSign k2) *
          ((u1 ^ (l1 - k1).toNat * v1 ^ (l1 + k1).toNat) * (u2 ^ (l2 - k2).toNat * v2 ^ (l2 + k2).toNat) *
            (u3 ^ (l3 + k3).toNat * v3 ^ (l3 - k3).toNat)) else 0) := by
  split_ifs with hk
  · rw [complexCG_eq l1 l2 l3 a b c h k1 k2 k3 h1 h2 h3 hk, cHarm_null l1 (-k1) (by rwa [abs_neg]),
      cHarm_null l2 (-k2) (by rwa [abs_neg]), cHarm_null l3 k3 h3]
    simp only [Int.natAbs_neg, sub_neg_eq_add, ← sub_eq_add_neg]
    have s1 := sqrtFac_ne l1 k1.natAbs
    have s2 := sqrtFac_ne l2 k2.natAbs
    have s3 := sqrtFac_ne l3 k3.natAbs
    push_cast
    exact triple_algebra _ _ _ _ _ _ _ _ _ _ _ _ _ s1 s2 s3
  · rw [complexCG_of_ne l1 l2 l3 k1 k2 k3 hk, Complex.ofReal_zero, zero_mul, mul_zero]

theorem triple_final (A N K s x y z f g h : ℂ) : A * (N * K * (s * (x / f * (y / g) * (z / h)))) =
    A * N * K * (s / (f * g * h)) * (x * y * z) := by
  simp only [div_eq_mul_inv, mul_inv]
  ring

/-- On the null cone the trilinear form is a product of brackets. -/
theorem triple_null (l1 l2 l3 a b c : ℕ) (h : Tri l1 l2 l3 a b c) (u1 v1 u2 v2 u3 v3 : ℂ) :
    triple l1 l2 l3 (nullVec u1 v1) (nullVec u2 v2) (nullVec u3 v3) = tripleConst l1 l2 l3 a b c *
      ((v1 * u2 - u1 * v2) ^ a * (v1 * u3 - u1 * v3) ^ b * (u2 * v3 - v2 * u3) ^ c) := by
  rw [triple_eq]
  rw [sum_congr rfl fun K hK => triple_term l1 l2 l3 a b c h u1 v1 u2 v2 u3 v3 K.1 K.2.1 K.2.2
    (mem_I3.mp hK).1 (mem_I3.mp hK).2.1 (mem_I3.mp hK).2.2]
  rw [← mul_sum, I3, sum_product]
  have e := cg_reindex l1 l2 l3 a b c h u1 v1 u2 v2 u3 v3
  simp only [sum_product]
  rw [e, tripleConst]
  exact triple_final _ _ _ _ _ _ _ _ _ _

/-! ## invariance -/

/-- determinant of three vectors -/
def det3 (x y z : Fin 3 → ℂ) : ℂ :=
  x 0 * (y 1 * z 2 - y 2 * z 1) + x 1 * (y 2 * z 0 - y 0 * z 2) + x 2 * (y 0 * z 1 - y 1 * z 0)

/-- determinant of a matrix -/
def cdet (R : Fin 3 → Fin 3 → ℂ) : ℂ := det3 (R 0) (R 1) (R 2)

theorem det3_cmulVec (R : Fin 3 → Fin 3 → ℂ) (x y z : Fin 3 → ℂ) :
    det3 (cmulVec R x) (cmulVec R y) (cmulVec R z) = cdet R * det3 x y z := by
  simp only [det3, cdet, cmulVec, Fin.sum_univ_three]
  ring

theorem cdot_null_null (u v u' v' : ℂ) : cdot (nullVec u v) (nullVec u' v') = -(u * v' - v * u') ^ 2 / 2 := by
  rw [cdot_null, nullVec_p, nullVec_q, nullVec_z]
  ring

theorem det3_null (u1 v1 u2 v2 u3 v3 : ℂ) : det3 (nullVec u1 v1) (nullVec u2 v2) (nullVec u3 v3) =
    Complex.I / 2 * ((u1 * v2 - v1 * u2) * (u1 * v3 - v1 * u3) * (u2 * v3 - v2 * u3)) := by
  simp only [det3, nullVec, Matrix.cons_val_zero, Matrix.cons_val_one, Matrix.cons_val]
  ring

theorem pow_parity (x y z x' y' z' δ : ℂ) (a b c : ℕ) (hx : x' ^ 2 = x ^ 2) (hy : y' ^ 2 = y ^ 2) (hz : z' ^ 2 = z ^ 2)
    (hxyz : x' * y' * z' = δ * (x * y * z)) (hδ : δ ^ 2 = 1) (hab : a % 2 = b % 2) (hac : a % 2 = c % 2) :
    x' ^ a * y' ^ b * z' ^ c = δ ^ a * (x ^ a * y ^ b * z ^ c) := by
  rcases Nat.mod_two_eq_zero_or_one a with ha | ha
  · obtain ⟨a', rfl⟩ : ∃ a', a = 2 * a' := ⟨a / 2, by omega⟩
    obtain ⟨b', rfl⟩ : ∃ b', b = 2 * b' := ⟨b / 2, by omega⟩
    obtain ⟨c', rfl⟩ : ∃ c', c = 2 * c' := ⟨c / 2, by omega⟩
    simp only [pow_mul, hx, hy, hz, hδ, one_pow, one_mul]
  · obtain ⟨a', rfl⟩ : ∃ a', a = 2 * a' + 1 := ⟨a / 2, by omega⟩
    obtain ⟨b', rfl⟩ : ∃ b', b = 2 * b' + 1 := ⟨b / 2, by omega⟩
    obtain ⟨c', rfl⟩ : ∃ c', c = 2 * c' + 1 := ⟨c / 2, by omega⟩
    simp only [pow_succ _ (2 * _), pow_mul, hx, hy, hz, hδ, one_pow, one_mul]
    linear_combination ((x ^ 2) ^ a' * (y ^ 2) ^ b' * (z ^ 2) ^ c') * hxyz

theorem cdet_sq {R : Fin 3 → Fin 3 → ℂ} (h : COrth R) : cdet R ^ 2 = 1 := by
  have h1 : (Matrix.of R).transpose * Matrix.of R = 1 := by
    ext i j
    rw [Matrix.mul_apply, Matrix.one_apply, ← h i j]; rfl
  have h2 := congrArg Matrix.det h1
  rw [Matrix.det_mul, Matrix.det_transpose, Matrix.det_one, Matrix.det_fin_three] at h2
  simp only [Matrix.of_apply] at h2
  rw [← h2, cdet, det3]
  ring

theorem triple_invariant (l1 l2 l3 : ℕ) {R : Fin 3 → Fin 3 → ℂ} (h : COrth R) (u1 v1 u2 v2 u3 v3 : ℂ) :
    triple l1 l2 l3 (cmulVec R (nullVec u1 v1)) (cmulVec R (nullVec u2 v2)) (cmulVec R (nullVec u3 v3)) =
      cdet R ^ (l1 + l2 + l3) * triple l1 l2 l3 (nullVec u1 v1) (nullVec u2 v2) (nullVec u3 v3) := by
  by_cases ht : l3 ≤ l1 + l2 ∧ l2 ≤ l1 + l3 ∧ l1 ≤ l2 + l3
  · obtain ⟨a, b, c, ht⟩ := exists_tri l1 l2 l3 ht
    obtain ⟨u1', v1', e1⟩ := null_orth h u1 v1
    obtain ⟨u2', v2', e2⟩ := null_orth h u2 v2
    obtain ⟨u3', v3', e3⟩ := null_orth h u3 v3
    have d12 := cdot_orth h (nullVec u1 v1) (nullVec u2 v2)
    have d13 := cdot_orth h (nullVec u1 v1) (nullVec u3 v3)
    have d23 := cdot_orth h (nullVec u2 v2) (nullVec u3 v3)
    have dd := det3_cmulVec R (nullVec u1 v1) (nullVec u2 v2) (nullVec u3 v3)
    rw [e1, e2, cdot_null_null, cdot_null_null] at d12
    rw [e1, e3, cdot_null_null, cdot_null_null] at d13
    rw [e2, e3, cdot_null_null, cdot_null_null] at d23
    rw [e1, e2, e3, det3_null, det3_null] at dd
    rw [e1, e2, e3, triple_null l1 l2 l3 a b c ht, triple_null l1 l2 l3 a b c ht]
    have hI : Complex.I / 2 ≠ 0 := by simp
    have hd : cdet R ^ (l1 + l2 + l3) = cdet R ^ a := by
      obtain ⟨t1, t2, t3⟩ := ht
      rw [show l1 + l2 + l3 = a + 2 * l3 by omega, pow_add, pow_mul, cdet_sq h, one_pow, mul_one]
    rw [hd, pow_parity (v1 * u2 - u1 * v2) (v1 * u3 - u1 * v3) (u2 * v3 - v2 * u3) _ _ _ (cdet R) a b c
      (by linear_combination -2 * d12) (by linear_combination -2 * d13) (by linear_combination -2 * d23) ?_ (cdet_sq h)
      (by have := ht.h1; omega) (by have := ht.h2; omega)]
    · ring
    · have := mul_left_cancel₀ hI (dd.trans (by ring :
        cdet R * (Complex.I / 2 * ((u1 * v2 - v1 * u2) * (u1 * v3 - v1 * u3) * (u2 * v3 - v2 * u3))) =
        Complex.I / 2 * (cdet R * ((u1 * v2 - v1 * u2) * (u1 * v3 - v1 * u3) * (u2 * v3 - v2 * u3)))))
      linear_combination this
  · have h0 : ∀ n1 n2 n3, triple l1 l2 l3 n1 n2 n3 = 0 := by
      intro n1 n2 n3
      rw [triple_eq]
      rw [sum_eq_zero fun K _ => by rw [complexCG_of_not_tri l1 l2 l3 _ _ _ ht]; simp, mul_zero]
    rw [h0, h0, mul_zero]

/-- independence in three variables -/
theorem null_independent3 (l1 l2 l3 : ℕ) (d : ℤ × ℤ × ℤ → ℂ)
    (h : ∀ u1 v1 u2 v2 u3 v3, ∑ M ∈ I3 l1 l2 l3, d M * (sphC l1 M.1 (nullVec u1 v1) * sphC l2 M.2.1 (nullVec u2 v2) *
      sphC l3 M.2.2 (nullVec u3 v3)) = 0) : ∀ M ∈ I3 l1 l2 l3, d M = 0 := by
  rintro ⟨m1, m2, m3⟩ hM
  obtain ⟨h1, h2, h3⟩ := mem_I3.mp hM
  refine null_independent l3 (fun m3 => d (m1, m2, m3)) (fun u3 v3 => ?_) m3 (mem_Icc.mpr (abs_le.mp h3))
  refine null_independent l2 (fun m2 => ∑ m3 ∈ Icc (-(l3 : ℤ)) l3, d (m1, m2, m3) *
    aeval (nullVec u3 v3) (symSphericalHarmonics l3 m3)) (fun u2 v2 => ?_) m2 (mem_Icc.mpr (abs_le.mp h2))
  refine null_independent l1 (fun m1 => ∑ m2 ∈ Icc (-(l2 : ℤ)) l2, (∑ m3 ∈ Icc (-(l3 : ℤ)) l3, d (m1, m2, m3) *
    aeval (nullVec u3 v3) (symSphericalHarmonics l3 m3)) * aeval (nullVec u2 v2) (symSphericalHarmonics l2 m2))
    (fun u1 v1 => ?_) m1 (mem_Icc.mpr (abs_le.mp h1))
  rw [← h u1 v1 u2 v2 u3 v3, I3, sum_product]
  refine sum_congr rfl fun m1 _ => ?_
  rw [sum_product, sum_mul]
  refine sum_congr rfl fun m2 _ => ?_
  rw [sum_mul, sum_mul]
  exact sum_congr rfl fun m3 _ => by simp only [sphC]; ring

/-- The coefficients are an invariant tensor (up to the sign of improper rotations). -/
theorem symCGC_invariant (l1 l2 l3 : ℕ) {R : Fin 3 → Fin 3 → ℂ} (h : COrth R) (B : ℤ × ℤ × ℤ) (hB : B ∈ I3 l1 l2 l3) :
    ∑ M ∈ I3 l1 l2 l3, symClebschGordanC l1 M.1 l2 M.2.1 l3 M.2.2 *
      (wigC l1 R M.1 B.1 * wigC l2 R M.2.1 B.2.1 * wigC l3 R M.2.2 B.2.2) =
      cdet R ^ (l1 + l2 + l3) * symClebschGordanC l1 B.1 l2 B.2.1 l3 B.2.2 := by
  refine sub_eq_zero.mp (null_independent3 l1 l2 l3 (fun B => ∑ M ∈ I3 l1 l2 l3, symClebschGordanC l1 M.1 l2 M.2.1 l3 M.2.2 *
      (wigC l1 R M.1 B.1 * wigC l2 R M.2.1 B.2.1 * wigC l3 R M.2.2 B.2.2) -
      cdet R ^ (l1 + l2 + l3) * symClebschGordanC l1 B.1 l2 B.2.1 l3 B.2.2) (fun u1 v1 u2 v2 u3 v3 => ?_) B hB)
  simp only [sub_mul, sum_sub_distrib]
  rw [sub_eq_zero]
  have hi := triple_invariant l1 l2 l3 h u1 v1 u2 v2 u3 v3
  have e1 : ∑ B ∈ I3 l1 l2 l3, cdet R ^ (l1 + l2 + l3) * symClebschGordanC l1 B.1 l2 B.2.1 l3 B.2.2 *
      (sphC l1 B.1 (nullVec u1 v1) * sphC l2 B.2.1 (nullVec u2 v2) * sphC l3 B.2.2 (nullVec u3 v3)) =
      cdet R ^ (l1 + l2 + l3) * triple l1 l2 l3 (nullVec u1 v1) (nullVec u2 v2) (nullVec u3 v3) := by
    rw [triple, mul_sum]
    exact sum_congr rfl fun _ _ => by ring
  rw [e1, ← hi, triple]
  simp only [sum_mul]
  rw [sum_comm]
  refine sum_congr rfl fun M hM => ?_
  obtain ⟨h1, h2, h3⟩ := mem_I3.mp hM
  rw [sphC_mulVec_null l1 R M.1 h1, sphC_mulVec_null l2 R M.2.1 h2, sphC_mulVec_null l3 R M.2.2 h3, ← sum_prod3, mul_sum]
  exact sum_congr rfl fun _ _ => by ring

/-! ## the coefficients are real -/

theorem neg_one_zpow_sub (a i : ℤ) : (-1 : ℝ) ^ (a - i) = (-1) ^ a * (-1) ^ i := by
  rw [zpow_sub₀ (by norm_num), div_eq_mul_inv, ← inv_zpow]
  norm_num

theorem cgTerm_neg (l1 l2 l3 : ℕ) (k1 k2 i : ℤ) :
    cgTerm l1 l2 l3 (-k1) (-k2) ((l1 : ℤ) + l2 - l3 - i) = (-1) ^ ((l1 : ℤ) + l2 - l3) * cgTerm l1 l2 l3 k1 k2 i := by
  unfold cgTerm
  rw [neg_one_zpow_sub]
  rw [show (l1 : ℤ) + l2 - l3 - i + l3 - l1 - -k2 = l2 + k2 - i by ring,
    show (l2 : ℤ) + -k2 - (l1 + l2 - l3 - i) = i + l3 - l1 - k2 by ring,
    show (l1 : ℤ) - (l1 + l2 - l3 - i) - -k1 = i + l3 - l2 + k1 by ring,
    show (l1 : ℤ) + l2 - l3 - i + l3 - l2 + -k1 = l1 - i - k1 by ring,
    show (l1 : ℤ) + l2 - l3 - (l1 + l2 - l3 - i) = i by ring]
  rw [mul_div_assoc]
  congr 2
  ring

theorem complexCG_neg (l1 l2 l3 : ℕ) (k1 k2 k3 : ℤ) (h1 : |k1| ≤ l1) (h2 : |k2| ≤ l2) (h3 : |k3| ≤ l3) :
    complexCG l1 l2 l3 (-k1) (-k2) (-k3) = (-1) ^ ((l1 : ℤ) + l2 - l3) * complexCG l1 l2 l3 k1 k2 k3 := by
  by_cases ht : l3 ≤ l1 + l2 ∧ l2 ≤ l1 + l3 ∧ l1 ≤ l2 + l3
  · by_cases hk : k3 = k1 + k2
    · obtain ⟨a, b, c, ht⟩ := exists_tri l1 l2 l3 ht
      rw [complexCG_eq l1 l2 l3 a b c ht k1 k2 k3 h1 h2 h3 hk,
        complexCG_eq l1 l2 l3 a b c ht (-k1) (-k2) (-k3) (by rwa [abs_neg]) (by rwa [abs_neg]) (by rwa [abs_neg]) (by omega)]
      simp only [Int.natAbs_neg]
      have : ∑ i ∈ Icc (cgLo l1 l2 l3 (-k1) (-k2)) (cgHi l1 l2 l3 (-k1) (-k2)), cgTerm l1 l2 l3 (-k1) (-k2) i =
          (-1) ^ ((l1 : ℤ) + l2 - l3) * ∑ i ∈ Icc (cgLo l1 l2 l3 k1 k2) (cgHi l1 l2 l3 k1 k2), cgTerm l1 l2 l3 k1 k2 i := by
        rw [mul_sum]
        refine sum_bij' (fun i _ => (l1 : ℤ) + l2 - l3 - i) (fun i _ => (l1 : ℤ) + l2 - l3 - i) ?_ ?_ ?_ ?_ ?_
        · intro i hi
          rw [mem_Icc] at hi ⊢
          unfold cgLo cgHi at *
          omega
        · intro i hi
          rw [mem_Icc] at hi ⊢
          unfold cgLo cgHi at *
          omega
        · intro i _; ring
        · intro i _; ring
        · intro i _
          rw [← cgTerm_neg]
          congr 1
          ring
      rw [this]
      ring
    · rw [complexCG_of_ne l1 l2 l3 k1 k2 k3 hk, complexCG_of_ne l1 l2 l3 (-k1) (-k2) (-k3) (by omega), mul_zero]
  · rw [complexCG_of_not_tri l1 l2 l3 _ _ _ ht, complexCG_of_not_tri l1 l2 l3 _ _ _ ht, mul_zero]

theorem sum_I3_neg (l1 l2 l3 : ℕ) (f : ℤ × ℤ × ℤ → ℂ) :
    ∑ K ∈ I3 l1 l2 l3, f K = ∑ K ∈ I3 l1 l2 l3, f (-K.1, -K.2.1, -K.2.2) := by
  refine sum_bij' (fun K _ => (-K.1, -K.2.1, -K.2.2)) (fun K _ => (-K.1, -K.2.1, -K.2.2)) ?_ ?_ ?_ ?_ ?_
  · intro K hK
    rw [mem_I3] at hK ⊢
    simpa only [abs_neg] using hK
  · intro K hK
    rw [mem_I3] at hK ⊢
    simpa only [abs_neg] using hK
  · intro K _; simp
  · intro K _; simp
  · intro K _; simp

theorem altSign_add (i j : ℤ) : altSign (i + j) = altSign i * altSign j := by
  unfold altSign
  rw [← pow_add]
  apply neg_one_pow_congr
  rw [Nat.even_add, Int.natAbs_even, Int.natAbs_even, Int.natAbs_even, Int.even_add]

/-- The coefficients are real. -/
theorem symCGC_real (l1 l2 l3 : ℕ) (M : ℤ × ℤ × ℤ) (hM : M ∈ I3 l1 l2 l3) :
    starRingEnd ℂ (symClebschGordanC l1 M.1 l2 M.2.1 l3 M.2.2) = symClebschGordanC l1 M.1 l2 M.2.1 l3 M.2.2 := by
  rw [symCGC_eq l1 l2 l3 M hM, map_mul, map_sum, sum_I3_neg, mul_sum, mul_sum]
  refine sum_congr rfl fun K hK => ?_
  obtain ⟨h1, h2, h3⟩ := mem_I3.mp hK
  simp only [map_mul, Complex.conj_conj, Complex.conj_ofReal]
  rw [conj_basisU, conj_basisU, complexCG_neg l1 l2 l3 _ _ _ h1 h2 h3]
  have e3 : basisU M.2.2 (-K.2.2) = altSign K.2.2 * starRingEnd ℂ (basisU M.2.2 K.2.2) := by
    rw [conj_basisU, ← mul_assoc, altSign_mul_self, one_mul]
  have hI : starRingEnd ℂ (Complex.I ^ ((l1 : ℤ) + l2 - l3)) * (((-1 : ℝ) ^ ((l1 : ℤ) + l2 - l3) : ℝ) : ℂ) =
      Complex.I ^ ((l1 : ℤ) + l2 - l3) := by
    rw [map_zpow₀, Complex.conj_I]
    push_cast
    rw [← mul_zpow]
    congr 1
    ring
  rw [e3, neg_neg, neg_neg, altSign_neg, altSign_neg]
  by_cases hk : K.2.2 = K.1 + K.2.1
  · rw [hk, altSign_add]
    have g1 := altSign_mul_self K.1
    have g2 := altSign_mul_self K.2.1
    have : altSign K.1 * basisU M.1 K.1 * (altSign K.2.1 * basisU M.2.1 K.2.1) *
        (altSign K.1 * altSign K.2.1 * starRingEnd ℂ (basisU M.2.2 (K.1 + K.2.1))) =
        basisU M.1 K.1 * basisU M.2.1 K.2.1 * starRingEnd ℂ (basisU M.2.2 (K.1 + K.2.1)) := by
      linear_combination (basisU M.1 K.1 * basisU M.2.1 K.2.1 * starRingEnd ℂ (basisU M.2.2 (K.1 + K.2.1))) *
        (altSign K.2.1 * altSign K.2.1 * g1 + g2)
    rw [this, Complex.ofReal_mul]
    linear_combination (basisU M.1 K.1 * basisU M.2.1 K.2.1 * starRingEnd ℂ (basisU M.2.2 (K.1 + K.2.1)) *
      (complexCG l1 l2 l3 K.1 K.2.1 (K.1 + K.2.1) : ℂ)) * hI
  · rw [complexCG_of_ne l1 l2 l3 _ _ _ hk]
    simp

theorem symCGC_ofReal (l1 l2 l3 : ℕ) (M : ℤ × ℤ × ℤ) (hM : M ∈ I3 l1 l2 l3) :
    symClebschGordanC l1 M.1 l2 M.2.1 l3 M.2.2 = (symClebschGordan l1 M.1 l2 M.2.1 l3 M.2.2 : ℂ) :=
  (Complex.conj_eq_iff_re.mp (symCGC_real l1 l2 l3 M hM)).symm

/-! ## selection rules -/

theorem symCG_of_not_tri (l1 l2 l3 : ℕ) (m1 m2 m3 : ℤ) (h : ¬ (l3 ≤ l1 + l2 ∧ l2 ≤ l1 + l3 ∧ l1 ≤ l2 + l3)) :
    symClebschGordan l1 m1 l2 m2 l3 m3 = 0 := by
  unfold symClebschGordan symClebschGordanC
  simp only [complexCG_of_not_tri l1 l2 l3 _ _ _ h]
  simp

theorem symCG_of_ne (l1 l2 l3 : ℕ) (m1 m2 m3 : ℤ)
    (h : ¬ (m3 = m1 + m2 ∨ m3 = m1 - m2 ∨ m3 = m2 - m1 ∨ m3 = -m1 - m2)) :
    symClebschGordan l1 m1 l2 m2 l3 m3 = 0 := by
  unfold symClebschGordan symClebschGordanC
  simp only [not_or] at h
  obtain ⟨a, b, c, d⟩ := h
  dsimp only
  rw [complexCG_of_ne l1 l2 l3 m1 m2 m3 (by omega), complexCG_of_ne l1 l2 l3 m1 m2 (-m3) (by omega),
    complexCG_of_ne l1 l2 l3 m1 (-m2) m3 (by omega), complexCG_of_ne l1 l2 l3 m1 (-m2) (-m3) (by omega),
    complexCG_of_ne l1 l2 l3 (-m1) m2 m3 (by omega), complexCG_of_ne l1 l2 l3 (-m1) m2 (-m3) (by omega),
    complexCG_of_ne l1 l2 l3 (-m1) (-m2) m3 (by omega), complexCG_of_ne l1 l2 l3 (-m1) (-m2) (-m3) (by omega)]
  simp

/-! ## intertwining -/

/-- a real orthogonal matrix -/
def ROrth (R : Fin 3 → Fin 3 → ℝ) : Prop := ∀ i j, ∑ k, R k i * R k j = if i = j then 1 else 0

theorem ROrth.toC {R : Fin 3 → Fin 3 → ℝ} (h : ROrth R) : COrth (toC R) := by
  intro i j
  have := congrArg (fun x : ℝ => (x : ℂ)) (h i j)
  simp only [Complex.ofReal_sum, Complex.ofReal_mul] at this
  simp only [E3x.toC]
  rw [this]
  split_ifs <;> simp

/-- determinant of a real matrix -/
def rdet (R : Fin 3 → Fin 3 → ℝ) : ℝ := R 0 0 * (R 1 1 * R 2 2 - R 1 2 * R 2 1) + R 0 1 * (R 1 2 * R 2 0 - R 1 0 * R 2 2) +
  R 0 2 * (R 1 0 * R 2 1 - R 1 1 * R 2 0)

theorem cdet_toC (R : Fin 3 → Fin 3 → ℝ) : cdet (toC R) = (rdet R : ℂ) := by
  simp only [cdet, det3, rdet, toC]
  push_cast
  ring

theorem symCG_invariant (l1 l2 l3 : ℕ) {R : Fin 3 → Fin 3 → ℝ} (h : ROrth R) (b1 b2 b3 : ℤ) (h1 : |b1| ≤ l1)
    (h2 : |b2| ≤ l2) (h3 : |b3| ≤ l3) :
    ∑ m1 ∈ Icc (-(l1 : ℤ)) l1, ∑ m2 ∈ Icc (-(l2 : ℤ)) l2, ∑ m3 ∈ Icc (-(l3 : ℤ)) l3, symClebschGordan l1 m1 l2 m2 l3 m3 *
      (wigR l1 R m1 b1 * wigR l2 R m2 b2 * wigR l3 R m3 b3) =
      rdet R ^ (l1 + l2 + l3) * symClebschGordan l1 b1 l2 b2 l3 b3 := by
  have := symCGC_invariant l1 l2 l3 h.toC (b1, b2, b3) (mem_I3.mpr ⟨h1, h2, h3⟩)
  dsimp only at this
  rw [symCGC_ofReal l1 l2 l3 (b1, b2, b3) (mem_I3.mpr ⟨h1, h2, h3⟩), cdet_toC] at this
  rw [sum_congr rfl fun M hM => by rw [symCGC_ofReal l1 l2 l3 M hM, ← wigR_eq l1 R _ _ (mem_I3.mp hM).1 h1,
    ← wigR_eq l2 R _ _ (mem_I3.mp hM).2.1 h2, ← wigR_eq l3 R _ _ (mem_I3.mp hM).2.2 h3]] at this
  rw [I3, sum_product] at this
  simp only [sum_product] at this
  exact_mod_cast this

end

end E3x
