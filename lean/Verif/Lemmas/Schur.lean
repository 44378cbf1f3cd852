import Verif.Lemmas.SphereIntegral
import Verif.Lemmas.SphericalHarmonics

/-!
# Schur's lemma for the irreps of the library
-/

namespace E3x

noncomputable section

open Finset Spec MvPolynomial

/-- The rotation about the z-axis. -/
def zRot (t : ℝ) : Fin 3 → Fin 3 → ℝ := ![![Real.cos t, Real.sin t, 0], ![-Real.sin t, Real.cos t, 0], ![0, 0, 1]]

/-- A rotation that takes the z-axis to the point of the sphere. -/
def sphRot (θ φ : ℝ) : Fin 3 → Fin 3 → ℝ :=
  ![![Real.cos θ * Real.cos φ, Real.cos θ * Real.sin φ, -Real.sin θ], ![-Real.sin φ, Real.cos φ, 0],
    ![Real.sin θ * Real.cos φ, Real.sin θ * Real.sin φ, Real.cos θ]]

theorem zRot_orth (t : ℝ) : IsOrthogonal (zRot t) := by
  have h := Real.sin_sq_add_cos_sq t
  intro i j
  fin_cases i <;> fin_cases j <;> simp [Fin.sum_univ_three, zRot] <;> nlinarith

theorem zRot_det (t : ℝ) : det3x3 (zRot t) = 1 := by
  have h := Real.sin_sq_add_cos_sq t
  simp [det3x3, zRot]
  nlinarith

theorem sphRot_orth (θ φ : ℝ) : IsOrthogonal (sphRot θ φ) := by
  have h := Real.sin_sq_add_cos_sq θ
  have h' := Real.sin_sq_add_cos_sq φ
  have e1 : Real.sin θ ^ 2 = 1 - Real.cos θ ^ 2 := by linarith
  have e2 : Real.sin φ ^ 2 = 1 - Real.cos φ ^ 2 := by linarith
  intro i j
  fin_cases i <;> fin_cases j <;> simp [Fin.sum_univ_three, sphRot] <;> ring_nf <;> (try rw [e1]) <;> (try rw [e2]) <;> ring

theorem sphRot_det (θ φ : ℝ) : det3x3 (sphRot θ φ) = 1 := by
  have h := Real.sin_sq_add_cos_sq θ
  have h' := Real.sin_sq_add_cos_sq φ
  have e1 : Real.sin θ ^ 2 = 1 - Real.cos θ ^ 2 := by linarith
  have e2 : Real.sin φ ^ 2 = 1 - Real.cos φ ^ 2 := by linarith
  simp [det3x3, sphRot]
  ring_nf
  rw [e1, e2]
  ring

theorem pole_zRot (t : ℝ) : vecMul ![0, 0, 1] (zRot t) = ![0, 0, 1] := by
  funext i
  fin_cases i <;> simp [vecMul, zRot, Fin.sum_univ_three]

theorem pole_sphRot (θ φ : ℝ) : vecMul ![0, 0, 1] (sphRot θ φ) = spherePoint θ φ := by
  funext i
  fin_cases i <;> simp [vecMul, sphRot, spherePoint, Fin.sum_univ_three]

theorem exp_pi_div (m : ℕ) (hm : m ≠ 0) :
    (Complex.exp ((Real.pi / m : ℝ) * Complex.I)) ^ m = -1 := by
  rw [← Complex.exp_nat_mul]
  push_cast
  rw [show (m : ℂ) * ((Real.pi : ℂ) / m * Complex.I) = Real.pi * Complex.I by
    have : (m : ℂ) ≠ 0 := by exact_mod_cast hm
    field_simp]
  exact Complex.exp_pi_mul_I

theorem exp_neg_pi_div (m : ℕ) (hm : m ≠ 0) :
    (Complex.exp (-((Real.pi / m : ℝ) * Complex.I))) ^ m = -1 := by
  rw [Complex.exp_neg, inv_pow, exp_pi_div m hm]
  norm_num

/-- Components of order `m` change sign under the rotation about the z-axis by `π / |m|`. -/
theorem harmonic_zRot (l : ℕ) (m : ℤ) (hm : |m| ≤ l) (h0 : m ≠ 0) (r : Fin 3 → ℝ) :
    harmonic l m (vecMul r (zRot (Real.pi / m.natAbs))) = -harmonic l m r := by
  have hn : m.natAbs ≠ 0 := by omega
  have hl := natAbs_le_of_abs hm
  have hp := exp_pi_div _ hn
  have hq := exp_neg_pi_div _ hn
  generalize (Real.pi / m.natAbs : ℝ) = t at hp hq ⊢
  have e0 : vecMul r (zRot t) 0 = r 0 * Real.cos t - r 1 * Real.sin t := by
    simp [vecMul, zRot, Fin.sum_univ_three]; ring
  have e1 : vecMul r (zRot t) 1 = r 0 * Real.sin t + r 1 * Real.cos t := by
    simp [vecMul, zRot, Fin.sum_univ_three]
  have e2 : vecMul r (zRot t) 2 = r 2 := by
    simp [vecMul, zRot, Fin.sum_univ_three]
  have ep : (vecMul r (zRot t) 0 : ℂ) + Complex.I * vecMul r (zRot t) 1 =
      (r 0 + Complex.I * r 1) * Complex.exp (t * Complex.I) := by
    rw [e0, e1, Complex.exp_mul_I]
    push_cast
    linear_combination -(r 1 : ℂ) * Complex.sin t * Complex.I_sq
  have em : (vecMul r (zRot t) 0 : ℂ) - Complex.I * vecMul r (zRot t) 1 =
      (r 0 - Complex.I * r 1) * Complex.exp (-(t * Complex.I)) := by
    rw [e0, e1, ← neg_mul, Complex.exp_mul_I, Complex.cos_neg, Complex.sin_neg]
    push_cast
    linear_combination -(r 1 : ℂ) * Complex.sin t * Complex.I_sq
  have es : (vecMul r (zRot t) 0 : ℂ) ^ 2 + (vecMul r (zRot t) 1 : ℂ) ^ 2 = (r 0 : ℂ) ^ 2 + (r 1 : ℂ) ^ 2 := by
    have h := Real.sin_sq_add_cos_sq t
    have : vecMul r (zRot t) 0 ^ 2 + vecMul r (zRot t) 1 ^ 2 = r 0 ^ 2 + r 1 ^ 2 := by
      rw [e0, e1]
      linear_combination (r 0 ^ 2 + r 1 ^ 2) * h
    exact_mod_cast this
  have key : sphC l m (fun i => (vecMul r (zRot t) i : ℂ)) = -sphC l m fun i => (r i : ℂ) := by
    unfold sphC symSphericalHarmonics
    rcases lt_trichotomy m 0 with h | h | h
    · have hk : (-m).toNat = m.natAbs := by omega
      rw [if_neg (by omega), if_pos h, hk]
      simp only [map_mul, aeval_C, aeval_symPi _ _ hl, aeval_symB, ep, em, es, e2, mul_pow, hp, hq]
      ring
    · exact absurd h h0
    · have hk : m.toNat = m.natAbs := by omega
      rw [if_pos h, hk]
      simp only [map_mul, aeval_C, aeval_symPi _ _ hl, aeval_symA, ep, em, es, e2, mul_pow, hp, hq]
      ring
  rw [sphC_ofReal, sphC_ofReal] at key
  unfold harmonic
  exact_mod_cast key

theorem harmonic_pole (l : ℕ) (m : ℤ) (hm : |m| ≤ l) : harmonic l m ![0, 0, 1] = if m = 0 then 1 else 0 := by
  have h := sphC_pole l m hm
  have e : (![0, 0, 1] : Fin 3 → ℂ) = fun i => ((![0, 0, 1] : Fin 3 → ℝ) i : ℂ) := by
    funext i; fin_cases i <;> simp
  rw [e, sphC_ofReal] at h
  unfold harmonic
  split_ifs at h ⊢ <;> exact_mod_cast h

variable (cart : Bool)

/-- The harmonics of all degrees up to `L` are linearly independent functions on the unit sphere. -/
theorem harmonics_indep (L : ℕ) (a : ℕ → ℝ) (h : ∀ θ φ, ∑ i ∈ range ((L + 1) ^ 2),
    a i * harmonic (degreeOf i) (componentOrder cart i) (spherePoint θ φ) = 0) (j : ℕ) (hj : j < (L + 1) ^ 2) : a j = 0 := by
  have h1 := sphereIntegral_poly ((∑ i ∈ range ((L + 1) ^ 2),
    a i • symSphericalHarmonics (degreeOf i) (componentOrder cart i)) * symSphericalHarmonics (degreeOf j) (componentOrder cart j))
  have h2 : sphereIntegral (fun r => eval r ((∑ i ∈ range ((L + 1) ^ 2),
    a i • symSphericalHarmonics (degreeOf i) (componentOrder cart i)) *
      symSphericalHarmonics (degreeOf j) (componentOrder cart j))) = 0 := by
    have e : ∀ θ φ, eval (spherePoint θ φ) (∑ i ∈ range ((L + 1) ^ 2),
        a i • symSphericalHarmonics (degreeOf i) (componentOrder cart i)) = 0 := by
      intro θ φ
      rw [← h θ φ, map_sum]
      exact sum_congr rfl fun i _ => by rw [smul_eval]; rfl
    unfold sphereIntegral
    simp only [map_mul, e, zero_mul, intervalIntegral.integral_zero]
  rw [h2, sum_mul, map_sum, sum_eq_single j] at h1
  · rw [smul_mul_assoc, map_smul, polyInt_harmonics _ _ _ _ (componentOrder_bounds cart j) (componentOrder_bounds cart j),
      if_pos ⟨rfl, rfl⟩, smul_eq_mul] at h1
    have hp : (4 * Real.pi / (2 * (degreeOf j : ℝ) + 1)) ≠ 0 := by positivity
    exact (mul_eq_zero.1 h1.symm).resolve_right hp
  · intro i _ hij
    rw [smul_mul_assoc, map_smul, polyInt_harmonics _ _ _ _ (componentOrder_bounds cart i) (componentOrder_bounds cart j),
      if_neg (fun e => hij (component_inj cart e.1 e.2)), smul_zero]
  · exact fun e => absurd (mem_range.2 hj) e

/-- The harmonics of one degree, as a vector of all components. -/
def oneDegree (l i : ℕ) (u : Fin 3 → ℝ) : ℝ := if degreeOf i = l then harmonic l (componentOrder cart i) u else 0

theorem oneDegree_rot {L l i : ℕ} (hi : i < (L + 1) ^ 2) {R : Fin 3 → Fin 3 → ℝ} (hR : IsOrthogonal R) (u : Fin 3 → ℝ) :
    oneDegree cart l i (vecMul u R) = ∑ i' ∈ range ((L + 1) ^ 2), oneDegree cart l i' u * dMatrix cart R i' i := by
  have hd : degreeOf i ≤ L := (deg_le_iff i L).mpr hi
  unfold oneDegree
  by_cases h : degreeOf i = l
  · subst h
    rw [if_pos rfl, harmonic_vecMul _ hR _ (componentOrder_bounds cart i)]
    exact (sum_dMatrix_col cart hd R _ (fun m => harmonic (degreeOf i) m u) fun k hk => by rw [if_pos hk]).symm
  · rw [if_neg h, sum_eq_zero]
    intro i' _
    by_cases h' : degreeOf i' = l
    · have : dMatrix cart R i' i = 0 := by
        unfold dMatrix
        exact if_neg (fun e => h (e.symm.trans h'))
      rw [this, mul_zero]
    · rw [if_neg h', zero_mul]

/-- The column of the Wigner-D matrix for a component of order `m ≠ 0` and the rotation by `π / |m|`. -/
theorem dMatrix_zRot {L i j : ℕ} (hi : i < (L + 1) ^ 2) (hj : j < (L + 1) ^ 2) (h0 : componentOrder cart j ≠ 0) :
    dMatrix cart (zRot (Real.pi / (componentOrder cart j).natAbs)) i j = if i = j then -1 else 0 := by
  have h := harmonics_indep cart L (fun i => dMatrix cart (zRot (Real.pi / (componentOrder cart j).natAbs)) i j +
    if i = j then 1 else 0) (fun θ φ => by
      have e := oneDegree_rot cart (l := degreeOf j) hj (zRot_orth (Real.pi / (componentOrder cart j).natAbs)) (spherePoint θ φ)
      have e' : ∑ i' ∈ range ((L + 1) ^ 2), oneDegree cart (degreeOf j) i' (spherePoint θ φ) *
          dMatrix cart (zRot (Real.pi / (componentOrder cart j).natAbs)) i' j = ∑ i' ∈ range ((L + 1) ^ 2),
          dMatrix cart (zRot (Real.pi / (componentOrder cart j).natAbs)) i' j *
            harmonic (degreeOf i') (componentOrder cart i') (spherePoint θ φ) := by
        refine sum_congr rfl fun i' _ => ?_
        unfold oneDegree dMatrix
        by_cases hd : degreeOf i' = degreeOf j
        · rw [if_pos hd, if_pos hd, hd, mul_comm]
        · rw [if_neg hd, if_neg hd, mul_zero, zero_mul]
      rw [e', oneDegree, if_pos rfl, harmonic_zRot _ _ (componentOrder_bounds cart j) h0] at e
      simp only [add_mul, sum_add_distrib, ite_mul, one_mul, zero_mul]
      rw [sum_ite_eq', if_pos (mem_range.2 hj), ← e]
      ring) i hi
  split_ifs at h ⊢ <;> linarith

/-- **Schur's lemma.** A linear map between features that commutes with all rotations multiplies every component by a factor
which depends only on its degree. -/
theorem schur (L L' : ℕ) (T : ℕ → ℕ → ℝ)
    (hT : ∀ R, IsOrthogonal R → det3x3 R = 1 → ∀ i < (L + 1) ^ 2, ∀ j < (L' + 1) ^ 2,
      ∑ i' ∈ range ((L + 1) ^ 2), dMatrix cart R i i' * T i' j = ∑ j' ∈ range ((L' + 1) ^ 2), T i j' * dMatrix cart R j' j) :
    ∃ c : ℕ → ℝ, ∀ i < (L + 1) ^ 2, ∀ j < (L' + 1) ^ 2, T i j = if i = j then c (degreeOf j) else 0 := by
  -- the image of the harmonics of one degree
  set y : ℕ → ℕ → (Fin 3 → ℝ) → ℝ := fun l j u => ∑ i ∈ range ((L + 1) ^ 2), oneDegree cart l i u * T i j with hy
  have hrot : ∀ l R, IsOrthogonal R → det3x3 R = 1 → ∀ j < (L' + 1) ^ 2, ∀ u,
      y l j (vecMul u R) = ∑ j' ∈ range ((L' + 1) ^ 2), y l j' u * dMatrix cart R j' j := by
    intro l R hR hdet j hj u
    simp only [hy]
    have e1 : ∑ i ∈ range ((L + 1) ^ 2), oneDegree cart l i (vecMul u R) * T i j =
        ∑ i ∈ range ((L + 1) ^ 2), ∑ i' ∈ range ((L + 1) ^ 2), oneDegree cart l i' u * (dMatrix cart R i' i * T i j) := by
      refine sum_congr rfl fun i hi => ?_
      rw [oneDegree_rot cart (mem_range.1 hi) hR, sum_mul]
      exact sum_congr rfl fun _ _ => by ring
    rw [e1, sum_comm]
    have e2 : ∀ i' ∈ range ((L + 1) ^ 2), ∑ i ∈ range ((L + 1) ^ 2), oneDegree cart l i' u * (dMatrix cart R i' i * T i j) =
        ∑ j' ∈ range ((L' + 1) ^ 2), oneDegree cart l i' u * (T i' j' * dMatrix cart R j' j) := by
      intro i' hi'
      rw [← mul_sum, hT R hR hdet i' (mem_range.1 hi') j hj, mul_sum]
    rw [sum_congr rfl e2, sum_comm]
    refine sum_congr rfl fun j' _ => ?_
    rw [sum_mul]
    exact sum_congr rfl fun _ _ => by ring
  have hzero : ∀ l, ∀ j < (L' + 1) ^ 2, componentOrder cart j ≠ 0 → y l j ![0, 0, 1] = 0 := by
    intro l j hj h0
    have e := hrot l _ (zRot_orth (Real.pi / (componentOrder cart j).natAbs)) (zRot_det _) j hj ![0, 0, 1]
    rw [pole_zRot, sum_congr rfl fun j' hj' => by rw [dMatrix_zRot cart (mem_range.1 hj') hj h0]] at e
    simp only [mul_ite, mul_neg, mul_one, mul_zero] at e
    rw [sum_ite_eq', if_pos (mem_range.2 hj)] at e
    linarith
  set c : ℕ → ℕ → ℝ := fun l k => y l (flatIndex cart k 0) ![0, 0, 1] with hc
  have hpole : ∀ l, ∀ j < (L' + 1) ^ 2, ∀ k, degreeOf j = k →
      y l j ![0, 0, 1] = c l k * harmonic k (componentOrder cart j) ![0, 0, 1] := by
    intro l j hj k hk
    subst hk
    rw [harmonic_pole _ _ (componentOrder_bounds cart j)]
    by_cases h0 : componentOrder cart j = 0
    · have : flatIndex cart (degreeOf j) 0 = j := by
        rw [← h0]
        exact component_inj cart (flatIndex_degree cart _ _ (componentOrder_bounds cart j))
          (flatIndex_order cart _ _ (componentOrder_bounds cart j))
      rw [if_pos h0, mul_one, hc]
      simp only [this]
    · rw [if_neg h0, mul_zero, hzero l j hj h0]
  have hall : ∀ l, ∀ j < (L' + 1) ^ 2, ∀ θ φ,
      y l j (spherePoint θ φ) = c l (degreeOf j) * harmonic (degreeOf j) (componentOrder cart j) (spherePoint θ φ) := by
    intro l j hj θ φ
    rw [← pole_sphRot, hrot l _ (sphRot_orth θ φ) (sphRot_det θ φ) j hj]
    have e := oneDegree_rot cart (l := degreeOf j) hj (sphRot_orth θ φ) ![0, 0, 1]
    rw [oneDegree, if_pos rfl] at e
    rw [e, mul_sum]
    refine sum_congr rfl fun j' hj' => ?_
    by_cases hd : degreeOf j' = degreeOf j
    · rw [hpole l j' (mem_range.1 hj') _ hd, oneDegree, if_pos hd]
      ring
    · unfold dMatrix
      rw [if_neg hd]
      ring
  refine ⟨fun k => c k k, fun i hi j hj => ?_⟩
  have hsub : ∀ {K n}, K ≤ max L L' → n < (K + 1) ^ 2 → n < (max L L' + 1) ^ 2 := fun {K n} h hn =>
    lt_of_lt_of_le hn (Nat.pow_le_pow_left (by omega) 2)
  have hi' := hsub (le_max_left L L') hi
  have hj' := hsub (le_max_right L L') hj
  have h := harmonics_indep cart (max L L') (fun n => (if n < (L + 1) ^ 2 ∧ degreeOf n = degreeOf i then T n j else 0) -
    if n = j then c (degreeOf i) (degreeOf j) else 0) (fun θ φ => by
      simp only [sub_mul, sum_sub_distrib, ite_mul, zero_mul]
      rw [sum_ite_eq', if_pos (mem_range.2 hj'), ← hall (degreeOf i) j hj, sub_eq_zero]
      simp only [hy]
      rw [← sum_subset (range_subset_range.2 (Nat.pow_le_pow_left (by omega) 2 : (L + 1) ^ 2 ≤ (max L L' + 1) ^ 2))]
      · refine sum_congr rfl fun n hn => ?_
        unfold oneDegree
        by_cases hd : degreeOf n = degreeOf i
        · rw [if_pos ⟨mem_range.1 hn, hd⟩, if_pos hd, hd, mul_comm]
        · rw [if_neg (fun e => hd e.2), if_neg hd, zero_mul]
      · intro n _ hn
        rw [if_neg (fun e => hn (mem_range.2 e.1))]) i hi'
  rw [if_pos ⟨hi, rfl⟩, sub_eq_zero] at h
  rw [h]
  by_cases hij : i = j
  · rw [if_pos hij, if_pos hij, hij]
  · rw [if_neg hij, if_neg hij]

end

end E3x
