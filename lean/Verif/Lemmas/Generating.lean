import Verif.Lemmas.NullCone

/-!
# The generating function of the spherical harmonics
-/

namespace E3x

noncomputable section

open Finset MvPolynomial
open scoped Nat

/-- Complex solid harmonics. -/
def cHarm (l : ℕ) (κ : ℤ) (r : Fin 3 → ℂ) : ℂ :=
  (sqrtFac l κ.natAbs : ℂ) * radialPart l κ.natAbs (r 0 ^ 2 + r 1 ^ 2) (r 2) *
    (if 0 ≤ κ then (-(r 0 + Complex.I * r 1) / 2) ^ κ.natAbs else ((r 0 - Complex.I * r 1) / 2) ^ κ.natAbs)

theorem natAbs_le_of_abs {l : ℕ} {m : ℤ} (h : |m| ≤ l) : m.natAbs ≤ l := by
  have := Int.natCast_natAbs m; omega

theorem aeval_symSH (l : ℕ) (m : ℤ) (hm : |m| ≤ l) (r : Fin 3 → ℂ) :
    aeval r (symSphericalHarmonics l m) = ∑ κ ∈ Icc (-(l : ℤ)) l, basisU m κ * cHarm l κ r := by
  rw [sum_basisU l m hm]
  have hl := natAbs_le_of_abs hm
  have h2 := rt2_sq
  have hne := rt2_ne
  rcases lt_trichotomy m 0 with h | h | h
  · have e : (-m).toNat = m.natAbs := by omega
    rw [symSphericalHarmonics, if_neg (by omega), if_pos h, e, map_mul, map_mul, aeval_symPi l _ hl, aeval_symB,
      realCoeff_neg m h, aeval_C, Complex.coe_algebraMap, cHarm, cHarm, if_neg (by omega), if_pos (by omega),
      Int.natAbs_neg, altSign]
    change rt2 * _ * _ = _
    generalize m.natAbs = k
    generalize radialPart l k _ _ = F
    generalize (sqrtFac l k : ℂ) = S
    rw [div_pow, div_pow, neg_pow (r 0 + Complex.I * r 1)]
    generalize (r 0 + Complex.I * r 1) ^ k = p
    generalize (r 0 - Complex.I * r 1) ^ k = q
    have hs : (-1 : ℂ) ^ k * (-1) ^ k = 1 := by rw [← mul_pow]; simp
    have h2k : (2 : ℂ) ^ k ≠ 0 := pow_ne_zero _ (by norm_num)
    generalize (-1 : ℂ) ^ k = e at *
    generalize (2 : ℂ) ^ k = t at *
    have hI := Complex.I_ne_zero
    have hII := Complex.I_mul_I
    field_simp
    linear_combination (S * F * (p - q)) * h2 + (2 * S * F * (e * e * p - q)) * hII - 2 * S * F * p * hs
  · subst h
    simp only [symSphericalHarmonics, lt_irrefl, if_false, realCoeff_zero, neg_zero]
    rw [aeval_symPi l 0 (by omega), cHarm]; simp; ring
  · have e : m.toNat = m.natAbs := by omega
    rw [symSphericalHarmonics, if_pos h, e, map_mul, map_mul, aeval_symPi l _ hl, aeval_symA,
      realCoeff_pos m h, aeval_C, Complex.coe_algebraMap, cHarm, cHarm, if_pos h.le, if_neg (by omega),
      Int.natAbs_neg, altSign]
    change rt2 * _ * _ = _
    generalize m.natAbs = k
    generalize radialPart l k _ _ = F
    generalize (sqrtFac l k : ℂ) = S
    rw [div_pow, div_pow, neg_pow (r 0 + Complex.I * r 1)]
    generalize (r 0 + Complex.I * r 1) ^ k = p
    generalize (r 0 - Complex.I * r 1) ^ k = q
    have hs : (-1 : ℂ) ^ k * (-1) ^ k = 1 := by rw [← mul_pow]; simp
    have h2k : (2 : ℂ) ^ k ≠ 0 := pow_ne_zero _ (by norm_num)
    generalize (-1 : ℂ) ^ k = e at *
    generalize (2 : ℂ) ^ k = t at *
    field_simp
    linear_combination (S * F * (p + q)) * h2 - 2 * S * F * p * hs

/-- The null vector with spinor components `u`, `v`. -/
def nullVec (u v : ℂ) : Fin 3 → ℂ := ![(v ^ 2 - u ^ 2) / 2, Complex.I * (u ^ 2 + v ^ 2) / 2, u * v]

theorem nullVec_rho (u v : ℂ) : nullVec u v 0 ^ 2 + nullVec u v 1 ^ 2 = -(u * v) ^ 2 := by
  simp only [nullVec, Matrix.cons_val_zero, Matrix.cons_val_one]
  linear_combination ((u ^ 2 + v ^ 2) ^ 2 / 4) * Complex.I_sq

theorem nullVec_p (u v : ℂ) : nullVec u v 0 + Complex.I * nullVec u v 1 = -u ^ 2 := by
  simp only [nullVec, Matrix.cons_val_zero, Matrix.cons_val_one]
  linear_combination ((u ^ 2 + v ^ 2) / 2) * Complex.I_sq

theorem nullVec_q (u v : ℂ) : nullVec u v 0 - Complex.I * nullVec u v 1 = v ^ 2 := by
  simp only [nullVec, Matrix.cons_val_zero, Matrix.cons_val_one]
  linear_combination -((u ^ 2 + v ^ 2) / 2) * Complex.I_sq

theorem nullVec_z (u v : ℂ) : nullVec u v 2 = u * v := rfl

/-- `2^-l binom(2l, l)` -/
def kConst (l : ℕ) : ℂ := (2 : ℂ)⁻¹ ^ l * ((2 * l).choose l : ℂ)

theorem kConst_ne (l : ℕ) : kConst l ≠ 0 := by
  have : ((2 * l).choose l : ℂ) ≠ 0 := by
    exact_mod_cast (Nat.choose_pos (by omega : l ≤ 2 * l)).ne'
  exact mul_ne_zero (pow_ne_zero _ (by norm_num)) this

theorem sqrtFac_pos (l m : ℕ) : 0 < sqrtFac l m := Real.sqrt_pos.mpr (by positivity)

theorem sqrtFac_ne (l m : ℕ) : (sqrtFac l m : ℂ) ≠ 0 := by exact_mod_cast (sqrtFac_pos l m).ne'

theorem aeval_symPi_null (l m : ℕ) (r : Fin 3 → ℂ) (h : r 0 ^ 2 + r 1 ^ 2 + r 2 ^ 2 = 0) :
    aeval r (symPi l m) = kConst l * l ! / (sqrtFac l m : ℂ) * r 2 ^ (l - m) := by
  simp only [symPi, map_mul, map_sum, map_pow, map_add, aeval_X, aeval_C, Complex.coe_algebraMap, h]
  rw [sum_eq_single 0]
  · have h2 : Real.sqrt ((l - m)! / (l + m)!) / ((l - m)! : ℝ) = 1 / sqrtFac l m := by
      have hp : (0 : ℝ) < (l + m)! := by positivity
      have hq : (0 : ℝ) < (l - m)! := by positivity
      rw [sqrtFac, Real.sqrt_div hq.le, Real.sqrt_mul hq.le]
      have h3 := Real.sqrt_pos.mpr hp
      have h4 := Real.sqrt_pos.mpr hq
      field_simp
      exact Real.sq_sqrt hq.le
    have h2' := congrArg Complex.ofReal h2
    push_cast at h2'
    simp only [mul_zero, Nat.sub_zero, pow_zero, Nat.choose_zero_right, Nat.cast_one, one_mul, mul_one, kConst]
    push_cast
    rw [show ∀ a b c d e f : ℂ, a * (b * c * d / e * f) = b * c * d * (a / e) * f by intros; ring, h2']
    ring
  · intro k _ hk
    rw [zero_pow hk]; simp
  · intro h; exact absurd (mem_range.mpr (by omega)) h

theorem radialPart_null (l m : ℕ) (hm : m ≤ l) (u v : ℂ) :
    radialPart l m (-(u * v) ^ 2) (u * v) =
      2 ^ m * kConst l * l ! / ((sqrtFac l m : ℂ) * (sqrtFac l m : ℂ)) * (u * v) ^ (l - m) := by
  have h1 := aeval_symPi l m hm (nullVec u v)
  have h2 := aeval_symPi_null l m (nullVec u v) (by rw [nullVec_rho, nullVec_z]; ring)
  rw [nullVec_rho, nullVec_z] at *
  have hs := sqrtFac_ne l m
  have ht : (2 : ℂ) ^ m ≠ 0 := pow_ne_zero _ (by norm_num)
  rw [h1] at h2
  field_simp at h2 ⊢
  linear_combination h2

theorem cHarm_null (l : ℕ) (κ : ℤ) (hκ : |κ| ≤ l) (u v : ℂ) :
    cHarm l κ (nullVec u v) =
      kConst l * l ! / (sqrtFac l κ.natAbs : ℂ) * (u ^ (l + κ).toNat * v ^ (l - κ).toNat) := by
  have hl := natAbs_le_of_abs hκ
  rw [cHarm, nullVec_rho, nullVec_z, nullVec_p, nullVec_q, radialPart_null l _ hl, neg_neg]
  have hs := sqrtFac_ne l κ.natAbs
  have ht : (2 : ℂ) ^ κ.natAbs ≠ 0 := pow_ne_zero _ (by norm_num)
  split_ifs with h
  · rw [show (l + κ).toNat = (l - κ.natAbs) + 2 * κ.natAbs by omega, show (l - κ).toNat = l - κ.natAbs by omega,
      div_pow, pow_add, pow_mul, mul_pow u v]
    field_simp
  · rw [show (l - κ).toNat = (l - κ.natAbs) + 2 * κ.natAbs by omega, show (l + κ).toNat = l - κ.natAbs by omega,
      div_pow, pow_add, pow_mul, mul_pow u v]
    field_simp

/-- The trinomial theorem, ordered by the difference of the first two exponents. -/
theorem trinomial (l : ℕ) (A B W : ℂ) :
    (A + B + W) ^ l / l ! = ∑ κ ∈ Icc (-(l : ℤ)) l, ∑ i ∈ range ((l - κ.natAbs) / 2 + 1),
      (A * B) ^ i * W ^ (l - κ.natAbs - 2 * i) / ((i ! : ℂ) * (i + κ.natAbs)! * (l - κ.natAbs - 2 * i)!) *
        (if 0 ≤ κ then B ^ κ.natAbs else A ^ κ.natAbs) := by
  have fne : ∀ n : ℕ, (n ! : ℂ) ≠ 0 := fun n => by exact_mod_cast n.factorial_ne_zero
  have h1 : (A + B + W) ^ l / l ! = ∑ p ∈ (range (l + 1)).sigma fun t => range (t + 1),
      A ^ p.2 * B ^ (p.1 - p.2) * W ^ (l - p.1) / ((p.2 ! : ℂ) * (p.1 - p.2)! * (l - p.1)!) := by
    rw [add_pow, sum_sigma, sum_div]
    refine sum_congr rfl fun t ht => ?_
    rw [add_pow, sum_mul, sum_mul, sum_div]
    refine sum_congr rfl fun a ha => ?_
    rw [Nat.cast_choose ℂ (show t ≤ l by have := mem_range.mp ht; omega),
      Nat.cast_choose ℂ (show a ≤ t by have := mem_range.mp ha; omega)]
    have := fne l; have := fne t; have := fne a; have := fne (t - a); have := fne (l - t)
    field_simp
  rw [h1, ← sum_fiberwise_of_maps_to (g := fun p : (_ : ℕ) × ℕ => (p.1 : ℤ) - 2 * p.2) (t := Icc (-(l : ℤ)) l)]
  · refine sum_congr rfl fun κ hκ => ?_
    have hκ := mem_Icc.mp hκ
    by_cases h : 0 ≤ κ
    · simp only [if_pos h]
      refine sum_nbij' (fun p => p.2) (fun i => ⟨2 * i + κ.natAbs, i⟩) ?_ ?_ ?_ ?_ ?_
      · rintro ⟨t, a⟩ hp
        simp only [mem_filter, mem_sigma, mem_range] at hp ⊢
        omega
      · intro i hi
        simp only [mem_filter, mem_sigma, mem_range] at hi ⊢
        omega
      · rintro ⟨t, a⟩ hp
        simp only [mem_filter, mem_sigma, mem_range] at hp ⊢
        simp only [Sigma.mk.injEq, heq_eq_eq, and_true]; omega
      · intro i hi; rfl
      · rintro ⟨t, a⟩ hp
        simp only [mem_filter, mem_sigma, mem_range] at hp ⊢
        rw [show t - a = a + κ.natAbs by omega, show l - t = l - κ.natAbs - 2 * a by omega, mul_pow, pow_add]
        ring
    · simp only [if_neg h]
      refine sum_nbij' (fun p => p.1 - p.2) (fun i => ⟨2 * i + κ.natAbs, i + κ.natAbs⟩) ?_ ?_ ?_ ?_ ?_
      · rintro ⟨t, a⟩ hp
        simp only [mem_filter, mem_sigma, mem_range] at hp ⊢
        omega
      · intro i hi
        simp only [mem_filter, mem_sigma, mem_range] at hi ⊢
        omega
      · rintro ⟨t, a⟩ hp
        simp only [mem_filter, mem_sigma, mem_range] at hp ⊢
        simp only [Sigma.mk.injEq, heq_eq_eq]; omega
      · intro i hi; simp only; omega
      · rintro ⟨t, a⟩ hp
        simp only [mem_filter, mem_sigma, mem_range] at hp ⊢
        obtain ⟨b, rfl⟩ : ∃ b, t = a + b := ⟨t - a, by omega⟩
        obtain rfl : a = b + κ.natAbs := by omega
        rw [show b + κ.natAbs + b - (b + κ.natAbs) = b by omega,
          show l - (b + κ.natAbs + b) = l - κ.natAbs - 2 * b by omega, mul_pow, pow_add]
        ring
  · rintro ⟨t, a⟩ hp
    simp only [mem_sigma, mem_range, mem_Icc] at hp ⊢
    omega

/-- `n · r` -/
def cdot (n r : Fin 3 → ℂ) : ℂ := ∑ i, n i * r i

theorem cdot_null (u v : ℂ) (r : Fin 3 → ℂ) :
    cdot (nullVec u v) r = v ^ 2 * (r 0 + Complex.I * r 1) / 2 + -(u ^ 2 * (r 0 - Complex.I * r 1) / 2) + u * v * r 2 := by
  simp only [cdot, Fin.sum_univ_three, nullVec, Matrix.cons_val_zero, Matrix.cons_val_one, Matrix.cons_val]
  ring

/-- The generating function, in the complex basis. -/
theorem generating_complex (l : ℕ) (u v : ℂ) (r : Fin 3 → ℂ) :
    kConst l * cdot (nullVec u v) r ^ l =
      ∑ κ ∈ Icc (-(l : ℤ)) l, altSign κ * (cHarm l κ (nullVec u v) * cHarm l (-κ) r) := by
  have fne : (l ! : ℂ) ≠ 0 := by exact_mod_cast l.factorial_ne_zero
  have h := trinomial l (v ^ 2 * (r 0 + Complex.I * r 1) / 2) (-(u ^ 2 * (r 0 - Complex.I * r 1) / 2)) (u * v * r 2)
  rw [← cdot_null, div_eq_iff fne] at h
  rw [h, sum_mul, mul_sum]
  refine sum_congr rfl fun κ hκ => ?_
  have hκ' : |κ| ≤ l := abs_le.mpr (mem_Icc.mp hκ)
  have hl := natAbs_le_of_abs hκ'
  rw [cHarm_null l κ hκ', cHarm, Int.natAbs_neg, ← sum_mul]
  have hs := sqrtFac_ne l κ.natAbs
  have e : ∑ i ∈ range ((l - κ.natAbs) / 2 + 1),
      (v ^ 2 * (r 0 + Complex.I * r 1) / 2 * -(u ^ 2 * (r 0 - Complex.I * r 1) / 2)) ^ i *
        (u * v * r 2) ^ (l - κ.natAbs - 2 * i) / ((i ! : ℂ) * (i + κ.natAbs)! * (l - κ.natAbs - 2 * i)!) =
      (u * v) ^ (l - κ.natAbs) * radialPart l κ.natAbs (r 0 ^ 2 + r 1 ^ 2) (r 2) := by
    rw [radialPart, mul_sum]
    refine sum_congr rfl fun i hi => ?_
    rw [show v ^ 2 * (r 0 + Complex.I * r 1) / 2 * -(u ^ 2 * (r 0 - Complex.I * r 1) / 2) =
      (u * v) ^ 2 * (-(r 0 ^ 2 + r 1 ^ 2) / 4) by linear_combination ((u * v) ^ 2 * r 1 ^ 2 / 4) * Complex.I_sq,
      mul_pow ((u * v) ^ 2), ← pow_mul, mul_pow (u * v)]
    rw [show (u * v) ^ (l - κ.natAbs) = (u * v) ^ (2 * i) * (u * v) ^ (l - κ.natAbs - 2 * i) by
      rw [← pow_add]; congr 1; have := mem_range.mp hi; omega]
    ring
  rw [e]
  have ht : (2 : ℂ) ^ κ.natAbs ≠ 0 := pow_ne_zero _ (by norm_num)
  by_cases h0 : κ = 0
  · subst h0
    simp only [le_refl, if_true, Int.natAbs_zero, pow_zero, altSign_zero, neg_zero, Nat.sub_zero, add_zero, sub_zero,
      Int.toNat_natCast] at *
    field_simp
    rw [mul_pow]; ring
  by_cases h1 : 0 < κ
  · rw [if_pos h1.le, if_neg (by omega)]
    rw [show (l + κ).toNat = (l - κ.natAbs) + 2 * κ.natAbs by omega, show (l - κ).toNat = l - κ.natAbs by omega,
      div_pow, pow_add, pow_mul, mul_pow u v, altSign, neg_pow (u ^ 2 * (r 0 - Complex.I * r 1) / 2), div_pow, mul_pow]
    field_simp
  · rw [if_neg (by omega), if_pos (by omega)]
    rw [show (l - κ).toNat = (l - κ.natAbs) + 2 * κ.natAbs by omega, show (l + κ).toNat = l - κ.natAbs by omega,
      div_pow, div_pow, pow_add, pow_mul, mul_pow u v, altSign, neg_pow (r 0 + Complex.I * r 1), mul_pow]
    have hss : ((-1 : ℂ) ^ κ.natAbs) ^ 2 = 1 := by rw [← pow_mul, mul_comm, pow_mul]; simp
    field_simp
    rw [hss, mul_one]

/-- **The generating function of the spherical harmonics.** -/
theorem generating (l : ℕ) (u v : ℂ) (r : Fin 3 → ℂ) :
    kConst l * cdot (nullVec u v) r ^ l = ∑ m ∈ Icc (-(l : ℤ)) l,
      aeval (nullVec u v) (symSphericalHarmonics l m) * aeval r (symSphericalHarmonics l m) := by
  rw [generating_complex]
  have h : ∀ m ∈ Icc (-(l : ℤ)) l,
      aeval (nullVec u v) (symSphericalHarmonics l m) * aeval r (symSphericalHarmonics l m) =
      ∑ κ ∈ Icc (-(l : ℤ)) l, ∑ κ' ∈ Icc (-(l : ℤ)) l,
        (cHarm l κ (nullVec u v) * cHarm l κ' r) * (basisU m κ * basisU m κ') := by
    intro m hm
    have hm := abs_le.mpr (mem_Icc.mp hm)
    rw [aeval_symSH l m hm, aeval_symSH l m hm, sum_mul_sum]
    exact sum_congr rfl fun _ _ => sum_congr rfl fun _ _ => by ring
  rw [sum_congr rfl h, sum_comm]
  refine sum_congr rfl fun κ hκ => ?_
  have hκ' := abs_le.mpr (mem_Icc.mp hκ)
  rw [sum_comm]
  simp only [← mul_sum]
  simp only [basisU_mul_basisU l κ _ hκ', mul_ite, mul_zero]
  rw [sum_ite_eq', if_pos (mem_Icc.mpr (by have := mem_Icc.mp hκ; omega))]
  ring

/-- The harmonics of degree `l` are linearly independent on the null cone. -/
theorem null_independent (l : ℕ) (c : ℤ → ℂ)
    (h : ∀ u v, ∑ m ∈ Icc (-(l : ℤ)) l, c m * aeval (nullVec u v) (symSphericalHarmonics l m) = 0) :
    ∀ m ∈ Icc (-(l : ℤ)) l, c m = 0 := by
  have key : ∀ κ ∈ Icc (-(l : ℤ)) l, ∑ m ∈ Icc (-(l : ℤ)) l, c m * basisU m κ = 0 := by
    set d : ℤ → ℂ := fun κ => (∑ m ∈ Icc (-(l : ℤ)) l, c m * basisU m κ) *
      (kConst l * l ! / (sqrtFac l κ.natAbs : ℂ)) with hd
    have h1 : ∀ u : ℂ, ∑ κ ∈ Icc (-(l : ℤ)) l, d κ * u ^ (l + κ).toNat = 0 := by
      intro u
      rw [← h u 1]
      have : ∀ m ∈ Icc (-(l : ℤ)) l, c m * aeval (nullVec u 1) (symSphericalHarmonics l m) =
          ∑ κ ∈ Icc (-(l : ℤ)) l, c m * basisU m κ * (kConst l * l ! / (sqrtFac l κ.natAbs : ℂ)) *
            u ^ (l + κ).toNat := by
        intro m hm
        rw [aeval_symSH l m (abs_le.mpr (mem_Icc.mp hm)), mul_sum]
        refine sum_congr rfl fun κ hκ => ?_
        rw [cHarm_null l κ (abs_le.mpr (mem_Icc.mp hκ)), one_pow]; ring
      rw [sum_congr rfl this, sum_comm]
      refine sum_congr rfl fun κ _ => ?_
      rw [hd]; simp only [sum_mul]
    have h2 : (∑ κ ∈ Icc (-(l : ℤ)) l, Polynomial.C (d κ) * Polynomial.X ^ (l + κ).toNat : Polynomial ℂ) = 0 := by
      apply Polynomial.funext
      intro u
      simp only [Polynomial.eval_finsetSum, Polynomial.eval_mul, Polynomial.eval_C, Polynomial.eval_pow,
        Polynomial.eval_X, Polynomial.eval_zero]
      exact h1 u
    intro κ hκ
    have h3 := congrArg (fun p => Polynomial.coeff p (l + κ).toNat) h2
    simp only [Polynomial.finsetSum_coeff, Polynomial.coeff_C_mul_X_pow, Polynomial.coeff_zero] at h3
    rw [sum_eq_single κ] at h3
    · rw [if_pos rfl] at h3
      rcases mul_eq_zero.mp h3 with h4 | h4
      · exact h4
      · exfalso
        have fne : (l ! : ℂ) ≠ 0 := by exact_mod_cast l.factorial_ne_zero
        exact (div_ne_zero (mul_ne_zero (kConst_ne l) fne) (sqrtFac_ne l _)) h4
    · intro b hb hne
      rw [if_neg]
      have := mem_Icc.mp hb; have := mem_Icc.mp hκ
      intro e; apply hne; omega
    · intro h; exact absurd hκ h
  intro m hm
  have hm' := abs_le.mpr (mem_Icc.mp hm)
  have : ∑ κ ∈ Icc (-(l : ℤ)) l, (∑ m' ∈ Icc (-(l : ℤ)) l, c m' * basisU m' κ) * starRingEnd ℂ (basisU m κ) = 0 :=
    sum_eq_zero fun κ hκ => by rw [key κ hκ, zero_mul]
  simp only [sum_mul] at this
  rw [sum_comm] at this
  simp only [mul_assoc, ← mul_sum] at this
  rw [sum_congr rfl fun m' hm' => by rw [basisU_mul_conj l m' m (abs_le.mpr (mem_Icc.mp hm'))]] at this
  simp only [mul_ite, mul_one, mul_zero] at this
  rwa [sum_ite_eq, if_pos hm] at this

end

end E3x
