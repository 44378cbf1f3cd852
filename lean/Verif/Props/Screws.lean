import Verif.Props.Tetracubes
import Verif.Lemmas.Exchange
import Verif.Lemmas.SphericalHarmonics

/-!
# C67: the equivariant model can tell the left from the right screw
-/

namespace E3x

open Spec Finset
open scoped Nat

/-! ## coupling coefficients -/

theorem dg_two {i : ℕ} (h : 4 ≤ i) (h' : i < 9) : deg i = 2 := by
  interval_cases i <;> decide +kernel

theorem dg_one {i : ℕ} (h : 1 ≤ i) (h' : i < 4) : deg i = 1 := by
  interval_cases i <;> decide +kernel

theorem cg_diag (i : ℕ) (h : 4 ≤ i) (h' : i < 9) : cgTensor true i i 3 = 0 := by
  have e := symCG_swap 2 2 1 (componentOrder true i) (componentOrder true i) (componentOrder true 3)
    (by have := componentOrder_bounds true i; rwa [show degreeOf i = 2 from dg_two h h'] at this)
    (by have := componentOrder_bounds true i; rwa [show degreeOf i = 2 from dg_two h h'] at this)
    (by have := componentOrder_bounds true 3; rwa [show degreeOf 3 = 1 by decide +kernel] at this)
  unfold cgTensor
  rw [show degreeOf i = 2 from dg_two h h', show degreeOf 3 = 1 by decide +kernel]
  norm_num at e
  linarith

theorem order_facts : componentOrder true 3 = 0 ∧ componentOrder true 4 = 2 ∧ componentOrder true 5 = -2 ∧
    componentOrder true 6 = 1 ∧ componentOrder true 7 = -1 ∧ componentOrder true 8 = 0 := by decide +kernel

theorem cg_off (i j : ℕ) (h : (i, j) ∈ [(4, 8), (5, 8), (8, 4), (8, 5)]) : cgTensor true i j 3 = 0 := by
  unfold cgTensor
  apply symCG_of_ne
  obtain ⟨h3, h4, h5, h6, h7, h8⟩ := order_facts
  simp only [List.mem_cons, List.not_mem_nil, Prod.mk.injEq, or_false] at h
  rcases h with ⟨rfl, rfl⟩ | ⟨rfl, rfl⟩ | ⟨rfl, rfl⟩ | ⟨rfl, rfl⟩ <;> (rw [h3, h8]; first | rw [h4] | rw [h5]) <;> norm_num

theorem complexCG_two : complexCG 2 2 1 2 (-2) 0 ≠ 0 := by
  rw [complexCG_eq 2 2 1 3 1 1 ⟨rfl, rfl, rfl⟩ 2 (-2) 0 (by norm_num) (by norm_num) (by norm_num) (by norm_num)]
  have : Icc (cgLo 2 2 1 2 (-2)) (cgHi 2 2 1 2 (-2)) = {0} := by decide
  rw [this, sum_singleton]
  have h1 : ∀ l k, sqrtFac l k ≠ 0 := fun l k => by unfold sqrtFac; positivity
  have h2 : cgNorm 2 2 1 3 1 1 ≠ 0 := by unfold cgNorm; positivity
  have h3 : cgTerm 2 2 1 2 (-2) 0 ≠ 0 := by
    unfold cgTerm
    exact div_ne_zero (by norm_num) (by
      have := ifac_pos
      simp only [ne_eq, mul_eq_zero, not_or]
      refine ⟨⟨⟨⟨⟨?_, ?_⟩, ?_⟩, ?_⟩, ?_⟩, ?_⟩ <;> exact (this _).ne')
  exact mul_ne_zero (mul_ne_zero h2 (mul_ne_zero (mul_ne_zero (h1 _ _) (h1 _ _)) (h1 _ _))) h3

theorem cg_four_five : cgTensor true 4 5 3 ≠ 0 := by
  obtain ⟨h3, h4, h5, -⟩ := order_facts
  unfold cgTensor
  rw [h3, h4, h5, show degreeOf 4 = 2 by decide +kernel, show degreeOf 5 = 2 by decide +kernel,
    show degreeOf 3 = 1 by decide +kernel]
  have e : symClebschGordanC 2 2 2 (-2) 1 0 = (complexCG 2 2 1 2 (-2) 0 : ℂ) := by
    have hn := complexCG_neg 2 2 1 2 (-2) 0 (by norm_num) (by norm_num) (by norm_num)
    norm_num at hn
    unfold symClebschGordanC realCoeff
    have s2 : ((Real.sqrt 2 : ℝ) : ℂ) ^ 2 = 2 := by
      norm_cast
      rw [Real.sq_sqrt (by norm_num)]
    have s0 : ((Real.sqrt 2 : ℝ) : ℂ) ≠ 0 := by
      norm_cast
      positivity
    norm_num [complexCG_of_ne 2 2 1 2 2 0 (by norm_num), complexCG_of_ne 2 2 1 (-2) (-2) 0 (by norm_num)]
    rw [hn]
    rw [show (starRingEnd ℂ) 2 = 2 from Complex.conj_ofReal 2]
    push_cast
    field_simp
    rw [s2]
    linear_combination (-4 * (complexCG 2 2 1 2 (-2) 0 : ℂ)) * Complex.I_sq
  unfold symClebschGordan
  rw [e, Complex.ofReal_re]
  exact complexCG_two

/-! ## harmonics of degree two -/

theorem harmonic_two : ∃ a b : ℝ, 0 < a ∧ 0 < b ∧ (∀ r, harmonic 2 2 r = a * (r 0 ^ 2 - r 1 ^ 2)) ∧
    (∀ r, harmonic 2 (-2) r = b * (r 0 * r 1)) ∧ ∃ c : ℝ, (∀ r, harmonic 2 1 r = c * (r 0 * r 2)) ∧
    ∀ r, harmonic 2 (-1) r = c * (r 1 * r 2) := by
  have hc : Real.cos (2 * Real.pi / 2) = -1 := by rw [mul_div_cancel_left₀ _ (by norm_num)]; exact Real.cos_pi
  have hs : Real.sin (2 * Real.pi / 2) = 0 := by rw [mul_div_cancel_left₀ _ (by norm_num)]; exact Real.sin_pi
  refine ⟨Real.sqrt 2 * (Real.sqrt (1 / 24) * 3), Real.sqrt 2 * (Real.sqrt (1 / 24) * 3) * 2, by positivity, by positivity,
    fun r => ?_, fun r => ?_, Real.sqrt 2 * (Real.sqrt (1 / 6) * 3), fun r => ?_, fun r => ?_⟩
  · unfold harmonic symSphericalHarmonics symPi symA
    norm_num [sum_range_succ, Nat.choose, Nat.factorial, hc, hs, show Int.toNat 2 = 2 from rfl]
    try ring
  · unfold harmonic symSphericalHarmonics symPi symB
    norm_num [sum_range_succ, Nat.choose, Nat.factorial, hc, hs, show Int.toNat 2 = 2 from rfl]
    try ring
  · unfold harmonic symSphericalHarmonics symPi symA
    norm_num [sum_range_succ, Nat.choose, Nat.factorial, hc, hs, show Int.toNat 2 = 2 from rfl]
    try ring
  · unfold harmonic symSphericalHarmonics symPi symB
    norm_num [sum_range_succ, Nat.choose, Nat.factorial, hc, hs, show Int.toNat 2 = 2 from rfl]
    try ring

/-! ## the right screw in convenient coordinates -/

/-- `√2 / 4` -/
noncomputable def screwH : ℝ := Real.sqrt 2 / 4

theorem screwH_sq : screwH ^ 2 = 1 / 8 := by
  unfold screwH
  rw [div_pow, Real.sq_sqrt (by norm_num)]
  norm_num

theorem screwH_pos : 0 < screwH := by unfold screwH; positivity

/-- The right screw, with its symmetry axis along the third axis. -/
noncomputable def screw : Fin 4 → Fin 3 → ℝ :=
  ![![-1 / 2, 0, screwH], ![-1 / 2, -2 * screwH, -screwH], ![1 / 2, 0, screwH], ![1 / 2, 2 * screwH, -screwH]]

noncomputable def screwR : Fin 3 → Fin 3 → ℝ :=
  ![![1, 0, 0], ![0, -2 * screwH, 2 * screwH], ![0, -2 * screwH, -2 * screwH]]

theorem screwR_orthogonal : IsOrthogonal screwR := by
  have h := screwH_sq
  intro i j
  fin_cases i <;> fin_cases j <;> simp [screwR, Fin.sum_univ_three] <;> linarith

theorem screwR_det : det3x3 screwR = 1 := by
  have h := screwH_sq
  simp [det3x3, screwR]
  linarith

theorem screw_eq : screw = rotated screwR (tetracubes 6) := by
  funext b k
  rw [right_eq]
  fin_cases b <;> fin_cases k <;> simp [screw, screwR, rotated, vecMul, Fin.sum_univ_three] <;> ring

theorem centered_screw : centered screw = screw := by
  funext b k
  have : ∑ c, screw c k = 0 := by
    fin_cases k <;> simp [screw, Fin.sum_univ_four] <;> ring
  simp [centered, this]

/-! ## its features -/

theorem length_screw : length (screw 0) = Real.sqrt (3 / 8) ∧ length (screw 1) = Real.sqrt (7 / 8) ∧
    length (screw 2) = Real.sqrt (3 / 8) ∧ length (screw 3) = Real.sqrt (7 / 8) := by
  have h := screwH_sq
  unfold length
  refine ⟨?_, ?_, ?_, ?_⟩ <;> congr 1 <;> simp [screw, Fin.sum_univ_three] <;> linarith

theorem bounds_a : 1 / 2 < Real.sqrt (3 / 8) ∧ Real.sqrt (3 / 8) < 3 / 4 :=
  ⟨Real.lt_sqrt_of_sq_lt (by norm_num), (Real.sqrt_lt' (by norm_num)).2 (by norm_num)⟩

theorem bounds_b : 3 / 4 < Real.sqrt (7 / 8) ∧ Real.sqrt (7 / 8) < 1 :=
  ⟨Real.lt_sqrt_of_sq_lt (by norm_num), (Real.sqrt_lt' (by norm_num)).2 (by norm_num)⟩

/-- The third radial function sees only the inner cubes, the fifth only the outer ones. -/
theorem windows : ∃ wa wb : ℝ, 0 < wa ∧ 0 < wb ∧ triangularWindow (Real.sqrt (3 / 8)) 8 2 2 = wa ∧
    triangularWindow (Real.sqrt (7 / 8)) 8 2 2 = 0 ∧ triangularWindow (Real.sqrt (3 / 8)) 8 2 4 = 0 ∧
    triangularWindow (Real.sqrt (7 / 8)) 8 2 4 = wb := by
  obtain ⟨a1, a2⟩ := bounds_a
  obtain ⟨b1, b2⟩ := bounds_b
  generalize Real.sqrt (3 / 8) = ra at *
  generalize Real.sqrt (7 / 8) = rb at *
  refine ⟨_, _, ?_, ?_, rfl, ?_, ?_, rfl⟩ <;> simp only [triangularWindow, linspace0] <;> norm_num
  · constructor <;> linarith
  · constructor <;> linarith
  · right; linarith
  · left; linarith

/-- The features of the right screw. -/
noncomputable def screwVal (i f : ℕ) : ℝ := (∑ b, pointBasis true 8 2 (screw b) i f) / (4 : ℕ)

theorem screwVal_facts : screwVal 0 2 ≠ 0 ∧ screwVal 1 2 = 0 ∧ screwVal 2 2 = 0 ∧ screwVal 3 2 ≠ 0 ∧ screwVal 4 2 ≠ 0 ∧
    screwVal 5 2 = 0 ∧ screwVal 6 2 = 0 ∧ screwVal 7 2 = 0 ∧ screwVal 5 4 ≠ 0 ∧ screwVal 6 4 = 0 ∧ screwVal 7 4 = 0 := by
  obtain ⟨wa, wb, ha, hb, a2, b2, a4, b4⟩ := windows
  obtain ⟨l0, l1, l2, l3⟩ := length_screw
  have pa := bounds_a.1
  have pb := bounds_b.1
  obtain ⟨A, B, hA, hB, hp, hm, C, hp1, hm1⟩ := harmonic_two
  obtain ⟨h3, h4, h5, h6, h7, h8⟩ := order_facts
  have ha0 : (0 : ℝ) < Real.sqrt (3 / 8) := by linarith
  have hb0 : (0 : ℝ) < Real.sqrt (7 / 8) := by linarith
  have hh := screwH_pos
  have e2 : ∀ i, i < 9 → screwVal i 2 = (harmonic (degreeOf i) (componentOrder true i) (fun k => screw 0 k / Real.sqrt (3 / 8)) +
      harmonic (degreeOf i) (componentOrder true i) (fun k => screw 2 k / Real.sqrt (3 / 8))) * (wa / 4) := by
    intro i hi
    unfold screwVal pointBasis
    rw [Fin.sum_univ_four]
    simp only [l0, l1, l2, l3, if_pos ha0, if_pos hb0, a2, b2, if_pos hi, show ((2 : ℕ) + 1) ^ 2 = 9 from rfl]
    push_cast
    ring
  have e4 : ∀ i, i < 9 → screwVal i 4 = (harmonic (degreeOf i) (componentOrder true i) (fun k => screw 1 k / Real.sqrt (7 / 8)) +
      harmonic (degreeOf i) (componentOrder true i) (fun k => screw 3 k / Real.sqrt (7 / 8))) * (wb / 4) := by
    intro i hi
    unfold screwVal pointBasis
    rw [Fin.sum_univ_four]
    simp only [l0, l1, l2, l3, if_pos ha0, if_pos hb0, a4, b4, if_pos hi, show ((2 : ℕ) + 1) ^ 2 = 9 from rfl]
    push_cast
    ring
  have d : degreeOf 0 = 0 ∧ degreeOf 1 = 1 ∧ degreeOf 2 = 1 ∧ degreeOf 3 = 1 ∧ degreeOf 4 = 2 ∧ degreeOf 5 = 2 ∧
      degreeOf 6 = 2 ∧ degreeOf 7 = 2 := by decide +kernel
  have o : componentOrder true 0 = 0 ∧ componentOrder true 1 = 1 ∧ componentOrder true 2 = -1 := by decide +kernel
  obtain ⟨d0, d1, d2, d3, d4, d5, d6, d7⟩ := d
  obtain ⟨o0, o1, o2⟩ := o
  refine ⟨?_, ?_, ?_, ?_, ?_, ?_, ?_, ?_, ?_, ?_, ?_⟩
  · rw [e2 0 (by norm_num), d0, o0, harmonic_zero, harmonic_zero]; positivity
  · rw [e2 1 (by norm_num), d1, o1, harmonic_one_pos, harmonic_one_pos]
    simp [screw]; left; ring
  · rw [e2 2 (by norm_num), d2, o2, harmonic_one_neg, harmonic_one_neg]
    simp [screw]
  · rw [e2 3 (by norm_num), d3, h3, harmonic_one_zero, harmonic_one_zero]
    simp only [screw, Matrix.cons_val]
    positivity
  · rw [e2 4 (by norm_num), d4, h4, hp, hp]
    simp only [screw, Matrix.cons_val, zero_div]
    have : (0 : ℝ) < (1 / 2 / Real.sqrt (3 / 8)) ^ 2 := by positivity
    have e : (-1 / 2 / Real.sqrt (3 / 8)) ^ 2 = (1 / 2 / Real.sqrt (3 / 8)) ^ 2 := by ring
    rw [e]
    refine ne_of_gt ?_
    have : 0 < A * ((1 / 2 / Real.sqrt (3 / 8)) ^ 2 - 0 ^ 2) := by rw [zero_pow two_ne_zero, sub_zero]; positivity
    positivity
  · rw [e2 5 (by norm_num), d5, h5, hm, hm]
    simp [screw]
  · rw [e2 6 (by norm_num), d6, h6, hp1, hp1]
    simp [screw]; left; ring
  · rw [e2 7 (by norm_num), d7, h7, hm1, hm1]
    simp [screw]
  · rw [e4 5 (by norm_num), d5, h5, hm, hm]
    have : B * (-1 / 2 / Real.sqrt (7 / 8) * (-2 * screwH / Real.sqrt (7 / 8))) +
      B * (1 / 2 / Real.sqrt (7 / 8) * (2 * screwH / Real.sqrt (7 / 8))) = 2 * B * screwH / (Real.sqrt (7 / 8)) ^ 2 := by
      field_simp
      ring
    simp only [screw, Matrix.cons_val]
    rw [this]
    positivity
  · rw [e4 6 (by norm_num), d6, h6, hp1, hp1]
    simp [screw]; left; ring
  · rw [e4 7 (by norm_num), d7, h7, hm1, hm1]
    simp [screw]; left; ring

/-! ## a network that separates the screws -/

/-- The parameters: the first layer computes a vector from the inner cubes and, from the quadrupoles of inner and outer cubes,
an axial vector; the second layer computes their inner product, a pseudoscalar. It is weighted with `s` in the logits of the
right screw and with `-s` in those of the left screw. -/
noncomputable def screwNet (s : ℝ) : TetraNet where
  features := 8
  maxDegree := 2
  dense1 := ⟨fun _ _ f o => if (o ≠ 9 ∧ f = 2) ∨ (o = 9 ∧ f = 4) then 1 else 0, fun _ => 0⟩
  tensor1 := .tensor fun _ l _ m _ n f => if (f = 0 ∧ l = 0 ∧ m = 1 ∧ n = 1) ∨ (f = 1 ∧ l = 2 ∧ m = 2 ∧ n = 1) then 1 else 0
  includePseudo := true
  dense2 := ⟨fun _ _ f o => if (o = 0 ∧ f = 0) ∨ (o = 8 ∧ f = 1) then 1 else 0, fun _ => 0⟩
  tensor2 := .tensor fun p l q m r _ f => if f = 0 ∧ p = 1 ∧ l = 1 ∧ q = 0 ∧ m = 1 ∧ r = 1 then 1 else 0
  kernel := fun j k => if j = 8 then (if k = 6 then s else if k = 7 then -s else 0) else 0
  bias := fun _ => 0

/-- The pseudoscalar of the right screw. -/
noncomputable def screwScalar : ℝ :=
  screwVal 0 2 * screwVal 3 2 * cgTensor true 0 3 3 * (screwVal 4 2 * screwVal 5 4 * cgTensor true 4 5 3) * cgTensor true 3 3 0

theorem screwScalar_ne : screwScalar ≠ 0 := by
  obtain ⟨h0, -, -, h3, h4, -, -, -, h5, -⟩ := screwVal_facts
  have c1 : cgTensor true 0 3 3 ≠ 0 := by
    have := cg_scalar_vec_vec 2 2
    rw [if_pos rfl] at this
    have h := cg_scalar_vec_sq
    rw [show ((1 : ℕ) + (2 : Fin 3)) = 3 from rfl] at this
    rw [this]
    intro h'
    rw [h'] at h
    norm_num at h
  have c2 : cgTensor true 3 3 0 ≠ 0 := by
    have := cg_vec_vec_scalar 2 2
    rw [if_pos rfl] at this
    have h := cg_vec_vec_scalar_sq
    rw [show ((1 : ℕ) + (2 : Fin 3)) = 3 from rfl] at this
    rw [this]
    intro h'
    rw [h'] at h
    norm_num at h
  unfold screwScalar
  exact mul_ne_zero (mul_ne_zero (mul_ne_zero (mul_ne_zero h0 h3) c1) (mul_ne_zero (mul_ne_zero h4 h5) cg_four_five)) c2

theorem sum_nine (g : ℕ → ℝ) : ∑ i ∈ range 9, g i = g 0 + g 1 + g 2 + g 3 + g 4 + g 5 + g 6 + g 7 + g 8 := by
  simp [sum_range_succ]

theorem dg_facts : deg 0 = 0 ∧ deg 1 = 1 ∧ deg 2 = 1 ∧ deg 3 = 1 ∧ deg 4 = 2 ∧ deg 5 = 2 ∧ deg 6 = 2 ∧ deg 7 = 2 ∧ deg 8 = 2 := by
  decide +kernel

theorem screw_last (s : ℝ) : ∃ z, tetraLast (cgTensor true) (screwNet s) ⟨false, 2, 8, fun _ i f => screwVal i f⟩ = .ok z ∧
    z.L = 0 ∧ z.F = 8 ∧ z.pseudo = true ∧ z.val 1 0 0 = screwScalar := by
  set x : Feat := ⟨false, 2, 8, fun _ i f => screwVal i f⟩ with hx
  obtain ⟨z, hz, zL, zF, zp⟩ := tetraLast_ok (cgTensor true) (screwNet s) x rfl
  have zp : z.pseudo = true := zp.2 ⟨rfl, by simp [hx]⟩
  refine ⟨z, hz, zL, zF, zp, ?_⟩
  obtain ⟨g0, g1, g2, g3, g4, g5, g6, g7, g8⟩ := dg_facts
  obtain ⟨-, f1, f2, -, -, f5, f6, f7, -, f6', f7'⟩ := screwVal_facts
  unfold tetraLast at hz
  cases hy : tetraHidden (cgTensor true) (screwNet s) x with
  | error e => rw [hy] at hz; cases hz
  | ok y =>
    rw [hy] at hz
    change tensorDense none true ⟨some 0, true⟩ (screwNet s).dense2 (screwNet s).tensor2 (cgTensor true) y = .ok z at hz
    unfold tetraHidden at hy
    obtain ⟨yL, yF, yp⟩ := tensorDense_hdr hy
    have yL : y.L = 2 := yL
    have yF : y.F = 8 := yF
    have yp : y.pseudo = true := yp.2 ⟨rfl, by simp [hx]⟩
    -- the features after the first dense layer
    have u : ∀ p l o, l < 9 → comp (dense (2 * 8) true (screwNet s).dense1 x) p l o =
        if p = deg l % 2 then screwVal l (if o = 9 then 4 else 2) else 0 := by
      intro p l o hl
      rw [(C12_dense (2 * 8) true (screwNet s).dense1 x).2.2.2]
      have hc : ∀ f, comp x p l f = if p = deg l % 2 then screwVal l f else 0 := by
        intro f
        unfold comp
        by_cases h : p = deg l % 2
        · rw [if_neg (by rw [h, show x.L = 2 from rfl]; omega), if_neg (by simp [hx]), if_pos h]
        · rw [show x.pseudo = false from rfl]
          simp [h]
      rw [show (if (true = true ∧ p = 0 ∧ l = 0) then (screwNet s).dense1.bias o else 0) = 0 from ite_self _, add_zero,
        show x.F = 8 from rfl]
      by_cases ho : o = 9
      · rw [sum_eq_single 4]
        · rw [hc, show (screwNet s).dense1.kernel p (deg l) 4 o = 1 from if_pos (Or.inr ⟨ho, rfl⟩), mul_one, if_pos ho]
        · intro f _ hf
          rw [show (screwNet s).dense1.kernel p (deg l) f o = 0 from if_neg (by omega), mul_zero]
        · intro h; exact absurd (mem_range.2 (by norm_num)) h
      · rw [sum_eq_single 2]
        · rw [hc, show (screwNet s).dense1.kernel p (deg l) 2 o = 1 from if_pos (Or.inl ⟨ho, rfl⟩), mul_one, if_neg ho]
        · intro f _ hf
          rw [show (screwNet s).dense1.kernel p (deg l) f o = 0 from if_neg (by omega), mul_zero]
        · intro h; exact absurd (mem_range.2 (by norm_num)) h
    -- the vector
    have y1 : ∀ n, 1 ≤ n → n < 4 → comp y 1 n 0 = screwVal 0 2 * screwVal 3 2 * cgTensor true 0 3 n := by
      intro n h1 h4
      rw [tensorDense_comp _ _ _ _ _ _ _ _ hy (by norm_num) (by rw [yL]; omega) yp]
      simp only [Option.getD_none, show x.F = 8 from rfl, show x.L = 2 from rfl, show ((2 : ℕ) + 1) ^ 2 = 9 from rfl]
      rw [sum_congr rfl fun p _ => sum_congr rfl fun q _ => by
        rw [sum_congr rfl fun l hl => sum_congr rfl fun m hm => by rw [u _ _ _ (mem_range.1 hl), u _ _ _ (mem_range.1 hm)]]]
      simp [sum_two, sum_nine, g0, g1, g2, g3, g4, g5, g6, g7, g8, dg_one h1 h4, f1, f2]
    -- the axial vector
    have y0 : comp y 0 3 1 = screwVal 4 2 * screwVal 5 4 * cgTensor true 4 5 3 := by
      rw [tensorDense_comp _ _ _ _ _ _ _ _ hy (by norm_num) (by rw [yL]; norm_num) yp]
      simp only [Option.getD_none, show x.F = 8 from rfl, show x.L = 2 from rfl, show ((2 : ℕ) + 1) ^ 2 = 9 from rfl]
      rw [sum_congr rfl fun p _ => sum_congr rfl fun q _ => by
        rw [sum_congr rfl fun l hl => sum_congr rfl fun m hm => by rw [u _ _ _ (mem_range.1 hl), u _ _ _ (mem_range.1 hm)]]]
      simp [sum_two, sum_nine, g0, g1, g2, g3, g4, g5, g6, g7, g8, f5, f6, f7, f6', f7', cg_diag 4, cg_diag 8,
        cg_off 4 8, cg_off 8 4, cg_off 8 5]
    -- the features after the second dense layer
    have v : ∀ p l, comp (dense (2 * 8) true (screwNet s).dense2 y) p l 0 = comp y p l 0 ∧
        comp (dense (2 * 8) true (screwNet s).dense2 y) p l (8 + 0) = comp y p l 1 := by
      intro p l
      have h := (C12_dense (2 * 8) true (screwNet s).dense2 y).2.2.2
      refine ⟨?_, ?_⟩ <;>
        rw [h, yF, show (if (true = true ∧ p = 0 ∧ l = 0) then (screwNet s).dense2.bias _ else 0) = 0 from ite_self _, add_zero]
      · rw [sum_eq_single 0]
        · rw [show (screwNet s).dense2.kernel p (deg l) 0 0 = 1 by simp [screwNet], mul_one]
        · intro f _ hf
          rw [show (screwNet s).dense2.kernel p (deg l) f 0 = 0 by simp [screwNet, hf], mul_zero]
        · intro h; exact absurd (mem_range.2 (by norm_num)) h
      · rw [sum_eq_single 1]
        · rw [show (screwNet s).dense2.kernel p (deg l) 1 (8 + 0) = 1 by simp [screwNet], mul_one]
        · intro f _ hf
          rw [show (screwNet s).dense2.kernel p (deg l) f (8 + 0) = 0 by simp [screwNet, hf], mul_zero]
        · intro h; exact absurd (mem_range.2 (by norm_num)) h
    have hv : z.val 1 0 0 = comp z 1 0 0 := by
      unfold comp
      rw [if_neg (by rw [zL]; norm_num), if_pos zp]
    rw [hv, tensorDense_comp _ _ _ _ _ _ _ _ hz (by norm_num) (by rw [zL]; norm_num) zp]
    simp only [Option.getD_none, yF, yL, show ((2 : ℕ) + 1) ^ 2 = 9 from rfl, (v _ _).1, (v _ _).2]
    have cv := cg_vec_vec_scalar
    have c31 := cv 2 0
    have c32 := cv 2 1
    have s1 := cg_scalar_vec_vec 2 0
    have s2 := cg_scalar_vec_vec 2 1
    simp at c31 c32 s1 s2
    simp [sum_two, sum_nine, g0, g1, g2, g3, g4, g5, g6, g7, g8, yp, slot, y1, s1, s2, c31, c32, y0]
    unfold screwScalar
    ring

theorem screw_flat (s : ℝ) {z : Feat} (zL : z.L = 0) (zF : z.F = 8) (zp : z.pseudo = true) (hv : z.val 1 0 0 = screwScalar) :
    flatDense (screwNet s).kernel (screwNet s).bias z =
      fun k => if k = 6 then screwScalar * s else if k = 7 then -(screwScalar * s) else 0 := by
  funext k
  unfold flatDense
  rw [zL, zF, zp]
  rw [show chan true = 2 from rfl, sum_two, sum_eq_zero, zero_add, show ((0 : ℕ) + 1) ^ 2 = 1 from rfl, sum_range_one,
    sum_eq_single 0]
  · simp only [screwNet, hv]
    split_ifs <;> simp_all
  · intro f _ hf
    simp [screwNet, hf]
  · simp
  · intro i hi
    refine sum_eq_zero fun f hf => ?_
    have hi := mem_range.1 hi
    have hf := mem_range.1 hf
    rw [show (screwNet s).kernel ((0 * (0 + 1) ^ 2 + i) * 8 + f) k = 0 from if_neg (by omega), mul_zero]

theorem screw_logits (tiny : ℝ) (ht : 0 < tiny) (disk : Disk SHCompressed)
    (hd : ValidDisk (shKind sphTerms) (shTable sphTerms) disk) (o : SaveOutcome) (cg : ℕ → ℕ → ℕ → ℝ)
    (hcg : LibraryCG true cg) (s : ℝ) : tetraLogits tiny disk o true cg (screwNet s) (tetracubes 6) =
      .ok fun k => if k = 6 then screwScalar * s else if k = 7 then -(screwScalar * s) else 0 := by
  rw [← logits_rotate tiny ht disk hd o o true cg hcg (screwNet s) (by norm_num) (tetracubes 6) screwR screwR_orthogonal
    screwR_det, ← screw_eq, libraryCG_eq hcg]
  obtain ⟨z, hz, zL, zF, zp, hv⟩ := screw_last s
  rw [← screw_flat s zL zF zp hv]
  refine tetraLogits_eq tiny disk o true _ (screwNet s) _ ?_ hz
  rw [centered_screw]
  exact cubeFeatures_eq tiny ht disk hd o true 8 2 (by norm_num) screw

theorem flipPseudo_screwNet (s : ℝ) : flipPseudo (screwNet s) = screwNet (-s) := by
  unfold flipPseudo screwNet
  simp only [TetraNet.mk.injEq, true_and, and_true]
  funext j k
  split_ifs <;> first | omega | rfl | simp

theorem argmax_six {t : ℝ} (ht : 0 < t) : argmax (fun k => if k = 6 then t else if k = 7 then -t else 0) = 6 := by
  unfold argmax
  simp [List.finRange_succ, Fin.ext_iff, ht, ht.le]

theorem argmax_seven {t : ℝ} (ht : 0 < t) : argmax (fun k => if k = 6 then -t else if k = 7 then t else 0) = 7 := by
  unfold argmax
  have h : ¬ t < 0 := ht.le.not_gt
  simp [List.finRange_succ, Fin.ext_iff, ht, h]

/-- **C67 (screws can be separated).** With the attributes of the example (eight features, degree two, pseudotensors) there are
parameters for which the right and the left screw, moved in any way, are both classified correctly. -/
theorem C67_separates : ∃ net : TetraNet, net.features = 8 ∧ net.maxDegree = 2 ∧ net.includePseudo = true ∧
    ∀ (tiny : ℝ), 0 < tiny → ∀ disk : Disk SHCompressed, ValidDisk (shKind sphTerms) (shTable sphTerms) disk →
      ∀ (o : SaveOutcome) (cg : ℕ → ℕ → ℕ → ℝ), LibraryCG true cg →
      ∀ move : (Fin 4 → Fin 3 → ℝ) → Fin 4 → Fin 3 → ℝ, IsMotion move →
        (∃ y, tetraLogits tiny disk o true cg net (move (tetracubes 6)) = .ok y ∧ argmax y = 6) ∧
        ∃ y, tetraLogits tiny disk o true cg net (move (tetracubes 7)) = .ok y ∧ argmax y = 7 := by
  have hS : 0 < screwScalar * screwScalar := mul_self_pos.2 screwScalar_ne
  refine ⟨screwNet screwScalar, rfl, rfl, rfl, fun tiny ht disk hd o cg hcg move hm => ⟨⟨_, ?_, argmax_six hS⟩, _, ?_,
    argmax_seven hS⟩⟩
  · rw [C67_invariance tiny ht disk hd o o true cg hcg _ (by norm_num) _ move hm, screw_logits tiny ht disk hd o cg hcg]
  · rw [C67_invariance tiny ht disk hd o o true cg hcg _ (by norm_num) _ move hm, left_screw,
      logits_perm tiny ht disk hd o o true cg _ (by norm_num),
      C67_reflection tiny ht disk hd o o true cg hcg _ (by norm_num) _ swapXY
        (signedPerm_orthogonal _ _ fun _ => by norm_num)
        (by simp [det3x3, swapXY, signedPerm, Equiv.swap_apply_def]), flipPseudo_screwNet, screw_logits tiny ht disk hd o cg hcg]
    congr 1
    funext k
    simp only [mul_neg, neg_neg]

/-! ## the hypotheses can be met -/

/-- A quarter turn about the third axis, a shift, and another order of the cubes. -/
noncomputable def quarterTurn (X : Fin 4 → Fin 3 → ℝ) : Fin 4 → Fin 3 → ℝ :=
  translated ![1, 2, 3] (rotated (signedPerm (Equiv.swap 0 1) ![1, -1, 1]) X) ∘ Equiv.swap (0 : Fin 4) 1

theorem quarterTurn_isMotion : IsMotion quarterTurn :=
  ⟨_, signedPerm_orthogonal _ _ fun i => by fin_cases i <;> norm_num, by simp [det3x3, signedPerm, Equiv.swap_apply_def], _, _,
    fun _ => rfl⟩

example : (∃ y, tetraLogits 1 (noFiles _) .success true (cgTensor true) (screwNet screwScalar) (quarterTurn (tetracubes 6)) = .ok y) ∧
    tetraLogits 1 (noFiles _) .success true (cgTensor true) (screwNet 2) (quarterTurn (tetracubes 3)) =
      tetraLogits 1 (noFiles _) .success true (cgTensor true) (screwNet 2) (tetracubes 3) ∧
    classifyStep (tetraLogits 1 (noFiles _) .success true (cgTensor true) (screwNet 2)) (movedBatch (fun _ => quarterTurn) allTetracubes) =
      classifyStep (tetraLogits 1 (noFiles _) .success true (cgTensor true) (screwNet 2)) allTetracubes :=
  ⟨C67_exists 1 one_pos _ (noFiles_valid _ _) _ _ _ _ (by norm_num) _,
    C67_invariance 1 one_pos _ (noFiles_valid _ _) _ _ _ _ (libraryCG_cgTensor true) _ (by norm_num) _ _ quarterTurn_isMotion,
    C67_eval 1 one_pos _ (noFiles_valid _ _) _ _ _ _ (libraryCG_cgTensor true) _ (by norm_num) _ _ fun _ => quarterTurn_isMotion⟩

example : IsOrthogonal swapXY ∧ det3x3 swapXY = -1 ∧ ({ screwNet 1 with includePseudo := false } : TetraNet).includePseudo = false :=
  ⟨signedPerm_orthogonal _ _ fun _ => by norm_num, by simp [det3x3, swapXY, signedPerm, Equiv.swap_apply_def], rfl⟩

-- Without pseudotensors this network (and every other) misclassifies at least one of the eight shapes.
example : ∃ loss accuracy, classifyStep (tetraLogits 1 (noFiles _) .success true (cgTensor true)
    { screwNet 1 with includePseudo := false }) allTetracubes = .ok (loss, accuracy) ∧ accuracy ≤ 7 / 8 ∧ Real.log 2 / 4 ≤ loss :=
  C67_seven_eighths 1 one_pos _ (noFiles_valid _ _) _ _ _ (libraryCG_cgTensor true) _ rfl

end E3x
