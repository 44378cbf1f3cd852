import Verif.Spec.Exchange
import Verif.Lemmas.Exchange
import Verif.Lemmas.Inertia
import Verif.Props.ClebschGordan
import Verif.Props.Tensor

/-!
# C68: exchange symmetry and values of Clebsch-Gordan coefficients
-/

namespace E3x

open Finset Spec
open scoped Nat

theorem neg_one_zpow_degrees (a b c : ℕ) : (-1 : ℝ) ^ ((a : ℤ) + b - c) = (-1) ^ (a + b + c) := by
  rw [← zpow_natCast]
  push_cast
  rcases Int.even_or_odd ((a : ℤ) + b - c) with h | h
  · rw [h.neg_one_zpow, Even.neg_one_zpow (by rw [Int.even_iff] at h ⊢; omega)]
  · rw [h.neg_one_zpow, Odd.neg_one_zpow (by rw [Int.odd_iff] at h ⊢; omega)]

theorem cgTensor_swap (cart : Bool) (i j k : ℕ) :
    cgTensor cart j i k = (-1) ^ (degreeOf i + degreeOf j + degreeOf k) * cgTensor cart i j k := by
  unfold cgTensor
  rw [symCG_swap _ _ _ _ _ _ (componentOrder_bounds cart i) (componentOrder_bounds cart j) (componentOrder_bounds cart k),
    neg_one_zpow_degrees]

/-- **C68 (exchange).** Exchanging the two irreps that are coupled changes the sign of the coefficients if the sum of the three
degrees is odd, and nothing else. -/
theorem C68_exchange (disk disk' : Disk CGCompressed)
    (hd : ValidDisk (cgKind symClebschGordan) (cgTable symClebschGordan) disk)
    (hd' : ValidDisk (cgKind symClebschGordan) (cgTable symClebschGordan) disk') (o o' : SaveOutcome) (l1 l2 l3 : ℕ)
    (cart : Bool) :
    ∃ CG CG', clebschGordan disk o l1 l2 l3 cart = .ok CG ∧ clebschGordan disk' o' l2 l1 l3 cart = .ok CG' ∧
      ∀ i < (l1 + 1) ^ 2, ∀ j < (l2 + 1) ^ 2, ∀ k < (l3 + 1) ^ 2,
        CG' j i k = (-1) ^ (degreeOf i + degreeOf j + degreeOf k) * CG i j k := by
  refine ⟨_, _, clebschGordan_eq disk hd o l1 l2 l3 cart, clebschGordan_eq disk' hd' o' l2 l1 l3 cart, ?_⟩
  intro i hi j hj k hk
  rw [if_pos (c := i < (l1 + 1) ^ 2 ∧ _) ⟨hi, hj, hk⟩, if_pos ⟨hj, hi, hk⟩, cgTensor_swap]

/-- **C68 (no odd degrees).** Coupling irreps of some degree with themselves gives zero in all odd degrees (for vectors: the
cross product of a vector with itself). -/
theorem C68_no_odd (disk : Disk CGCompressed) (hd : ValidDisk (cgKind symClebschGordan) (cgTable symClebschGordan) disk)
    (o : SaveOutcome) (l L : ℕ) (cart : Bool) :
    ∃ CG, clebschGordan disk o l l L cart = .ok CG ∧ ∀ (v : ℕ → ℝ), ∀ k < (L + 1) ^ 2, Odd (degreeOf k) →
      ∑ i ∈ Ico (l ^ 2) ((l + 1) ^ 2), ∑ j ∈ Ico (l ^ 2) ((l + 1) ^ 2), v i * v j * CG i j k = 0 := by
  refine ⟨_, clebschGordan_eq disk hd o l l L cart, fun v k hk hodd => ?_⟩
  have e : ∀ i ∈ Ico (l ^ 2) ((l + 1) ^ 2), degreeOf i = l := by
    intro i hi
    rw [mem_Ico] at hi
    exact (Nat.eq_sqrt'.2 hi).symm
  have key : ∀ i ∈ Ico (l ^ 2) ((l + 1) ^ 2), ∀ j ∈ Ico (l ^ 2) ((l + 1) ^ 2),
      cgTensor cart j i k = -cgTensor cart i j k := by
    intro i hi j hj
    rw [cgTensor_swap, e i hi, e j hj, Odd.neg_one_pow (Even.add_odd ⟨l, rfl⟩ hodd), neg_one_mul]
  have h : ∀ i ∈ Ico (l ^ 2) ((l + 1) ^ 2), ∀ j ∈ Ico (l ^ 2) ((l + 1) ^ 2),
      v i * v j * (if i < (l + 1) ^ 2 ∧ j < (l + 1) ^ 2 ∧ k < (L + 1) ^ 2 then cgTensor cart i j k else 0) =
        v i * v j * cgTensor cart i j k := by
    intro i hi j hj
    rw [if_pos ⟨(mem_Ico.1 hi).2, (mem_Ico.1 hj).2, hk⟩]
  rw [sum_congr rfl fun i hi => sum_congr rfl fun j hj => h i hi j hj]
  have hs : ∑ i ∈ Ico (l ^ 2) ((l + 1) ^ 2), ∑ j ∈ Ico (l ^ 2) ((l + 1) ^ 2), v i * v j * cgTensor cart i j k =
      -∑ i ∈ Ico (l ^ 2) ((l + 1) ^ 2), ∑ j ∈ Ico (l ^ 2) ((l + 1) ^ 2), v i * v j * cgTensor cart i j k := by
    conv_lhs => rw [sum_comm]
    rw [← sum_neg_distrib]
    refine sum_congr rfl fun i hi => ?_
    rw [← sum_neg_distrib]
    refine sum_congr rfl fun j hj => ?_
    rw [key i hi j hj]
    ring
  linarith

/-- **C68 (Tensor layers).** A Tensor layer for exchanged inputs computes the same result with the kernel in which the axes of
the inputs are exchanged and the paths with an odd sum of degrees have the opposite sign. -/
theorem C68_tensor (cart : Bool) (cg : ℕ → ℕ → ℕ → ℝ) (hcg : LibraryCG cart cg) (cfg : TensorCfg) (K : TensorKernel) (x y z : Feat)
    (hz : tensor cfg K cg x y = .ok z) : ∃ z', tensor cfg (exchangedKernel K) cg y x = .ok z' ∧ z'.Same z := by
  rw [libraryCG_eq hcg] at hz ⊢
  have hF : x.F = y.F := by
    by_contra h
    unfold tensor at hz
    split at hz
    · cases hz
    · cases hz
  have hL : cfg.maxDegree.getD (max x.L y.L) ≤ x.L + y.L := by
    by_contra h
    unfold tensor at hz
    rw [if_pos (by unfold outDegree; omega)] at hz
    cases hz
  obtain ⟨w, hw, wL, wF, wp, wc⟩ := C15_tensor cfg K (cgTensor cart) x y hL hF
  rw [hz] at hw
  injection hw with hw
  subst hw
  obtain ⟨z', hz', zL, zF, zp, zc⟩ := C15_tensor cfg (exchangedKernel K) (cgTensor cart) y x
    (by rw [max_comm, add_comm]; exact hL) hF.symm
  have eL : z'.L = z.L := by rw [zL, wL, max_comm]
  have ep : z'.pseudo = z.pseudo := by
    rw [Bool.eq_iff_iff, zp, wp, max_comm y.L x.L]
    tauto
  refine ⟨z', hz', same_of_comp _ _ ep eL (by rw [zF, wF, hF]) fun r n f _ => ?_⟩
  rw [zc, wc, eL, ep]
  split
  · unfold coupled
    rw [sum_comm]
    refine sum_congr rfl fun p _ => sum_congr rfl fun q _ => ?_
    rw [add_comm q p]
    split
    · rw [sum_comm]
      refine sum_congr rfl fun l _ => sum_congr rfl fun m _ => ?_
      rw [cgTensor_swap cart l m n]
      unfold exchangedKernel
      have : ((-1 : ℝ) ^ (deg m + deg l + deg n)) * (-1) ^ (degreeOf l + degreeOf m + degreeOf n) = 1 := by
        rw [show degreeOf l + degreeOf m + degreeOf n = deg m + deg l + deg n from by
          rw [add_comm (deg m)]; rfl, ← pow_add, Even.neg_one_pow ⟨_, rfl⟩]
      linear_combination (comp y q m f * comp x p l f * K (slot x.pseudo p) (deg l) (slot y.pseudo q) (deg m)
        (slot z.pseudo r) (deg n) f * cgTensor cart l m n) * this
    · rfl
  · rfl

/-! ## coupling with scalars -/

theorem complexCG_zero (l : ℕ) (k k' : ℤ) (hk : |k| ≤ l) (hk' : |k'| ≤ l) :
    complexCG 0 l l 0 k k' = if k = k' then 1 else 0 := by
  by_cases h : k = k'
  · subst h
    rw [if_pos rfl, complexCG_eq 0 l l 0 0 (2 * l) ⟨rfl, by omega, by omega⟩ 0 k k (by simp) hk hk (by ring)]
    rw [abs_le] at hk
    have : Icc (cgLo 0 l l 0 k) (cgHi 0 l l 0 k) = {0} := by
      ext i
      simp only [cgLo, cgHi, mem_Icc, mem_singleton]
      omega
    rw [this, sum_singleton]
    have h0 : sqrtFac 0 (Int.natAbs 0) = 1 := by simp [sqrtFac]
    have hl : sqrtFac l k.natAbs * sqrtFac l k.natAbs = ifac (l - k) * ifac (l + k) := by
      rw [sqrtFac_eq l k (abs_le.2 hk), Real.mul_self_sqrt (mul_pos (ifac_pos _) (ifac_pos _)).le]
    have hn : cgNorm 0 l l 0 0 (2 * l) = 1 := by
      unfold cgNorm
      rw [← Real.sqrt_mul (by positivity)]
      rw [show 0 + l + l + 1 = 2 * l + 1 by ring, Nat.factorial_succ]
      have : ((2 * l) ! : ℝ) ≠ 0 := by positivity
      have h2 : (2 * (l : ℝ) + 1) ≠ 0 := by positivity
      rw [Real.sqrt_eq_one]
      push_cast
      field_simp
      simp
    have ht : cgTerm 0 l l 0 k 0 = 1 / (ifac (l - k) * ifac (l + k)) := by
      unfold cgTerm
      simp [ifac]
    rw [hn, h0, one_mul, one_mul, hl, ht]
    have := ifac_pos (l - k)
    have := ifac_pos (l + k)
    field_simp
  · rw [if_neg h, complexCG_of_ne _ _ _ _ _ _ (by omega)]

theorem symCG_zero (l : ℕ) (m m' : ℤ) (hm : |m| ≤ l) (hm' : |m'| ≤ l) :
    symClebschGordan 0 0 l m l m' = if m = m' then 1 else 0 := by
  have e : symClebschGordanC 0 0 l m l m' = ((if m = m' then 1 else 0 : ℝ) : ℂ) := by
    have hn : |-m| ≤ l := by rwa [abs_neg]
    have hn' : |-m'| ≤ l := by rwa [abs_neg]
    have s2 : ((Real.sqrt 2 : ℝ) : ℂ) ^ 2 = 2 := by
      norm_cast
      rw [Real.sq_sqrt (by norm_num)]
    have s0 : ((Real.sqrt 2 : ℝ) : ℂ) ≠ 0 := by
      norm_cast
      positivity
    unfold symClebschGordanC
    dsimp only
    rw [neg_zero, complexCG_zero l m m' hm hm', complexCG_zero l m (-m') hm hn', complexCG_zero l (-m) m' hn hm',
      complexCG_zero l (-m) (-m') hn hn']
    have r0 : realCoeff 0 = (1 / 2, 1 / 2) := by simp [realCoeff]
    rw [r0]
    have s2' : ((Real.sqrt 2 : ℝ) : ℂ) * ((Real.sqrt 2 : ℝ) : ℂ) = 2 := by rw [← sq]; exact s2
    have I2 : Complex.I * Complex.I = -1 := Complex.I_mul_I
    by_cases h1 : m = m'
    · subst h1
      rcases lt_trichotomy m 0 with h | h | h
      · have hp : ¬ 0 < m := by omega
        have a1 : m ≠ -m := by omega
        have a2 : -m ≠ m := by omega
        by_cases h2 : m % 2 = 0 <;> simp [realCoeff, h, h2, a1, a2] <;> field_simp <;> rw [s2] <;> norm_num
      · subst h
        simp [realCoeff]
        rw [show (starRingEnd ℂ) 2 = 2 from Complex.conj_ofReal 2]
        norm_num
      · have hp : ¬ m < 0 := by omega
        have a1 : m ≠ -m := by omega
        have a2 : -m ≠ m := by omega
        by_cases h2 : m % 2 = 0 <;> simp [realCoeff, h, hp, h2, a1, a2] <;> field_simp <;> rw [s2] <;> norm_num
    · by_cases h3 : m = -m'
      · obtain rfl : m' = -m := by omega
        have a3 : (-m) % 2 = m % 2 := by omega
        rcases lt_trichotomy m 0 with h | h | h
        · have hp : ¬ 0 < m := by omega
          have a1 : m ≠ -m := by omega
          have a2 : -m ≠ m := by omega
          by_cases h2 : m % 2 = 0 <;> simp [realCoeff, h, hp, h2, a1, a2, a3] <;> field_simp <;> ring
        · subst h
          exact absurd rfl h1
        · have hp : ¬ m < 0 := by omega
          have a1 : m ≠ -m := by omega
          have a2 : -m ≠ m := by omega
          by_cases h2 : m % 2 = 0 <;> simp [realCoeff, h, hp, h2, a1, a2, a3] <;> field_simp <;> ring
      · have a1 : -m ≠ m' := by omega
        have a2 : -m ≠ -m' := by omega
        simp [h1, h3, a1, a2]
  unfold symClebschGordan
  rw [e, Complex.ofReal_re]

theorem cgTensor_zero (cart : Bool) (j k : ℕ) : cgTensor cart 0 j k = if j = k then 1 else 0 := by
  unfold cgTensor
  rw [show degreeOf 0 = 0 by decide +kernel, show componentOrder cart 0 = 0 by cases cart <;> decide +kernel]
  by_cases hd : degreeOf j = degreeOf k
  · have hb := componentOrder_bounds cart k
    rw [← hd] at hb ⊢
    rw [symCG_zero _ _ _ (componentOrder_bounds cart j) hb]
    by_cases h : j = k
    · rw [h, if_pos rfl, if_pos rfl]
    · rw [if_neg h, if_neg]
      intro h'
      exact h (component_inj cart hd h')
  · rw [symCG_of_not_tri _ _ _ _ _ _ (by omega), if_neg (by rintro rfl; exact hd rfl)]

/-- **C68 (scalars).** Coupling with the scalar 1 leaves irreps of every degree as they are, from both sides. -/
theorem C68_scalar (disk disk' : Disk CGCompressed)
    (hd : ValidDisk (cgKind symClebschGordan) (cgTable symClebschGordan) disk)
    (hd' : ValidDisk (cgKind symClebschGordan) (cgTable symClebschGordan) disk') (o o' : SaveOutcome) (L : ℕ) (cart : Bool) :
    ∃ CG CG', clebschGordan disk o 0 L L cart = .ok CG ∧ clebschGordan disk' o' L 0 L cart = .ok CG' ∧
      ∀ (v : ℕ → ℝ), ∀ k < (L + 1) ^ 2, ∑ j ∈ range ((L + 1) ^ 2), 1 * v j * CG 0 j k = v k ∧
        ∑ j ∈ range ((L + 1) ^ 2), v j * 1 * CG' j 0 k = v k := by
  refine ⟨_, _, clebschGordan_eq disk hd o 0 L L cart, clebschGordan_eq disk' hd' o' L 0 L cart, fun v k hk => ⟨?_, ?_⟩⟩
  · rw [sum_eq_single k]
    · rw [if_pos ⟨by norm_num, hk, hk⟩, cgTensor_zero, if_pos rfl]; ring
    · intro j hj hjk
      rw [cgTensor_zero, if_neg hjk, ite_self, mul_zero]
    · intro h; exact absurd (mem_range.2 hk) h
  · rw [sum_eq_single k]
    · rw [if_pos ⟨hk, by norm_num, hk⟩, cgTensor_swap, cgTensor_zero, if_pos rfl, show degreeOf 0 = 0 by decide +kernel, zero_add,
        Even.neg_one_pow ⟨_, rfl⟩]
      ring
    · intro j hj hjk
      rw [cgTensor_swap, cgTensor_zero, if_neg hjk, mul_zero, ite_self, mul_zero]
    · intro h; exact absurd (mem_range.2 hk) h

/-! ## products of vectors -/

theorem cg_dot_pos : 0 < cgTensor true 3 3 0 := by
  unfold cgTensor
  rw [show degreeOf 3 = 1 by decide +kernel, show degreeOf 0 = 0 by decide +kernel,
    show componentOrder true 3 = 0 by decide +kernel, show componentOrder true 0 = 0 by decide +kernel]
  have hc : complexCG 1 1 0 0 0 0 < 0 := by
    rw [complexCG_eq 1 1 0 2 0 0 ⟨rfl, rfl, rfl⟩ 0 0 0 (by norm_num) (by norm_num) (by norm_num) (by norm_num)]
    have : Icc (cgLo 1 1 0 0 0) (cgHi 1 1 0 0 0) = {1} := by decide
    rw [this, sum_singleton]
    have h1 : ∀ l k, 0 < sqrtFac l k := fun l k => by unfold sqrtFac; positivity
    have h2 : 0 < cgNorm 1 1 0 2 0 0 := by unfold cgNorm; positivity
    have h3 : cgTerm 1 1 0 0 0 1 < 0 := by
      unfold cgTerm
      norm_num [ifac]
    exact mul_neg_of_pos_of_neg (mul_pos h2 (mul_pos (mul_pos (h1 _ _) (h1 _ _)) (h1 _ _))) h3
  have e : symClebschGordanC 1 0 1 0 0 0 = ((-complexCG 1 1 0 0 0 0 : ℝ) : ℂ) := by
    unfold symClebschGordanC
    have r0 : realCoeff 0 = (1 / 2, 1 / 2) := by simp [realCoeff]
    rw [r0]
    simp
    rw [show (starRingEnd ℂ) 2 = 2 from Complex.conj_ofReal 2]
    ring
  unfold symClebschGordan
  rw [e, Complex.ofReal_re]
  linarith

theorem cg_cross_pos : 0 < cgTensor true 1 2 3 := by
  unfold cgTensor
  rw [show degreeOf 3 = 1 by decide +kernel, show degreeOf 2 = 1 by decide +kernel, show degreeOf 1 = 1 by decide +kernel,
    show componentOrder true 3 = 0 by decide +kernel, show componentOrder true 2 = -1 by decide +kernel,
    show componentOrder true 1 = 1 by decide +kernel]
  have hc : 0 < complexCG 1 1 1 1 (-1) 0 := by
    rw [complexCG_eq 1 1 1 1 1 1 ⟨rfl, rfl, rfl⟩ 1 (-1) 0 (by norm_num) (by norm_num) (by norm_num) (by norm_num)]
    have : Icc (cgLo 1 1 1 1 (-1)) (cgHi 1 1 1 1 (-1)) = {0} := by decide
    rw [this, sum_singleton]
    have h1 : ∀ l k, 0 < sqrtFac l k := fun l k => by unfold sqrtFac; positivity
    have h2 : 0 < cgNorm 1 1 1 1 1 1 := by unfold cgNorm; positivity
    have h3 : 0 < cgTerm 1 1 1 1 (-1) 0 := by
      unfold cgTerm
      norm_num [ifac]
    exact mul_pos (mul_pos h2 (mul_pos (mul_pos (h1 _ _) (h1 _ _)) (h1 _ _))) h3
  have e : symClebschGordanC 1 1 1 (-1) 1 0 = (complexCG 1 1 1 1 (-1) 0 : ℂ) := by
    have hn := complexCG_neg 1 1 1 1 (-1) 0 (by norm_num) (by norm_num) (by norm_num)
    norm_num at hn
    unfold symClebschGordanC realCoeff
    have s2 : ((Real.sqrt 2 : ℝ) : ℂ) ^ 2 = 2 := by
      norm_cast
      rw [Real.sq_sqrt (by norm_num)]
    have s0 : ((Real.sqrt 2 : ℝ) : ℂ) ≠ 0 := by
      norm_cast
      positivity
    norm_num [complexCG_of_ne 1 1 1 1 1 0 (by norm_num), complexCG_of_ne 1 1 1 (-1) (-1) 0 (by norm_num)]
    rw [hn, show (starRingEnd ℂ) 2 = 2 from Complex.conj_ofReal 2]
    push_cast
    field_simp
    rw [s2]
    linear_combination (-4 * (complexCG 1 1 1 1 (-1) 0 : ℂ)) * Complex.I_sq
  unfold symClebschGordan
  rw [e, Complex.ofReal_re]
  exact hc

theorem cg_dot : cgTensor true 1 1 0 = 1 / Real.sqrt 3 := by
  have h := cg_vec_vec_scalar_sq
  have hp := cg_dot_pos
  have e := cg_vec_vec_scalar 2 2
  rw [if_pos rfl, show ((1 : ℕ) + (2 : Fin 3)) = 3 from rfl] at e
  rw [e] at hp
  rw [eq_div_iff (by positivity)]
  have h2 : (cgTensor true 1 1 0 * Real.sqrt 3) ^ 2 = 1 := by
    rw [mul_pow, Real.sq_sqrt (by norm_num)]
    linarith
  nlinarith [mul_pos hp (Real.sqrt_pos.2 (show (0 : ℝ) < 3 by norm_num))]

theorem cg_vec_cyc (i j k : Fin 3) : cgTensor true (1 + finRotate 3 i) (1 + finRotate 3 j) (1 + finRotate 3 k) =
    cgTensor true (1 + i) (1 + j) (1 + k) := by
  have := cg_vec_vec_perm (finRotate 3) (fun _ => 1) (fun _ => by norm_num) i j k
  rw [← det3x3_eq, cyc_det] at this
  simpa using this

theorem cg_vec_zero (i j k : Fin 3) (h : i = j ∨ k = i ∨ k = j) : cgTensor true (1 + i) (1 + j) (1 + k) = 0 := by
  by_cases hij : i = j
  · subst hij
    have := cg_vec_antisymm i i k
    linarith
  · have hk : k = i ∨ k = j := h.resolve_left hij
    obtain ⟨a, h1, h2⟩ : ∃ a : Fin 3, a ≠ i ∧ a ≠ j := by clear hk h hij; revert i j; decide
    have := cg_vec_mirror a i j k
    rw [if_neg (Ne.symm h1), if_neg (Ne.symm h2), if_neg (by rcases hk with rfl | rfl <;> exact Ne.symm ‹_›)] at this
    linarith

theorem cg_vec_values : ∃ c, 0 < c ∧ 2 * c ^ 2 = 1 ∧ cgTensor true 1 2 3 = c ∧ cgTensor true 2 3 1 = c ∧ cgTensor true 3 1 2 = c ∧
    cgTensor true 2 1 3 = -c ∧ cgTensor true 3 2 1 = -c ∧ cgTensor true 1 3 2 = -c := by
  have e1 : cgTensor true 2 3 1 = cgTensor true 1 2 3 := cg_vec_cyc 0 1 2
  have e2 : cgTensor true 3 1 2 = cgTensor true 2 3 1 := cg_vec_cyc 1 2 0
  have n1 : cgTensor true 2 1 3 = -cgTensor true 1 2 3 := cg_vec_antisymm 0 1 2
  have n2 : cgTensor true 3 2 1 = -cgTensor true 2 3 1 := cg_vec_antisymm 1 2 0
  have n3 : cgTensor true 1 3 2 = -cgTensor true 3 1 2 := cg_vec_antisymm 2 0 1
  refine ⟨_, cg_cross_pos, ?_, rfl, e1, e2.trans e1, n1, by rw [n2, e1], by rw [n3, e2, e1]⟩
  have h := cgTensor_orthonormal true 1 1 3 3 (by decide +kernel) (by decide +kernel)
  rw [if_pos rfl, show Ico ((1 : ℕ) ^ 2) ((1 + 1) ^ 2) = {1, 2, 3} by decide] at h
  have z11 : cgTensor true 1 1 3 = 0 := cg_vec_zero 0 0 2 (by decide)
  have z22 : cgTensor true 2 2 3 = 0 := cg_vec_zero 1 1 2 (by decide)
  have z33 : cgTensor true 3 3 3 = 0 := cg_vec_zero 2 2 2 (by decide)
  have z13 : cgTensor true 1 3 3 = 0 := cg_vec_zero 0 2 2 (by decide)
  have z23 : cgTensor true 2 3 3 = 0 := cg_vec_zero 1 2 2 (by decide)
  have z31 : cgTensor true 3 1 3 = 0 := cg_vec_zero 2 0 2 (by decide)
  have z32 : cgTensor true 3 2 3 = 0 := cg_vec_zero 2 1 2 (by decide)
  simp [z11, z22, z33, z13, z23, z31, z32, n1] at h
  linarith

/-- **C68 (vectors).** In the default (Cartesian) order, two vectors couple to `1/√3` times their inner product in degree 0 and to
`1/√2` times their cross product in degree 1. -/
theorem C68_vectors (disk : Disk CGCompressed) (hd : ValidDisk (cgKind symClebschGordan) (cgTable symClebschGordan) disk)
    (o : SaveOutcome) : ∃ CG, clebschGordan disk o 1 1 1 true = .ok CG ∧ ∀ a b : Fin 3 → ℝ,
      ∑ i, ∑ j, a i * b j * CG (1 + i) (1 + j) 0 = (a 0 * b 0 + a 1 * b 1 + a 2 * b 2) / Real.sqrt 3 ∧
      ∑ i, ∑ j, a i * b j * CG (1 + i) (1 + j) 1 = (a 1 * b 2 - a 2 * b 1) / Real.sqrt 2 ∧
      ∑ i, ∑ j, a i * b j * CG (1 + i) (1 + j) 2 = (a 2 * b 0 - a 0 * b 2) / Real.sqrt 2 ∧
      ∑ i, ∑ j, a i * b j * CG (1 + i) (1 + j) 3 = (a 0 * b 1 - a 1 * b 0) / Real.sqrt 2 := by
  have hCG := clebschGordan_eq disk hd o 1 1 1 true
  push_cast at hCG
  refine ⟨_, hCG, fun a b => ?_⟩
  obtain ⟨c, hc, hc2, v1, v2, v3, n1, n2, n3⟩ := cg_vec_values
  have ec : c = 1 / Real.sqrt 2 := by
    rw [eq_div_iff (by positivity)]
    have h2 : (c * Real.sqrt 2) ^ 2 = 1 := by
      rw [mul_pow, Real.sq_sqrt (by norm_num)]
      linarith
    nlinarith [mul_pos hc (Real.sqrt_pos.2 (show (0 : ℝ) < 2 by norm_num))]
  have d := cg_vec_vec_scalar
  have d00 := d 0 0; have d01 := d 0 1; have d02 := d 0 2; have d10 := d 1 0; have d11 := d 1 1; have d12 := d 1 2
  have d20 := d 2 0; have d21 := d 2 1; have d22 := d 2 2
  simp at d00 d01 d02 d10 d11 d12 d20 d21 d22
  have z := cg_vec_zero
  have z111 := z 0 0 0 (by decide); have z112 := z 0 0 1 (by decide); have z113 := z 0 0 2 (by decide)
  have z221 := z 1 1 0 (by decide); have z222 := z 1 1 1 (by decide); have z223 := z 1 1 2 (by decide)
  have z331 := z 2 2 0 (by decide); have z332 := z 2 2 1 (by decide); have z333 := z 2 2 2 (by decide)
  have z121 := z 0 1 0 (by decide); have z122 := z 0 1 1 (by decide)
  have z211 := z 1 0 0 (by decide); have z212 := z 1 0 1 (by decide)
  have z131 := z 0 2 0 (by decide); have z133 := z 0 2 2 (by decide)
  have z311 := z 2 0 0 (by decide); have z313 := z 2 0 2 (by decide)
  have z232 := z 1 2 1 (by decide); have z233 := z 1 2 2 (by decide)
  have z322 := z 2 1 1 (by decide); have z323 := z 2 1 2 (by decide)
  simp at z111 z112 z113 z221 z222 z223 z331 z332 z333 z121 z122 z211 z212 z131 z133 z311 z313 z232 z233 z322 z323
  refine ⟨?_, ?_, ?_, ?_⟩
  · simp [Fin.sum_univ_three, d01, d02, d10, d11, d12, d20, d21, d22, cg_dot]
    ring
  all_goals
    simp [Fin.sum_univ_three, v1, v2, v3, n1, n2, n3, z111, z112, z113, z221, z222, z223, z331, z332, z333, z121, z122, z211, z212,
      z131, z133, z311, z313, z232, z233, z322, z323, ec]
    ring

-- The hypotheses hold without any cache files; in particular the degrees 2, 1 and 2 (odd sum) are coupled with opposite signs in
-- the two orders, and two equal vectors have no cross product.
example : ∃ CG CG', clebschGordan (noFiles _) .success 2 1 2 true = .ok CG ∧
    clebschGordan (noFiles _) .success 1 2 2 true = .ok CG' ∧ CG' 3 4 5 = -CG 4 3 5 := by
  obtain ⟨CG, CG', h, h', e⟩ := C68_exchange (noFiles _) (noFiles _) (noFiles_valid _ _) (noFiles_valid _ _) .success .success
    2 1 2 true
  refine ⟨CG, CG', h, h', ?_⟩
  rw [e 4 (by norm_num) 3 (by norm_num) 5 (by norm_num), show degreeOf 4 = 2 by decide +kernel,
    show degreeOf 3 = 1 by decide +kernel, show degreeOf 5 = 2 by decide +kernel]
  norm_num

example (a : Fin 3 → ℝ) : ∃ CG, clebschGordan (noFiles _) .success 1 1 1 true = .ok CG ∧
    ∑ i, ∑ j, a i * a j * CG (1 + i) (1 + j) 3 = 0 ∧
    ∑ i, ∑ j, a i * a j * CG (1 + i) (1 + j) 0 = (a 0 ^ 2 + a 1 ^ 2 + a 2 ^ 2) / Real.sqrt 3 := by
  obtain ⟨CG, h, e⟩ := C68_vectors (noFiles _) (noFiles_valid _ _) .success
  obtain ⟨h0, -, -, h3⟩ := e a a
  refine ⟨CG, h, ?_, ?_⟩
  · rw [h3]; ring
  · rw [h0]; ring

-- A Tensor layer that couples a vector (first input) and a scalar (second input).
example : ∃ z, tensor ⟨none, true⟩ (fun _ _ _ _ _ _ _ => 1) (cgTensor true) ⟨false, 1, 1, fun _ i _ => i⟩ ⟨false, 0, 1, fun _ _ _ => 2⟩ =
    .ok z ∧ ∃ z', tensor ⟨none, true⟩ (exchangedKernel fun _ _ _ _ _ _ _ => 1) (cgTensor true) ⟨false, 0, 1, fun _ _ _ => 2⟩
      ⟨false, 1, 1, fun _ i _ => i⟩ = .ok z' ∧ z'.Same z := by
  obtain ⟨z, hz, -⟩ := C15_tensor ⟨none, true⟩ (fun _ _ _ _ _ _ _ => 1) (cgTensor true) ⟨false, 1, 1, fun _ i _ => i⟩
    ⟨false, 0, 1, fun _ _ _ => 2⟩ (by simp) rfl
  exact ⟨z, hz, C68_tensor true _ (libraryCG_cgTensor true) _ _ _ _ _ hz⟩

end E3x
