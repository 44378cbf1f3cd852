import Verif.Lemmas.SymTensor
import Verif.Lemmas.SphericalHarmonics
import Verif.Lemmas.Representation

/-!
# The detraced tensor and the spherical harmonics
-/

namespace E3x

noncomputable section

open Finset MvPolynomial Spec
open scoped Nat

/-- the factors of the detracing operator -/
def detraceRatio (n m : ℕ) : ℝ := (-1) ^ m * (((2 * n - 1 - 2 * m)‼ : ℝ) / ((2 * n - 1)‼ : ℝ))

theorem detraceRatio_zero (n : ℕ) : detraceRatio n 0 = 1 := by
  unfold detraceRatio
  have : ((2 * n - 1)‼ : ℝ) ≠ 0 := by exact_mod_cast (Nat.doubleFactorial_pos _).ne'
  simp [this]

/-- The components of the detraced tensor `r ⊗ ⋯ ⊗ r`. -/
def detraced {A : Type} [CommRing A] [Algebra ℝ A] (n : ℕ) (r : Fin 3 → A) (α : List (Fin 3)) : A :=
  ∑ m ∈ range (n / 2 + 1), algebraMap ℝ A (detraceRatio n m) * (∑ i, r i ^ 2) ^ m *
    splitSum α (2 * m) (fun β => algebraMap ℝ A (multiDiracDelta β)) (vprod r)

theorem detraced_perm {A : Type} [CommRing A] [Algebra ℝ A] (n : ℕ) (r : Fin 3 → A) : PermInv (detraced n r) := by
  intro α β h
  unfold detraced
  refine sum_congr rfl fun m _ => ?_
  rw [splitSum_perm _ _ (fun a b e => by rw [multiDiracDelta_perm a b e]) (fun a b e => vprod_perm r e) α β h]

theorem detraced_map {A B : Type} [CommRing A] [Algebra ℝ A] [CommRing B] [Algebra ℝ B] (f : A →ₐ[ℝ] B) (n : ℕ)
    (r : Fin 3 → A) (α : List (Fin 3)) : f (detraced n r α) = detraced n (fun i => f (r i)) α := by
  unfold detraced
  rw [map_sum]
  refine sum_congr rfl fun m _ => ?_
  rw [map_mul, map_mul, map_pow, map_sum, AlgHom.commutes]
  congr 1
  · simp
  · unfold splitSum
    rw [map_list_sum, List.map_map]
    congr 1
    refine List.map_congr_left fun p _ => ?_
    simp only [Function.comp_apply, map_mul, AlgHom.commutes, vprod, map_list_prod, List.map_map]
    rfl

/-- a function of `r · s`, `|r|²` and `|s|²` -/
def kernel (n : ℕ) (r s : Fin 3 → ℝ) : ℝ :=
  ∑ m ∈ range (n / 2 + 1), detraceRatio n m * (n.choose (2 * m) * ((2 * m - 1)‼ : ℝ)) *
    ((∑ i, r i ^ 2) * ∑ i, s i ^ 2) ^ m * (∑ i, r i * s i) ^ (n - 2 * m)

theorem polyOf_detraced (n : ℕ) (r s : Fin 3 → ℝ) : polyOf n (detraced n r) s = kernel n r s := by
  have e : polyOf n (detraced n r) s = ∑ m ∈ range (n / 2 + 1), detraceRatio n m * (∑ i, r i ^ 2) ^ m *
      polyOf n (fun α => splitSum α (2 * m) multiDiracDelta (vprod r)) s := by
    unfold polyOf
    rw [sum_congr rfl fun m _ => (sumTup_mul_left n _ _).symm, ← sumTup_sum]
    refine sumTup_congr n fun α _ => ?_
    unfold detraced
    rw [sum_mul]
    refine sum_congr rfl fun m _ => ?_
    simp only [Algebra.algebraMap_self, RingHom.id_apply]
    rw [mul_assoc]
  rw [e, kernel]
  refine sum_congr rfl fun m _ => ?_
  rw [polyOf_splitSum, polyOf_delta, mul_pow]
  ring

/-- The factor between the detraced tensor and the sum over products of spherical harmonics. -/
def detraceConst (n : ℕ) : ℝ := (n ! : ℝ) / ((2 * n - 1)‼ : ℝ)

theorem detraceConst_pos (n : ℕ) : 0 < detraceConst n := by
  unfold detraceConst
  have : (0 : ℝ) < ((2 * n - 1)‼ : ℝ) := by exact_mod_cast Nat.doubleFactorial_pos _
  positivity

theorem kernel_coeff (n k : ℕ) (hk : 2 * k ≤ n) :
    detraceConst n * ((-1) ^ k * (2 : ℝ)⁻¹ ^ n * (n.choose k : ℝ) * ((2 * n - 2 * k).choose n : ℝ)) =
      detraceRatio n k * (n.choose (2 * k) * ((2 * k - 1)‼ : ℝ)) := by
  have hodd : ∀ m : ℕ, ((2 * m) ! : ℝ) = 2 ^ m * (m ! : ℝ) * ((2 * m - 1)‼ : ℝ) := by
    intro m
    rcases m with - | m
    · simp
    · have := Nat.factorial_eq_mul_doubleFactorial (2 * m + 1)
      rw [show 2 * m + 1 + 1 = 2 * (m + 1) by ring, Nat.doubleFactorial_two_mul] at this
      rw [this, show 2 * (m + 1) - 1 = 2 * m + 1 by omega]
      push_cast
      ring
  have c1 : (n.choose k : ℝ) = (n ! : ℝ) / ((k ! : ℝ) * ((n - k)! : ℝ)) := by
    rw [Nat.cast_choose ℝ (by omega)]
  have c2 : ((2 * n - 2 * k).choose n : ℝ) = ((2 * (n - k))! : ℝ) / ((n ! : ℝ) * ((n - 2 * k)! : ℝ)) := by
    rw [Nat.cast_choose ℝ (by omega), show 2 * n - 2 * k - n = n - 2 * k by omega,
      show 2 * n - 2 * k = 2 * (n - k) by omega]
  have c3 : (n.choose (2 * k) : ℝ) = (n ! : ℝ) / (((2 * k)! : ℝ) * ((n - 2 * k)! : ℝ)) := by
    rw [Nat.cast_choose ℝ hk]
  have h1 : (n ! : ℝ) ≠ 0 := by exact_mod_cast n.factorial_ne_zero
  have h2 : (k ! : ℝ) ≠ 0 := by exact_mod_cast k.factorial_ne_zero
  have h3 : ((n - k)! : ℝ) ≠ 0 := by exact_mod_cast (n - k).factorial_ne_zero
  have h4 : ((n - 2 * k)! : ℝ) ≠ 0 := by exact_mod_cast (n - 2 * k).factorial_ne_zero
  have h5 : ((2 * n - 1)‼ : ℝ) ≠ 0 := by exact_mod_cast (Nat.doubleFactorial_pos _).ne'
  have h6 : ((2 * k - 1)‼ : ℝ) ≠ 0 := by exact_mod_cast (Nat.doubleFactorial_pos _).ne'
  have hp : (2 : ℝ) ^ n = 2 ^ (n - k) * 2 ^ k := by rw [← pow_add]; congr 1; omega
  rw [c1, c2, c3, hodd, hodd, detraceConst, detraceRatio, show 2 * n - 1 - 2 * k = 2 * (n - k) - 1 by omega, inv_pow, hp]
  field_simp

theorem harmonic_order_zero (n : ℕ) (v : Fin 3 → ℝ) : detraceConst n * harmonic n 0 v =
    ∑ k ∈ range (n / 2 + 1), detraceRatio n k * (n.choose (2 * k) * ((2 * k - 1)‼ : ℝ)) * (∑ i, v i ^ 2) ^ k *
      v 2 ^ (n - 2 * k) := by
  have hn : ((n ! : ℝ)) ≠ 0 := by exact_mod_cast n.factorial_ne_zero
  rw [harmonic, symSphericalHarmonics, if_neg (by omega), if_neg (by omega), symPi]
  simp only [Nat.sub_zero, Nat.add_zero, div_self hn, Real.sqrt_one, map_one, one_mul, map_sum, map_mul, eval_C, map_pow,
    eval_X, map_add]
  rw [mul_sum]
  refine sum_congr rfl fun k hk => ?_
  have hk : 2 * k ≤ n := by rw [mem_range] at hk; omega
  have h4 : ((n - 2 * k)! : ℝ) ≠ 0 := by exact_mod_cast (n - 2 * k).factorial_ne_zero
  rw [← kernel_coeff n k hk, mul_div_assoc, div_self h4, Fin.sum_univ_three]
  ring

/-- Addition theorem for the spherical harmonics. -/
theorem addition (n : ℕ) (r s : Fin 3 → ℝ) :
    detraceConst n * ∑ m ∈ Icc (-(n : ℤ)) n, harmonic n m r * harmonic n m s = kernel n r s := by
  obtain ⟨R, hR', hs⟩ := exists_orth s
  set N := Real.sqrt (∑ k, s k ^ 2) with hN
  have hN2 : N ^ 2 = ∑ k, s k ^ 2 := by rw [hN, Real.sq_sqrt (sum_nonneg fun _ _ => sq_nonneg _)]
  have hR : IsOrthogonal R := by
    intro i j
    have := hR' i j
    simp only [toC] at this
    have h2 : ((∑ k, R k i * R k j : ℝ) : ℂ) = ((if i = j then 1 else 0 : ℝ) : ℂ) := by
      push_cast
      rw [this]
      split_ifs <;> simp
    exact_mod_cast h2
  have hpole : vecMul (![0, 0, 1] : Fin 3 → ℝ) (transpose3 R) = fun i => R i 2 := by
    funext i
    simp [vecMul, transpose3, Fin.sum_univ_three]
  have hY : ∀ m ∈ Icc (-(n : ℤ)) n, harmonic n m s = N ^ n * wigR n R m 0 := by
    intro m hm
    have hm := abs_le.mpr (mem_Icc.mp hm)
    have e : s = fun i => N * vecMul (![0, 0, 1] : Fin 3 → ℝ) (transpose3 R) i := by
      rw [hpole]; exact funext hs
    conv_lhs => rw [e]
    rw [harmonic_smul n m hm, harmonic_vecMul n hR.transpose m hm, sum_eq_single 0]
    · rw [wigR_trans n hR m 0 hm (by simp)]
      have : harmonic n 0 ![0, 0, 1] = 1 := by
        have h := sphC_pole n 0 (by simp)
        rw [if_pos rfl] at h
        have h2 := sphC_ofReal n 0 (![0, 0, 1] : Fin 3 → ℝ)
        have e : (fun i => (((![0, 0, 1] : Fin 3 → ℝ) i : ℝ) : ℂ)) = ![0, 0, 1] := by
          funext i; fin_cases i <;> simp
        rw [e, h] at h2
        exact_mod_cast h2.symm
      rw [this, one_mul]
    · intro b hb hb0
      have : harmonic n b ![0, 0, 1] = 0 := by
        have h := sphC_pole n b (abs_le.mpr (mem_Icc.mp hb))
        rw [if_neg hb0] at h
        have h2 := sphC_ofReal n b (![0, 0, 1] : Fin 3 → ℝ)
        have e : (fun i => (((![0, 0, 1] : Fin 3 → ℝ) i : ℝ) : ℂ)) = ![0, 0, 1] := by
          funext i; fin_cases i <;> simp
        rw [e, h] at h2
        exact_mod_cast h2.symm
      rw [this, zero_mul]
    · intro h; simp at h
  have e : ∑ m ∈ Icc (-(n : ℤ)) n, harmonic n m r * harmonic n m s = N ^ n * harmonic n 0 (vecMul r R) := by
    rw [harmonic_vecMul n hR 0 (by simp), mul_sum]
    refine sum_congr rfl fun m hm => ?_
    rw [hY m hm]; ring
  have hz : N * vecMul r R 2 = ∑ i, r i * s i := by
    rw [vecMul, mul_sum]
    refine sum_congr rfl fun i _ => ?_
    rw [hs i]; ring
  have hnorm : ∑ i, vecMul r R i ^ 2 = ∑ i, r i ^ 2 := normSq_vecMul hR r
  rw [e, mul_left_comm, harmonic_order_zero, kernel, mul_sum]
  refine sum_congr rfl fun k hk => ?_
  have hk : 2 * k ≤ n := by rw [mem_range] at hk; omega
  rw [hnorm, ← hz, ← hN2, mul_pow N, mul_pow, ← pow_mul]
  rw [show N ^ n = N ^ (2 * k) * N ^ (n - 2 * k) by rw [← pow_add]; congr 1; omega]
  ring

/-- The tensor of coefficients of a spherical harmonic. -/
def shTensor (n : ℕ) (m : ℤ) : List (Fin 3) → ℝ := coeffTensor n (symSphericalHarmonics n m)

theorem shTensor_perm (n : ℕ) (m : ℤ) : PermInv (shTensor n m) := coeffTensor_perm n _

theorem polyOf_shTensor (n : ℕ) (m : ℤ) (hm : |m| ≤ n) (s : Fin 3 → ℝ) : polyOf n (shTensor n m) s = harmonic n m s :=
  polyOf_coeffTensor n _ (symSH_homog n m hm) s

theorem polyOf_sum {ι : Type} (S : Finset ι) (n : ℕ) (c : ι → ℝ) (t : ι → List (Fin 3) → ℝ) (s : Fin 3 → ℝ) :
    polyOf n (fun α => ∑ i ∈ S, c i * t i α) s = ∑ i ∈ S, c i * polyOf n (t i) s := by
  unfold polyOf
  rw [sum_congr rfl fun i _ => (sumTup_mul_left n _ _).symm, ← sumTup_sum]
  refine sumTup_congr n fun α _ => ?_
  rw [sum_mul]
  exact sum_congr rfl fun _ _ => mul_assoc _ _ _

/-- The components of the detraced tensor are combinations of spherical harmonics. -/
theorem detraced_eq (n : ℕ) (r : Fin 3 → ℝ) (α : List (Fin 3)) (hα : α.length = n) :
    detraced n r α = ∑ m ∈ Icc (-(n : ℤ)) n, (detraceConst n * harmonic n m r) * shTensor n m α := by
  refine symTensor_ext n (detraced n r)
    (fun α => ∑ m ∈ Icc (-(n : ℤ)) n, (detraceConst n * harmonic n m r) * shTensor n m α) (fun a b _ h => detraced_perm n r a b h) (fun a b _ h => ?_) (fun s => ?_) α hα
  · exact sum_congr rfl fun m _ => by rw [shTensor_perm n m a b h]
  · rw [polyOf_detraced, polyOf_sum, ← addition, mul_sum]
    refine sum_congr rfl fun m hm => ?_
    rw [polyOf_shTensor n m (abs_le.mpr (mem_Icc.mp hm)), mul_assoc]

theorem detraced_poly (n : ℕ) (α : List (Fin 3)) (hα : α.length = n) :
    detraced n (X : Fin 3 → MvPolynomial (Fin 3) ℝ) α =
      ∑ m ∈ Icc (-(n : ℤ)) n, C (detraceConst n * shTensor n m α) * symSphericalHarmonics n m := by
  refine MvPolynomial.funext fun r => ?_
  have h := detraced_map (aeval r : MvPolynomial (Fin 3) ℝ →ₐ[ℝ] ℝ) n X α
  rw [← coe_aeval_eq_eval, RingHom.coe_coe, h]
  simp only [aeval_X]
  rw [detraced_eq n r α hα, map_sum]
  refine sum_congr rfl fun m _ => ?_
  rw [map_mul, aeval_C]
  have e : (aeval r : MvPolynomial (Fin 3) ℝ →ₐ[ℝ] ℝ) (symSphericalHarmonics n m) = harmonic n m r := rfl
  rw [e, Algebra.algebraMap_self, RingHom.id_apply]
  ring

theorem detraced_homog (n : ℕ) (α : List (Fin 3)) (hα : α.length = n) :
    (detraced n (X : Fin 3 → MvPolynomial (Fin 3) ℝ) α).IsHomogeneous n := by
  rw [detraced_poly n α hα]
  refine IsHomogeneous.sum _ _ _ fun m hm => ?_
  have := (isHomogeneous_C (Fin 3) (detraceConst n * shTensor n m α)).mul (symSH_homog n m (abs_le.mpr (mem_Icc.mp hm)))
  rwa [zero_add] at this

/-- No component of the detraced tensor vanishes identically. -/
theorem detraced_ne_zero (n : ℕ) (α : List (Fin 3)) : detraced n (X : Fin 3 → MvPolynomial (Fin 3) ℝ) α ≠ 0 := by
  intro h0
  have h := detraced_map (aeval (![3, 4, 5 * Complex.I] : Fin 3 → ℂ) : MvPolynomial (Fin 3) ℝ →ₐ[ℝ] ℂ) n X α
  rw [h0, map_zero] at h
  simp only [aeval_X] at h
  set w : Fin 3 → ℂ := ![3, 4, 5 * Complex.I] with hw
  have hnull : ∑ i, w i ^ 2 = 0 := by
    have h2 : w 2 = 5 * Complex.I := rfl
    have h0 : w 0 = 3 := rfl
    have h1 : w 1 = 4 := rfl
    rw [Fin.sum_univ_three, h0, h1, h2, mul_pow, Complex.I_sq]
    norm_num
  have hv : detraced n w α = vprod w α := by
    unfold detraced
    rw [sum_eq_single 0]
    · rw [detraceRatio_zero, mul_zero, splitSum_zero]
      simp [multiDiracDelta]
    · intro m _ hm
      rw [hnull, zero_pow hm]
      ring
    · simp
  have e : (fun i => w i) = w := rfl
  rw [e, hv] at h
  have hne : vprod w α ≠ 0 := by
    unfold vprod
    refine List.prod_ne_zero fun hm => ?_
    obtain ⟨i, -, hi⟩ := List.mem_map.mp hm
    fin_cases i <;> simp [hw] at hi
  exact hne h.symm

/-- Spherical harmonics of one degree are linearly independent. -/
theorem harmonic_independent (n : ℕ) (x : ℤ → ℝ)
    (h : ∀ r : Fin 3 → ℝ, ∑ m ∈ Icc (-(n : ℤ)) n, x m * harmonic n m r = 0) : ∀ m ∈ Icc (-(n : ℤ)) n, x m = 0 := by
  have hp : ∑ m ∈ Icc (-(n : ℤ)) n, C (x m) * symSphericalHarmonics n m = 0 := by
    refine MvPolynomial.funext fun r => ?_
    rw [map_sum, map_zero, ← h r]
    exact sum_congr rfl fun m _ => by rw [map_mul, eval_C]; rfl
  intro m hm
  have := null_coeff_eq n (fun m => (x m : ℂ)) (fun _ => 0) (fun u v => ?_) m hm
  · exact_mod_cast this
  · have h2 := congrArg (aeval (nullVec u v) : MvPolynomial (Fin 3) ℝ → ℂ) hp
    rw [map_sum, map_zero] at h2
    simp only [zero_mul, sum_const_zero]
    rw [← h2]
    refine sum_congr rfl fun m _ => ?_
    rw [map_mul, aeval_C]
    rfl

/-! ## traces -/

/-- The contraction of the first two indices vanishes. -/
def TraceFree (n : ℕ) (t : List (Fin 3) → ℝ) : Prop :=
  ∀ β : List (Fin 3), β.length + 2 = n → ∑ k : Fin 3, t (k :: k :: β) = 0

/-- the polynomial of a tensor -/
def tensorPoly (n : ℕ) (t : List (Fin 3) → ℝ) : MvPolynomial (Fin 3) ℝ := polyOf n (fun α => C (t α)) X

theorem eval_tensorPoly (n : ℕ) (t : List (Fin 3) → ℝ) (s : Fin 3 → ℝ) : eval s (tensorPoly n t) = polyOf n t s := by
  unfold tensorPoly polyOf
  rw [sumTup_eq, sumTup_eq, map_sum]
  refine sum_congr rfl fun α _ => ?_
  rw [map_mul, eval_C, vprod, vprod, map_list_prod, List.map_map]
  congr 3
  funext i
  simp

theorem pderiv_vprod (k : Fin 3) (α : List (Fin 3)) :
    pderiv k (vprod (X : Fin 3 → MvPolynomial (Fin 3) ℝ) α) = (α.count k : MvPolynomial (Fin 3) ℝ) * vprod X (α.erase k) := by
  induction α with
  | nil => simp
  | cons a α ih =>
    rw [vprod_cons, Derivation.leibniz, ih, pderiv_X, smul_eq_mul, smul_eq_mul]
    by_cases h : a = k
    · subst h
      rw [List.count_cons_self, List.erase_cons_head, Pi.single_eq_same]
      by_cases hm : a ∈ α
      · have := vprod_perm (X : Fin 3 → MvPolynomial (Fin 3) ℝ) (List.perm_cons_erase hm)
        rw [vprod_cons] at this
        rw [this]
        push_cast
        ring
      · rw [List.count_eq_zero.mpr hm]
        push_cast
        ring
    · rw [List.count_cons_of_ne h, List.erase_cons_tail (by simpa using h), vprod_cons, Pi.single_eq_of_ne' (Ne.symm h)]
      ring

theorem pderiv_tensorPoly (n : ℕ) (t : List (Fin 3) → ℝ) (ht : PermInv t) (k : Fin 3) :
    pderiv k (tensorPoly (n + 1) t) = ((n + 1 : ℕ) : MvPolynomial (Fin 3) ℝ) * tensorPoly n fun α => t (k :: α) := by
  have h := sum_erase n k (fun β => C (t (k :: β)) * vprod (X : Fin 3 → MvPolynomial (Fin 3) ℝ) β)
    (fun a b e => by dsimp only; rw [ht _ _ (e.cons k), vprod_perm _ e]) (fun _ => 1)
  have h1 : ∀ α : List (Fin 3), vprod (fun _ => (1 : MvPolynomial (Fin 3) ℝ)) α = 1 := fun α => by simp [vprod]
  simp only [h1, mul_one, one_mul, polyOf] at h
  unfold tensorPoly polyOf
  push_cast
  rw [← h, sumTup_eq, sumTup_eq, map_sum]
  refine sum_congr rfl fun α _ => ?_
  rw [pderiv_C_mul, pderiv_vprod]
  by_cases hm : k ∈ List.ofFn α
  · rw [ht _ _ (List.perm_cons_erase hm)]
    ring
  · rw [List.count_eq_zero.mpr hm]
    simp

theorem tensorPoly_shTensor (n : ℕ) (m : ℤ) (hm : |m| ≤ n) : tensorPoly n (shTensor n m) = symSphericalHarmonics n m :=
  MvPolynomial.funext fun s => by rw [eval_tensorPoly, polyOf_shTensor n m hm]; rfl

theorem PermInv.trace {t : List (Fin 3) → ℝ} (h : PermInv t) : PermInv fun β => ∑ k : Fin 3, t (k :: k :: β) :=
  fun _ _ e => sum_congr rfl fun k _ => h _ _ ((e.cons k).cons k)

/-- The tensors of spherical harmonics are traceless. -/
theorem shTensor_traceFree (n : ℕ) (m : ℤ) (hm : |m| ≤ n) : TraceFree n (shTensor n m) := by
  intro β hβ
  obtain ⟨n, rfl⟩ : ∃ k, n = k + 1 + 1 := ⟨n - 2, by omega⟩
  have hp := shTensor_perm (n + 1 + 1) m
  have hlap := symSH_harmonic (n + 1 + 1) m hm
  rw [← tensorPoly_shTensor _ m hm, lap] at hlap
  have h : ∀ s : Fin 3 → ℝ, polyOf n (fun β => ∑ k : Fin 3, shTensor (n + 1 + 1) m (k :: k :: β)) s =
      polyOf n (fun _ => 0) s := by
    intro s
    have h2 := congrArg (eval s) hlap
    rw [map_sum, map_zero, sum_congr rfl fun k _ => by
      rw [pderiv_tensorPoly _ _ hp, ← C_eq_coe_nat, pderiv_C_mul, pderiv_tensorPoly _ _ (hp.cons k), ← C_eq_coe_nat, map_mul,
        map_mul, eval_C, eval_C, eval_tensorPoly]] at h2
    rw [← mul_sum, ← mul_sum] at h2
    have hne : ((n + 1 + 1 : ℕ) : ℝ) ≠ 0 ∧ ((n + 1 : ℕ) : ℝ) ≠ 0 := ⟨by positivity, by positivity⟩
    have h3 : ∑ k : Fin 3, polyOf n (fun α => shTensor (n + 1 + 1) m (k :: k :: α)) s = 0 := by
      rcases mul_eq_zero.mp h2 with h4 | h4
      · exact absurd h4 hne.1
      · rcases mul_eq_zero.mp h4 with h5 | h5
        · exact absurd h5 hne.2
        · exact h5
    have h4 := polyOf_sum univ n (fun _ => 1) (fun (k : Fin 3) β => shTensor (n + 1 + 1) m (k :: k :: β)) s
    simp only [one_mul] at h4
    rw [h4, h3]
    simp [polyOf, sumTup_eq]
  exact symTensor_ext n _ (fun _ => 0) (fun a b _ e => hp.trace a b e) (fun _ _ _ _ => rfl) h β (by omega)

/-- `m` Kronecker deltas times a product of entries of `r` -/
def pairTensor (r : Fin 3 → ℝ) : ℕ → List (Fin 3) → ℝ
  | 0, α => vprod r α
  | m + 1, i :: j :: α => if i = j then pairTensor r m α else 0
  | _ + 1, _ => 0

theorem polyOf_pairTensor (r s : Fin 3 → ℝ) (m k : ℕ) :
    polyOf (2 * m + k) (pairTensor r m) s = (∑ i, s i ^ 2) ^ m * (∑ i, r i * s i) ^ k := by
  induction m with
  | zero =>
    have := polyOf_splitSum k 0 (fun _ => 1) r s
    simp only [splitSum_zero, one_mul] at this
    rw [mul_zero, zero_add, show (pairTensor r 0) = vprod r from rfl, show vprod r = fun α => vprod r α from rfl, this]
    simp [polyOf, sumTup]
  | succ m ih =>
    rw [show 2 * (m + 1) + k = (2 * m + k) + 1 + 1 by ring, polyOf, sumTup]
    have e : ∀ i : Fin 3, sumTup (2 * m + k + 1) (fun α => pairTensor r (m + 1) (i :: α) * vprod s (i :: α)) =
        s i ^ 2 * ((∑ i, s i ^ 2) ^ m * (∑ i, r i * s i) ^ k) := by
      intro i
      rw [sumTup, sum_eq_single i]
      · rw [← ih, polyOf, ← sumTup_mul_left]
        refine sumTup_congr _ fun α _ => ?_
        rw [pairTensor, if_pos rfl, vprod_cons, vprod_cons]
        ring
      · intro j _ hj
        rw [sumTup_congr (g := fun _ => (0 : ℝ)) _ fun α _ => by rw [pairTensor, if_neg (Ne.symm hj), zero_mul]]
        simp [sumTup_eq]
      · simp
    rw [sum_congr rfl fun i _ => e i, ← sum_mul, pow_succ]
    ring

/-- Contraction of a traceless symmetric tensor with the detraced tensor. -/
theorem contract_detraced (n : ℕ) (t : List (Fin 3) → ℝ) (ht : ∀ α β : List (Fin 3), α.length = n → α.Perm β → t α = t β)
    (htr : TraceFree n t) (r : Fin 3 → ℝ) : sumTup n (fun α => t α * detraced n r α) = polyOf n t r := by
  have h := contract_eq n t (detraced n r) (fun α => ∑ m ∈ range (n / 2 + 1),
    (detraceRatio n m * (n.choose (2 * m) * ((2 * m - 1)‼ : ℝ)) * (∑ i, r i ^ 2) ^ m) * pairTensor r m α) ht (fun s => by
      rw [polyOf_detraced, polyOf_sum, kernel]
      refine sum_congr rfl fun m hm => ?_
      have hm : 2 * m ≤ n := by rw [mem_range] at hm; omega
      have := polyOf_pairTensor r s m (n - 2 * m)
      rw [show 2 * m + (n - 2 * m) = n by omega] at this
      rw [this, mul_pow]
      ring)
  rw [h]
  have e : sumTup n (fun α => t α * ∑ m ∈ range (n / 2 + 1),
      (detraceRatio n m * (n.choose (2 * m) * ((2 * m - 1)‼ : ℝ)) * (∑ i, r i ^ 2) ^ m) * pairTensor r m α) =
      ∑ m ∈ range (n / 2 + 1), (detraceRatio n m * (n.choose (2 * m) * ((2 * m - 1)‼ : ℝ)) * (∑ i, r i ^ 2) ^ m) *
        sumTup n fun α => t α * pairTensor r m α := by
    rw [sum_congr rfl fun m _ => (sumTup_mul_left n _ _).symm, ← sumTup_sum]
    refine sumTup_congr n fun α _ => ?_
    rw [mul_sum]
    exact sum_congr rfl fun _ _ => by ring
  rw [e, sum_eq_single 0]
  · rw [detraceRatio_zero]
    simp [polyOf, pairTensor]
  · intro m hm hm0
    obtain ⟨m, rfl⟩ := Nat.exists_eq_succ_of_ne_zero hm0
    obtain ⟨k, rfl⟩ : ∃ k, n = k + 1 + 1 := ⟨n - 2, by rw [mem_range] at hm; omega⟩
    have hz : sumTup (k + 1 + 1) (fun α => t α * pairTensor r (m + 1) α) = 0 := by
      have e : sumTup (k + 1 + 1) (fun α => t α * pairTensor r (m + 1) α) =
          sumTup k fun β => (∑ i : Fin 3, t (i :: i :: β)) * pairTensor r m β := by
        rw [sumTup, sumTup_congr k (g := fun β => ∑ i : Fin 3, t (i :: i :: β) * pairTensor r m β)
          (fun β _ => sum_mul _ _ _), sumTup_sum]
        refine sum_congr rfl fun i _ => ?_
        rw [sumTup, sum_eq_single i]
        · refine sumTup_congr k fun β _ => ?_
          rw [pairTensor, if_pos rfl]
        · intro j _ hj
          rw [sumTup_congr (g := fun _ => (0 : ℝ)) _ fun α _ => by rw [pairTensor, if_neg (Ne.symm hj), mul_zero]]
          simp [sumTup_eq]
        · simp
      rw [e, sumTup_congr (g := fun _ => (0 : ℝ)) _ fun β hβ => by rw [htr β (by omega), zero_mul]]
      simp [sumTup_eq]
    rw [Nat.succ_eq_add_one, hz, mul_zero]
  · simp

/-- Every traceless symmetric tensor is a combination of the tensors of the spherical harmonics. -/
theorem tensor_expansion (n : ℕ) (t : List (Fin 3) → ℝ) (ht : ∀ α β : List (Fin 3), α.length = n → α.Perm β → t α = t β)
    (htr : TraceFree n t) (α : List (Fin 3)) (hα : α.length = n) :
    t α = ∑ m ∈ Icc (-(n : ℤ)) n, (detraceConst n * sumTup n fun α => t α * shTensor n m α) * shTensor n m α := by
  refine symTensor_ext n t (fun α => ∑ m ∈ Icc (-(n : ℤ)) n,
    (detraceConst n * sumTup n fun α => t α * shTensor n m α) * shTensor n m α) ht
    (fun a b _ h => sum_congr rfl fun m _ => by rw [shTensor_perm n m a b h]) (fun s => ?_) α hα
  rw [← contract_detraced n t ht htr, polyOf_sum, sumTup_congr n fun α hα => by rw [detraced_eq n s α hα, mul_sum], sumTup_sum]
  refine sum_congr rfl fun m hm => ?_
  rw [polyOf_shTensor n m (abs_le.mpr (mem_Icc.mp hm)), mul_right_comm, ← sumTup_mul_left]
  refine sumTup_congr n fun α _ => ?_
  ring

/-! ## rotations -/

/-- The tensor with all indices rotated: `∑ t[β₁, …, βₙ] R[β₁, α₁] ⋯ R[βₙ, αₙ]`. -/
def rotateTensor (R : Fin 3 → Fin 3 → ℝ) : (List (Fin 3) → ℝ) → List (Fin 3) → ℝ
  | t, [] => t []
  | t, a :: α => rotateTensor R (fun β => ∑ b : Fin 3, t (b :: β) * R b a) α

theorem polyOf_rotateTensor (R : Fin 3 → Fin 3 → ℝ) (n : ℕ) (t : List (Fin 3) → ℝ) (s : Fin 3 → ℝ) :
    polyOf n (rotateTensor R t) s = polyOf n t (vecMul s (transpose3 R)) := by
  induction n generalizing t with
  | zero => simp [polyOf, sumTup, rotateTensor]
  | succ n ih =>
    have e1 : polyOf (n + 1) (rotateTensor R t) s =
        ∑ a, s a * polyOf n (fun β => ∑ b : Fin 3, R b a * t (b :: β)) (vecMul s (transpose3 R)) := by
      rw [polyOf, sumTup]
      refine sum_congr rfl fun a _ => ?_
      have : (fun β => ∑ b : Fin 3, R b a * t (b :: β)) = fun β => ∑ b : Fin 3, t (b :: β) * R b a := by
        funext β; exact sum_congr rfl fun _ _ => mul_comm _ _
      rw [this, ← ih, polyOf, ← sumTup_mul_left]
      refine sumTup_congr n fun α _ => ?_
      rw [rotateTensor, vprod_cons]
      ring
    have e2 : polyOf (n + 1) t (vecMul s (transpose3 R)) =
        ∑ b, vecMul s (transpose3 R) b * polyOf n (fun β => t (b :: β)) (vecMul s (transpose3 R)) := by
      rw [polyOf, sumTup]
      refine sum_congr rfl fun b _ => ?_
      rw [polyOf, ← sumTup_mul_left]
      refine sumTup_congr n fun α _ => ?_
      rw [vprod_cons]
      ring
    rw [e1, e2, sum_congr rfl fun a _ => by rw [polyOf_sum, mul_sum], sum_comm]
    refine sum_congr rfl fun b _ => ?_
    conv_rhs => rw [vecMul, sum_mul]
    refine sum_congr rfl fun a _ => ?_
    simp only [transpose3]
    ring

theorem rotateTensor_add (R : Fin 3 → Fin 3 → ℝ) {ι : Type} (S : Finset ι) (c : ι → ℝ) (t : ι → List (Fin 3) → ℝ)
    (α : List (Fin 3)) : rotateTensor R (fun β => ∑ i ∈ S, c i * t i β) α = ∑ i ∈ S, c i * rotateTensor R (t i) α := by
  induction α generalizing t with
  | nil => simp [rotateTensor]
  | cons a α ih =>
    rw [rotateTensor]
    have e : (fun β => ∑ b : Fin 3, (∑ i ∈ S, c i * t i (b :: β)) * R b a) =
        fun β => ∑ i ∈ S, c i * ∑ b : Fin 3, t i (b :: β) * R b a := by
      funext β
      rw [sum_congr rfl fun b _ => sum_mul _ _ _, sum_comm]
      refine sum_congr rfl fun i _ => ?_
      rw [mul_sum]
      exact sum_congr rfl fun _ _ => by ring
    rw [e, ih]
    rfl

theorem rotateTensor_perm (R : Fin 3 → Fin 3 → ℝ) (t : List (Fin 3) → ℝ) (ht : PermInv t) : PermInv (rotateTensor R t) := by
  have hcons : ∀ (t : List (Fin 3) → ℝ) (a : Fin 3), PermInv t → PermInv fun β => ∑ b : Fin 3, t (b :: β) * R b a :=
    fun t a ht x y e => sum_congr rfl fun b _ => by rw [ht _ _ (e.cons b)]
  intro α β h
  induction h generalizing t with
  | nil => rfl
  | cons a _ ih => exact ih _ (hcons t a ht)
  | swap a b α =>
    simp only [rotateTensor]
    congr 1
    funext β
    simp only [sum_mul]
    rw [sum_comm]
    refine sum_congr rfl fun i _ => sum_congr rfl fun j _ => ?_
    rw [ht _ _ (.swap i j β)]
    ring
  | trans _ _ ih1 ih2 => rw [ih1 t ht, ih2 t ht]

theorem rotateTensor_shTensor {R : Fin 3 → Fin 3 → ℝ} (hR : IsOrthogonal R) (n : ℕ) (m : ℤ) (hm : |m| ≤ n)
    (α : List (Fin 3)) (hα : α.length = n) :
    rotateTensor R (shTensor n m) α = ∑ b ∈ Icc (-(n : ℤ)) n, wigR n R m b * shTensor n b α := by
  refine symTensor_ext n (rotateTensor R (shTensor n m)) (fun α => ∑ b ∈ Icc (-(n : ℤ)) n, wigR n R m b * shTensor n b α)
    (fun a b _ h => rotateTensor_perm R _ (shTensor_perm n m) a b h)
    (fun a b _ h => sum_congr rfl fun k _ => by rw [shTensor_perm n k a b h]) (fun s => ?_) α hα
  rw [polyOf_rotateTensor, polyOf_shTensor n m hm, harmonic_vecMul n hR.transpose m hm, polyOf_sum]
  refine sum_congr rfl fun b hb => ?_
  have hb := abs_le.mpr (mem_Icc.mp hb)
  rw [polyOf_shTensor n b hb, wigR_trans n hR m b hm hb]
  ring

end

end E3x
