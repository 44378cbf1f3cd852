import Verif.Lemmas.Fischer
import Mathlib.LinearAlgebra.Matrix.NonsingularInverse

/-!
# Wigner-D matrices represent the orthogonal group
-/

namespace E3x

noncomputable section

open Finset MvPolynomial
open scoped Nat

/-- `R r` -/
def cmulVec (R : Fin 3 → Fin 3 → ℂ) (r : Fin 3 → ℂ) : Fin 3 → ℂ := fun i => ∑ j, R i j * r j

/-- the polynomial `r ↦ q (R r)` -/
def rotPoly (R : Fin 3 → Fin 3 → ℂ) (q : MvPolynomial (Fin 3) ℂ) : MvPolynomial (Fin 3) ℂ :=
  aeval (fun i => linForm (R i)) q

theorem linForm_homog (n : Fin 3 → ℂ) : (linForm n).IsHomogeneous 1 :=
  IsHomogeneous.sum _ _ _ fun _ _ => isHomogeneous_C_mul_X _ _

theorem rotPoly_homog (R : Fin 3 → Fin 3 → ℂ) (q : MvPolynomial (Fin 3) ℂ) (l : ℕ) (hq : q.IsHomogeneous l) :
    (rotPoly R q).IsHomogeneous l := by
  have := hq.aeval (fun i => linForm (R i)) (n := 1) fun i => linForm_homog (R i)
  rwa [one_mul] at this

theorem eval_rotPoly (R : Fin 3 → Fin 3 → ℂ) (q : MvPolynomial (Fin 3) ℂ) (r : Fin 3 → ℂ) :
    eval r (rotPoly R q) = eval (cmulVec R r) q := by
  have h : (eval r).comp ((aeval fun i => linForm (R i) : MvPolynomial (Fin 3) ℂ →ₐ[ℂ] _) : _ →+* _) =
      eval (cmulVec R r) := by
    refine MvPolynomial.ringHom_ext (fun c => ?_) fun i => ?_
    · simp
    · simp [eval_linForm, cdot, cmulVec]
  exact RingHom.congr_fun h q

/-- the Wigner-D matrix with complex values -/
def wigC (l : ℕ) (R : Fin 3 → Fin 3 → ℂ) (a b : ℤ) : ℂ := fischer (rotPoly R (symSHC l a)) (symSHC l b) / kConst l

/-- On the null cone, the spherical harmonics of `R r` are combinations of those of `r`, for every matrix `R`. -/
theorem sphC_mulVec_null (l : ℕ) (R : Fin 3 → Fin 3 → ℂ) (a : ℤ) (ha : |a| ≤ l) (u v : ℂ) :
    sphC l a (cmulVec R (nullVec u v)) = ∑ b ∈ Icc (-(l : ℤ)) l, wigC l R a b * sphC l b (nullVec u v) := by
  have h := null_expansion l _ (rotPoly_homog R _ l (symSHC_homog l a ha)) u v
  rwa [eval_rotPoly, eval_symSHC] at h

/-- `Rᵀ R = 1` -/
def COrth (R : Fin 3 → Fin 3 → ℂ) : Prop := ∀ i j, ∑ k, R k i * R k j = if i = j then 1 else 0

def ctrans (R : Fin 3 → Fin 3 → ℂ) : Fin 3 → Fin 3 → ℂ := fun i j => R j i

def cmul (R S : Fin 3 → Fin 3 → ℂ) : Fin 3 → Fin 3 → ℂ := fun i j => ∑ k, R i k * S k j

theorem COrth.trans {R : Fin 3 → Fin 3 → ℂ} (h : COrth R) : COrth (ctrans R) := by
  have h1 : (Matrix.of R).transpose * Matrix.of R = 1 := by
    ext i j
    rw [Matrix.mul_apply, Matrix.one_apply, ← h i j]; rfl
  have h2 := mul_eq_one_comm.mp h1
  intro i j
  have := congrFun (congrFun h2 i) j
  rw [Matrix.mul_apply, Matrix.one_apply] at this
  exact this

theorem cmulVec_cmulVec (R S : Fin 3 → Fin 3 → ℂ) (r : Fin 3 → ℂ) :
    cmulVec R (cmulVec S r) = cmulVec (cmul R S) r := by
  ext i
  simp only [cmulVec, cmul, Fin.sum_univ_three]
  ring

theorem cdot_cmulVec (R : Fin 3 → Fin 3 → ℂ) (n r : Fin 3 → ℂ) : cdot n (cmulVec R r) = cdot (cmulVec (ctrans R) n) r := by
  simp only [cdot, cmulVec, ctrans, Fin.sum_univ_three]
  ring

theorem cdot_orth {R : Fin 3 → Fin 3 → ℂ} (h : COrth R) (a b : Fin 3 → ℂ) : cdot (cmulVec R a) (cmulVec R b) = cdot a b := by
  have h' := fun i j => h i j
  simp only [Fin.sum_univ_three] at h'
  have e : cdot (cmulVec R a) (cmulVec R b) =
      ∑ i, ∑ j, a i * b j * (R 0 i * R 0 j + R 1 i * R 1 j + R 2 i * R 2 j) := by
    simp only [cdot, cmulVec, Fin.sum_univ_three]; ring
  rw [e]
  simp [h', cdot]

theorem null_orth {R : Fin 3 → Fin 3 → ℂ} (h : COrth R) (u v : ℂ) : ∃ u' v', cmulVec R (nullVec u v) = nullVec u' v' := by
  refine exists_nullVec _ ?_
  have h1 := cdot_orth h (nullVec u v) (nullVec u v)
  have h2 := nullVec_null u v
  simp only [cdot, Fin.sum_univ_three] at h1
  linear_combination h1 + h2

theorem sphC_mulVec_aux (l : ℕ) {R : Fin 3 → Fin 3 → ℂ} (h : COrth R) (a : ℤ) (ha : |a| ≤ l) (r : Fin 3 → ℂ) :
    sphC l a (cmulVec R r) = ∑ b ∈ Icc (-(l : ℤ)) l, wigC l (ctrans R) b a * sphC l b r := by
  refine null_coeff_eq l (fun a => sphC l a (cmulVec R r))
    (fun a => ∑ b ∈ Icc (-(l : ℤ)) l, wigC l (ctrans R) b a * sphC l b r) (fun u v => ?_) a (mem_Icc.mpr (abs_le.mp ha))
  have h1 := generating l u v (cmulVec R r)
  rw [cdot_cmulVec] at h1
  obtain ⟨u', v', hn⟩ := null_orth h.trans u v
  have h2 := generating l u' v' r
  rw [← hn, h1] at h2
  have e1 : ∑ m ∈ Icc (-(l : ℤ)) l, sphC l m (cmulVec R r) * sphC l m (nullVec u v) =
      ∑ m ∈ Icc (-(l : ℤ)) l, aeval (cmulVec (ctrans R) (nullVec u v)) (symSphericalHarmonics l m) *
        aeval r (symSphericalHarmonics l m) := by
    rw [← h2]
    exact sum_congr rfl fun _ _ => mul_comm _ _
  rw [e1]
  simp only [sum_mul]
  rw [sum_comm]
  refine sum_congr rfl fun b hb => ?_
  have hb := abs_le.mpr (mem_Icc.mp hb)
  have h3 := sphC_mulVec_null l (ctrans R) b hb u v
  rw [sphC] at h3
  rw [h3, sum_mul]
  exact sum_congr rfl fun _ _ => by simp only [sphC]; ring

/-- The Wigner-D matrix of the transpose is the transpose of the Wigner-D matrix. -/
theorem wigC_trans (l : ℕ) {R : Fin 3 → Fin 3 → ℂ} (h : COrth R) (a b : ℤ) (ha : |a| ≤ l) (hb : |b| ≤ l) :
    wigC l (ctrans R) b a = wigC l R a b := by
  refine null_coeff_eq l (fun b => wigC l (ctrans R) b a) (fun b => wigC l R a b) (fun u v => ?_) b
    (mem_Icc.mpr (abs_le.mp hb))
  rw [← sphC_mulVec_null l R a ha, ← sphC_mulVec_aux l h a ha]

/-- The spherical harmonics of `R r` are combinations of those of `r`, for every orthogonal matrix `R`. -/
theorem sphC_mulVec (l : ℕ) {R : Fin 3 → Fin 3 → ℂ} (h : COrth R) (a : ℤ) (ha : |a| ≤ l) (r : Fin 3 → ℂ) :
    sphC l a (cmulVec R r) = ∑ b ∈ Icc (-(l : ℤ)) l, wigC l R a b * sphC l b r := by
  rw [sphC_mulVec_aux l h a ha]
  refine sum_congr rfl fun b hb => ?_
  rw [wigC_trans l h a b ha (abs_le.mpr (mem_Icc.mp hb))]

theorem wigC_mul (l : ℕ) {R : Fin 3 → Fin 3 → ℂ} (h : COrth R) (S : Fin 3 → Fin 3 → ℂ) (a b : ℤ) (ha : |a| ≤ l)
    (hb : |b| ≤ l) : wigC l (cmul R S) a b = ∑ c ∈ Icc (-(l : ℤ)) l, wigC l R a c * wigC l S c b := by
  refine null_coeff_eq l (fun b => wigC l (cmul R S) a b)
    (fun b => ∑ c ∈ Icc (-(l : ℤ)) l, wigC l R a c * wigC l S c b) (fun u v => ?_) b (mem_Icc.mpr (abs_le.mp hb))
  rw [← sphC_mulVec_null l _ a ha, ← cmulVec_cmulVec, sphC_mulVec l h a ha]
  simp only [sum_mul]
  rw [sum_comm]
  refine sum_congr rfl fun c hc => ?_
  rw [sphC_mulVec_null l S c (abs_le.mpr (mem_Icc.mp hc)), mul_sum]
  exact sum_congr rfl fun _ _ => by ring

theorem wigC_one (l : ℕ) (a b : ℤ) (ha : |a| ≤ l) (hb : |b| ≤ l) :
    wigC l (fun i j => if i = j then 1 else 0) a b = if b = a then 1 else 0 := by
  refine null_coeff_eq l (fun b => wigC l (fun i j => if i = j then 1 else 0) a b) (fun b => if b = a then 1 else 0)
    (fun u v => ?_) b (mem_Icc.mpr (abs_le.mp hb))
  rw [← sphC_mulVec_null l _ a ha]
  have e : cmulVec (fun i j => if i = j then 1 else 0) (nullVec u v) = nullVec u v := by
    ext i; simp [cmulVec]
  rw [e]
  simp [ite_mul, (abs_le.mp ha).1, (abs_le.mp ha).2]

theorem wigC_orth (l : ℕ) {R : Fin 3 → Fin 3 → ℂ} (h : COrth R) (a b : ℤ) (ha : |a| ≤ l) (hb : |b| ≤ l) :
    ∑ c ∈ Icc (-(l : ℤ)) l, wigC l R a c * wigC l R b c = if b = a then 1 else 0 := by
  rw [← wigC_one l a b ha hb]
  have e : (fun i j => if i = j then (1 : ℂ) else 0) = cmul R (ctrans R) := by
    ext i j
    exact (h.trans i j).symm
  rw [e, wigC_mul l h _ a b ha hb]
  refine sum_congr rfl fun c hc => ?_
  rw [wigC_trans l h b c hb (abs_le.mpr (mem_Icc.mp hc))]

/-! ## the entries computed by the code -/

/-- the entries of the rotation matrix as values of the symbols `r00, r01, …` -/
def rotEntries (R : Fin 3 → Fin 3 → ℝ) : Fin 9 → ℝ :=
  fun k => R ⟨k.1 / 3, by omega⟩ ⟨k.1 % 3, by omega⟩

/-- the value of an entry of the Wigner-D matrix of degree `l` -/
def wigR (l : ℕ) (R : Fin 3 → Fin 3 → ℝ) (a b : ℤ) : ℝ := eval (rotEntries R) (symWignerD l a b)

def toC (R : Fin 3 → Fin 3 → ℝ) : Fin 3 → Fin 3 → ℂ := fun i j => (R i j : ℂ)

theorem eval_rotSymbol (R : Fin 3 → Fin 3 → ℝ) (i j : Fin 3) : eval (rotEntries R) (rotSymbol i j) = R i j := by
  simp only [rotSymbol, eval_X, rotEntries]
  congr 1 <;> (apply Fin.ext; simp <;> omega)

theorem map_rotateXyz (R : Fin 3 → Fin 3 → ℝ) (p : MvPolynomial (Fin 3) ℝ) :
    map ((algebraMap ℝ ℂ).comp (eval (rotEntries R))) (rotateXyzPolynomial p) =
      rotPoly (toC R) (map (algebraMap ℝ ℂ) p) := by
  have h : (map ((algebraMap ℝ ℂ).comp (eval (rotEntries R)))).comp
        ((aeval (fun i : Fin 3 => ∑ j : Fin 3, C (rotSymbol i j) * X j) :
          MvPolynomial (Fin 3) ℝ →ₐ[ℝ] MvPolynomial (Fin 3) (MvPolynomial (Fin 9) ℝ)) : _ →+* _) =
      ((aeval (fun i => linForm (toC R i)) : MvPolynomial (Fin 3) ℂ →ₐ[ℂ] MvPolynomial (Fin 3) ℂ) :
          MvPolynomial (Fin 3) ℂ →+* MvPolynomial (Fin 3) ℂ).comp
        (map (algebraMap ℝ ℂ)) := by
    refine MvPolynomial.ringHom_ext (fun c => ?_) fun i => ?_
    · have e : (algebraMap ℝ (MvPolynomial (Fin 3) (MvPolynomial (Fin 9) ℝ))) c = C (C c) := rfl
      simp [e]
    · simp [linForm, toC, eval_rotSymbol]
  exact RingHom.congr_fun h p

theorem rotateXyz_homog (l : ℕ) (p : MvPolynomial (Fin 3) ℝ) (hp : p.IsHomogeneous l) :
    (rotateXyzPolynomial p).IsHomogeneous l := by
  have := hp.aeval (fun i : Fin 3 => ∑ j : Fin 3, C (rotSymbol i j) * X j) (n := 1) fun i =>
    IsHomogeneous.sum _ _ _ fun _ _ => isHomogeneous_C_mul_X _ _
  rwa [one_mul] at this

theorem rotateXyz_ne (p : MvPolynomial (Fin 3) ℝ) (hp : p ≠ 0) : rotateXyzPolynomial p ≠ 0 := by
  intro h
  have h1 := map_rotateXyz (fun i j => if i = j then 1 else 0) p
  rw [h, map_zero] at h1
  have h2 : rotPoly (toC fun i j => if i = j then 1 else 0) (map (algebraMap ℝ ℂ) p) = map (algebraMap ℝ ℂ) p := by
    refine MvPolynomial.funext fun r => ?_
    rw [eval_rotPoly]
    congr 2
    ext i
    simp only [cmulVec, toC, apply_ite Complex.ofReal, Complex.ofReal_one, Complex.ofReal_zero, ite_mul, one_mul,
      zero_mul, sum_ite_eq, mem_univ, if_true]
  rw [h2] at h1
  exact hp ((map_injective (algebraMap ℝ ℂ) Complex.ofReal_injective) (by rw [← h1, map_zero]))

theorem wigR_eq (l : ℕ) (R : Fin 3 → Fin 3 → ℝ) (a b : ℤ) (ha : |a| ≤ l) (hb : |b| ≤ l) :
    (wigR l R a b : ℂ) = wigC l (toC R) a b := by
  unfold wigR wigC symWignerD polynomialDotProduct
  simp only [symSH_totalDegree l b hb, (rotateXyz_homog l _ (symSH_homog l a ha)).totalDegree
    (rotateXyz_ne _ (symSH_ne_zero l a ha)), ne_eq, not_true, if_false]
  rw [fischer_eq, map_mul, map_sum, eval_C]
  have hs : (symSHC l b).support = (symSphericalHarmonics l b).support :=
    support_map_of_injective _ Complex.ofReal_injective
  rw [hs, kConst]
  push_cast
  rw [sum_mul, sum_div]
  refine sum_congr rfl fun k _ => ?_
  rw [symSHC, symSHC, coeff_map, ← map_rotateXyz, coeff_map]
  simp only [map_mul, eval_C, RingHom.comp_apply, Complex.coe_algebraMap]
  have : (((2 * l).choose l : ℕ) : ℂ) ≠ 0 := by
    exact_mod_cast (Nat.choose_pos (by omega : l ≤ 2 * l)).ne'
  push_cast
  rw [inv_pow]
  field_simp

end

end E3x
