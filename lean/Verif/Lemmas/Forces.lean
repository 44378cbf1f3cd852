import Verif.Spec.Forces
import Mathlib.Analysis.Calculus.FDeriv.Equiv
import Mathlib.Analysis.Calculus.FDeriv.Comp
import Mathlib.Analysis.Calculus.FDeriv.Add
import Mathlib.Analysis.Calculus.Deriv.Comp
import Mathlib.Analysis.Calculus.Deriv.Pi
import Mathlib.Analysis.SpecialFunctions.Trigonometric.Deriv
import Mathlib.Topology.Algebra.Module.FiniteDimension
import Mathlib.Topology.Algebra.Module.Equiv

/-!
# Gradients of functions of the positions of atoms
-/

namespace E3x

open Spec

/-- The displacement of one coordinate of one atom. -/
noncomputable def unitMove {n : ℕ} (i : Fin n) (k : Fin 3) : Fin n → Fin 3 → ℝ := Pi.single i (Pi.single k 1)

theorem unitMove_apply {n : ℕ} (i j : Fin n) (k l : Fin 3) : unitMove i k j l = if j = i ∧ l = k then 1 else 0 := by
  unfold unitMove
  by_cases h : j = i
  · subst h
    rw [Pi.single_eq_same, Pi.single_apply]
    simp
  · rw [Pi.single_eq_of_ne h]
    simp [h]

theorem move_sum {n : ℕ} (v : Fin n → Fin 3 → ℝ) : v = ∑ i, ∑ k, v i k • unitMove i k := by
  funext j l
  simp only [Finset.sum_apply, Pi.smul_apply, smul_eq_mul, unitMove_apply]
  rw [Finset.sum_eq_single j, Finset.sum_eq_single l]
  · simp
  · intro b _ hb
    simp [hb.symm]
  · simp
  · intro b _ hb
    simp [hb.symm]
  · simp

theorem linear_sum {n : ℕ} (f : (Fin n → Fin 3 → ℝ) →L[ℝ] ℝ) (v : Fin n → Fin 3 → ℝ) :
    f v = ∑ i, ∑ k, f (unitMove i k) * v i k := by
  conv_lhs => rw [move_sum v]
  simp only [map_sum, map_smul, smul_eq_mul]
  exact Finset.sum_congr rfl fun i _ => Finset.sum_congr rfl fun k _ => mul_comm _ _

/-- The derivative along a curve. -/
theorem curve_deriv {n : ℕ} {U : (Fin n → Fin 3 → ℝ) → ℝ} {γ : ℝ → Fin n → Fin 3 → ℝ} {v : Fin n → Fin 3 → ℝ} {t : ℝ}
    (hγ : HasDerivAt γ v t) (hU : DifferentiableAt ℝ U (γ t)) :
    HasDerivAt (fun t => U (γ t)) (∑ i, ∑ k, fderiv ℝ U (γ t) (unitMove i k) * v i k) t := by
  rw [← linear_sum]
  exact hU.hasFDerivAt.comp_hasDerivAt t hγ

theorem curve_const {n : ℕ} {U : (Fin n → Fin 3 → ℝ) → ℝ} {γ : ℝ → Fin n → Fin 3 → ℝ} {v : Fin n → Fin 3 → ℝ} {t : ℝ}
    (hγ : HasDerivAt γ v t) (hU : DifferentiableAt ℝ U (γ t)) (h : ∀ s, U (γ s) = U (γ t)) :
    ∑ i, ∑ k, fderiv ℝ U (γ t) (unitMove i k) * v i k = 0 := by
  have h1 := curve_deriv hγ hU
  have h2 : HasDerivAt (fun s => U (γ s)) 0 t := by
    rw [show (fun s => U (γ s)) = fun _ => U (γ t) from funext h]
    exact hasDerivAt_const _ _
  exact h1.unique h2

theorem grad_translated {n : ℕ} {U : (Fin n → Fin 3 → ℝ) → ℝ} (t : Fin 3 → ℝ) (h : ∀ X, U (translated t X) = U X)
    (X : Fin n → Fin 3 → ℝ) : fderiv ℝ U (translated t X) = fderiv ℝ U X := by
  have e : ∀ X : Fin n → Fin 3 → ℝ, translated t X = X + fun _ => t := fun X => rfl
  have := fderiv_comp_add_right (𝕜 := ℝ) (f := U) (x := X) (fun _ => t)
  rw [e, ← this]
  congr 1
  funext Y
  exact h Y

/-- Rotations as linear maps. -/
noncomputable def rotatedLinear {n : ℕ} (R : Fin 3 → Fin 3 → ℝ) : (Fin n → Fin 3 → ℝ) →ₗ[ℝ] (Fin n → Fin 3 → ℝ) where
  toFun := rotated R
  map_add' X Y := by
    funext i k
    simp [rotated, vecMul, add_mul, Finset.sum_add_distrib]
  map_smul' c X := by
    funext i k
    simp [rotated, vecMul, mul_assoc, Finset.mul_sum]

/-- The transposed matrix. -/
def transposed (R : Fin 3 → Fin 3 → ℝ) : Fin 3 → Fin 3 → ℝ := fun i j => R j i

theorem orthogonal_transposed {R : Fin 3 → Fin 3 → ℝ} (hR : IsOrthogonal R) : IsOrthogonal (transposed R) := by
  have h1 : (Matrix.of R).transpose * Matrix.of R = 1 := by
    ext i j
    rw [Matrix.mul_apply, Matrix.one_apply]
    exact hR i j
  have h2 := mul_eq_one_comm.1 h1
  intro i j
  have := congrFun (congrFun h2 i) j
  rw [Matrix.mul_apply, Matrix.one_apply] at this
  exact this

theorem rotated_transposed {R : Fin 3 → Fin 3 → ℝ} (hR : IsOrthogonal R) {n : ℕ} (X : Fin n → Fin 3 → ℝ) :
    rotated R (rotated (transposed R) X) = X := by
  funext i k
  simp only [rotated, vecMul, transposed, Finset.sum_mul]
  rw [Finset.sum_comm]
  have : ∀ y, ∑ x, X i y * R x y * R x k = X i y * if y = k then 1 else 0 := by
    intro y
    rw [← hR y k, Finset.mul_sum]
    exact Finset.sum_congr rfl fun x _ => by ring
  simp [this]

/-- Rotations as linear equivalences. -/
noncomputable def rotatedEquiv {n : ℕ} {R : Fin 3 → Fin 3 → ℝ} (hR : IsOrthogonal R) :
    (Fin n → Fin 3 → ℝ) ≃L[ℝ] (Fin n → Fin 3 → ℝ) :=
  LinearEquiv.toContinuousLinearEquiv
    { rotatedLinear R with
      invFun := rotated (transposed R)
      left_inv := fun X => rotated_transposed (R := transposed R) (orthogonal_transposed hR) X
      right_inv := rotated_transposed hR }

theorem rotatedEquiv_apply {n : ℕ} {R : Fin 3 → Fin 3 → ℝ} (hR : IsOrthogonal R) (X : Fin n → Fin 3 → ℝ) :
    rotatedEquiv hR X = rotated R X := rfl

theorem grad_rotated {n : ℕ} {U U' : (Fin n → Fin 3 → ℝ) → ℝ} {R : Fin 3 → Fin 3 → ℝ} (hR : IsOrthogonal R)
    (h : ∀ X, U' (rotated R X) = U X) (X : Fin n → Fin 3 → ℝ) (i : Fin n) (k : Fin 3) :
    fderiv ℝ U' (rotated R X) (unitMove i k) = ∑ j, fderiv ℝ U X (unitMove i j) * R j k := by
  have e1 : fderiv ℝ U X = (fderiv ℝ U' (rotated R X)).comp (rotatedEquiv (n := n) hR : _ →L[ℝ] _) := by
    rw [← rotatedEquiv_apply hR, ← ContinuousLinearEquiv.comp_right_fderiv]
    congr 1
    funext Y
    exact (h Y).symm
  have e2 : unitMove i k = rotatedEquiv (n := n) hR (rotated (transposed R) (unitMove i k)) :=
    (rotated_transposed hR _).symm
  rw [e2]
  have e3 : fderiv ℝ U' (rotated R X) (rotatedEquiv (n := n) hR (rotated (transposed R) (unitMove i k))) =
      fderiv ℝ U X (rotated (transposed R) (unitMove i k)) := by
    rw [e1]
    rfl
  rw [e3, linear_sum]
  rw [Finset.sum_eq_single i]
  · refine Finset.sum_congr rfl fun j _ => ?_
    congr 1
    simp [rotated, vecMul, transposed, unitMove_apply]
  · intro b _ hb
    refine Finset.sum_eq_zero fun j _ => ?_
    simp [rotated, vecMul, transposed, unitMove_apply, hb]
  · simp

/-- A rotation in the plane of the axes `a` and `b`. -/
noncomputable def planeRotation (a b : Fin 3) (t : ℝ) : Fin 3 → Fin 3 → ℝ := fun i j =>
  if i = a ∧ j = a ∨ i = b ∧ j = b then Real.cos t else if i = a ∧ j = b then Real.sin t else
    if i = b ∧ j = a then -Real.sin t else if i = j then 1 else 0

theorem planeRotation_orthogonal {a b : Fin 3} (h : a ≠ b) (t : ℝ) : IsOrthogonal (planeRotation a b t) := by
  have hs := Real.sin_sq_add_cos_sq t
  intro i j
  rw [Fin.sum_univ_three]
  revert a b i j
  intro a b h i j
  fin_cases a <;> fin_cases b <;> first | exact absurd rfl h | skip
  all_goals
    fin_cases i <;> fin_cases j <;> simp [planeRotation] <;> nlinarith

theorem planeRotation_zero (a b : Fin 3) {n : ℕ} (X : Fin n → Fin 3 → ℝ) : rotated (planeRotation a b 0) X = X := by
  have : planeRotation a b 0 = fun i j => if i = j then 1 else 0 := by
    funext i j
    unfold planeRotation
    by_cases h : i = j
    · subst h
      by_cases h1 : i = a
      · simp [h1]
      · by_cases h2 : i = b <;> simp [h1, h2]
    · have : ¬ (i = a ∧ j = a ∨ i = b ∧ j = b) := by
        rintro (⟨rfl, rfl⟩ | ⟨rfl, rfl⟩) <;> exact h rfl
      simp [h, this]
  funext i k
  simp [rotated, vecMul, this]

/-- The velocities of rotating atoms. -/
theorem planeRotation_deriv {a b : Fin 3} (h : a ≠ b) {n : ℕ} (X : Fin n → Fin 3 → ℝ) :
    HasDerivAt (fun t => rotated (planeRotation a b t) X)
      (fun i k => if k = b then X i a else if k = a then -X i b else 0) 0 := by
  rw [hasDerivAt_pi]
  intro i
  rw [hasDerivAt_pi]
  intro k
  have hd : ∀ j, HasDerivAt (fun t => X i j * planeRotation a b t j k)
      (X i j * if j = a ∧ k = b then 1 else if j = b ∧ k = a then -1 else 0) 0 := by
    intro j
    refine HasDerivAt.const_mul (X i j) ?_
    unfold planeRotation
    by_cases h1 : j = a ∧ k = a ∨ j = b ∧ k = b
    · simp only [h1, if_true]
      have n1 : ¬ (j = a ∧ k = b) := by
        rintro ⟨rfl, rfl⟩
        rcases h1 with ⟨-, h1⟩ | ⟨h1, -⟩
        · exact h h1.symm
        · exact h h1
      have n2 : ¬ (j = b ∧ k = a) := by
        rintro ⟨rfl, rfl⟩
        rcases h1 with ⟨h1, -⟩ | ⟨-, h1⟩
        · exact h h1.symm
        · exact h h1
      simp only [n1, n2, if_false]
      simpa using Real.hasDerivAt_cos 0
    · simp only [h1, if_false]
      by_cases h2 : j = a ∧ k = b
      · simp only [h2]
        simpa using Real.hasDerivAt_sin 0
      · simp only [h2, if_false]
        by_cases h3 : j = b ∧ k = a
        · simp only [h3]
          simpa using (Real.hasDerivAt_sin 0).fun_neg
        · simp only [h3, if_false]
          exact hasDerivAt_const _ _
  have hs := HasDerivAt.fun_sum fun j (_ : j ∈ Finset.univ) => hd j
  refine hs.congr_deriv ?_
  by_cases hk : k = b
  · subst hk
    rw [Finset.sum_eq_single a]
    · simp
    · intro j _ hj
      simp [hj, h.symm]
    · simp
  · simp only [hk, and_false, if_false]
    by_cases hk' : k = a
    · subst hk'
      rw [Finset.sum_eq_single b]
      · simp
      · intro j _ hj
        simp [hj]
      · simp
    · simp [hk']

/-- The positions of some of the atoms, as a linear map. -/
noncomputable def selectLinear {n' n : ℕ} (σ : Fin n' → Fin n) : (Fin n → Fin 3 → ℝ) →L[ℝ] (Fin n' → Fin 3 → ℝ) :=
  LinearMap.toContinuousLinearMap
    { toFun := fun X i => X (σ i)
      map_add' := fun _ _ => rfl
      map_smul' := fun _ _ => rfl }

theorem grad_select {n' n : ℕ} (σ : Fin n' → Fin n) {U : (Fin n' → Fin 3 → ℝ) → ℝ} (X : Fin n → Fin 3 → ℝ)
    (hU : DifferentiableAt ℝ U fun i => X (σ i)) :
    HasFDerivAt (fun X : Fin n → Fin 3 → ℝ => U fun i => X (σ i)) ((fderiv ℝ U fun i => X (σ i)).comp (selectLinear σ)) X :=
  HasFDerivAt.comp X (g := U) (f := selectLinear σ) hU.hasFDerivAt (selectLinear σ).hasFDerivAt

theorem select_unitMove {n' n : ℕ} {σ : Fin n' → Fin n} (hσ : Function.Injective σ) (i : Fin n') (k : Fin 3) :
    selectLinear σ (unitMove (σ i) k) = unitMove i k := by
  funext j l
  show unitMove (σ i) k (σ j) l = _
  simp [unitMove_apply, hσ.eq_iff]

theorem select_unitMove_zero {n' n : ℕ} {σ : Fin n' → Fin n} {j : Fin n} (hj : ∀ i, σ i ≠ j) (k : Fin 3) :
    selectLinear σ (unitMove j k) = 0 := by
  funext i l
  show unitMove j k (σ i) l = _
  simp [unitMove_apply, hj i]

end E3x
