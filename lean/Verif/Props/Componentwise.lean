import Verif.Props.Irreducible
import Verif.Props.Features
import Mathlib.Topology.Algebra.MvPolynomial
import Mathlib.Topology.Order.IntermediateValue

/-!
# C73: functions applied component by component
-/

namespace E3x

noncomputable section

open Finset Spec

theorem continuous_dMatrix_zRot (cart : Bool) (i j : ℕ) : Continuous fun t => dMatrix cart (zRot t) i j := by
  unfold dMatrix
  split_ifs
  · unfold wigR
    have hc : ∀ a b : Fin 3, Continuous fun t => zRot t a b := by
      intro a b
      unfold zRot
      fin_cases a <;> fin_cases b <;> simp <;> fun_prop
    refine (MvPolynomial.continuous_eval _).comp (continuous_pi fun k => ?_)
    unfold rotEntries
    exact hc _ _
  · exact continuous_const

theorem zRot_zero : zRot 0 = identity3 := by
  funext a b
  unfold zRot identity3
  fin_cases a <;> fin_cases b <;> simp

/-- **C73 (functions of single components).** Let a function be applied to every component of an irrep of degree one or
more. It respects all rotations only if it is the multiplication by a factor: nonlinear activation functions can not be
applied to the components of vectors and higher irreps. -/
theorem C73_componentwise (cart : Bool) (l : ℕ) (hl : 1 ≤ l) (φ : ℝ → ℝ) :
    (∀ R, IsSpatialRotation R → ∀ D, IsWignerD cart R l D → ∀ x, (fun m => φ (turnedIrrep l D x m)) = turnedIrrep l D (fun m => φ (x m))) ↔
      ∃ c, ∀ t, φ t = c * t := by
  constructor
  swap
  · rintro ⟨c, hc⟩ R _ D _ x
    funext m
    simp only [turnedIrrep, hc, mul_sum]
    exact sum_congr rfl fun k _ => by ring
  intro h
  -- a component of order different from zero
  obtain ⟨j, hj0⟩ : ∃ j : Fin (2 * l + 1), componentOrder cart (l ^ 2 + j) ≠ 0 := by
    by_contra hn
    push Not at hn
    have h1 := component_inj cart (i := l ^ 2 + 0) (j := l ^ 2 + 1)
      (by rw [degreeOf_flat (by omega), degreeOf_flat (by omega)])
      ((hn ⟨0, by omega⟩).trans (hn ⟨1, by omega⟩).symm)
    omega
  have hrot : ∀ (t : ℝ) (x : Fin (2 * l + 1) → ℝ), φ (∑ k : Fin (2 * l + 1), x k * dMatrix cart (zRot t) (l ^ 2 + k) (l ^ 2 + j)) =
      ∑ k : Fin (2 * l + 1), φ (x k) * dMatrix cart (zRot t) (l ^ 2 + k) (l ^ 2 + j) := by
    intro t x
    have h1 := congrFun (h _ ⟨zRot_orth t, zRot_det t⟩ _ (isWignerD cart (zRot t) l) x) j
    simp only [turnedIrrep] at h1
    have e : ∀ k : Fin (2 * l + 1), (if l ^ 2 + k.val < (l + 1) ^ 2 ∧ l ^ 2 + j.val < (l + 1) ^ 2 then
        dMatrix cart (zRot t) (l ^ 2 + k) (l ^ 2 + j) else 0) = dMatrix cart (zRot t) (l ^ 2 + k) (l ^ 2 + j) :=
      fun k => if_pos ⟨flat_lt le_rfl k.2, flat_lt le_rfl j.2⟩
    simp only [e] at h1
    exact h1
  set t0 := Real.pi / (componentOrder cart (l ^ 2 + j)).natAbs with ht0
  have hflip : ∀ k : Fin (2 * l + 1), dMatrix cart (zRot t0) (l ^ 2 + k) (l ^ 2 + j) = if k = j then -1 else 0 := by
    intro k
    rw [dMatrix_zRot cart (L := l) (flat_lt le_rfl k.2) (flat_lt le_rfl j.2) hj0]
    simp [Fin.ext_iff]
  have hφ0 : φ 0 = 0 := by
    have h1 := hrot t0 0
    simp only [hflip] at h1
    simp at h1
    linarith
  have hone : dMatrix cart (zRot 0) (l ^ 2 + j) (l ^ 2 + j) = 1 := by
    rw [zRot_zero, dMatrix_one, if_pos rfl]
  have hscale : ∀ s ∈ Set.Icc (-1 : ℝ) 1, ∀ a, φ (a * s) = φ a * s := by
    intro s hs a
    have hiv := intermediate_value_uIcc (a := t0) (b := 0)
      (f := fun t => dMatrix cart (zRot t) (l ^ 2 + j) (l ^ 2 + j)) (continuous_dMatrix_zRot cart _ _).continuousOn
    rw [hflip j, if_pos rfl, hone, Set.uIcc_of_le (by norm_num)] at hiv
    obtain ⟨t, -, ht⟩ := hiv hs
    dsimp only at ht
    have h1 := hrot t (fun k => if k = j then a else 0)
    have e1 : ∑ k : Fin (2 * l + 1), (if k = j then a else 0) * dMatrix cart (zRot t) (l ^ 2 + k) (l ^ 2 + j) = a * s := by
      simp [ht]
    have e2 : ∑ k : Fin (2 * l + 1), φ (if k = j then a else 0) * dMatrix cart (zRot t) (l ^ 2 + k) (l ^ 2 + j) = φ a * s := by
      rw [sum_eq_single j]
      · rw [if_pos rfl, ht]
      · intro k _ hk
        rw [if_neg hk, hφ0, zero_mul]
      · intro hn
        exact absurd (mem_univ j) hn
    rw [e1, e2] at h1
    exact h1
  refine ⟨φ 1, fun t => ?_⟩
  by_cases ht : |t| ≤ 1
  · have := hscale t (abs_le.1 ht) 1
    rwa [one_mul] at this
  · push Not at ht
    have ht0 : t ≠ 0 := by
      rintro rfl
      simp at ht
      linarith
    have := hscale t⁻¹ (by
      rw [Set.mem_Icc, ← abs_le, abs_inv]
      exact inv_le_one_of_one_le₀ ht.le) t
    rw [mul_inv_cancel₀ ht0] at this
    rw [this]
    field_simp

/-- **C73 (scalars and pseudoscalars).** Any function can be applied to scalars; a function applied to pseudoscalars must be
odd. -/
theorem C73_pseudoscalars (cart : Bool) (F : ℕ) (hF : 0 < F) (φ ψ : ℝ → ℝ) :
    IsEquivariant cart (onScalars φ ψ) true 0 F 0 ↔ ∀ t, ψ (-t) = -ψ t := by
  constructor
  · intro h t
    have h1 := (h (fun _ _ _ => t)).2.2.2.2 1 0 0 (by unfold onScalars reflect chan; simp) (by unfold onScalars reflect; simp)
      (by unfold onScalars reflect; simpa using hF)
    unfold onScalars reflect at h1
    simpa using h1
  · intro hψ v
    constructor
    · intro R hR D D' hD hD'
      refine ⟨rfl, rfl, rfl, fun p i f _ hi _ => ?_⟩
      have hi0 : i = 0 := by
        change i < (0 + 1) ^ 2 at hi
        simpa using hi
      subst hi0
      have h1 : D 0 0 = 1 := by
        rw [isWignerD_unique hD (isWignerD cart R 0)]
        dsimp only
        rw [if_pos (by simp), (dMatrix_isRotation cart hR.1 hR.2).scalar]
      have h2 : D' 0 0 = 1 := by
        rw [isWignerD_unique hD' (isWignerD cart R 0)]
        dsimp only
        rw [if_pos (by simp), (dMatrix_isRotation cart hR.1 hR.2).scalar]
      unfold onScalars rotate
      simp [h1, h2]
    · refine ⟨rfl, rfl, rfl, fun p i f hp _ _ => ?_⟩
      have hp2 : p < 2 := hp
      have : p = 0 ∨ p = 1 := by omega
      unfold onScalars reflect
      rcases this with rfl | rfl <;> simp [hψ]

/-- The hypotheses are met by examples on both sides: `relu` is not allowed for pseudoscalars, the cube is; both are not
allowed for vectors. -/
example : ¬ IsEquivariant true (onScalars (max 0) (max 0)) true 0 1 0 ∧
    IsEquivariant true (onScalars (max 0) (· ^ 3)) true 0 1 0 ∧ ¬ ∃ c : ℝ, ∀ t : ℝ, t ^ 3 = c * t := by
  refine ⟨fun h => ?_, (C73_pseudoscalars true 1 one_pos _ _).2 fun t => by ring, fun ⟨c, hc⟩ => ?_⟩
  · have := (C73_pseudoscalars true 1 one_pos _ _).1 h 1
    norm_num at this
  · have h1 := hc 1
    have h2 := hc 2
    norm_num at h1 h2
    linarith

end

end E3x
