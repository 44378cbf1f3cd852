import Verif.Lemmas.Representation
import Verif.Props.Safe

/-!
# Values of spherical harmonics
-/

namespace E3x

noncomputable section

open Finset Spec MvPolynomial

theorem harmonic_one_pos (r : Fin 3 → ℝ) : harmonic 1 1 r = r 0 := by
  unfold harmonic symSphericalHarmonics symPi symA
  simp [sum_range_succ, Nat.choose]

theorem harmonic_one_neg (r : Fin 3 → ℝ) : harmonic 1 (-1) r = r 1 := by
  unfold harmonic symSphericalHarmonics symPi symB
  simp [sum_range_succ, Nat.choose]

theorem harmonic_one_zero (r : Fin 3 → ℝ) : harmonic 1 0 r = r 2 := by
  unfold harmonic symSphericalHarmonics symPi
  simp [Nat.choose]

theorem harmonic_smul (l : ℕ) (m : ℤ) (hm : |m| ≤ l) (a : ℝ) (r : Fin 3 → ℝ) :
    harmonic l m (fun k => a * r k) = a ^ l * harmonic l m r := by
  have h := sphC_smul l m hm (a : ℂ) (fun k => (r k : ℂ))
  have e : (fun i => (a : ℂ) * (r i : ℂ)) = fun i => ((a * r i : ℝ) : ℂ) := by funext i; push_cast; rfl
  rw [e, sphC_ofReal, sphC_ofReal] at h
  unfold harmonic
  exact_mod_cast h

/-- the explicit formula for `normalize` -/
theorem normalize_eq (tiny : ℝ) (ht : 0 < tiny) {ι : Type} [Fintype ι] [Nonempty ι] (r : ι → Fin 3 → ℝ) :
    normalize tiny r = .ok fun b k => if normSq (r b) > tiny then (Real.sqrt (normSq (r b)))⁻¹ * r b k else r b k := by
  obtain ⟨y, -, h2, h3⟩ := C41_normalize tiny ht r inferInstance
  rw [h2]
  congr 1
  funext b k
  have hl : Spec.length (r b) = Real.sqrt (normSq (r b)) := rfl
  have hsq : Spec.length (r b) ^ 2 = normSq (r b) := by
    rw [hl, Real.sq_sqrt]
    exact sum_nonneg fun _ _ => by positivity
  split_ifs with h
  · obtain ⟨-, h5, h6⟩ := (h3 b).1 (by rw [hsq]; exact h)
    rw [h6 k, ← hl, ← mul_assoc, inv_mul_cancel₀ h5.ne', one_mul]
  · rw [(h3 b).2 (by rw [hsq]; exact h)]

theorem normalize_empty (tiny : ℝ) {ι : Type} [Fintype ι] (h : IsEmpty ι) (r : ι → Fin 3 → ℝ) :
    normalize tiny r = .error .valueError := by
  unfold normalize normalizeAndReturnNorm norm
  rw [dif_neg (by simp)]
  rfl

theorem normSq_vecMul {R : Fin 3 → Fin 3 → ℝ} (h : IsOrthogonal R) (r : Fin 3 → ℝ) :
    normSq (vecMul r R) = normSq r := by
  have h1 := h.transpose
  have e : ∀ j, vecMul r R j ^ 2 = ∑ a, ∑ b, (r a * r b) * (R a j * R b j) := by
    intro j
    rw [vecMul, sq, sum_mul_sum]
    exact sum_congr rfl fun a _ => sum_congr rfl fun b _ => by ring
  unfold normSq
  rw [sum_congr rfl fun j _ => e j, sum_comm]
  refine sum_congr rfl fun a _ => ?_
  rw [sum_comm]
  simp only [← mul_sum]
  rw [sum_congr rfl fun b _ => by rw [show ∑ j, R a j * R b j = if a = b then 1 else 0 from h1 a b]]
  simp [sq]

theorem normSq_smul (a : ℝ) (r : Fin 3 → ℝ) : normSq (fun k => a * r k) = a ^ 2 * normSq r := by
  unfold normSq
  rw [mul_sum]
  exact sum_congr rfl fun _ _ => by ring

theorem vecMul_smul (a : ℝ) (r : Fin 3 → ℝ) (R : Fin 3 → Fin 3 → ℝ) :
    vecMul (fun k => a * r k) R = fun k => a * vecMul r R k := by
  funext j
  simp only [vecMul, mul_sum]
  exact sum_congr rfl fun _ _ => by ring

/-- rotating all harmonics -/
theorem harmonics_vecMul (L : ℕ) (cart : Bool) (s : String) {R : Fin 3 → Fin 3 → ℝ} (hR : IsOrthogonal R)
    (u : Fin 3 → ℝ) (j : ℕ) : harmonics L cart s (vecMul u R) j = ∑ i ∈ range ((L + 1) ^ 2), harmonics L cart s u i *
      (if i < (L + 1) ^ 2 ∧ j < (L + 1) ^ 2 then dMatrix cart R i j else 0) := by
  unfold harmonics
  split_ifs with hj
  · rw [harmonic_vecMul _ hR _ (componentOrder_bounds cart j), mul_sum]
    have hd : degreeOf j ≤ L := (deg_le_iff j L).mpr hj
    have e := sum_dMatrix_col cart hd R (fun i => normConstant s (degreeOf i) *
      harmonic (degreeOf i) (componentOrder cart i) u) (fun m => normConstant s (degreeOf j) * harmonic (degreeOf j) m u)
      (fun k hk => by rw [hk])
    rw [sum_congr rfl fun c _ => (mul_assoc _ _ _).symm, ← e]
    refine sum_congr rfl fun i hi => ?_
    rw [mem_range] at hi
    rw [if_pos hi, if_pos ⟨hi, hj⟩]
  · rw [sum_eq_zero]
    intro i _
    rw [if_neg (fun h : i < (L + 1) ^ 2 ∧ j < (L + 1) ^ 2 => hj h.2), mul_zero]

end

end E3x
