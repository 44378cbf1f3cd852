import Mathlib.Analysis.SpecialFunctions.Sqrt
import Mathlib.Analysis.Calculus.Deriv.Pow
import Mathlib.Analysis.Calculus.Deriv.Add
import Mathlib.Analysis.Calculus.Deriv.Mul
import Mathlib.Algebra.BigOperators.Field
import Verif.Model.Safe

/-!
# C41: norm and normalize
-/

namespace E3x

open Real

variable {ι κ : Type} [Fintype ι] [Fintype κ]

/-- The Euclidean length of a vector, written out. -/
noncomputable def Spec.length (v : κ → ℝ) : ℝ := √(∑ k, v k ^ 2)

/-- **C41.** For every non-empty array, of whatever scale, `norm` is exactly the Euclidean norm of each vector; no
division by zero occurs (the scale is positive); an empty array raises ValueError. -/
theorem C41_norm (tiny : ℝ) (ht : 0 < tiny) (x : ι → κ → ℝ) :
    (∀ h, 0 < normScale tiny x h) ∧
    (Nonempty (ι × κ) → norm tiny x = .ok fun i => Spec.length (x i)) ∧
    (¬ Nonempty (ι × κ) → norm tiny x = .error .valueError) := by
  have hpos : ∀ h, 0 < normScale tiny x h := fun h => lt_of_lt_of_le ht (le_max_right _ _)
  refine ⟨hpos, ?_, ?_⟩
  · intro hne
    have hn : (Finset.univ : Finset (ι × κ)).Nonempty := Finset.univ_nonempty_iff.mpr hne
    unfold norm
    rw [dif_pos hn]
    dsimp only
    congr 1
    funext i
    have ha := hpos hn
    set a := normScale tiny x hn
    have : ∑ k, x i k / a * (x i k / a) = (∑ k, x i k ^ 2) / a ^ 2 := by
      rw [Finset.sum_div]
      exact Finset.sum_congr rfl fun k _ => by field_simp
    rw [this, sqrt_div' _ (by positivity), sqrt_sq ha.le, Spec.length]
    field_simp
  · intro hne
    have hn : ¬ (Finset.univ : Finset (ι × κ)).Nonempty := by rwa [Finset.univ_nonempty_iff]
    unfold norm
    rw [dif_neg hn]

/-- **C41.** The hand-written derivative: in every direction it is the derivative of the Euclidean norm where that
exists (at every non-zero vector), namely `⟨x, ẋ⟩ / |x|`, and zero at the origin. -/
theorem C41_norm_jvp (tiny : ℝ) (ht : 0 < tiny) (x xDot : ι → κ → ℝ) (hne : Nonempty (ι × κ)) :
    ∃ t, normTangent tiny x xDot = .ok t ∧
      ∀ i, (x i ≠ 0 → HasDerivAt (fun s : ℝ => Spec.length (fun k => x i k + s * xDot i k)) (t i) 0 ∧
          t i = (∑ k, x i k * xDot i k) / Spec.length (x i)) ∧
        (x i = 0 → t i = 0) := by
  refine ⟨fun i => ∑ k, xDot i k * x i k / (if Spec.length (x i) > 0 then Spec.length (x i) else 1), ?_, ?_⟩
  · unfold normTangent
    rw [(C41_norm tiny ht x).2.1 hne]
    rfl
  · intro i
    constructor
    · intro hx
      have hsum : 0 < ∑ k, x i k ^ 2 := by
        rcases (Finset.sum_nonneg fun k _ => sq_nonneg (x i k)).lt_or_eq with h | h
        · exact h
        · exfalso
          apply hx
          funext k
          have := (Finset.sum_eq_zero_iff_of_nonneg fun k _ => sq_nonneg (x i k)).mp h.symm k (Finset.mem_univ k)
          simpa using this
      have hlen : 0 < Spec.length (x i) := sqrt_pos.mpr hsum
      have hval : (∑ k, xDot i k * x i k / (if Spec.length (x i) > 0 then Spec.length (x i) else 1)) =
          (∑ k, x i k * xDot i k) / Spec.length (x i) := by
        rw [if_pos hlen, Finset.sum_div]
        exact Finset.sum_congr rfl fun k _ => by rw [mul_comm]
      refine ⟨?_, hval⟩
      dsimp only
      rw [hval]
      unfold Spec.length
      have hk : ∀ k ∈ (Finset.univ : Finset κ),
          HasDerivAt (fun s : ℝ => (x i k + s * xDot i k) ^ 2) (2 * (x i k * xDot i k)) 0 := by
        intro k _
        have h1 : HasDerivAt (fun s : ℝ => x i k + s * xDot i k) (xDot i k) 0 := by
          simpa using ((hasDerivAt_id (0 : ℝ)).mul_const (xDot i k)).const_add (x i k)
        have h2 := h1.fun_pow 2
        refine h2.congr_deriv ?_
        simp; ring
      have hs := HasDerivAt.fun_sum hk
      have h0 : ∑ k, (x i k + 0 * xDot i k) ^ 2 ≠ 0 := by simpa using hsum.ne'
      refine (hs.sqrt h0).congr_deriv ?_
      simp only [zero_mul, add_zero]
      rw [← Finset.mul_sum]
      have : √(∑ k, x i k ^ 2) ≠ 0 := (sqrt_pos.mpr hsum).ne'
      field_simp
    · intro hx
      simp [hx]

/-- **C41.** `normalize`: a vector whose squared length exceeds `tiny` becomes the unit vector in the same direction;
any other vector (the zero vector included) is returned unchanged; the divisor is never zero. The norm is returned
alongside. -/
theorem C41_normalize (tiny : ℝ) (ht : 0 < tiny) (x : ι → κ → ℝ) (hne : Nonempty (ι × κ)) :
    ∃ y, normalizeAndReturnNorm tiny x = .ok (y, fun i => Spec.length (x i)) ∧ normalize tiny x = .ok y ∧
      ∀ i, (Spec.length (x i) ^ 2 > tiny →
          Spec.length (y i) = 1 ∧ 0 < Spec.length (x i) ∧ ∀ k, x i k = Spec.length (x i) * y i k) ∧
        (¬ Spec.length (x i) ^ 2 > tiny → y i = x i) := by
  refine ⟨fun i k => x i k / (if Spec.length (x i) * Spec.length (x i) > tiny then Spec.length (x i) else 1), ?_, ?_, ?_⟩
  · unfold normalizeAndReturnNorm
    rw [(C41_norm tiny ht x).2.1 hne]
    rfl
  · unfold normalize normalizeAndReturnNorm
    rw [(C41_norm tiny ht x).2.1 hne]
    rfl
  · intro i
    constructor
    · intro h
      have h' : Spec.length (x i) * Spec.length (x i) > tiny := by rwa [← sq]
      have h0 : 0 < Spec.length (x i) := by
        rcases (sqrt_nonneg (∑ k, x i k ^ 2)).lt_or_eq with hh | hh
        · exact hh
        · exfalso
          have : Spec.length (x i) = 0 := hh.symm
          rw [this] at h; simp at h; linarith
      simp only [if_pos h']
      refine ⟨?_, h0, fun k => by field_simp⟩
      show √(∑ k, (x i k / Spec.length (x i)) ^ 2) = 1
      have : ∑ k, (x i k / Spec.length (x i)) ^ 2 = (∑ k, x i k ^ 2) / Spec.length (x i) ^ 2 := by
        rw [Finset.sum_div]
        exact Finset.sum_congr rfl fun k _ => by rw [div_pow]
      rw [this, Spec.length, sq_sqrt (Finset.sum_nonneg fun k _ => sq_nonneg _), div_self, sqrt_one]
      have : 0 < ∑ k, x i k ^ 2 := sqrt_pos.mp h0
      exact this.ne'
    · intro h
      have h' : ¬ Spec.length (x i) * Spec.length (x i) > tiny := by rwa [← sq]
      simp only [if_neg h', div_one]

example : Nonempty (Fin 2 × Fin 3) ∧ (fun (_ : Fin 2) (k : Fin 3) => (k : ℝ)) 0 ≠ 0 := by
  refine ⟨⟨(0, 0)⟩, fun h => ?_⟩
  have := congrFun h 1
  simp at this

end E3x
