import Mathlib.Analysis.SpecialFunctions.Trigonometric.Basic
import Mathlib.LinearAlgebra.Matrix.Determinant.Basic
import Mathlib.LinearAlgebra.Matrix.Trace
import Mathlib.Tactic.LinearCombination
import Mathlib.Tactic.FinCases
import Mathlib.Tactic.FieldSimp
import Verif.Model.Rotations

/-! # Algebra of the 3×3 matrices built by `rotation` and friends -/

namespace E3x

open Matrix

/-- The Euler–Rodrigues matrix in the form used by `rotation`. -/
noncomputable def rodrigues (a b c d : ℝ) : Mat3 :=
  !![a * a + b * b - c * c - d * d, 2 * (b * c - a * d), 2 * (b * d + a * c);
     2 * (b * c + a * d), a * a + c * c - b * b - d * d, 2 * (c * d - a * b);
     2 * (b * d - a * c), 2 * (c * d + a * b), a * a + d * d - b * b - c * c]

theorem mat3_ext {A B : Mat3} (h : ∀ i j, A i j = B i j) : A = B := Matrix.ext h

theorem rotationBody_eq (n : Vec3) (t : ℝ) :
    rotationBody n t = rodrigues (Real.cos (t / 2)) (-n 0 * Real.sin (t / 2)) (-n 1 * Real.sin (t / 2))
      (-n 2 * Real.sin (t / 2)) := by
  have : (0.5 : ℝ) * t = t / 2 := by ring
  ext i j
  fin_cases i <;> fin_cases j <;> simp [rotationBody, rodrigues, stackLast, this]

theorem rodrigues_mul_transpose (a b c d : ℝ) :
    rodrigues a b c d * (rodrigues a b c d)ᵀ = ((a * a + b * b + c * c + d * d) ^ 2) • (1 : Mat3) := by
  ext i j
  fin_cases i <;> fin_cases j <;> simp [rodrigues, Matrix.mul_apply, Fin.sum_univ_three] <;> ring

theorem rodrigues_det (a b c d : ℝ) : (rodrigues a b c d).det = (a * a + b * b + c * c + d * d) ^ 3 := by
  rw [Matrix.det_fin_three]
  simp [rodrigues]
  ring

theorem rodrigues_mul (a b c d a' b' c' d' : ℝ) :
    rodrigues a b c d * rodrigues a' b' c' d' =
      rodrigues (a * a' - b * b' - c * c' - d * d') (a * b' + b * a' + c * d' - d * c')
        (a * c' - b * d' + c * a' + d * b') (a * d' + b * c' - c * b' + d * a') := by
  ext i j
  fin_cases i <;> fin_cases j <;> simp [rodrigues, Matrix.mul_apply, Fin.sum_univ_three] <;> ring

theorem quaternionMatrix_eq (r i j k : ℝ) (h : r * r + i * i + j * j + k * k = 1) :
    quaternionMatrix (r, i, j, k) = rodrigues r (-i) (-j) (-k) := by
  ext p q
  fin_cases p <;> fin_cases q <;> simp [quaternionMatrix, rodrigues, stackLast] <;> first | linear_combination -h | ring1

theorem skew_orthogonal (x : Vec3) (s : ℝ)
    (hs : s ^ 2 * (x 0 * x 0 + x 1 * x 1 + x 2 * x 2) = 2 * s - 1) (K : Mat3)
    (hK : K = stackLast ![0, -x 2, x 1] ![x 2, 0, -x 0] ![-x 1, x 0, 0]) :
    (K + s • (K * K) + 1) * (K + s • (K * K) + 1)ᵀ = 1 ∧ (K + s • (K * K) + 1).det = 1 := by
  subst hK
  constructor
  · ext i j
    fin_cases i <;> fin_cases j <;> simp [stackLast, Matrix.mul_apply, Fin.sum_univ_three]
    · linear_combination (x 1 * x 1 + x 2 * x 2) * hs
    · linear_combination (-x 0 * x 1) * hs
    · linear_combination (-x 0 * x 2) * hs
    · linear_combination (-x 0 * x 1) * hs
    · linear_combination (x 0 * x 0 + x 2 * x 2) * hs
    · linear_combination (-x 1 * x 2) * hs
    · linear_combination (-x 0 * x 2) * hs
    · linear_combination (-x 1 * x 2) * hs
    · linear_combination (x 1 * x 1 + x 0 * x 0) * hs
  · rw [Matrix.det_fin_three]
    simp [stackLast, Matrix.mul_apply, Fin.sum_univ_three]
    linear_combination (x 0 * x 0 + x 1 * x 1 + x 2 * x 2) * hs

theorem skew_vecMul (u v : Vec3) (s : ℝ) (hu : u 0 * u 0 + u 1 * u 1 + u 2 * u 2 = 1)
    (hv : v 0 * v 0 + v 1 * v 1 + v 2 * v 2 = 1)
    (hs : s * (1 + (u 0 * v 0 + u 1 * v 1 + u 2 * v 2)) = 1) (K : Mat3)
    (hK : K = stackLast ![0, -cross u v 2, cross u v 1] ![cross u v 2, 0, -cross u v 0]
      ![-cross u v 1, cross u v 0, 0]) :
    u ᵥ* (K + s • (K * K) + 1) = v := by
  subst hK
  ext i
  have hk : s * ((u 0 * v 0 + u 1 * v 1 + u 2 * v 2) ^ 2 - 1) =
      (u 0 * v 0 + u 1 * v 1 + u 2 * v 2) - 1 := by
    linear_combination ((u 0 * v 0 + u 1 * v 1 + u 2 * v 2) - 1) * hs
  have hx : cross u v 0 * cross u v 0 + cross u v 1 * cross u v 1 + cross u v 2 * cross u v 2 =
      1 - (u 0 * v 0 + u 1 * v 1 + u 2 * v 2) ^ 2 := by
    simp [cross]
    linear_combination hu * (v 0 * v 0 + v 1 * v 1 + v 2 * v 2) + hv
  have hdot : u 0 * cross u v 0 + u 1 * cross u v 1 + u 2 * cross u v 2 = 0 := by
    simp [cross]; ring
  have hbac : ∀ i, cross (cross u v) u i = v i - (u 0 * v 0 + u 1 * v 1 + u 2 * v 2) * u i := by
    intro i
    fin_cases i <;> simp [cross]
    · linear_combination v 0 * hu
    · linear_combination v 1 * hu
    · linear_combination v 2 * hu
  have hb := hbac i
  generalize cross u v = x at *
  fin_cases i <;> simp [stackLast, Matrix.mul_apply, Fin.sum_univ_three, Matrix.vecMul, dotProduct, cross] at *
  · linear_combination hb + u 0 * hk - s * u 0 * hx + s * x 0 * hdot
  · linear_combination hb + u 1 * hk - s * u 1 * hx + s * x 1 * hdot
  · linear_combination hb + u 2 * hk - s * u 2 * hx + s * x 2 * hdot

/-- A half turn about an axis perpendicular to `u` inverts `u`. -/
theorem rodrigues_half_turn (n u : Vec3) (hn : n 0 * n 0 + n 1 * n 1 + n 2 * n 2 = 1)
    (h : n 0 * u 0 + n 1 * u 1 + n 2 * u 2 = 0) :
    u ᵥ* rodrigues 0 (-n 0) (-n 1) (-n 2) = -u := by
  ext i
  fin_cases i <;> simp [rodrigues, Fin.sum_univ_three, Matrix.vecMul, dotProduct]
  · linear_combination 2 * n 0 * h - u 0 * hn
  · linear_combination 2 * n 1 * h - u 1 * hn
  · linear_combination 2 * n 2 * h - u 2 * hn

end E3x
