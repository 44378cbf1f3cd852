import Verif.Lemmas.RandomRotation
import Verif.Props.Alignment

/-!
# Random quaternions and their rotation matrices
-/

namespace E3x

open MeasureTheory Set Real
open scoped ENNReal

/-- the quaternion with these coordinates -/
def pairsQuaternion (x : Pairs) : ℝ × ℝ × ℝ × ℝ := (x (.inl 0), x (.inl 1), x (.inr 0), x (.inr 1))

/-- a matrix acting on the four coordinates -/
def pairsMatrix (a b c d : Pairs) : Matrix (Fin 2 ⊕ Fin 2) (Fin 2 ⊕ Fin 2) ℝ := Matrix.of (Sum.elim ![a, b] ![c, d])

/-- four coordinates -/
def pairsOf (a b c d : ℝ) : Pairs := joinPairs (a, b) (c, d)

theorem pairsMatrix_mulVec (a b c d x : Pairs) : (pairsMatrix a b c d).mulVec x = pairsOf (a ⬝ᵥ x) (b ⬝ᵥ x) (c ⬝ᵥ x) (d ⬝ᵥ x) := by
  funext i
  rcases i with i | i <;> fin_cases i <;> rfl

theorem pairs_dot (a b c d : ℝ) (x : Pairs) :
    pairsOf a b c d ⬝ᵥ x = a * x (.inl 0) + b * x (.inl 1) + c * x (.inr 0) + d * x (.inr 1) := by
  simp [dotProduct, pairsOf, joinPairs, Fintype.sum_sum_type, Fin.sum_univ_two]
  ring

theorem pairsMatrix_orthogonal {a b c d : Pairs}
    (h00 : a (.inl 0) * a (.inl 0) + b (.inl 0) * b (.inl 0) + c (.inl 0) * c (.inl 0) + d (.inl 0) * d (.inl 0) = 1)
    (h11 : a (.inl 1) * a (.inl 1) + b (.inl 1) * b (.inl 1) + c (.inl 1) * c (.inl 1) + d (.inl 1) * d (.inl 1) = 1)
    (h22 : a (.inr 0) * a (.inr 0) + b (.inr 0) * b (.inr 0) + c (.inr 0) * c (.inr 0) + d (.inr 0) * d (.inr 0) = 1)
    (h33 : a (.inr 1) * a (.inr 1) + b (.inr 1) * b (.inr 1) + c (.inr 1) * c (.inr 1) + d (.inr 1) * d (.inr 1) = 1)
    (h01 : a (.inl 0) * a (.inl 1) + b (.inl 0) * b (.inl 1) + c (.inl 0) * c (.inl 1) + d (.inl 0) * d (.inl 1) = 0)
    (h02 : a (.inl 0) * a (.inr 0) + b (.inl 0) * b (.inr 0) + c (.inl 0) * c (.inr 0) + d (.inl 0) * d (.inr 0) = 0)
    (h03 : a (.inl 0) * a (.inr 1) + b (.inl 0) * b (.inr 1) + c (.inl 0) * c (.inr 1) + d (.inl 0) * d (.inr 1) = 0)
    (h12 : a (.inl 1) * a (.inr 0) + b (.inl 1) * b (.inr 0) + c (.inl 1) * c (.inr 0) + d (.inl 1) * d (.inr 0) = 0)
    (h13 : a (.inl 1) * a (.inr 1) + b (.inl 1) * b (.inr 1) + c (.inl 1) * c (.inr 1) + d (.inl 1) * d (.inr 1) = 0)
    (h23 : a (.inr 0) * a (.inr 1) + b (.inr 0) * b (.inr 1) + c (.inr 0) * c (.inr 1) + d (.inr 0) * d (.inr 1) = 0) :
    (pairsMatrix a b c d).transpose * pairsMatrix a b c d = 1 := by
  ext i j
  rw [Matrix.mul_apply, Fintype.sum_sum_type, Fin.sum_univ_two, Fin.sum_univ_two]
  rcases i with i | i <;> rcases j with j | j <;> fin_cases i <;> fin_cases j <;>
    simp only [pairsMatrix, Matrix.transpose_apply, Matrix.of_apply, Sum.elim_inl, Sum.elim_inr, Fin.zero_eta, Fin.mk_one,
      Matrix.cons_val_zero, Matrix.cons_val_one, Matrix.one_apply, reduceCtorEq, if_false, if_true, Sum.inl.injEq, Sum.inr.injEq,
      Fin.reduceEq] <;> linarith

/-- multiplying the rotation matrix by the one of `(r, i, j, k)` from the left -/
def mulLeft (r i j k : ℝ) : Matrix (Fin 2 ⊕ Fin 2) (Fin 2 ⊕ Fin 2) ℝ :=
  pairsMatrix (pairsOf r (-i) (-j) (-k)) (pairsOf i r k (-j)) (pairsOf j (-k) r i) (pairsOf k j (-i) r)

/-- multiplying the rotation matrix by the one of `(r, i, j, k)` from the right -/
def mulRight (r i j k : ℝ) : Matrix (Fin 2 ⊕ Fin 2) (Fin 2 ⊕ Fin 2) ℝ :=
  pairsMatrix (pairsOf r (-i) (-j) (-k)) (pairsOf i r (-k) j) (pairsOf j k r (-i)) (pairsOf k (-j) i r)

/-- rotating the axis of the rotation -/
def mulAxis (Q : Mat3) : Matrix (Fin 2 ⊕ Fin 2) (Fin 2 ⊕ Fin 2) ℝ :=
  pairsMatrix (pairsOf 1 0 0 0) (pairsOf 0 (Q 0 0) (Q 0 1) (Q 0 2)) (pairsOf 0 (Q 1 0) (Q 1 1) (Q 1 2))
    (pairsOf 0 (Q 2 0) (Q 2 1) (Q 2 2))

@[simp] theorem pairsOf_r (a b c d : ℝ) : pairsOf a b c d (.inl 0) = a := rfl
@[simp] theorem pairsOf_i (a b c d : ℝ) : pairsOf a b c d (.inl 1) = b := rfl
@[simp] theorem pairsOf_j (a b c d : ℝ) : pairsOf a b c d (.inr 0) = c := rfl
@[simp] theorem pairsOf_k (a b c d : ℝ) : pairsOf a b c d (.inr 1) = d := rfl

theorem mulLeft_orthogonal {r i j k : ℝ} (h : r * r + i * i + j * j + k * k = 1) :
    (mulLeft r i j k).transpose * mulLeft r i j k = 1 := by
  apply pairsMatrix_orthogonal <;> simp only [pairsOf_r, pairsOf_i, pairsOf_j, pairsOf_k] <;> first | linear_combination h | ring1

theorem mulRight_orthogonal {r i j k : ℝ} (h : r * r + i * i + j * j + k * k = 1) :
    (mulRight r i j k).transpose * mulRight r i j k = 1 := by
  apply pairsMatrix_orthogonal <;> simp only [pairsOf_r, pairsOf_i, pairsOf_j, pairsOf_k] <;> first | linear_combination h | ring1

theorem mulAxis_orthogonal {Q : Mat3} (hQ : Spec.IsProper Q) : (mulAxis Q).transpose * mulAxis Q = 1 := by
  have h1 : Q.transpose * Q = 1 := mul_eq_one_comm.mp hQ.1
  have e := fun i j => congrFun (congrFun h1 i) j
  have e00 := e 0 0
  have e11 := e 1 1
  have e22 := e 2 2
  have e01 := e 0 1
  have e02 := e 0 2
  have e12 := e 1 2
  simp only [Matrix.mul_apply, Fin.sum_univ_three, Matrix.transpose_apply, Matrix.one_apply, Fin.reduceEq, if_true, if_false]
    at e00 e11 e22 e01 e02 e12
  apply pairsMatrix_orthogonal <;> simp only [pairsOf_r, pairsOf_i, pairsOf_j, pairsOf_k] <;> linarith

/-- the squares of the coordinates of a quaternion of length one add up to one -/
def PairsUnit (x : Pairs) : Prop :=
  x (.inl 0) * x (.inl 0) + x (.inl 1) * x (.inl 1) + x (.inr 0) * x (.inr 0) + x (.inr 1) * x (.inr 1) = 1

theorem mulLeft_matrix {r i j k : ℝ} (h : r * r + i * i + j * j + k * k = 1) {x : Pairs} (hx : PairsUnit x) :
    quaternionMatrix (r, i, j, k) * quaternionMatrix (pairsQuaternion x) =
      quaternionMatrix (pairsQuaternion ((mulLeft r i j k).mulVec x)) := by
  rw [mulLeft, pairsMatrix_mulVec]
  simp only [pairs_dot, pairsQuaternion, pairsOf_r, pairsOf_i, pairsOf_j, pairsOf_k]
  unfold PairsUnit at hx
  rw [quaternionMatrix_eq _ _ _ _ h, quaternionMatrix_eq _ _ _ _ hx, rodrigues_mul, quaternionMatrix_eq]
  · congr 1 <;> ring
  · linear_combination (r * r + i * i + j * j + k * k) * hx + h

theorem mulRight_matrix {r i j k : ℝ} (h : r * r + i * i + j * j + k * k = 1) {x : Pairs} (hx : PairsUnit x) :
    quaternionMatrix (pairsQuaternion x) * quaternionMatrix (r, i, j, k) =
      quaternionMatrix (pairsQuaternion ((mulRight r i j k).mulVec x)) := by
  rw [mulRight, pairsMatrix_mulVec]
  simp only [pairs_dot, pairsQuaternion, pairsOf_r, pairsOf_i, pairsOf_j, pairsOf_k]
  unfold PairsUnit at hx
  rw [quaternionMatrix_eq _ _ _ _ h, quaternionMatrix_eq _ _ _ _ hx, rodrigues_mul, quaternionMatrix_eq]
  · congr 1 <;> ring
  · linear_combination (r * r + i * i + j * j + k * k) * hx + h

theorem euler_rodrigues (a b c : ℝ) :
    rotationEuler (2 * a) (2 * b) (2 * c) = rodrigues (cos a) (-sin a) 0 0 * rodrigues (cos b) 0 (-sin b) 0 * rodrigues (cos c) 0 0 (-sin c) := by
  have ha := Real.sin_sq_add_cos_sq a
  have hb := Real.sin_sq_add_cos_sq b
  have hc := Real.sin_sq_add_cos_sq c
  have e1 : rodrigues (cos a) (-sin a) 0 0 = !![1, 0, 0; 0, cos (2 * a), sin (2 * a); 0, -sin (2 * a), cos (2 * a)] := by
    rw [Real.cos_two_mul, Real.sin_two_mul]
    ext i j
    fin_cases i <;> fin_cases j <;> simp [rodrigues] <;> first | linear_combination ha | linear_combination -ha | ring1
  have e2 : rodrigues (cos b) 0 (-sin b) 0 = !![cos (2 * b), 0, -sin (2 * b); 0, 1, 0; sin (2 * b), 0, cos (2 * b)] := by
    rw [Real.cos_two_mul, Real.sin_two_mul]
    ext i j
    fin_cases i <;> fin_cases j <;> simp [rodrigues] <;> first | linear_combination hb | linear_combination -hb | ring1
  have e3 : rodrigues (cos c) 0 0 (-sin c) = !![cos (2 * c), sin (2 * c), 0; -sin (2 * c), cos (2 * c), 0; 0, 0, 1] := by
    rw [Real.cos_two_mul, Real.sin_two_mul]
    ext i j
    fin_cases i <;> fin_cases j <;> simp [rodrigues] <;> first | linear_combination hc | linear_combination -hc | ring1
  rw [e1, e2, e3]
  ext i j
  fin_cases i <;> fin_cases j <;> simp [rotationEuler, stackLast, Matrix.mul_apply, Fin.sum_univ_three] <;> ring

theorem rodrigues_quaternion {Q : Mat3} {w x y z : ℝ} (h : w * w + x * x + y * y + z * z = 1) (hQ : Q = rodrigues w x y z) :
    ∃ r i j k : ℝ, r * r + i * i + j * j + k * k = 1 ∧ quaternionMatrix (r, i, j, k) = Q :=
  ⟨w, -x, -y, -z, by linarith, by
    rw [quaternionMatrix_eq _ _ _ _ (by linarith), hQ, neg_neg, neg_neg, neg_neg]⟩

/-- every rotation belongs to a quaternion -/
theorem exists_quaternion {Q : Mat3} (hQ : Spec.IsProper Q) :
    ∃ r i j k : ℝ, r * r + i * i + j * j + k * k = 1 ∧ quaternionMatrix (r, i, j, k) = Q := by
  obtain ⟨a, b, c, hr⟩ : ∃ a b c, rotationEuler a b c = Q := by
    obtain ⟨e1, -⟩ := proper_entries Q hQ
    have hle : |Q 0 2| ≤ 1 := by
      rw [abs_le_one_iff_mul_self_le_one]
      nlinarith [sq_nonneg (Q 0 0), sq_nonneg (Q 0 1)]
    by_cases h1 : |Q 0 2| = 1
    · exact ⟨_, _, _, C23_matrix_roundtrip 1 one_pos le_rfl Q hQ (Or.inr h1) _ _ _ rfl⟩
    · exact ⟨_, _, _, C23_matrix_roundtrip (1 - |Q 0 2|) (by have := lt_of_le_of_ne hle h1; linarith)
        (by have := abs_nonneg (Q 0 2); linarith) Q hQ (Or.inl (by linarith)) _ _ _ rfl⟩
  have h := euler_rodrigues (a / 2) (b / 2) (c / 2)
  rw [mul_div_cancel₀ a two_ne_zero, mul_div_cancel₀ b two_ne_zero, mul_div_cancel₀ c two_ne_zero, hr, rodrigues_mul,
    rodrigues_mul] at h
  have ha := Real.sin_sq_add_cos_sq (a / 2)
  have hb := Real.sin_sq_add_cos_sq (b / 2)
  have hc := Real.sin_sq_add_cos_sq (c / 2)
  refine rodrigues_quaternion ?_ h
  generalize sin (a / 2) = x at *
  generalize cos (a / 2) = x' at *
  generalize sin (b / 2) = y at *
  generalize cos (b / 2) = y' at *
  generalize sin (c / 2) = z at *
  generalize cos (c / 2) = z' at *
  linear_combination (z ^ 2 + z' ^ 2) * (y ^ 2 + y' ^ 2) * ha + (z ^ 2 + z' ^ 2) * hb + hc

/-- the matrix of the cross product -/
def crossMatrix (w : Fin 3 → ℝ) : Mat3 := !![0, w 2, -w 1; -w 2, 0, w 0; w 1, -w 0, 0]

theorem quaternionMatrix_cross (r : ℝ) (w : Fin 3 → ℝ) :
    quaternionMatrix (r, w 0, w 1, w 2) = 1 + (2 * r) • crossMatrix w + (2 : ℝ) • (crossMatrix w * crossMatrix w) := by
  ext i j
  fin_cases i <;> fin_cases j <;> simp [quaternionMatrix, stackLast, crossMatrix, Matrix.mul_apply, Fin.sum_univ_three] <;> ring

theorem crossMatrix_mulVec {Q : Mat3} (hQ : Spec.IsProper Q) (w : Fin 3 → ℝ) :
    crossMatrix (Q.mulVec w) = Q * crossMatrix w * Q.transpose := by
  obtain ⟨h1, h2⟩ := hQ
  have h1' : Q.transpose * Q = 1 := mul_eq_one_comm.mp h1
  have hadj : Q.adjugate = Q.transpose := by
    have : Q * Q.adjugate = 1 := by rw [Matrix.mul_adjugate, h2, one_smul]
    calc Q.adjugate = (Q.transpose * Q) * Q.adjugate := by rw [h1', Matrix.one_mul]
      _ = Q.transpose := by rw [Matrix.mul_assoc, this, Matrix.mul_one]
  have f := fun i j => congrFun (congrFun hadj i) j
  rw [Matrix.adjugate_fin_three] at f
  have f00 := f 0 0
  have f01 := f 0 1
  have f02 := f 0 2
  have f10 := f 1 0
  have f11 := f 1 1
  have f12 := f 1 2
  have f20 := f 2 0
  have f21 := f 2 1
  have f22 := f 2 2
  simp at f00 f01 f02 f10 f11 f12 f20 f21 f22
  ext i j
  fin_cases i <;> fin_cases j <;> simp [crossMatrix, Matrix.mul_apply, Fin.sum_univ_three, Matrix.mulVec, dotProduct] <;>
    first
      | ring1
      | linear_combination -w 0 * f00 - w 1 * f10 - w 2 * f20
      | linear_combination w 0 * f00 + w 1 * f10 + w 2 * f20
      | linear_combination -w 0 * f01 - w 1 * f11 - w 2 * f21
      | linear_combination w 0 * f01 + w 1 * f11 + w 2 * f21
      | linear_combination -w 0 * f02 - w 1 * f12 - w 2 * f22
      | linear_combination w 0 * f02 + w 1 * f12 + w 2 * f22

/-- the rotation matrix of a rotated axis -/
theorem mulAxis_matrix {Q : Mat3} (hQ : Spec.IsProper Q) (r : ℝ) (w : Fin 3 → ℝ) :
    Q * quaternionMatrix (r, w 0, w 1, w 2) * Q.transpose =
      quaternionMatrix (r, Q.mulVec w 0, Q.mulVec w 1, Q.mulVec w 2) := by
  have h1' : Q.transpose * Q = 1 := mul_eq_one_comm.mp hQ.1
  rw [quaternionMatrix_cross, quaternionMatrix_cross, crossMatrix_mulVec hQ]
  have e : Q * crossMatrix w * Q.transpose * (Q * crossMatrix w * Q.transpose) = Q * (crossMatrix w * crossMatrix w) * Q.transpose := by
    calc _ = Q * crossMatrix w * (Q.transpose * Q) * crossMatrix w * Q.transpose := by simp only [Matrix.mul_assoc]
      _ = _ := by rw [h1', Matrix.mul_one]; simp only [Matrix.mul_assoc]
  rw [e]
  simp only [Matrix.mul_add, Matrix.add_mul, Matrix.mul_one, Matrix.mul_smul, Matrix.smul_mul, hQ.1]

/-- every unit vector is the first row of a rotation -/
theorem exists_first_row {n : Fin 3 → ℝ} (hn : n ⬝ᵥ n = 1) : ∃ Q, Spec.IsProper Q ∧ Q 0 = n := by
  have h : n 0 * n 0 + n 1 * n 1 + n 2 * n 2 = 1 := by simpa [dotProduct, Fin.sum_univ_three] using hn
  have hb : sin (arcsin (-n 2)) = -n 2 := Real.sin_arcsin (by nlinarith [mul_self_nonneg (n 0), mul_self_nonneg (n 1)])
    (by nlinarith [mul_self_nonneg (n 0), mul_self_nonneg (n 1)])
  have hc := Real.sin_sq_add_cos_sq (arcsin (-n 2))
  have hc0 := Real.cos_arcsin_nonneg (-n 2)
  rw [hb] at hc
  have hnorm : ‖(⟨n 0, n 1⟩ : ℂ)‖ = cos (arcsin (-n 2)) := by
    rw [Complex.norm_def, Complex.normSq_mk, show n 0 * n 0 + n 1 * n 1 = cos (arcsin (-n 2)) ^ 2 by linarith,
      Real.sqrt_sq hc0]
  have hx := Complex.norm_mul_cos_arg (⟨n 0, n 1⟩ : ℂ)
  have hy := Complex.norm_mul_sin_arg (⟨n 0, n 1⟩ : ℂ)
  rw [hnorm] at hx hy
  obtain ⟨-, -, -, -, -, -, -, hp⟩ := C23_rotation_euler (1 / 2) (by norm_num) (by norm_num) 0 (arcsin (-n 2))
    (Complex.arg ⟨n 0, n 1⟩)
  refine ⟨_, hp, ?_⟩
  funext j
  fin_cases j
  · simpa [rotationEuler, stackLast] using hx
  · simpa [rotationEuler, stackLast] using hy
  · show -sin (arcsin (-n 2)) = n 2
    rw [hb, neg_neg]

end E3x
