import Verif.Lemmas.Rotations
import Verif.Props.Safe
import Mathlib.LinearAlgebra.Matrix.Adjugate
import Mathlib.LinearAlgebra.Matrix.NonsingularInverse
import Mathlib.Analysis.SpecialFunctions.Complex.Arg

/-!
# C22-C25: rotation matrices

Specification: a proper rotation is an orthogonal matrix with determinant one; matrices act on row vectors from the
right, `r @ R`, written `r ᵥ* R`.
-/

namespace E3x

namespace Spec

open Matrix

/-- Proper rotations: `R Rᵀ = 1` and `det R = 1`. -/
def IsProper (R : Mat3) : Prop := R * Rᵀ = 1 ∧ R.det = 1

/-- The direction of a vector. -/
noncomputable def direction (u : Vec3) : Vec3 := fun k => u k / length u

end Spec

open Matrix Real

theorem spec_length_sq (x : Vec3) : Spec.length x ^ 2 = x 0 * x 0 + x 1 * x 1 + x 2 * x 2 := by
  unfold Spec.length
  rw [Real.sq_sqrt (Finset.sum_nonneg fun k _ => sq_nonneg _), Fin.sum_univ_three]
  ring

theorem spec_length_nonneg (x : Vec3) : 0 ≤ Spec.length x := Real.sqrt_nonneg _

/-- What `normalize` does to a batch of 3-vectors. -/
theorem normalize_vec {ι : Type} [Fintype ι] [Nonempty ι] (tiny : ℝ) (ht : 0 < tiny) (x : ι → Vec3) :
    ∃ y : ι → Vec3, normalize tiny x = .ok y ∧
      ∀ i, (Spec.length (x i) ^ 2 > tiny → y i = Spec.direction (x i) ∧
          y i 0 * y i 0 + y i 1 * y i 1 + y i 2 * y i 2 = 1) ∧
        (¬ Spec.length (x i) ^ 2 > tiny → y i = x i) := by
  obtain ⟨y, -, h2, h3⟩ := C41_normalize tiny ht x inferInstance
  refine ⟨y, h2, fun i => ⟨fun h => ?_, (h3 i).2⟩⟩
  obtain ⟨h4, h5, h6⟩ := (h3 i).1 h
  refine ⟨?_, ?_⟩
  · ext k
    unfold Spec.direction
    rw [h6 k]
    field_simp
  · rw [← spec_length_sq, h4]; norm_num

theorem rotationBody_proper (n : Vec3) (t : ℝ) (hn : n 0 * n 0 + n 1 * n 1 + n 2 * n 2 = 1) :
    Spec.IsProper (rotationBody n t) := by
  have h1 : cos (t / 2) * cos (t / 2) + -n 0 * sin (t / 2) * (-n 0 * sin (t / 2)) +
      -n 1 * sin (t / 2) * (-n 1 * sin (t / 2)) + -n 2 * sin (t / 2) * (-n 2 * sin (t / 2)) = 1 := by
    linear_combination sin (t / 2) ^ 2 * hn + Real.sin_sq_add_cos_sq (t / 2)
  rw [rotationBody_eq]
  refine ⟨?_, ?_⟩
  · rw [rodrigues_mul_transpose, h1]; simp
  · rw [rodrigues_det, h1]; simp

/-- **C22** (main clauses). For every batch of axes whose squared length exceeds the smallest normal number, and all
angles, `rotation` succeeds, and each returned matrix is a proper rotation, leaves its axis fixed and has trace
`1 + 2 cos(angle)`. -/
theorem C22_rotation {ι : Type} [Fintype ι] [Nonempty ι] (tiny : ℝ) (ht : 0 < tiny) (axis : ι → Vec3)
    (angle : ι → ℝ) :
    ∃ R, rotation tiny axis angle = .ok R ∧ ∀ i, Spec.length (axis i) ^ 2 > tiny →
      Spec.IsProper (R i) ∧ axis i ᵥ* R i = axis i ∧ (R i).trace = 1 + 2 * cos (angle i) := by
  obtain ⟨y, h1, h2⟩ := normalize_vec tiny ht axis
  refine ⟨fun i => rotationBody (y i) (angle i), by rw [rotation, h1]; rfl, fun i hi => ?_⟩
  obtain ⟨h3, h4⟩ := (h2 i).1 hi
  have hc := Real.sin_sq_add_cos_sq (angle i / 2)
  refine ⟨rotationBody_proper _ _ h4, ?_, ?_⟩
  · have hpos : 0 < Spec.length (axis i) := by
      rcases (spec_length_nonneg (axis i)).lt_or_eq with h | h
      · exact h
      · rw [← h] at hi; norm_num at hi; linarith
    have hx : axis i = Spec.length (axis i) • y i := by
      rw [h3]; ext k; simp only [Spec.direction, Pi.smul_apply, smul_eq_mul]; field_simp
    have key : y i ᵥ* rotationBody (y i) (angle i) = y i := by
      rw [rotationBody_eq]
      generalize y i = n at *
      ext k
      fin_cases k <;> simp [rodrigues, Fin.sum_univ_three, Matrix.vecMul, dotProduct]
      · linear_combination n 0 * hc + n 0 * sin (angle i / 2) ^ 2 * h4
      · linear_combination n 1 * hc + n 1 * sin (angle i / 2) ^ 2 * h4
      · linear_combination n 2 * hc + n 2 * sin (angle i / 2) ^ 2 * h4
    conv_lhs => rw [hx]
    rw [Matrix.smul_vecMul, key, ← hx]
  · have hcos : cos (angle i) = 2 * cos (angle i / 2) ^ 2 - 1 := by
      rw [← Real.cos_two_mul]; ring_nf
    show (rotationBody (y i) (angle i)).trace = _
    rw [rotationBody_eq, hcos]
    simp only [Matrix.trace, Fin.sum_univ_three, rodrigues, Matrix.diag, Matrix.of_apply]
    simp
    linear_combination -(sin (angle i / 2) ^ 2) * h4 - hc

/-- **C22** (counterclockwise, explicit action). `rotation` implements Rodrigues' formula: every vector `r` is mapped
to `cos θ r + sin θ (n × r) + (1 - cos θ) (n · r) n`, with `n` the direction of the axis. -/
theorem C22_rodrigues {ι : Type} [Fintype ι] [Nonempty ι] (tiny : ℝ) (ht : 0 < tiny) (axis : ι → Vec3)
    (angle : ι → ℝ) :
    ∃ R, rotation tiny axis angle = .ok R ∧ ∀ i, Spec.length (axis i) ^ 2 > tiny → ∀ r : Vec3,
      r ᵥ* R i = cos (angle i) • r + sin (angle i) • (Spec.direction (axis i) ⨯₃ r) +
        ((1 - cos (angle i)) * (Spec.direction (axis i) ⬝ᵥ r)) • Spec.direction (axis i) := by
  obtain ⟨y, h1, h2⟩ := normalize_vec tiny ht axis
  refine ⟨fun i => rotationBody (y i) (angle i), by rw [rotation, h1]; rfl, fun i hi r => ?_⟩
  obtain ⟨h3, h4⟩ := (h2 i).1 hi
  rw [← h3]
  have hc := Real.sin_sq_add_cos_sq (angle i / 2)
  have hcos : cos (angle i) = cos (angle i / 2) ^ 2 - sin (angle i / 2) ^ 2 := by
    rw [← Real.cos_two_mul']; ring_nf
  have hsin : sin (angle i) = 2 * sin (angle i / 2) * cos (angle i / 2) := by
    rw [← Real.sin_two_mul]; ring_nf
  dsimp only
  rw [rotationBody_eq, hcos, hsin]
  generalize y i = n at *
  ext k
  fin_cases k <;> simp [rodrigues, Fin.sum_univ_three, Matrix.vecMul, dotProduct, crossProduct, vecHead, vecTail]
  · linear_combination (n 0 * (n 0 * r 0 + n 1 * r 1 + n 2 * r 2)) * hc - r 0 * sin (angle i / 2) ^ 2 * h4
  · linear_combination (n 1 * (n 0 * r 0 + n 1 * r 1 + n 2 * r 2)) * hc - r 1 * sin (angle i / 2) ^ 2 * h4
  · linear_combination (n 2 * (n 0 * r 0 + n 1 * r 1 + n 2 * r 2)) * hc - r 2 * sin (angle i / 2) ^ 2 * h4

/-- **C22** (composition and periodicity). For the same batch of axes, angles add up under the matrix product, and the
result is 2π-periodic in the angle; angle 0 gives the identity. -/
theorem C22_compose {ι : Type} [Fintype ι] [Nonempty ι] (tiny : ℝ) (ht : 0 < tiny) (axis : ι → Vec3)
    (s t : ι → ℝ) :
    ∃ S T ST P Z, rotation tiny axis s = .ok S ∧ rotation tiny axis t = .ok T ∧
      rotation tiny axis (fun i => s i + t i) = .ok ST ∧ rotation tiny axis (fun i => s i + 2 * π) = .ok P ∧
      rotation tiny axis (fun _ => 0) = .ok Z ∧
      ∀ i, P i = S i ∧ Z i = 1 ∧ (Spec.length (axis i) ^ 2 > tiny → S i * T i = ST i) := by
  obtain ⟨y, h1, h2⟩ := normalize_vec tiny ht axis
  refine ⟨fun i => rotationBody (y i) (s i), fun i => rotationBody (y i) (t i), fun i => rotationBody (y i) (s i + t i),
    fun i => rotationBody (y i) (s i + 2 * π), fun i => rotationBody (y i) 0, by rw [rotation, h1]; rfl,
    by rw [rotation, h1]; rfl, by rw [rotation, h1]; rfl, by rw [rotation, h1]; rfl, by rw [rotation, h1]; rfl,
    fun i => ⟨?_, ?_, fun hi => ?_⟩⟩
  · dsimp only
    rw [rotationBody_eq, rotationBody_eq, show (s i + 2 * π) / 2 = s i / 2 + π by ring, Real.cos_add_pi,
      Real.sin_add_pi]
    unfold rodrigues
    ext a b
    fin_cases a <;> fin_cases b <;> simp
  · dsimp only
    rw [rotationBody_eq]
    ext a b
    fin_cases a <;> fin_cases b <;> simp [rodrigues]
  · have h4 := ((h2 i).1 hi).2
    dsimp only
    rw [rotationBody_eq, rotationBody_eq, rotationBody_eq, rodrigues_mul, add_div, Real.cos_add, Real.sin_add]
    congr 1
    · linear_combination -(sin (s i / 2) * sin (t i / 2)) * h4
    all_goals ring

/-- **C22** (only the direction matters). Rescaling every axis by a positive factor does not change the result (as long
as both squared lengths are above the smallest normal number). -/
theorem C22_direction {ι : Type} [Fintype ι] [Nonempty ι] (tiny : ℝ) (ht : 0 < tiny) (axis : ι → Vec3)
    (c angle : ι → ℝ) (hc : ∀ i, 0 < c i) :
    ∃ R S, rotation tiny axis angle = .ok R ∧ rotation tiny (fun i => c i • axis i) angle = .ok S ∧
      ∀ i, Spec.length (axis i) ^ 2 > tiny → Spec.length (c i • axis i) ^ 2 > tiny → R i = S i := by
  obtain ⟨y, h1, h2⟩ := normalize_vec tiny ht axis
  obtain ⟨z, h3, h4⟩ := normalize_vec tiny ht (fun i => c i • axis i)
  refine ⟨fun i => rotationBody (y i) (angle i), fun i => rotationBody (z i) (angle i), by rw [rotation, h1]; rfl,
    by rw [rotation, h3]; rfl, fun i h5 h6 => ?_⟩
  dsimp only
  rw [((h2 i).1 h5).1, ((h4 i).1 h6).1]
  congr 1
  have hl : Spec.length (c i • axis i) = c i * Spec.length (axis i) := by
    unfold Spec.length
    rw [← Real.sqrt_sq (hc i).le, ← Real.sqrt_mul (sq_nonneg _), Finset.mul_sum]
    congr 1
    refine Finset.sum_congr rfl fun k _ => ?_
    rw [Real.sqrt_sq (hc i).le]
    simp only [Pi.smul_apply, smul_eq_mul]; ring
  ext k
  unfold Spec.direction
  rw [hl]
  simp only [Pi.smul_apply, smul_eq_mul]
  rw [mul_div_mul_left _ _ (hc i).ne']

/-- **C22** (zero axis). For the zero axis the result is `cos²(angle/2)` times the identity. -/
theorem C22_zero_axis (tiny : ℝ) (ht : 0 < tiny) (angle : ℝ) :
    rotation (ι := Unit) tiny (fun _ => 0) (fun _ => angle) = .ok fun _ => (cos (angle / 2) ^ 2) • (1 : Mat3) := by
  obtain ⟨y, h1, h2⟩ := normalize_vec (ι := Unit) tiny ht (fun _ => (0 : Vec3))
  have h0 : y = fun _ => 0 := by
    funext i
    refine (h2 i).2 ?_
    rw [spec_length_sq]; simpa using ht.le
  subst h0
  rw [rotation, h1]
  show Except.ok _ = _
  congr 1
  funext _
  dsimp only
  rw [rotationBody_eq]
  ext a b
  fin_cases a <;> fin_cases b <;> simp [rodrigues] <;> ring

/-- Non-vacuity and orientation: the quarter turn about z maps the x-axis to the y-axis. -/
example : ∃ R, rotation (ι := Unit) 1e-38 (fun _ => ![0, 0, 2]) (fun _ => π / 2) = .ok R ∧
    Spec.IsProper (R ()) ∧ ![1, 0, 0] ᵥ* R () = ![0, 1, 0] := by
  obtain ⟨R, h1, h2⟩ := C22_rotation (ι := Unit) 1e-38 (by norm_num) (fun _ => ![0, 0, 2]) (fun _ => π / 2)
  obtain ⟨R', h1', h2'⟩ := C22_rodrigues (ι := Unit) 1e-38 (by norm_num) (fun _ => ![0, 0, 2]) (fun _ => π / 2)
  have hl : Spec.length (![0, 0, 2] : Vec3) ^ 2 > 1e-38 := by rw [spec_length_sq]; simp; norm_num
  have hl2 : Spec.length (![0, 0, 2] : Vec3) = 2 := by
    have := spec_length_sq ![0, 0, 2]
    simp at this
    nlinarith [spec_length_nonneg ![0, 0, 2]]
  rw [h1] at h1'
  obtain rfl : R = R' := by injection h1'
  refine ⟨R, h1, (h2 () hl).1, ?_⟩
  rw [h2' () hl]
  have hd : Spec.direction ![0, 0, 2] = ![0, 0, 1] := by
    ext k; unfold Spec.direction; rw [hl2]; fin_cases k <;> simp
  rw [hd]
  ext k; fin_cases k <;> simp [crossProduct]

/-- **C23** (meaning). `rotation_euler(a, b, c)` is the rotation about the x-axis by `a`, followed by the rotation about
the y-axis by `b`, followed by the rotation about the z-axis by `c`; in particular it is a proper rotation. -/
theorem C23_rotation_euler (tiny : ℝ) (ht : 0 < tiny) (ht1 : tiny < 1) (a b c : ℝ) :
    ∃ X Y Z, rotation (ι := Unit) tiny (fun _ => ![1, 0, 0]) (fun _ => a) = .ok X ∧
      rotation (ι := Unit) tiny (fun _ => ![0, 1, 0]) (fun _ => b) = .ok Y ∧
      rotation (ι := Unit) tiny (fun _ => ![0, 0, 1]) (fun _ => c) = .ok Z ∧
      rotationEuler a b c = X () * Y () * Z () ∧ Spec.IsProper (rotationEuler a b c) := by
  have hsc := Real.sin_sq_add_cos_sq
  obtain ⟨X, hX, hX'⟩ := C22_rodrigues (ι := Unit) tiny ht (fun _ => ![1, 0, 0]) (fun _ => a)
  obtain ⟨Y, hY, hY'⟩ := C22_rodrigues (ι := Unit) tiny ht (fun _ => ![0, 1, 0]) (fun _ => b)
  obtain ⟨Z, hZ, hZ'⟩ := C22_rodrigues (ι := Unit) tiny ht (fun _ => ![0, 0, 1]) (fun _ => c)
  have hdir : ∀ n : Vec3, n 0 * n 0 + n 1 * n 1 + n 2 * n 2 = 1 →
      Spec.length n ^ 2 > tiny ∧ Spec.direction n = n := by
    intro n hn
    have h := spec_length_sq n
    rw [hn] at h
    have h1 : Spec.length n = 1 := by nlinarith [spec_length_nonneg n]
    refine ⟨by rw [h]; exact ht1, ?_⟩
    ext k; unfold Spec.direction; rw [h1, div_one]
  obtain ⟨hx1, hx2⟩ := hdir ![1, 0, 0] (by simp)
  obtain ⟨hy1, hy2⟩ := hdir ![0, 1, 0] (by simp)
  obtain ⟨hz1, hz2⟩ := hdir ![0, 0, 1] (by simp)
  have hX'' := hX' () hx1
  have hY'' := hY' () hy1
  have hZ'' := hZ' () hz1
  simp only [hx2] at hX''
  simp only [hy2] at hY''
  simp only [hz2] at hZ''
  have hrow : ∀ (A : Mat3) i, A i = (Pi.single i 1 : Vec3) ᵥ* A := fun A i => by simp; rfl
  have hXe : X () = !![1, 0, 0; 0, cos a, sin a; 0, -sin a, cos a] := by
    ext i j
    rw [hrow (X ()), hX'']
    fin_cases i <;> fin_cases j <;> simp [crossProduct, vecHead, vecTail]
  have hYe : Y () = !![cos b, 0, -sin b; 0, 1, 0; sin b, 0, cos b] := by
    ext i j
    rw [hrow (Y ()), hY'']
    fin_cases i <;> fin_cases j <;> simp [crossProduct, vecHead, vecTail]
  have hZe : Z () = !![cos c, sin c, 0; -sin c, cos c, 0; 0, 0, 1] := by
    ext i j
    rw [hrow (Z ()), hZ'']
    fin_cases i <;> fin_cases j <;> simp [crossProduct, vecHead, vecTail]
  have hmul : rotationEuler a b c = X () * Y () * Z () := by
    rw [hXe, hYe, hZe]
    ext i j
    fin_cases i <;> fin_cases j <;> simp [rotationEuler, stackLast, Matrix.mul_apply, Fin.sum_univ_three] <;> ring
  refine ⟨X, Y, Z, hX, hY, hZ, hmul, ?_⟩
  obtain ⟨X2, hX2, hpX⟩ := C22_rotation (ι := Unit) tiny ht (fun _ => ![1, 0, 0]) (fun _ => a)
  obtain ⟨Y2, hY2, hpY⟩ := C22_rotation (ι := Unit) tiny ht (fun _ => ![0, 1, 0]) (fun _ => b)
  obtain ⟨Z2, hZ2, hpZ⟩ := C22_rotation (ι := Unit) tiny ht (fun _ => ![0, 0, 1]) (fun _ => c)
  rw [hX] at hX2; rw [hY] at hY2; rw [hZ] at hZ2
  obtain rfl : X = X2 := by injection hX2
  obtain rfl : Y = Y2 := by injection hY2
  obtain rfl : Z = Z2 := by injection hZ2
  obtain ⟨px1, px2⟩ := (hpX () hx1).1
  obtain ⟨py1, py2⟩ := (hpY () hy1).1
  obtain ⟨pz1, pz2⟩ := (hpZ () hz1).1
  rw [hmul]
  refine ⟨?_, ?_⟩
  · rw [Matrix.transpose_mul, Matrix.transpose_mul, Matrix.mul_assoc, ← Matrix.mul_assoc (Z ()), pz1, Matrix.one_mul,
      Matrix.mul_assoc, ← Matrix.mul_assoc (Y ()), py1, Matrix.one_mul, px1]
  · rw [Matrix.det_mul, Matrix.det_mul, px2, py2, pz2]; norm_num

theorem sq_add_sq_zero {x y : ℝ} (h : x ^ 2 + y ^ 2 = 0) : x = 0 ∧ y = 0 := by
  have h1 : x ^ 2 = 0 := by nlinarith [sq_nonneg x, sq_nonneg y]
  have h2 : y ^ 2 = 0 := by nlinarith [sq_nonneg x, sq_nonneg y]
  exact ⟨by simpa using h1, by simpa using h2⟩

theorem cos_arctan2 {x y : ℝ} (h : x ^ 2 + y ^ 2 = 1) : cos (arctan2 y x) = x := by
  have hn : ‖(⟨x, y⟩ : ℂ)‖ = 1 := by
    rw [Complex.norm_def, Complex.normSq_mk, ← pow_two, ← pow_two, h, Real.sqrt_one]
  have h0 : (⟨x, y⟩ : ℂ) ≠ 0 := by intro h0; rw [h0] at hn; simp at hn
  rw [arctan2, Complex.cos_arg h0, hn]; simp

theorem sin_arctan2 {x y : ℝ} (h : x ^ 2 + y ^ 2 = 1) : sin (arctan2 y x) = y := by
  have hn : ‖(⟨x, y⟩ : ℂ)‖ = 1 := by
    rw [Complex.norm_def, Complex.normSq_mk, ← pow_two, ← pow_two, h, Real.sqrt_one]
  rw [arctan2, Complex.sin_arg, hn]; simp

/-- Scalar consequences of being a proper rotation. -/
theorem proper_entries (R : Mat3) (h : Spec.IsProper R) :
    R 0 0 ^ 2 + R 0 1 ^ 2 + R 0 2 ^ 2 = 1 ∧ R 0 2 ^ 2 + R 1 2 ^ 2 + R 2 2 ^ 2 = 1 ∧
    R 0 0 * R 1 0 + R 0 1 * R 1 1 + R 0 2 * R 1 2 = 0 ∧ R 0 0 * R 2 0 + R 0 1 * R 2 1 + R 0 2 * R 2 2 = 0 ∧
    R 2 2 = R 0 0 * R 1 1 - R 0 1 * R 1 0 ∧ R 1 2 = R 0 1 * R 2 0 - R 0 0 * R 2 1 ∧
    R 1 0 ^ 2 + R 1 1 ^ 2 + R 1 2 ^ 2 = 1 ∧ R 2 0 ^ 2 + R 2 1 ^ 2 + R 2 2 ^ 2 = 1 ∧
    R 1 0 * R 2 0 + R 1 1 * R 2 1 + R 1 2 * R 2 2 = 0 ∧
    R 1 1 = R 0 0 * R 2 2 - R 0 2 * R 2 0 ∧ R 2 1 = R 0 2 * R 1 0 - R 0 0 * R 1 2 ∧
    R 0 0 ^ 2 + R 1 0 ^ 2 + R 2 0 ^ 2 = 1 := by
  obtain ⟨h1, h2⟩ := h
  have h1' : Rᵀ * R = 1 := mul_eq_one_comm.mp h1
  have hadj : R.adjugate = Rᵀ := by
    have : R * R.adjugate = 1 := by rw [Matrix.mul_adjugate, h2, one_smul]
    calc R.adjugate = (Rᵀ * R) * R.adjugate := by rw [h1', Matrix.one_mul]
      _ = Rᵀ := by rw [Matrix.mul_assoc, this, Matrix.mul_one]
  have e := fun i j => congrFun (congrFun h1 i) j
  have e' := fun i j => congrFun (congrFun h1' i) j
  have f := fun i j => congrFun (congrFun hadj i) j
  simp only [Matrix.mul_apply, Fin.sum_univ_three, Matrix.transpose_apply] at e e'
  rw [Matrix.adjugate_fin_three] at f
  have a1 := e 0 0
  have a2 := e' 2 2
  have a3 := e 0 1
  have a4 := e 0 2
  have a5 := f 2 2
  have a6 := f 2 1
  have a7 := e 1 1
  have a8 := e 2 2
  have a9 := e 1 2
  have a10 := f 1 1
  have a11 := f 1 2
  have a12 := e' 0 0
  simp at a1 a2 a3 a4 a5 a6 a7 a8 a9 a10 a11 a12
  refine ⟨?_, ?_, ?_, ?_, ?_, ?_, ?_, ?_, ?_, ?_, ?_, ?_⟩ <;> linarith

/-- **C23** (round trip from the matrix). For every proper rotation whose `[0, 2]` entry is at most `1 - epsneg` in
absolute value, or exactly `±1` (gimbal lock), the extracted angles reproduce the matrix. -/
theorem C23_matrix_roundtrip (epsneg : ℝ) (he : 0 < epsneg) (he1 : epsneg ≤ 1) (R : Mat3) (hR : Spec.IsProper R)
    (h02 : |R 0 2| ≤ 1 - epsneg ∨ |R 0 2| = 1) :
    ∀ a b c, eulerAnglesFromRotation epsneg R = (a, b, c) → rotationEuler a b c = R := by
  obtain ⟨e1, e2, e3, e4, e5, e6, e7, e8, e9, e10, e11, e12⟩ := proper_entries R hR
  intro a b c h
  rcases h02 with h02 | h02
  · obtain ⟨hlo, hhi⟩ := abs_le.mp h02
    have hp : ¬ R 0 2 > 1 - epsneg := by linarith
    have hn : ¬ R 0 2 < -(1 - epsneg) := by linarith
    have hsin : sin (-arcsin (R 0 2)) = -R 0 2 := by
      rw [Real.sin_neg, Real.sin_arcsin (by linarith) (by linarith)]
    have hcos2 : cos (-arcsin (R 0 2)) ^ 2 = 1 - R 0 2 ^ 2 := by
      have := Real.sin_sq_add_cos_sq (-arcsin (R 0 2)); rw [hsin] at this; linarith
    have hne : cos (-arcsin (R 0 2)) ≠ 0 := by
      intro h0
      rw [h0] at hcos2
      nlinarith [abs_nonneg (R 0 2), sq_abs (R 0 2)]
    simp only [eulerAnglesFromRotation, hp, hn, hne, if_false, or_self, ne_eq, not_false_eq_true, if_true,
      Prod.mk.injEq] at h
    obtain ⟨rfl, rfl, rfl⟩ := h
    generalize -arcsin (R 0 2) = b at *
    have ha : (R 2 2 / cos b) ^ 2 + (R 1 2 / cos b) ^ 2 = 1 := by
      rw [div_pow, div_pow, hcos2, ← add_div, div_eq_one_iff_eq (by rw [← hcos2]; exact pow_ne_zero 2 hne)]; linarith
    have hc : (R 0 0 / cos b) ^ 2 + (R 0 1 / cos b) ^ 2 = 1 := by
      rw [div_pow, div_pow, hcos2, ← add_div, div_eq_one_iff_eq (by rw [← hcos2]; exact pow_ne_zero 2 hne)]; linarith
    have hsb : sin b = -R 0 2 := hsin
    have h2 : cos b * cos b ≠ 0 := mul_ne_zero hne hne
    ext i j
    fin_cases i <;> fin_cases j <;>
      simp [rotationEuler, stackLast, cos_arctan2 ha, cos_arctan2 hc, sin_arctan2 ha, sin_arctan2 hc, hsb]
    · field_simp
    · field_simp
    · field_simp
      linear_combination -R 0 0 * e3 - R 0 1 * e5 + R 1 0 * e1 - R 1 0 * hcos2
    · field_simp
      linear_combination -R 0 1 * e3 + R 0 0 * e5 + R 1 1 * e1 - R 1 1 * hcos2
    · field_simp
    · field_simp
      linear_combination -R 0 0 * e4 + R 0 1 * e6 + R 2 0 * e1 - R 2 0 * hcos2
    · field_simp
      linear_combination -R 0 1 * e4 - R 0 0 * e6 + R 2 1 * e1 - R 2 1 * hcos2
    · field_simp
  · have hsq : R 0 2 ^ 2 = 1 := by rw [← sq_abs, h02]; norm_num
    have r00 : R 0 0 = 0 := (sq_add_sq_zero (by linarith : R 0 0 ^ 2 + R 0 1 ^ 2 = 0)).1
    have r01 : R 0 1 = 0 := (sq_add_sq_zero (by linarith : R 0 0 ^ 2 + R 0 1 ^ 2 = 0)).2
    have r12 : R 1 2 = 0 := (sq_add_sq_zero (by linarith : R 1 2 ^ 2 + R 2 2 ^ 2 = 0)).1
    have r22 : R 2 2 = 0 := (sq_add_sq_zero (by linarith : R 1 2 ^ 2 + R 2 2 ^ 2 = 0)).2
    rw [r00] at e12 e10 e11
    rcases (abs_eq zero_le_one).mp h02 with h' | h'
    · have hp : R 0 2 > 1 - epsneg := by linarith
      have hn : ¬ R 0 2 < -(1 - epsneg) := by linarith
      simp only [eulerAnglesFromRotation, hp, hn, if_false, or_false, if_true, Prod.mk.injEq] at *
      obtain ⟨rfl, rfl, rfl⟩ := h
      have ha : (-R 2 0) ^ 2 + (-R 1 0) ^ 2 = 1 := by linarith
      have hb1 : sin (-π / 2) = -1 := by rw [neg_div, Real.sin_neg, Real.sin_pi_div_two]
      have hb2 : cos (-π / 2) = 0 := by rw [neg_div, Real.cos_neg, Real.cos_pi_div_two]
      ext i j
      fin_cases i <;> fin_cases j <;>
        simp [rotationEuler, stackLast, cos_arctan2 ha, sin_arctan2 ha, hb1, hb2, r00, r01, r12, r22, h']
      · rw [e10, h']; ring
      · rw [e11, h']; ring
    · have hp : ¬ R 0 2 > 1 - epsneg := by linarith
      have hn : R 0 2 < -(1 - epsneg) := by linarith
      simp only [eulerAnglesFromRotation, hp, hn, if_false, or_true, if_true, Prod.mk.injEq] at *
      obtain ⟨rfl, rfl, rfl⟩ := h
      have ha : (R 2 0) ^ 2 + (R 1 0) ^ 2 = 1 := by linarith
      ext i j
      fin_cases i <;> fin_cases j <;>
        simp [rotationEuler, stackLast, cos_arctan2 ha, sin_arctan2 ha, r00, r01, r12, r22, h']
      · rw [e10, h']; ring
      · rw [e11, h']; ring

/-- **C23** (round trip from the angles). Angles in the ranges `a, c ∈ (-π, π]`, `b ∈ [-π/2, π/2]` away from the
gimbal-lock threshold are recovered exactly. -/
theorem C23_angles_roundtrip (epsneg : ℝ) (he : 0 < epsneg) (a b c : ℝ) (ha : a ∈ Set.Ioc (-π) π)
    (hc : c ∈ Set.Ioc (-π) π) (hb : b ∈ Set.Icc (-(π / 2)) (π / 2)) (hs : |sin b| ≤ 1 - epsneg) :
    eulerAnglesFromRotation epsneg (rotationEuler a b c) = (a, b, c) := by
  obtain ⟨hlo, hhi⟩ := abs_le.mp hs
  have h02 : rotationEuler a b c 0 2 = -sin b := by simp [rotationEuler, stackLast]
  have h12 : rotationEuler a b c 1 2 = sin a * cos b := by simp [rotationEuler, stackLast]
  have h22 : rotationEuler a b c 2 2 = cos a * cos b := by simp [rotationEuler, stackLast]
  have h01 : rotationEuler a b c 0 1 = cos b * sin c := by simp [rotationEuler, stackLast]
  have h00 : rotationEuler a b c 0 0 = cos b * cos c := by simp [rotationEuler, stackLast]
  have hasin : -arcsin (-sin b) = b := by rw [Real.arcsin_neg, neg_neg, Real.arcsin_sin hb.1 hb.2]
  have hne : cos b ≠ 0 := by
    intro h0
    have := Real.sin_sq_add_cos_sq b
    rw [h0] at this
    nlinarith [abs_nonneg (sin b), sq_abs (sin b)]
  have hp : ¬ -sin b > 1 - epsneg := by linarith
  have hn : ¬ -sin b < -(1 - epsneg) := by linarith
  have harg : ∀ t ∈ Set.Ioc (-π) π, arctan2 (sin t) (cos t) = t := by
    intro t ht
    have := Complex.arg_cos_add_sin_mul_I ht
    rw [← Complex.ofReal_cos, ← Complex.ofReal_sin] at this
    have h2 : (⟨cos t, sin t⟩ : ℂ) = (cos t : ℂ) + (sin t : ℂ) * Complex.I := by
      rw [Complex.mk_eq_add_mul_I]
    rw [arctan2, h2]; exact this
  simp only [eulerAnglesFromRotation, h02, h12, h22, h01, h00, hasin, hp, hn, hne, if_false, or_self, ne_eq,
    not_false_eq_true, if_true]
  rw [mul_div_cancel_right₀ _ hne, mul_div_cancel_right₀ _ hne, mul_div_cancel_left₀ _ hne,
    mul_div_cancel_left₀ _ hne, harg a ha, harg c hc]

example : ∃ R : Mat3, Spec.IsProper R ∧ |R 0 2| = 1 := by
  refine ⟨!![0, 0, 1; 0, -1, 0; 1, 0, 0], ⟨?_, ?_⟩, by simp⟩
  · ext i j; fin_cases i <;> fin_cases j <;> simp [Matrix.mul_apply, Fin.sum_univ_three]
  · rw [Matrix.det_fin_three]; simp

example : |sin (π / 6)| ≤ 1 - (1e-7 : ℝ) := by rw [Real.sin_pi_div_six]; norm_num [abs_of_pos]

theorem unit_leg {n x : ℝ} (hn : 0 < n) (h : n ^ 2 + x ^ 2 = 1) : n ≤ 1 ∧ 1 - n ≤ x ^ 2 := by
  have h1 : n ≤ 1 := by nlinarith [sq_nonneg x]
  exact ⟨h1, by nlinarith⟩

theorem abs_scale {n x e : ℝ} (hn : 0 < n) (hn1 : n ≤ 1) (he : 1 - n ≤ e) (hx : x ^ 2 ≤ n ^ 2) :
    |x / n - x| ≤ e ∧ |x| ≤ 1 := by
  have hxn : |x| ≤ n := by rw [← abs_of_pos hn]; exact sq_le_sq.mp hx
  refine ⟨?_, hxn.trans hn1⟩
  have : x / n - x = x / n * (1 - n) := by field_simp
  rw [this, abs_mul, abs_div, abs_of_pos hn, abs_of_nonneg (by linarith : 0 ≤ 1 - n)]
  have h1 : |x| / n ≤ 1 := (div_le_one hn).mpr hxn
  nlinarith [abs_nonneg x, div_nonneg (abs_nonneg x) hn.le]

theorem abs_mul_small {x y e : ℝ} (hx : |x| ≤ 1) (hy0 : 0 ≤ y) (hy : y ≤ e) : |x * y| ≤ e := by
  rw [abs_mul, abs_of_nonneg hy0]
  calc |x| * y ≤ 1 * y := mul_le_mul_of_nonneg_right hx hy0
    _ ≤ e := by linarith

set_option maxHeartbeats 1000000 in
/-- **C23** (between the threshold and exact gimbal lock). In the remaining sliver, `1 - epsneg < |R[0,2]| < 1`, the
angles describe the matrix up to an error of order `√epsneg`. -/
theorem C23_near_gimbal (epsneg : ℝ) (he1 : epsneg ≤ 1 / 4) (R : Mat3) (hR : Spec.IsProper R)
    (h02 : 1 - epsneg < |R 0 2|) :
    ∀ a b c, eulerAnglesFromRotation epsneg R = (a, b, c) →
      ∀ i j, |rotationEuler a b c i j - R i j| ≤ √(2 * epsneg) + 5 * epsneg := by
  obtain ⟨e1, e2, e3, e4, e5, e6, e7, e8, e9, e10, e11, e12⟩ := proper_entries R hR
  have hle : |R 0 2| ≤ 1 := by
    rw [← abs_one]; exact sq_le_sq.mp (by linarith [sq_nonneg (R 0 0), sq_nonneg (R 0 1)])
  have he : 0 < epsneg := by linarith
  have hsq : 1 - R 0 2 ^ 2 ≤ 2 * epsneg := by rw [← sq_abs]; nlinarith [abs_nonneg (R 0 2)]
  have hs0 := Real.sqrt_nonneg (2 * epsneg)
  have small : ∀ x y : ℝ, x ^ 2 + y ^ 2 ≤ 2 * epsneg → |x| ≤ √(2 * epsneg) ∧ |y| ≤ √(2 * epsneg) := fun x y h =>
    ⟨Real.abs_le_sqrt (by linarith [sq_nonneg y]), Real.abs_le_sqrt (by linarith [sq_nonneg x])⟩
  obtain ⟨b00, b01⟩ := small (R 0 0) (R 0 1) (by linarith)
  obtain ⟨b12, b22⟩ := small (R 1 2) (R 2 2) (by linarith)
  have prod : ∀ x y : ℝ, |x| ≤ √(2 * epsneg) → |y| ≤ √(2 * epsneg) → |x * y| ≤ 2 * epsneg := fun x y hx hy => by
    rw [abs_mul, ← Real.mul_self_sqrt (by linarith : (0 : ℝ) ≤ 2 * epsneg)]
    exact mul_le_mul hx hy (abs_nonneg _) hs0
  have c1 := prod _ _ b00 b22
  have c2 := prod _ _ b00 b12
  have c0 : R 0 0 ^ 2 ≤ 2 * epsneg := by linarith [sq_nonneg (R 0 1)]
  -- the length of the truncated column
  obtain ⟨n, hn0, hn⟩ : ∃ n : ℝ, 0 < n ∧ n ^ 2 = R 1 0 ^ 2 + R 2 0 ^ 2 :=
    ⟨√(R 1 0 ^ 2 + R 2 0 ^ 2), Real.sqrt_pos.mpr (by linarith), Real.sq_sqrt (by positivity)⟩
  obtain ⟨hn1, hn2⟩ := unit_leg (x := R 0 0) hn0 (by rw [hn]; linarith)
  have hn3 : 1 - n ≤ 2 * epsneg := hn2.trans c0
  obtain ⟨d1, d1'⟩ := abs_scale (x := R 1 0) hn0 hn1 hn3 (by rw [hn]; linarith [sq_nonneg (R 2 0)])
  obtain ⟨d2, d2'⟩ := abs_scale (x := R 2 0) hn0 hn1 hn3 (by rw [hn]; linarith [sq_nonneg (R 1 0)])
  have unitv : ∀ σ : ℝ, σ ^ 2 = 1 → cos (arctan2 (σ * R 1 0) (σ * R 2 0)) = σ * R 2 0 / n ∧
      sin (arctan2 (σ * R 1 0) (σ * R 2 0)) = σ * R 1 0 / n := fun σ hσ => by
    have hnorm : ‖(⟨σ * R 2 0, σ * R 1 0⟩ : ℂ)‖ = n := by
      rw [Complex.norm_def, Complex.normSq_mk, show σ * R 2 0 * (σ * R 2 0) + σ * R 1 0 * (σ * R 1 0) = n ^ 2 by
        rw [hn]; linear_combination (R 1 0 ^ 2 + R 2 0 ^ 2) * hσ, Real.sqrt_sq hn0.le]
    have h0 : (⟨σ * R 2 0, σ * R 1 0⟩ : ℂ) ≠ 0 := by intro h0; rw [h0] at hnorm; simp at hnorm; linarith
    refine ⟨?_, ?_⟩
    · rw [arctan2, Complex.cos_arg h0, hnorm]
    · rw [arctan2, Complex.sin_arg, hnorm]
  intro a b c h
  clear small prod e1 e2 e3 e4 e5 e6 e7 e8 e9 e12 hn2 hsq hR
  generalize √(2 * epsneg) = s at *
  rcases le_total 0 (R 0 2) with hs | hs
  · rw [abs_of_nonneg hs] at h02 hle
    have hp : R 0 2 > 1 - epsneg := by linarith
    have hnn : ¬ R 0 2 < -(1 - epsneg) := by linarith
    simp only [eulerAnglesFromRotation, hp, hnn, if_false, or_false, if_true, Prod.mk.injEq] at h
    obtain ⟨rfl, rfl, rfl⟩ := h
    obtain ⟨u1, u2⟩ := unitv (-1) (by norm_num)
    rw [neg_one_mul, neg_one_mul] at u1 u2
    have hb1 : sin (-π / 2) = -1 := by rw [neg_div, Real.sin_neg, Real.sin_pi_div_two]
    have hb2 : cos (-π / 2) = 0 := by rw [neg_div, Real.cos_neg, Real.cos_pi_div_two]
    have m1 : |R 2 0 * (1 - R 0 2)| ≤ epsneg := abs_mul_small d2' (by linarith) (by linarith)
    have m2 : |R 1 0 * (1 - R 0 2)| ≤ epsneg := abs_mul_small d1' (by linarith) (by linarith)
    have n11 : R 1 1 = R 0 0 * R 2 2 - R 0 2 * R 2 0 := e10
    have n21 : R 2 1 = R 0 2 * R 1 0 - R 0 0 * R 1 2 := e11
    intro i j
    fin_cases i <;> fin_cases j <;> simp [rotationEuler, stackLast, u1, u2, hb1, hb2]
    · linarith
    · linarith
    · rw [abs_of_nonneg (by linarith)]; linarith
    · rw [abs_le] at d1 ⊢
      constructor <;> ring_nf at d1 ⊢ <;> linarith
    · rw [n11, abs_le]
      rw [abs_le] at d2 m1 c1
      constructor <;> ring_nf at d2 m1 c1 ⊢ <;> linarith
    · linarith
    · rw [abs_le] at d2 ⊢
      constructor <;> ring_nf at d2 ⊢ <;> linarith
    · rw [n21, abs_le]
      rw [abs_le] at d1 m2 c2
      constructor <;> ring_nf at d1 m2 c2 ⊢ <;> linarith
    · linarith
  · rw [abs_of_nonpos hs] at h02 hle
    have hp : ¬ R 0 2 > 1 - epsneg := by linarith
    have hnn : R 0 2 < -(1 - epsneg) := by linarith
    simp only [eulerAnglesFromRotation, hp, hnn, if_false, or_true, if_true, Prod.mk.injEq] at h
    obtain ⟨rfl, rfl, rfl⟩ := h
    obtain ⟨u1, u2⟩ := unitv 1 (by norm_num)
    rw [one_mul, one_mul] at u1 u2
    have m1 : |R 2 0 * (1 + R 0 2)| ≤ epsneg := abs_mul_small d2' (by linarith) (by linarith)
    have m2 : |R 1 0 * (1 + R 0 2)| ≤ epsneg := abs_mul_small d1' (by linarith) (by linarith)
    have n11 : R 1 1 = R 0 0 * R 2 2 - R 0 2 * R 2 0 := e10
    have n21 : R 2 1 = R 0 2 * R 1 0 - R 0 0 * R 1 2 := e11
    intro i j
    fin_cases i <;> fin_cases j <;> simp [rotationEuler, stackLast, u1, u2]
    · linarith
    · linarith
    · rw [abs_of_nonpos (by linarith)]; linarith
    · rw [abs_le] at d1 ⊢
      constructor <;> ring_nf at d1 ⊢ <;> linarith
    · rw [n11, abs_le]
      rw [abs_le] at d2 m1 c1
      constructor <;> ring_nf at d2 m1 c1 ⊢ <;> linarith
    · linarith
    · rw [abs_le] at d2 ⊢
      constructor <;> ring_nf at d2 ⊢ <;> linarith
    · rw [n21, abs_le]
      rw [abs_le] at d1 m2 c2
      constructor <;> ring_nf at d1 m2 c2 ⊢ <;> linarith
    · linarith

end E3x
