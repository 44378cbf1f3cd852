import Mathlib.Analysis.SpecialFunctions.Complex.Arg
import Mathlib.Analysis.SpecialFunctions.Trigonometric.Inverse
import Mathlib.LinearAlgebra.Matrix.Notation
import Mathlib.LinearAlgebra.CrossProduct
import Mathlib.Data.Matrix.Basic
import Verif.Model.Safe

/-!
# Model of the rotation utilities, so3/rotations.py:55-325

`tiny` is `jnp.finfo(dtype).tiny`, `epsneg` is `jnp.finfo(dtype).epsneg`.  Vectors are `Fin 3 → ℝ`, rotation matrices
`Matrix (Fin 3) (Fin 3) ℝ`; they act on row vectors from the right (`r @ R`), as everywhere in e3x.
-/

namespace E3x

noncomputable section

open Real Matrix

/-- 3-vectors. -/
abbrev Vec3 := Fin 3 → ℝ

/-- 3×3 matrices. -/
abbrev Mat3 := Matrix (Fin 3) (Fin 3) ℝ

/-- `jnp.stack((row1, row2, row3), axis=-1)`: the three vectors become the *columns*. -/
def stackLast (row1 row2 row3 : Vec3) : Mat3 := Matrix.of fun j i => ![row1, row2, row3] i j

/-- The body of `rotation` after the axis has been normalised, so3/rotations.py:81-91. -/
def rotationBody (axis : Vec3) (angle : ℝ) : Mat3 :=
  let a := cos (0.5 * angle)
  let tmp : Vec3 := fun i => -axis i * sin (0.5 * angle)
  let b := tmp 0
  let c := tmp 1
  let d := tmp 2
  let a2 := a * a
  let b2 := b * b
  let c2 := c * c
  let d2 := d * d
  let ab := a * b
  let ac := a * c
  let ad := a * d
  let bc := b * c
  let bd := b * d
  let cd := c * d
  let row1 : Vec3 := ![a2 + b2 - c2 - d2, 2 * (bc + ad), 2 * (bd - ac)]
  let row2 : Vec3 := ![2 * (bc - ad), a2 + c2 - b2 - d2, 2 * (cd + ab)]
  let row3 : Vec3 := ![2 * (bd + ac), 2 * (cd - ab), a2 + d2 - b2 - c2]
  stackLast row1 row2 row3

/-- `rotation`, so3/rotations.py:55-91 (on a batch `ι` of axes and angles). -/
def rotation {ι : Type} [Fintype ι] (tiny : ℝ) (axis : ι → Vec3) (angle : ι → ℝ) : Except Err (ι → Mat3) :=
  (normalize tiny axis).map fun n i => rotationBody (n i) (angle i)

/-- `jnp.cross`. -/
def cross (u v : Vec3) : Vec3 :=
  ![u 1 * v 2 - u 2 * v 1, u 2 * v 0 - u 0 * v 2, u 0 * v 1 - u 1 * v 0]

/-- `jnp.roll(u, shift=1, axis=-1)`. -/
def roll (u : Vec3) : Vec3 := ![u 2, u 0, u 1]

/-- `alignment_rotation`, so3/rotations.py:94-143, on a batch `ι` of pairs. Note that the third call of `normalize`
(line 139) has no `axis` argument: it divides by the norm of the *whole batch*. -/
def alignmentRotation {ι : Type} [Fintype ι] (tiny : ℝ) (u v : ι → Vec3) : Except Err (ι → Mat3) :=
  (normalize tiny u).bind fun u =>
  (normalize tiny v).bind fun v =>
    let x := fun i => cross (u i) (v i)
    let skew := fun i => stackLast ![0, -x i 2, x i 1] ![x i 2, 0, -x i 0] ![-x i 1, x i 0, 0]
    let div := fun i => 1 + ∑ k, u i k * v i k
    let safeDiv := fun i => if div i > 0 then div i else 1
    let rot := fun i => skew i + (1 / safeDiv i) • (skew i * skew i) + (1 : Mat3)
    (normalize tiny (fun (_ : Unit) (p : ι × Fin 3) => u p.1 p.2 + roll (u p.1) p.2)).bind fun w =>
    let axis := fun i => cross (u i) (fun k => w () (i, k))
    (rotation tiny axis fun _ => π).bind fun flip =>
    .ok fun i => if div i > 0 then rot i else flip i

/-- `rotation_euler`, so3/rotations.py:146-201. -/
def rotationEuler (a b c : ℝ) : Mat3 :=
  let row1 : Vec3 := ![cos b * cos c, sin a * sin b * cos c - cos a * sin c, cos a * sin b * cos c + sin a * sin c]
  let row2 : Vec3 := ![cos b * sin c, sin a * sin b * sin c + cos a * cos c, cos a * sin b * sin c - sin a * cos c]
  let row3 : Vec3 := ![-sin b, sin a * cos b, cos a * cos b]
  stackLast row1 row2 row3

/-- `jnp.arctan2(y, x)`: the argument of `x + iy`, in `(-π, π]`, with `arctan2(0, 0) = 0`. -/
def arctan2 (y x : ℝ) : ℝ := Complex.arg ⟨x, y⟩

/-- `euler_angles_from_rotation`, so3/rotations.py:204-248. (Shape check of line 227 not modelled: the type enforces
it.) -/
def eulerAnglesFromRotation (epsneg : ℝ) (rot : Mat3) : ℝ × ℝ × ℝ :=
  let b := -arcsin (rot 0 2)
  let cosB := cos b
  let safeCosB := if cosB ≠ 0 then cosB else 1
  let a := arctan2 (rot 1 2 / safeCosB) (rot 2 2 / safeCosB)
  let c := arctan2 (rot 0 1 / safeCosB) (rot 0 0 / safeCosB)
  let almost1 := 1 - epsneg
  let maskPos := rot 0 2 > almost1
  let maskNeg := rot 0 2 < -almost1
  let c := if maskPos ∨ maskNeg then 0 else c
  let a := if maskPos then arctan2 (-rot 1 0) (-rot 2 0) else a
  let b := if maskPos then -π / 2 else b
  let a := if maskNeg then arctan2 (rot 1 0) (rot 2 0) else a
  let b := if maskNeg then π / 2 else b
  (a, b, c)

/-- The quaternion drawn by `random_rotation` from three uniform numbers, so3/rotations.py:293-302, after the sign flip
of lines 304-308. -/
def randomQuaternion (u0 u1 u2 : ℝ) : ℝ × ℝ × ℝ × ℝ :=
  let sqrt1 := √(1 - u0)
  let sqrt2 := √u0
  let angl1 := 2 * π * u1
  let angl2 := 2 * π * u2
  let r := sqrt1 * sin angl1
  let i := sqrt1 * cos angl1
  let j := sqrt2 * sin angl2
  let k := sqrt2 * cos angl2
  if r < 0 then (-r, -i, -j, -k) else (r, i, j, k)

/-- The slerp of so3/rotations.py:309-317. -/
def slerpFromIdentity (perturbation : ℝ) (q : ℝ × ℝ × ℝ × ℝ) : ℝ × ℝ × ℝ × ℝ :=
  let (r, i, j, k) := q
  let phi := arccos r
  let sinphi := sin phi
  let f1 := if |sinphi| < 1e-9 then 1 - perturbation else sin ((1 - perturbation) * phi) / sinphi
  let f2 := if |sinphi| < 1e-9 then perturbation else sin (perturbation * phi) / sinphi
  (f1 + f2 * r, f2 * i, f2 * j, f2 * k)

/-- The rotation matrix built from a quaternion in `random_rotation`, so3/rotations.py:319-324. -/
def quaternionMatrix (q : ℝ × ℝ × ℝ × ℝ) : Mat3 :=
  let (r, i, j, k) := q
  let i2 := i * i
  let j2 := j * j
  let k2 := k * k
  let ij := i * j
  let ik := i * k
  let jk := j * k
  let ir := i * r
  let jr := j * r
  let kr := k * r
  let row1 : Vec3 := ![1 - 2 * (j2 + k2), 2 * (ij - kr), 2 * (ik + jr)]
  let row2 : Vec3 := ![2 * (ij + kr), 1 - 2 * (i2 + k2), 2 * (jk - ir)]
  let row3 : Vec3 := ![2 * (ik - jr), 2 * (jk + ir), 1 - 2 * (i2 + j2)]
  stackLast row1 row2 row3

/-- `random_rotation`, so3/rotations.py:251-325, for one rotation; `u0 u1 u2` are the three uniform draws (line 293).
`jax.lax.clamp(0.0, perturbation, 1.0)` is line 290. -/
def randomRotation (u0 u1 u2 perturbation : ℝ) : Mat3 :=
  let p := max 0 (min perturbation 1)
  quaternionMatrix (slerpFromIdentity p (randomQuaternion u0 u1 u2))

end

end E3x
