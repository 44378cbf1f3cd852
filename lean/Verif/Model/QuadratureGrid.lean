import Mathlib.Data.List.Dedup
import Mathlib.Data.Real.Basic
import Mathlib.Data.Fin.VecNotation

/-!
# The grid points in so3/_lebedev_grids.npz and so3/_delley_grids.npz

Every shipped grid is a union of orbits of the symmetry group of the cube (all permutations and sign changes of the
three coordinates).  The model keeps one point and one weight per orbit.
-/

namespace E3x

/-- One orbit: the coordinates `x / 2⁷⁰`, `y / 2⁷⁰`, `z / 2⁷⁰` of one point with non-negative coordinates, and the absolute
value `w / 2⁷⁰` of the weight which all points of the orbit share. -/
structure QuadratureOrbit where
  x : ℕ
  y : ℕ
  z : ℕ
  w : ℕ

/-- One grid: the orbits with positive weights and those with negative weights. -/
structure QuadratureRule where
  pos : List QuadratureOrbit
  neg : List QuadratureOrbit

namespace QuadratureOrbit

/-- The different arrangements of three coordinates. -/
def arrangements (x y z : ℕ) : List (ℕ × ℕ × ℕ) :=
  [(x, y, z), (x, z, y), (y, x, z), (y, z, x), (z, x, y), (z, y, x)].dedup

/-- A coordinate with both signs (only one entry for zero). -/
def signs (x : ℕ) : List ℤ := if x = 0 then [0] else [(x : ℤ), -(x : ℤ)]

/-- The points of an orbit (numerators over `2⁷⁰`). -/
def points (o : QuadratureOrbit) : List (ℤ × ℤ × ℤ) :=
  (arrangements o.x o.y o.z).flatMap fun t =>
    (signs t.1).flatMap fun a => (signs t.2.1).flatMap fun b => (signs t.2.2).map fun c => (a, b, c)

/-- The points of an orbit as vectors. -/
noncomputable def vectors (o : QuadratureOrbit) : List (Fin 3 → ℝ) :=
  o.points.map fun t => ![(t.1 : ℝ) / 2 ^ 70, (t.2.1 : ℝ) / 2 ^ 70, (t.2.2 : ℝ) / 2 ^ 70]

end QuadratureOrbit

/-- The rows `(r[j], w[j])` of a shipped grid, up to their order and, for the Lebedev grids, up to rounding errors in
the coordinates. -/
noncomputable def QuadratureRule.grid (R : QuadratureRule) : List ((Fin 3 → ℝ) × ℝ) :=
  (R.pos.flatMap fun o => o.vectors.map fun r => (r, (o.w : ℝ) / 2 ^ 70)) ++
    R.neg.flatMap fun o => o.vectors.map fun r => (r, -((o.w : ℝ) / 2 ^ 70))

end E3x
