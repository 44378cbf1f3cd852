import Mathlib.Data.Nat.Notation
import Verif.Model.Basic

/-!
# Model of the grid selection in so3/quadrature.py

The content of the two data files is a parameter (`GridFile`): the table of available precisions, the table of numbers
of points, and the grids `r0, w0, r1, w1, …`.
-/

namespace E3x

/-- The arrays of `_lebedev_grids.npz` / `_delley_grids.npz`; `grid i` stands for the pair `(r{i}, w{i})`. -/
structure GridFile (G : Type) where
  precision : List Int
  num : List Int
  grid : ℕ → G

/-- `np.max` of a non-empty array (the running maximum). -/
def npMax : List Int → Option Int
  | [] => none
  | a :: l => some (l.foldl max a)

/-- `np.min` of a non-empty array. -/
def npMin : List Int → Option Int
  | [] => none
  | a :: l => some (l.foldl min a)

/-- `np.nanargmin`: the first index of the smallest entry which is not NaN (`none`), or nothing if all are NaN (numpy
raises ValueError). -/
def nanargmin : List (Option Int) → Option (ℕ × Int)
  | [] => none
  | none :: l => (nanargmin l).map fun p => (p.1 + 1, p.2)
  | some a :: l =>
    match nanargmin l with
    | none => some (0, a)
    | some (i, b) => if b < a then some (i + 1, b) else some (0, a)

/-- `np.where(diff < 0, np.nan, diff)`. -/
def nanNegative (l : List Int) : List (Option Int) := l.map fun d => if d < 0 then none else some d

/-- so3/quadrature.py:51-71: the index selected for a requested precision.  ValueError (empty table) is turned into
RuntimeError by the surrounding `try`. -/
def selectByPrecision (avail : List Int) (precision : Int) : Except Err ℕ :=
  match npMax avail with
  | none => .error .runtimeError
  | some m =>
    if precision > m then .ok (avail.length - 1)
    else
      match nanargmin (nanNegative (avail.map fun a => a - max precision 0)) with
      | none => .error .runtimeError
      | some (i, _) => .ok i

/-- so3/quadrature.py:72-88: the index selected for a requested number of points. -/
def selectByNum (avail : List Int) (num : Int) : Except Err ℕ :=
  match npMin avail with
  | none => .error .runtimeError
  | some m =>
    if num < m then .ok 0
    else
      match nanargmin (nanNegative (avail.map fun a => max num 0 - a)) with
      | none => .error .runtimeError
      | some (i, _) => .ok i

/-- `_load_grid`, so3/quadrature.py:30-95. `files` maps a kind to the content of its file. -/
def loadGrid {G : Type} (files : String → GridFile G) (kind : String) (precision num : Option Int) : Except Err G :=
  if kind ∉ ["Lebedev", "Delley"] then .error .valueError
  else
    match precision, num with
    | none, none => .error .valueError
    | some _, some _ => .error .valueError
    | some p, none => (selectByPrecision (files kind).precision p).map (files kind).grid
    | none, some n => (selectByNum (files kind).num n).map (files kind).grid

/-- `lebedev_quadrature` and `delley_quadrature`, so3/quadrature.py:98-134, 137-176. -/
def lebedevQuadrature {G : Type} (files : String → GridFile G) (precision num : Option Int) : Except Err G :=
  loadGrid files "Lebedev" precision num

/-- `delley_quadrature`. -/
def delleyQuadrature {G : Type} (files : String → GridFile G) (precision num : Option Int) : Except Err G :=
  loadGrid files "Delley" precision num

end E3x
