import Verif.Spec.FeatureArrays

/-!
# What an embedding is
-/

namespace E3x.Spec

/-- The row of a table with `n` rows for an integer: its own row, counted from the end if it is negative, if there is one. -/
def rowOf (n : ℕ) (z : ℤ) : Option ℕ :=
  if 0 ≤ z ∧ z < n then some z.toNat else if -(n : ℤ) ≤ z ∧ z < 0 then some (z + n).toNat else none

/-- An array without missing numbers. -/
def Complete (y : NDArray (Option ℝ)) (x : NDArray ℝ) : Prop :=
  x.shape = y.shape ∧ ∀ idx, InShape idx y.shape → entry y idx = some (entry x idx)

example : rowOf 10 3 = some 3 ∧ rowOf 10 (-1) = some 9 ∧ rowOf 10 10 = none ∧ rowOf 10 (-11) = none := by decide

end E3x.Spec
