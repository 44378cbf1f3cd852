import Verif.Model.FloatArith
import Mathlib.Analysis.Complex.Exponential

/-!
# Accurate implementations of the exponential function, and the exact softmax
-/

namespace E3x

noncomputable section

/-- An implementation of the exponential function with a relative error of at most four units in the last place, up to the
smallest normal number, for arguments up to one; it is zero at negative infinity. -/
structure AccurateExp (F : FloatFormat) (exp : FloatVal → FloatVal) : Prop where
  num : ∀ x : ℝ, x ≤ 1 → ∃ r, exp (.num x) = .num r ∧ 0 ≤ r ∧ |r - Real.exp x| ≤ 4 * F.unit * Real.exp x + F.tiny
  negInf : exp .negInf = .num 0

/-- The softmax with weights `w` of the numbers `x k`, where `k` runs over a list. -/
def exactSoftmax {κ : Type} (entries : List κ) (w x : κ → ℝ) (k : κ) : ℝ :=
  w k * Real.exp (x k) / (entries.map fun k => w k * Real.exp (x k)).sum

end

end E3x
