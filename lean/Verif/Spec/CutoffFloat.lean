import Mathlib.Analysis.Complex.Exponential

/-!
# The documented cutoff function
-/

namespace E3x

noncomputable section

/-- The formula in the docstring of `smooth_cutoff`. -/
def exactSmoothCutoff (x c : ℝ) : ℝ := if x < c then Real.exp (1 - 1 / (1 - (x / c) ^ 2)) else 0

end

end E3x
