import Verif.Model.FloatArith

/-!
# Formats for which error bounds are stated
-/

namespace E3x

/-- The smallest and the largest number of a format are far enough from one, compared with its precision. -/
structure FloatFormat.Accurate (F : FloatFormat) : Prop where
  precision : 3 ≤ F.p
  underflow : F.q + F.p - 1 ≤ -2 * F.p
  overflow : (F.p : ℤ) ≤ F.emax

end E3x
