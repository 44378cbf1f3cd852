import Verif.Spec.Arrays
import Verif.Model.Features
import Mathlib.Data.Nat.Sqrt

/-!
# What arrays of features mean

The axes of an array of features are any number of batch axes, the parity axis, the degree axis and the feature axis.
-/

namespace E3x.Spec

/-- `(*batch, 1, k², F)` or, with pseudotensors, `(*batch, 2, k², F)`: all components of degree below `k`. -/
def FeatureShape (shape batch : List ℕ) (pseudo : Bool) (k F : ℕ) : Prop :=
  shape = batch ++ [if pseudo then 2 else 1, k ^ 2, F]

/-- The component with parity `p` (0 even, 1 odd) at position `i` of the degree axis (its degree is `⌊√i⌋`) of feature `f`
of the batch entry `b`. It is zero if the array has no such component: an array with one parity channel has only
components with the parity of the degree. -/
noncomputable def component (x : NDArray ℝ) (b : List ℕ) (p i f : ℕ) : ℝ :=
  if x.shape.getD (b.length + 1) 0 ≤ i ∨ 2 ≤ p then 0
  else if x.shape.getD b.length 0 = 2 then entry x (b ++ [p, i, f])
  else if p = Nat.sqrt i % 2 then entry x (b ++ [0, i, f])
  else 0

/-- The part of the array at one index of the batch axes, for the definitions of Model/Features.lean. -/
noncomputable def featAt (x : NDArray ℝ) (b : List ℕ) : Feat where
  pseudo := x.shape.getD b.length 0 == 2
  L := Nat.sqrt (x.shape.getD (b.length + 1) 0) - 1
  F := x.shape.getD (b.length + 2) 0
  val := fun p i f => entry x (b ++ [p, i, f])

/-- Example: an array with two batch entries, tensors and pseudotensors of degree at most one and four features. -/
example : FeatureShape [2, 2, 4, 4] [2] true 2 4 := rfl

end E3x.Spec
