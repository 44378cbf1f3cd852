import Verif.Model.Features
import Verif.Spec.Features

/-!
# Specification of features with another maximum degree
-/

namespace E3x.Spec

/-- The features with maximum degree `K`: higher degrees are cut off, missing ones are zero. -/
noncomputable def withDegree (K : ℕ) (x : Feat) : Feat := changeMaxDegreeOrType x (some K) none

end E3x.Spec
