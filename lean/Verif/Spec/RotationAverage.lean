import Verif.Model.Rotations
import Verif.Spec.Irreducible
import Verif.Spec.RandomRotation

/-! # Specification for averages over random rotations -/

namespace E3x.Spec

/-- `D u` is what `wigner_d` returns for the random rotation that belongs to the draws `u`. -/
def RandomWignerD (cart : Bool) (p : ℝ) (L : ℕ) (D : ℝ × ℝ × ℝ → ℕ → ℕ → ℝ) : Prop :=
  ∀ u, IsWignerD cart (fun a b => randomRotation u.1 u.2.1 u.2.2 p a b) L (D u)

end E3x.Spec
