import Verif.Spec.Energy
import Mathlib.Analysis.Calculus.ContDiff.Defs

/-!
# Specification of C63: energies are smooth functions of the positions
-/

namespace E3x.Spec

/-- The activation function of a layer is `k` times continuously differentiable. -/
def SmoothLayer (k : WithTop ℕ∞) : Layer → Prop
  | .gated _ g => ContDiff ℝ k g
  | _ => True

/-- Conditions for attention layers, for edges which end in the atoms `dst` and have the cutoff values `c`: the values are not
negative, and every atom with an edge has an edge whose value is positive (otherwise the result is NaN, C58). -/
def AttentionDefined {m n : ℕ} (dst : Fin m → Fin n) (c : Fin m → ℝ) : Layer → Prop
  | .attention .. => (∀ b, 0 ≤ c b) ∧ ∀ b, ∃ b', dst b' = dst b ∧ 0 < c b'
  | _ => True

end E3x.Spec
