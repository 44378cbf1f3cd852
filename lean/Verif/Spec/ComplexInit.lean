import Verif.Model.ComplexInit
import Mathlib.MeasureTheory.Integral.IntervalIntegral.Basic
import Mathlib.Probability.Distributions.Gaussian.Real

/-!
# Specification of random complex numbers: averages over all draws
-/

namespace E3x.Spec

noncomputable section

open MeasureTheory ProbabilityTheory

/-- The average of a quantity over the two uniform numbers of a draw. -/
def averageUniform {E : Type} [NormedAddCommGroup E] [NormedSpace ℝ E] (g : ComplexDraw → E) : E :=
  ∫ u in (0 : ℝ)..1, ∫ v in (0 : ℝ)..1, g ⟨u, v, 0, 0⟩

/-- The average of a quantity over the two normal numbers of a draw. -/
def averageNormal {E : Type} [NormedAddCommGroup E] [NormedSpace ℝ E] (g : ComplexDraw → E) : E :=
  ∫ a, ∫ b, g ⟨0, 0, a, b⟩ ∂(gaussianReal 0 1) ∂(gaussianReal 0 1)

end

end E3x.Spec
