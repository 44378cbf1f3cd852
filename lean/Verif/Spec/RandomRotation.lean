import Mathlib.MeasureTheory.Measure.Prod
import Mathlib.Data.Matrix.Basic
import Mathlib.MeasureTheory.Measure.Lebesgue.Basic

/-!
# The random numbers of `random_rotation`

Specification for the distribution of random rotations.  `jax.random.uniform(key, shape=(num, 3))` is idealised as three
independent real numbers, each uniformly distributed on `[0, 1)`.
-/

namespace E3x.Spec

open MeasureTheory Set

/-- One number, uniform on `[0, 1)`. -/
noncomputable def uniformDraw : Measure ℝ := volume.restrict (Ico 0 1)

/-- Three independent numbers, uniform on `[0, 1)`. -/
noncomputable def uniformDraws : Measure (ℝ × ℝ × ℝ) := uniformDraw.prod (uniformDraw.prod uniformDraw)

/-- Two random 3×3 matrices have the same distribution: every (measurable) event has the same probability for both. -/
def SameDistribution (A B : ℝ × ℝ × ℝ → Matrix (Fin 3) (Fin 3) ℝ) : Prop :=
  ∀ S : Set (Fin 3 → Fin 3 → ℝ), MeasurableSet S →
    uniformDraws {u | (fun a b => A u a b) ∈ S} = uniformDraws {u | (fun a b => B u a b) ∈ S}

end E3x.Spec
