import Mathlib.MeasureTheory.Integral.Bochner.Basic

/-!
# Specification vocabulary for the distribution of features when a network is initialised
-/

namespace E3x.Spec

open MeasureTheory

/-- Random numbers `Z i`, for `i` in `s`, with mean zero and unit variance which are not correlated. -/
structure IsStandard {Ω ι : Type*} [MeasurableSpace Ω] [DecidableEq ι] (P : Measure Ω) (s : Set ι) (Z : ι → Ω → ℝ) : Prop where
  integrable : ∀ i ∈ s, Integrable (Z i) P
  mean : ∀ i ∈ s, ∫ ω, Z i ω ∂P = 0
  integrable_mul : ∀ i ∈ s, ∀ j ∈ s, Integrable (fun ω => Z i ω * Z j ω) P
  covariance : ∀ i ∈ s, ∀ j ∈ s, ∫ ω, Z i ω * Z j ω ∂P = if i = j then 1 else 0

end E3x.Spec
