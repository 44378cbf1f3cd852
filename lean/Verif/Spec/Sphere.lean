import Mathlib.MeasureTheory.Integral.IntervalIntegral.Basic
import Mathlib.Analysis.SpecialFunctions.Trigonometric.Basic

/-!
# Specification: integrals over the unit sphere
-/

namespace E3x.Spec

noncomputable section

/-- The point of the unit sphere with polar angle `θ` and azimuth `φ`. -/
def spherePoint (θ φ : ℝ) : Fin 3 → ℝ := ![Real.sin θ * Real.cos φ, Real.sin θ * Real.sin φ, Real.cos θ]

/-- The integral of `f` over the surface of the unit sphere, `dΩ = sin θ dθ dφ`. -/
def sphereIntegral (f : (Fin 3 → ℝ) → ℝ) : ℝ :=
  ∫ θ in (0 : ℝ)..Real.pi, ∫ φ in (0 : ℝ)..2 * Real.pi, f (spherePoint θ φ) * Real.sin θ

/-- The Legendre polynomial of degree `l`. -/
def legendre (l : ℕ) (t : ℝ) : ℝ :=
  2⁻¹ ^ l * ∑ k ∈ Finset.range (l / 2 + 1), (-1) ^ k * (l.choose k : ℝ) * ((2 * l - 2 * k).choose l : ℝ) * t ^ (l - 2 * k)

end

end E3x.Spec
