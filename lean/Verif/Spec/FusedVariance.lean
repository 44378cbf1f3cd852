import Mathlib.Probability.Independence.Basic
import Verif.Spec.Variance
import Verif.Model.FusedInit
import Verif.Props.Initializers

/-!
# Specification vocabulary: a FusedTensor layer at initialisation
-/

namespace E3x.Spec

open MeasureTheory ProbabilityTheory

/-- The random features `Z` are computed by a FusedTensor layer, just initialised from the random numbers `d` (indexed by the
name of the parameter, degree and feature), from the random features `v` and `w`. -/
structure FusedAtInit {Ω : Type*} [MeasurableSpace Ω] (P : Measure Ω) (cg : ℕ → ℕ → ℕ → ℝ) (cfg : TensorCfg)
    (distribution : String) (ps : Bool) (L : ℕ) (qs : Bool) (M F : ℕ) (v w : Ω → ℕ → ℕ → ℕ → ℝ)
    (d : Ω → String × ℕ × ℕ → ℝ) (Z : Ω → Feat) : Prop where
  /-- the components of the first input have mean zero and unit variance and are not correlated -/
  input1 : IsStandard P {t : ℕ × ℕ × ℕ | t.1 < chan ps ∧ t.2.1 < (L + 1) ^ 2 ∧ t.2.2 < F} fun t ω => v ω t.1 t.2.1 t.2.2
  /-- and so do those of the second -/
  input2 : IsStandard P {t : ℕ × ℕ × ℕ | t.1 < chan qs ∧ t.2.1 < (M + 1) ^ 2 ∧ t.2.2 < F} fun t ω => w ω t.1 t.2.1 t.2.2
  /-- the random numbers have the mean and variance of the distribution they are drawn from -/
  draws : ∀ k, Integrable (fun ω => (unitFactor distribution * d ω k) ^ 2) P ∧
    ∫ ω, unitFactor distribution * d ω k ∂P = 0 ∧ ∫ ω, (unitFactor distribution * d ω k) ^ 2 ∂P = 1
  /-- everything is independent -/
  indep_inputs : IndepFun v w P
  indep_params : IndepFun (fun ω => (v ω, w ω)) d P
  indep_draws : iIndepFun (fun k ω => d ω k) P
  measurable : Measurable d
  /-- the output of the layer -/
  output : ∀ ω, ∃ K, fusedInit distribution (fun name _ l f => d ω (name, l, f)) cfg ⟨ps, L, F, v ω⟩ ⟨qs, M, F, w ω⟩ = .ok K ∧
    fusedTensor cfg K cg ⟨ps, L, F, v ω⟩ ⟨qs, M, F, w ω⟩ = .ok (Z ω)

end E3x.Spec
