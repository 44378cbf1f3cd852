import Verif.Model.Features
import Verif.Model.Safe
import Verif.Model.Irreps
import Verif.Model.Activations
import Mathlib.Analysis.Calculus.Deriv.Basic

/-!
# Model of nn/wrappers.py and ops/helpers.py

The leading axes of `r` are the index type `ι`.  The functions which are passed to `basis` are arbitrary functions of the
whole batch and may raise exceptions.
-/

namespace E3x

noncomputable section

open Real

variable {ι : Type} [Fintype ι]

/-- The value returned by `basis`, nn/wrappers.py:46-224: the array `out`, and, if a tuple is returned, the
remaining entries of the tuple. -/
structure BasisResult (ι : Type) where
  /-- the basis functions, for every batch index -/
  out : ι → Feat
  /-- `none` if `out` itself is returned, the further entries of the tuple otherwise -/
  extra : Option (List (ι → ℝ))

/-- `u = r / jnp.where(norm > 0, norm, 1)`, nn/wrappers.py:178. -/
def unitVectors {n : ℕ} (r : ι → Fin n → ℝ) (norm : ι → ℝ) : ι → Fin n → ℝ :=
  fun b k => r b k / (if norm b > 0 then norm b else 1)

/-- `out.at[..., 1:, :].multiply(damping_values)`, nn/wrappers.py:207-210. -/
def applyDamping (out : ι → ℕ → ℕ → ℝ) (damping : ι → ℝ) : ι → ℕ → ℕ → ℝ :=
  fun b i f => if 1 ≤ i then out b i f * damping b else out b i f

/-- `_default_angular_fn`, nn/wrappers.py:33-35. -/
def defaultAngularFn (tiny : ℝ) (disk : Disk SHCompressed) (outcome : SaveOutcome) {n : ℕ} (r : ι → Fin n → ℝ)
    (maxDegree : ℤ) (cartesianOrder : Bool) : Except Err (ι → ℕ → ℝ) :=
  sphericalHarmonics tiny disk outcome r maxDegree true cartesianOrder "racah"

/-- `basis`, nn/wrappers.py:46-224. -/
def basis (tiny : ℝ) {n : ℕ} (r : ι → Fin n → ℝ) (maxDegree : ℤ) (num : ℕ)
    (radialFn : (ι → ℝ) → ℕ → Except Err (ι → ℕ → ℝ))
    (angularFn : (ι → Fin n → ℝ) → ℤ → Bool → Except Err (ι → ℕ → ℝ))
    (cutoffFn : Option ((ι → ℝ) → Except Err (ι → ℝ))) (returnCutoff returnNorm : Bool)
    (dampingFn : Option ((ι → ℝ) → Except Err (ι → ℝ))) (cartesianOrder : Bool) : Except Err (BasisResult ι) :=
  if n ≠ 3 then .error .valueError
  else if returnCutoff ∧ cutoffFn.isNone then .error .valueError
  else do
    let norm ← norm tiny r
    let u := unitVectors r norm
    let rbf ← radialFn norm num
    let (rbf, cut) ← match cutoffFn with
      | some cutoffFn => do
          let cut ← cutoffFn norm
          pure ((fun b f => rbf b f * cut b), cut)
      | none => pure (rbf, fun _ => 1)
    let ylm ← angularFn u maxDegree cartesianOrder
    let out := fun b i f => ylm b i * rbf b f
    let out ← match dampingFn with
      | some dampingFn => do
          let damping ← dampingFn norm
          pure (applyDamping out damping)
      | none => pure out
    let out : ι → Feat := fun b => { pseudo := false, L := maxDegree.toNat, F := num, val := fun _ i f => out b i f }
    if (returnCutoff ∧ cutoffFn.isSome) ∨ returnNorm then
      pure ⟨out, some ((if returnCutoff ∧ cutoffFn.isSome then [cut] else []) ++ (if returnNorm then [norm] else []))⟩
    else pure ⟨out, none⟩

/-- `inverse_softplus`, ops/helpers.py:27-29. -/
def inverseSoftplus (x : ℝ) : ℝ := x + log (-(exp (-x) - 1))

/-- The initial value of the parameter of `ExponentialBasis`, nn/wrappers.py:236-248 (the dtype is not modelled). -/
def exponentialBasisInit (initialGamma : ℝ) : ℝ := inverseSoftplus initialGamma

/-- `ExponentialBasis.__call__`, nn/wrappers.py:240-251: `param` is the value of the parameter 'gamma'. -/
def exponentialBasisCall (param tiny : ℝ) {n : ℕ} (r : ι → Fin n → ℝ) (maxDegree : ℤ) (num : ℕ)
    (radialFn : (gamma : ℝ) → (ι → ℝ) → ℕ → Except Err (ι → ℕ → ℝ))
    (angularFn : (ι → Fin n → ℝ) → ℤ → Bool → Except Err (ι → ℕ → ℝ))
    (cutoffFn : Option ((ι → ℝ) → Except Err (ι → ℝ))) (returnCutoff returnNorm : Bool)
    (dampingFn : Option ((ι → ℝ) → Except Err (ι → ℝ))) (cartesianOrder : Bool) : Except Err (BasisResult ι) :=
  let gamma := softplus param
  basis tiny r maxDegree num (radialFn gamma) angularFn cutoffFn returnCutoff returnNorm dampingFn cartesianOrder

/-- The loop of `evaluate_derivatives`, ops/helpers.py:56-59, after `y[i]` has been computed from the current `f`. -/
def derivativesLoop (x : ℝ) : ℕ → (ℝ → ℝ) → List ℝ
  | 0, _ => []
  | k + 1, f => let f := deriv f; f x :: derivativesLoop x k f

/-- `evaluate_derivatives`, ops/helpers.py:32-60, for scalar functions applied elementwise.  The derivative computed by
`jax.jvp` with tangent one is `deriv`. -/
def evaluateDerivatives (f : ℝ → ℝ) (x : ℝ) (maxOrder : ℤ) : Except Err (List ℝ) :=
  if maxOrder < 0 then .error .valueError
  else .ok (f x :: derivativesLoop x maxOrder.toNat f)

end

end E3x
