import Verif.Model.Initializers
import Mathlib.Analysis.SpecialFunctions.Complex.Log

/-!
# Model of nn/initializers.py for complex dtypes

The functions `_complex_uniform` and `_complex_truncated_normal`, which nn/initializers.py:28-29 imports from JAX, and
`jax.random.normal` for complex dtypes are part of the trusted base. They are defined by numbers drawn uniformly from
`[0, 1)` and from the standard normal distribution, respectively.
-/

namespace E3x

noncomputable section

/-- The random numbers JAX draws for one complex number: two uniform ones and two standard normal ones. -/
structure ComplexDraw where
  u : ℝ
  v : ℝ
  a : ℝ
  b : ℝ

/-- `jax._src.nn.initializers._complex_uniform`: radius `sqrt(2 * u)`, angle `2 * pi * v`. -/
def complexUniform (d : ComplexDraw) : ℂ := Real.sqrt (2 * d.u) * Complex.exp (2 * Real.pi * d.v * Complex.I)

/-- `jax._src.nn.initializers._complex_truncated_normal`: radius `sqrt(-log(1 - t))` for `t = (1 - exp(-upper**2)) * u`,
angle `2 * pi * v`. -/
def complexTruncatedNormal (upper : ℝ) (d : ComplexDraw) : ℂ :=
  Real.sqrt (-Real.log (1 - (1 - Real.exp (-upper ^ 2)) * d.u)) * Complex.exp (2 * Real.pi * d.v * Complex.I)

/-- `jax.random.normal` for a complex dtype: real and imaginary part have variance one half. -/
def complexNormal (d : ComplexDraw) : ℂ := (d.a + d.b * Complex.I) / Real.sqrt 2

/-- `_random_array`, nn/initializers.py:142-198, for a complex dtype and one entry. -/
def randomComplexEntry (distribution : String) (draw : ComplexDraw) (variance : ℝ) : Except Err ℂ :=
  if distribution = "truncated_normal" then
    .ok ((Real.sqrt variance / 0.95311164380491208 : ℝ) * complexTruncatedNormal 2 draw)
  else if distribution = "normal" then .ok (Real.sqrt variance * complexNormal draw)
  else if distribution = "uniform" then .ok (Real.sqrt variance * complexUniform draw)
  else .error .valueError

/-- `tensor_variance_scaling` and its nested function `init`, nn/initializers.py:215-273, for a complex dtype. -/
def complexTensorVarianceScaling (scale : ℝ) (mode distribution : String)
    (draws : ℕ → ℕ → ℕ → ℕ → ℕ → ℕ → ℕ → ComplexDraw) (shape : List ℕ) :
    Except Err (ℕ → ℕ → ℕ → ℕ → ℕ → ℕ → ℕ → ℂ) :=
  match computeTensorFansAndMask shape with
  | .error e => .error e
  | .ok s =>
    if mode ≠ "fan_in" ∧ mode ≠ "fan_out" ∧ mode ≠ "fan_avg" then .error .valueError
    else
      let denominator := fun p1 l1 p2 l2 p3 l3 =>
        if mode = "fan_in" then s.fanIn p3 l3
        else if mode = "fan_out" then s.fanOut p1 l1 p2 l2
        else (s.fanIn p3 l3 + s.fanOut p1 l1 p2 l2) / 2
      let denominator := fun p1 l1 p2 l2 p3 l3 =>
        if denominator p1 l1 p2 l2 p3 l3 > 0 then denominator p1 l1 p2 l2 p3 l3 else 1
      match randomComplexEntry distribution ⟨0, 0, 0, 0⟩ 0 with
      | .error e => .error e
      | .ok _ => .ok fun p1 l1 p2 l2 p3 l3 f =>
        if s.mask p1 l1 p2 l2 p3 l3 then
          match randomComplexEntry distribution (draws p1 l1 p2 l2 p3 l3 f) (scale / denominator p1 l1 p2 l2 p3 l3) with
          | .ok v => v
          | .error _ => 0
        else 0

end

end E3x
