import Mathlib.Analysis.SpecialFunctions.Trigonometric.Deriv
import Mathlib.Analysis.SpecialFunctions.Log.Basic
import Mathlib.Analysis.SpecialFunctions.Sqrt
import Mathlib.MeasureTheory.Integral.IntervalIntegral.Basic
import Verif.Model.Dense

/-!
# Model of the activation functions, nn/activations.py

`eps` is the machine epsilon `jnp.finfo(x.dtype).eps`.  Arguments of the unused branch of `jnp.where` are not
evaluated in the model (the "safe" substitutions only matter for gradients), except where they change values.
-/

namespace E3x

noncomputable section

open Real

/-- `jax.lax.erf`. -/
def erf (x : ℝ) : ℝ := 2 / √π * ∫ t in (0 : ℝ)..x, exp (-t ^ 2)

/-- `jnp.logaddexp`. -/
def logaddexp (x y : ℝ) : ℝ := log (exp x + exp y)

/-- `jax.nn.softplus(x) = jnp.logaddexp(x, 0)`. -/
def softplus (x : ℝ) : ℝ := logaddexp x 0

/-- `jax.nn.hard_sigmoid(x) = relu6(x + 3) / 6`. -/
def hardSigmoid (x : ℝ) : ℝ := min (max (x + 3) 0) 6 / 6

/-- `jnp.sign`. -/
def sgn (x : ℝ) : ℝ := if 0 < x then 1 else if x < 0 then -1 else 0

/-- Gate of `relu`, nn/activations.py:111. -/
def reluGate (x : ℝ) : ℝ := max (sgn x) 0

/-- Gate of `leaky_relu`, nn/activations.py:168. -/
def leakyReluGate (slope x : ℝ) : ℝ := if 0 ≤ x then 1 else slope

/-- Gate of `elu`, nn/activations.py:226-242. -/
def eluGate (eps alpha x : ℝ) : ℝ :=
  let expm1SafeX := if 0 < x then 0 else x
  let divSafeX := if eps < |x| then x else 1
  if 0 < x then 1
  else if eps < |x| then alpha * (exp expm1SafeX - 1) / divSafeX
  else alpha * (x * x / 6 + x / 2 + 1)

/-- Gate of `celu`, nn/activations.py:361-377. -/
def celuGate (eps alpha x : ℝ) : ℝ :=
  let expm1SafeX := if 0 < x then 0 else x
  let divSafeX := if eps < |x| then x else 1
  if 0 < x then 1
  else if eps < |x| then alpha * (exp (expm1SafeX / alpha) - 1) / divSafeX
  else x * x / (6 * alpha * alpha) + x / (2 * alpha) + 1

/-- Gate of `silu`, nn/activations.py:420: `jax.scipy.special.expit`. -/
def siluGate (x : ℝ) : ℝ := 1 / (1 + exp (-x))

/-- Gate of `gelu`, nn/activations.py:491-501. -/
def geluGate (approximate : Bool) (x : ℝ) : ℝ :=
  if approximate then
    let sqrt2OverPi := √(2 / π)
    0.5 * (1.0 + tanh (sqrt2OverPi * (x + 0.044715 * x ^ 3)))
  else (erf (x / √2) + 1) / 2

/-- Gate of `mish`, nn/activations.py:550-560. -/
def mishGate (fast : Bool) (x : ℝ) : ℝ :=
  if fast then
    let y := exp (-x)
    let z := 2 * y + 1
    z / (z + 2 * y * y)
  else tanh (softplus x)

/-- Gate of `serf`, nn/activations.py:607. -/
def serfGate (x : ℝ) : ℝ := erf (softplus x)

/-- Gate of `shifted_softplus`, nn/activations.py:652-663. -/
def shiftedSoftplusGate (eps x : ℝ) : ℝ :=
  let safeX := if eps < |x| then x else 1
  if eps < |x| then (logaddexp x 0 - log 2) / safeX else x / 8 + 1 / 2

/-- Gate of `hard_tanh`, nn/activations.py:715-721. -/
def hardTanhGate (x : ℝ) : ℝ :=
  let safeX := if 0.1 < |x| then x else 1
  if 1 < x then 1 / safeX else if x < -1 then -1 / safeX else 1

/-- Gate of `soft_sign`, nn/activations.py:764. -/
def softSignGate (x : ℝ) : ℝ := 1 / (|x| + 1)

/-- Gate of `relu6`, nn/activations.py:809-815. -/
def relu6Gate (x : ℝ) : ℝ :=
  let safeX := if 1 < x then x else 1
  min (max (sgn x) 0) (6.0 / safeX)

/-- Gate of `bent_identity`, nn/activations.py:901-912. -/
def bentIdentityGate (eps x : ℝ) : ℝ :=
  let safeX := if eps < |x| then x else 1
  if eps < |x| then (√(x * x + 1) - 1) / (2 * safeX) + 1 else x / 4 + 1

/-- `relu`, nn/activations.py:71-112. -/
def relu (x : Feat) : Feat := gatedLinear reluGate x
/-- `leaky_relu`, nn/activations.py:115-169. -/
def leakyRelu (slope : ℝ) (x : Feat) : Feat := gatedLinear (leakyReluGate slope) x
/-- `elu`, nn/activations.py:172-242. -/
def elu (eps alpha : ℝ) (x : Feat) : Feat := gatedLinear (eluGate eps alpha) x
/-- `selu`, nn/activations.py:245-300: the *array* returned by `elu` is scaled. -/
def selu (eps : ℝ) (x : Feat) : Feat :=
  let alpha : ℝ := 1.6732632423543772848170429916717
  let scale : ℝ := 1.0507009873554804934193349852946
  { x with val := fun p i f => scale * (elu eps alpha x).val p i f }
/-- `celu`, nn/activations.py:303-377. -/
def celu (eps alpha : ℝ) (x : Feat) : Feat := gatedLinear (celuGate eps alpha) x
/-- `silu`, nn/activations.py:380-420. -/
def silu (x : Feat) : Feat := gatedLinear siluGate x
/-- `gelu`, nn/activations.py:426-501. -/
def gelu (approximate : Bool) (x : Feat) : Feat := gatedLinear (geluGate approximate) x
/-- `mish`, nn/activations.py:504-560. -/
def mish (fast : Bool) (x : Feat) : Feat := gatedLinear (mishGate fast) x
/-- `serf`, nn/activations.py:563-608. -/
def serf (x : Feat) : Feat := gatedLinear serfGate x
/-- `shifted_softplus`, nn/activations.py:611-663. -/
def shiftedSoftplus (eps : ℝ) (x : Feat) : Feat := gatedLinear (shiftedSoftplusGate eps) x
/-- `hard_tanh`, nn/activations.py:666-721. -/
def hardTanh (x : Feat) : Feat := gatedLinear hardTanhGate x
/-- `soft_sign`, nn/activations.py:724-765. -/
def softSign (x : Feat) : Feat := gatedLinear softSignGate x
/-- `relu6`, nn/activations.py:768-815. -/
def relu6 (x : Feat) : Feat := gatedLinear relu6Gate x
/-- `hard_silu`, nn/activations.py:818-854: gate `jax.nn.hard_sigmoid`. -/
def hardSilu (x : Feat) : Feat := gatedLinear hardSigmoid x
/-- `bent_identity`, nn/activations.py:860-912. -/
def bentIdentity (eps : ℝ) (x : Feat) : Feat := gatedLinear (bentIdentityGate eps) x

end

end E3x
