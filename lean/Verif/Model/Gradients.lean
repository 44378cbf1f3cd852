import Verif.Model.Autodiff
import Verif.Model.Functions
import Verif.Model.Activations

/-!
# The differentiable functions of e3x as expressions

The functions of nn/functions, the gates of nn/activations.py, `ops.normalize`, `spherical_harmonics` and `basis`,
written as expressions of `Verif.Model.Autodiff` operation by operation, with the "safe" substitutions in branches which
`jnp.where` does not select. Functions of one variable are expressions in `x = var 0`; checks of the arguments, which
do not depend on `x`, are in `Verif.Model.Functions`. `x ** n` for a literal exponent is written as a product.
-/

namespace E3x.AD.Ex

noncomputable section

open Real (pi)

/-! ## nn/functions -/

/-- `smooth_cutoff`, nn/functions/cutoff.py:29-78. -/
def smoothCutoffEx (cutoff : ℝ) : Ex :=
  let x := if cutoff ≠ 1 then x / const cutoff else x
  let inside := lt x (const 1)
  let safeX := sel inside x (const 0)
  sel inside (exp (const 1 - const 1 / (const 1 - safeX * safeX))) (const 0)

/-- `cosine_cutoff`, nn/functions/cutoff.py:81-128. -/
def cosineCutoffEx (cutoff : ℝ) : Ex :=
  let x := if cutoff ≠ 1 then x / const cutoff else x
  sel (lt x (const 1)) (const 0.5 * cos (const pi * x) + const 0.5) (const 0)

/-- `reciprocal_mapping(x, 'shifted')`, nn/functions/mappings.py:90. -/
def shiftedMappingEx : Ex := const 1 / (x + const 1)

/-- `jnp.expm1` -/
def expm1 (a : Ex) : Ex := prim (fun t => Real.exp t - 1) 0 a

/-- `reciprocal_mapping(x, 'damped')`, nn/functions/mappings.py:92-94. -/
def dampedMappingEx (eps : ℝ) : Ex :=
  let small := lt x (const eps)
  let safeX := sel small (const 1) x
  sel small (const 1 - x / const 2 + x * x / const 6) (-expm1 (-safeX) / safeX)

/-- `reciprocal_mapping(x, 'cuspless')`, nn/functions/mappings.py:96. -/
def cusplessMappingEx : Ex := const 1 / (x + exp (-x))

/-- `reciprocal_mapping`, nn/functions/mappings.py:32-98, for the three admissible values of `kind`. -/
def reciprocalMappingEx (eps : ℝ) (kind : String) : Ex :=
  if kind = "shifted" then shiftedMappingEx else if kind = "damped" then dampedMappingEx eps else cusplessMappingEx

/-- `exponential_mapping`, nn/functions/mappings.py:101-167. -/
def exponentialMappingEx (gamma : ℝ) (cuspless : Bool) : Ex :=
  let x := if cuspless then x + exp (-x) - const 1 else x
  exp (-const gamma * x)

/-- `_smooth_switch_exp`, nn/functions/switch.py:35-37. -/
def switchExpEx (x : Ex) : Ex := exp (const switchSlope * (const 1 / x - const 1 / (const 1 - x)))

/-- The function `smooth_switch` after rescaling, nn/functions/switch.py:95-105. -/
def switchValueEx (eps : ℝ) (x : Ex) : Ex :=
  let small := lt x (const eps)
  let large := lt (const (1 - eps)) x
  let safeX := sel (or small large) (const 0.5) x
  sel small (const 0) (sel large (const 1) (const 1 / (const 1 + switchExpEx safeX)))

/-- The derivative `_smooth_switch_jvp_impl` after rescaling, nn/functions/switch.py:124-150 (without `x_dot`). -/
def switchTangentEx (eps : ℝ) (x : Ex) : Ex :=
  let small := lt x (const eps)
  let large := lt (const (1 - eps)) x
  let smallOrLarge := or small large
  let safeX := sel smallOrLarge (const 0.5) x
  let e := switchExpEx safeX
  let out := sel small (const 0) (sel large (const 1) (const 1 / (const 1 + e)))
  let out2 := out * out
  let raw := const (-switchSlope) *
    (const (-1) / (safeX * safeX) - const 1 / ((const 1 - safeX) * (const 1 - safeX))) * e * out2
  let zeroFactors := or (eq out2 (const 0)) (eq e (const 0))
  sel (or smallOrLarge zeroFactors) (const 0) raw

/-- `smooth_switch`, nn/functions/switch.py:40-151, a `jax.custom_jvp` function. -/
def smoothSwitchEx (eps x0 x1 : ℝ) : Ex :=
  if x0 ≠ 0 ∨ x1 ≠ 1 then
    let y := (x - const x0) / const (x1 - x0)
    call (switchValueEx eps y) (switchTangentEx eps y * (const 1 / const (x1 - x0))) x
  else call (switchValueEx eps x) (switchTangentEx eps x) x

/-- `smooth_damping`, nn/functions/damping.py:29-70. -/
def smoothDampingEx (gamma : ℝ) : Ex :=
  let e := exp (-const gamma * x)
  let div := const 1 - e
  let mask := lt (const 0) (div * div)
  sel mask (exp (-e / sel mask div (const 1))) (const 0)

/-- `rectangular_window`, nn/functions/window.py:27-80. -/
def rectangularWindowEx (num : ℕ) (limit : ℝ) (k : ℕ) : Ex :=
  sel (lt x (const (linspace0 limit num k))) (const 0)
    (sel (lt (const (linspace0 limit num (k + 1))) x) (const 0) (const 1))

/-- `triangular_window`, nn/functions/window.py:83-131. -/
def triangularWindowEx (num : ℕ) (limit : ℝ) (k : ℕ) : Ex :=
  let width := limit / num
  let center := linspace0 limit num k
  max (min ((x - const (center - width)) / const width) (-(x - const (center + width)) / const width)) (const 0)

/-- `smooth_window`, nn/functions/window.py:134-179. -/
def smoothWindowEx (eps : ℝ) (num : ℕ) (limit : ℝ) (k : ℕ) : Ex :=
  let y := const (num / limit) * (x - const (linspace0 limit num k))
  at' (smoothSwitchEx eps 0 1) (y + const 1) - at' (smoothSwitchEx eps 0 1) y

/-- `sinc`, nn/functions/trigonometric.py:28-73; `jnp.sinc` is a primitive. -/
def sincEx (limit : ℝ) (k : ℕ) : Ex :=
  let x := x / const limit
  sel (le x (const 1)) (prim jnpSinc 0 (const ((k + 1 : ℕ) : ℝ) * x)) (const 0)

/-- `_fourier`, nn/functions/trigonometric.py:76-95. -/
def fourierEx (k : ℕ) : Ex := cos (const (pi * k) * x)

/-- The function `_bernstein` for `num = n + 1 > 1`, nn/functions/bernstein.py:49-65. -/
def bernsteinValueEx (eps : ℝ) (n v : ℕ) : Ex :=
  let binomln : ℝ := -betaln (1 + n - v) (1 + v) - Real.log (n + 1)
  let mask0 := lt x (const eps)
  let mask1 := lt (const (1 - eps)) x
  let mask := or mask0 mask1
  let safeX := sel mask (const 0.5) x
  let y := sel mask (const 0)
    (exp (const binomln + const (v : ℝ) * log safeX + const ((n : ℝ) - v) * log (const 1 + -safeX)))
  let y := sel (and mask0 (cond (v == 0))) (const 1) y
  sel (and mask1 (cond (v == n))) (const 1) y

/-- `_bernstein` with `num = n + 1`, nn/functions/bernstein.py:28-85, entry `v` of the result. It is a `jax.custom_jvp`
function whose derivative calls it with `num - 1`. -/
def bernsteinEx (eps : ℝ) : ℕ → ℕ → Ex
  | 0, _ => call (const 1) (const 0) x
  | n + 1, v =>
      let lower := fun v => if v < n + 1 then bernsteinEx eps n v else const 0
      let shift := if v = 0 then const 0 else lower (v - 1)
      call (bernsteinValueEx eps (n + 1) v) (const ((n + 1 : ℕ) : ℝ) * (shift - lower v)) x

/-- `_chebyshev`, nn/functions/chebyshev.py:27-64, entry `n` of the result. -/
def chebyshevEx (eps : ℝ) (num : ℤ) (n : ℕ) : Ex :=
  if num = 1 then const 1 else
  let n2 : ℝ := n * n
  let small := lt x (const (-(1 - eps)))
  let large := lt (const (1 - eps)) x
  let safeX := sel (or small large) (const 0) x
  let xm1 := x - const 1
  let xp1 := x + const 1
  let limitSmall := const ((-1) ^ n) * (const 1 - const n2 * xp1 + const (1 / 6 * n2 * (n2 - 1)) * xp1 * xp1)
  let limitLarge := const 1 + const n2 * xm1 + const (1 / 6 * n2 * (n2 - 1)) * xm1 * xm1
  sel small limitSmall (sel large limitLarge (cos (const (n : ℝ) * arccos safeX)))

/-- `a ** n` by repeated multiplication -/
def pow (a : Ex) : ℕ → Ex
  | 0 => const 1
  | n + 1 => pow a n * a

/-- `basic_chebyshev`, nn/functions/chebyshev.py:67-123. -/
def basicChebyshevEx (eps limit : ℝ) (num : ℤ) (k : ℕ) : Ex :=
  let t := const 2 * x / const limit - const 1
  sel (le (abs t) (const 1)) (at' (chebyshevEx eps num k) t) (pow (sign t) k)

/-- `_gaussian`, nn/functions/gaussian.py:27-35. -/
def gaussianEx (num : ℤ) (k : ℕ) : Ex :=
  let mu : ℝ := if num = 1 then 0 else k / (num - 1)
  let gamma : ℝ := √(2 * num) * (num - 1)
  exp (-const gamma * ((x - const mu) * (x - const mu)))

/-- `basic_bernstein`, `basic_gaussian`, `basic_fourier` (nn/functions/bernstein.py:132, gaussian.py:80,
trigonometric.py:140). -/
def basicEx (f : Ex) (limit : ℝ) : Ex := at' f (x / const limit)

/-- `reciprocal_*` and `exponential_*` (e.g. nn/functions/bernstein.py:265-269, 376-380): `m` is the mapping. -/
def mappedEx (f m : Ex) (weighting : Bool) : Ex :=
  let b := at' f (const 1 - m)
  if weighting then b * m else b

/-- `reciprocal_chebyshev` and `exponential_chebyshev`, nn/functions/chebyshev.py:244-248, 355-359. -/
def mappedChebyshevEx (f m : Ex) (weighting : Bool) : Ex :=
  let b := at' f (const 2 * m - const 1)
  if weighting then b * m else b

/-! ## The gates of nn/activations.py -/

/-- Gate of `relu`, nn/activations.py:111. -/
def reluEx : Ex := max (sign x) (const 0)
/-- Gate of `leaky_relu`, nn/activations.py:168. -/
def leakyReluEx (slope : ℝ) : Ex := sel (le (const 0) x) (const 1) (const slope)
/-- Gate of `elu`, nn/activations.py:226-242. -/
def eluEx (eps alpha : ℝ) : Ex :=
  let notTiny := lt (const eps) (abs x)
  let expm1SafeX := sel (lt (const 0) x) (const 0) x
  let divSafeX := sel notTiny x (const 1)
  sel (lt (const 0) x) (const 1)
    (sel notTiny (const alpha * expm1 expm1SafeX / divSafeX)
      (const alpha * (x * x / const 6 + x / const 2 + const 1)))
/-- Gate of `celu`, nn/activations.py:361-377. -/
def celuEx (eps alpha : ℝ) : Ex :=
  let notTiny := lt (const eps) (abs x)
  let expm1SafeX := sel (lt (const 0) x) (const 0) x
  let divSafeX := sel notTiny x (const 1)
  sel (lt (const 0) x) (const 1)
    (sel notTiny (const alpha * expm1 (expm1SafeX / const alpha) / divSafeX)
      (x * x / const (6 * alpha * alpha) + x / const (2 * alpha) + const 1))
/-- Gate of `silu`, nn/activations.py:420: the primitive `jax.scipy.special.expit`. -/
def siluEx : Ex := prim siluGate 0 x
/-- Gate of `gelu`, nn/activations.py:491-501. -/
def geluEx (approximate : Bool) : Ex :=
  if approximate then
    const 0.5 * (const 1.0 + prim Real.tanh 0 (const √(2 / pi) * (x + const 0.044715 * (x * x * x))))
  else (prim erf 0 (x / const √2) + const 1) / const 2
/-- Gate of `mish`, nn/activations.py:550-560. -/
def mishEx (fast : Bool) : Ex :=
  if fast then
    let y := exp (-x)
    let z := const 2 * y + const 1
    z / (z + const 2 * y * y)
  else prim Real.tanh 0 (prim softplus 0 x)
/-- Gate of `serf`, nn/activations.py:607. -/
def serfEx : Ex := prim erf 0 (prim softplus 0 x)
/-- Gate of `shifted_softplus`, nn/activations.py:652-663; `jnp.logaddexp(x, 0)` is `softplus`. -/
def shiftedSoftplusEx (eps : ℝ) : Ex :=
  let notTiny := lt (const eps) (abs x)
  let safeX := sel notTiny x (const 1)
  sel notTiny ((prim softplus 0 x - const (Real.log 2)) / safeX) (x / const 8 + const (1 / 2))
/-- Gate of `hard_tanh`, nn/activations.py:715-721. -/
def hardTanhEx : Ex :=
  let safeX := sel (lt (const 0.1) (abs x)) x (const 1)
  sel (lt (const 1) x) (const 1 / safeX) (sel (lt x (const (-1))) (const (-1) / safeX) (const 1))
/-- Gate of `soft_sign`, nn/activations.py:764. -/
def softSignEx : Ex := const 1 / (abs x + const 1)
/-- Gate of `relu6`, nn/activations.py:809-815. -/
def relu6Ex : Ex :=
  let safeX := sel (lt (const 1) x) x (const 1)
  min (max (sign x) (const 0)) (const 6.0 / safeX)
/-- Gate of `hard_silu`, nn/activations.py:818-854: `jax.nn.hard_sigmoid`. -/
def hardSiluEx : Ex := min (max (x + const 3) (const 0)) (const 6) / const 6
/-- Gate of `bent_identity`, nn/activations.py:901-912. -/
def bentIdentityEx (eps : ℝ) : Ex :=
  let notTiny := lt (const eps) (abs x)
  let safeX := sel notTiny x (const 1)
  sel notTiny ((sqrt (x * x + const 1) - const 1) / (const 2 * safeX) + const 1) (x / const 4 + const 1)

/-- `_gated_linear`, nn/activations.py:49-68: `var 0` is the scalar channel, `var j` the feature
(`j = 0` for the scalar channel itself). -/
def gatedEx (gate : Ex) (j : ℕ) : Ex := at' gate (var 0) * var j

/-! ## Vectors: ops/safe.py, so3/irreps.py and nn/wrappers.py; the inputs 0, 1, 2 are the coordinates -/

/-- `ops.norm(r)` for a vector `r` with three entries. -/
def normEx : Ex := norm (var 0) (var 1) (var 2)

/-- The coordinate `k` of `normalize(r)`, ops/safe.py:108-111. -/
def normalizeEx (tiny : ℝ) (k : ℕ) : Ex := var k / sel (lt (const tiny) (normEx * normEx)) normEx (const 1)

/-- The coordinate `k` of `u = r / jnp.where(norm > 0, norm, 1)`, nn/wrappers.py:178. -/
def unitEx (k : ℕ) : Ex := var k / sel (lt (const 0) normEx) normEx (const 1)

/-- A linear combination of monomials, so3/irreps.py:161-170: `ls` are the exponents and `c` the coefficients. -/
def polynomialEx (ls : ℕ → List ℕ) (c : ℕ → ℝ) : ℕ → Ex
  | 0 => const 0
  | i + 1 => polynomialEx ls c i +
      pow (var 0) ((ls i).getD 0 0) * pow (var 1) ((ls i).getD 1 0) * pow (var 2) ((ls i).getD 2 0) * const (c i)

/-- `basis`, nn/wrappers.py:176-210: component `i` and feature `f`; `radial`, `cutoff` and `damping` are functions of
one variable, `angular` is a function of three variables. -/
def basisEx (radial : ℕ → Ex) (angular : ℕ → Ex) (cutoff damping : Option Ex) (i f : ℕ) : Ex :=
  let rbf := at' (radial f) normEx
  let rbf := match cutoff with
    | some cutoff => rbf * at' cutoff normEx
    | none => rbf
  let ylm := subst unitEx (angular i)
  let out := ylm * rbf
  match damping with
  | some damping => if 1 ≤ i then out * at' damping normEx else out
  | none => out

end

end E3x.AD.Ex
