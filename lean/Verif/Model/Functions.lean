import Mathlib.Analysis.SpecialFunctions.Trigonometric.Deriv
import Mathlib.Analysis.SpecialFunctions.Trigonometric.Inverse
import Mathlib.Analysis.SpecialFunctions.Log.Basic
import Mathlib.Analysis.SpecialFunctions.Sqrt
import Mathlib.Analysis.SpecialFunctions.Gamma.Basic
import Verif.Model.Basic

/-!
# Model of the radial and utility functions, nn/functions/*.py

All functions act elementwise on their input array, so the model takes a single real number.  Functions which append
a basis axis return a function of the basis index `k` (meaningful for `k < num`).

`eps` stands for `jnp.finfo(x.dtype).eps` (`mappings.py`) or `jnp.finfo(x.dtype).epsneg` (`bernstein.py`,
`chebyshev.py`, `switch.py`).  The "safe" substitutions inside branches which `jnp.where` discards are modelled where
they are written.
-/

namespace E3x

noncomputable section

open Real

/-! ## nn/functions/cutoff.py -/

/-- The rescaling step of `smooth_cutoff` and `cosine_cutoff`, nn/functions/cutoff.py:74-75 and 126-127. -/
def cutoffRescale (x cutoff : ℝ) : ℝ := if cutoff ≠ 1 then x / cutoff else x

/-- `smooth_cutoff`, nn/functions/cutoff.py:29-78. -/
def smoothCutoff (x cutoff : ℝ) : Except Err ℝ :=
  if cutoff ≤ 0 then .error .valueError
  else
    let x := cutoffRescale x cutoff
    let safeX := if x < 1 then x else 0
    .ok (if x < 1 then exp (1 - 1 / (1 - safeX * safeX)) else 0)

/-- `cosine_cutoff`, nn/functions/cutoff.py:81-128. -/
def cosineCutoff (x cutoff : ℝ) : Except Err ℝ :=
  if cutoff ≤ 0 then .error .valueError
  else
    let x := cutoffRescale x cutoff
    .ok (if x < 1 then 0.5 * cos (π * x) + 0.5 else 0)

/-! ## nn/functions/mappings.py -/

/-- `reciprocal_mapping`, nn/functions/mappings.py:32-98. -/
def reciprocalMapping (eps x : ℝ) (kind : String) : Except Err ℝ :=
  if kind ∉ ["shifted", "damped", "cuspless"] then .error .valueError
  else if kind = "shifted" then .ok (1 / (x + 1))
  else if kind = "damped" then
    let safeX := if x < eps then 1 else x
    .ok (if x < eps then 1 - x / 2 + x * x / 6 else -(exp (-safeX) - 1) / safeX)
  else if kind = "cuspless" then .ok (1 / (x + exp (-x)))
  else .error .assertion

/-- `exponential_mapping`, nn/functions/mappings.py:101-167. -/
def exponentialMapping (x gamma : ℝ) (cuspless : Bool) : ℝ :=
  let x := if cuspless then x + exp (-x) - 1 else x
  exp (-gamma * x)

/-! ## nn/functions/switch.py -/

/-- `_SMOOTH_SWITCH_SLOPE`, nn/functions/switch.py:32. -/
def switchSlope : ℝ := √3 / 2

/-- `_smooth_switch_exp`, nn/functions/switch.py:35-37. -/
def switchExp (x : ℝ) : ℝ := exp (switchSlope * (1 / x - 1 / (1 - x)))

/-- The rescaling step of `smooth_switch`, nn/functions/switch.py:92-93. -/
def switchRescale (x x0 x1 : ℝ) : ℝ := if x0 ≠ 0 ∨ x1 ≠ 1 then (x - x0) / (x1 - x0) else x

/-- The value computed by `smooth_switch` after rescaling, nn/functions/switch.py:95-105. -/
def switchValue (eps x : ℝ) : ℝ :=
  let safeX := if x < eps ∨ 1 - eps < x then 0.5 else x
  if x < eps then 0 else if 1 - eps < x then 1 else 1 / (1 + switchExp safeX)

/-- `smooth_switch`, nn/functions/switch.py:40-105. -/
def smoothSwitch (eps x x0 x1 : ℝ) : Except Err ℝ :=
  if x1 ≤ x0 then .error .valueError else .ok (switchValue eps (switchRescale x x0 x1))

/-- The hand-written derivative `_smooth_switch_jvp_impl`, nn/functions/switch.py:108-151: the tangent output.  (It is
only reached after the primal call, hence for `x0 < x1`.) -/
def smoothSwitchTangent (eps x x0 x1 xDot : ℝ) : ℝ :=
  let xDot := if x0 ≠ 0 ∨ x1 ≠ 1 then xDot / (x1 - x0) else xDot
  let x := switchRescale x x0 x1
  let safeX := if x < eps ∨ 1 - eps < x then 0.5 else x
  let e := switchExp safeX
  let out := if x < eps then 0 else if 1 - eps < x then 1 else 1 / (1 + e)
  let out2 := out * out
  let raw := -switchSlope * (-1 / safeX ^ 2 - 1 / (1 - safeX) ^ 2) * e * out2
  (if (x < eps ∨ 1 - eps < x) ∨ (out2 = 0 ∨ e = 0) then 0 else raw) * xDot

/-! ## nn/functions/damping.py -/

/-- `smooth_damping`, nn/functions/damping.py:29-70. -/
def smoothDamping (x gamma : ℝ) : ℝ :=
  let e := exp (-gamma * x)
  let div := 1 - e
  if 0 < div * div then exp (-e / (if 0 < div * div then div else 1)) else 0

/-! ## nn/functions/window.py -/

/-- `jnp.linspace(0.0, stop, num=n+1)[k]`. -/
def linspace0 (stop : ℝ) (n k : ℕ) : ℝ := k * stop / n

/-- `rectangular_window`, nn/functions/window.py:27-80. -/
def rectangularWindow (x : ℝ) (num : ℕ) (limit : ℝ) (k : ℕ) : ℝ :=
  let lower := linspace0 limit num k
  let upper := linspace0 limit num (k + 1)
  if x < lower then 0 else if upper < x then 0 else 1

/-- `triangular_window`, nn/functions/window.py:83-131. -/
def triangularWindow (x : ℝ) (num : ℕ) (limit : ℝ) (k : ℕ) : ℝ :=
  let width := limit / num
  let center := linspace0 limit num k
  let lower := center - width
  let upper := center + width
  max (min ((x - lower) / width) (-(x - upper) / width)) 0

/-- `smooth_window`, nn/functions/window.py:134-179. (The boundaries passed to `smooth_switch` are its defaults 0 and
1, for which it does not raise.) -/
def smoothWindow (eps x : ℝ) (num : ℕ) (limit : ℝ) (k : ℕ) : ℝ :=
  let center := linspace0 limit num k
  let t := num / limit * (x - center)
  switchValue eps (switchRescale (t + 1) 0 1) - switchValue eps (switchRescale t 0 1)

/-! ## nn/functions/trigonometric.py -/

/-- `jnp.sinc`. -/
def jnpSinc (t : ℝ) : ℝ := if t = 0 then 1 else sin (π * t) / (π * t)

/-- `sinc`, nn/functions/trigonometric.py:28-73. -/
def sincBasis (x limit : ℝ) (k : ℕ) : ℝ :=
  let x := x / limit
  if x ≤ 1 then jnpSinc ((k + 1 : ℕ) * x) else 0

/-- `_fourier`, nn/functions/trigonometric.py:76-95. -/
def fourier (x : ℝ) (num : ℤ) : Except Err (ℕ → ℝ) :=
  if num < 1 then .error .valueError else .ok fun k => cos (π * k * x)

/-! ## nn/functions/bernstein.py -/

/-- `jax.scipy.special.betaln`. -/
def betaln (a b : ℝ) : ℝ := log (Gamma a) + log (Gamma b) - log (Gamma (a + b))

/-- `_bernstein`, nn/functions/bernstein.py:28-65. -/
def bernstein (eps x : ℝ) (num : ℤ) : Except Err (ℕ → ℝ) :=
  if num < 1 then .error .valueError
  else if num = 1 then .ok fun _ => 1
  else
    let n : ℕ := (num - 1).toNat
    .ok fun v =>
      let binomln := -betaln (1 + n - v) (1 + v) - log (n + 1)
      let mask0 := x < eps
      let mask1 := 1 - eps < x
      let safeX := if mask0 ∨ mask1 then 0.5 else x
      let y := if mask0 ∨ mask1 then 0 else exp (binomln + v * log safeX + (n - v) * log (1 + -safeX))
      let y := if mask0 ∧ v = 0 then 1 else y
      if mask1 ∧ v = n then 1 else y

/-- The hand-written derivative `_bernstein_jvp_impl`, nn/functions/bernstein.py:68-85: the tangent output.  `lower`
has `num - 1` entries and gets a zero appended; `shift` is `lower` rolled by one with entry 0 cleared. -/
def bernsteinTangent (eps x : ℝ) (num : ℤ) (xDot : ℝ) : Except Err (ℕ → ℝ) :=
  (bernstein eps x num).bind fun _ =>
    if 1 < num then
      (bernstein eps x (num - 1)).bind fun l =>
        let lower := fun v : ℕ => if v < (num - 1).toNat then l v else 0
        let shift := fun v : ℕ => if v = 0 then 0 else lower (v - 1)
        .ok fun v => xDot * (num - 1) * (shift v - lower v)
    else .ok fun _ => 0 * xDot

/-! ## nn/functions/chebyshev.py -/

/-- `_chebyshev`, nn/functions/chebyshev.py:27-64. -/
def chebyshev (eps x : ℝ) (num : ℤ) : Except Err (ℕ → ℝ) :=
  if num < 1 then .error .valueError
  else if num = 1 then .ok fun _ => 1
  else
    .ok fun n =>
      let n2 : ℝ := n * n
      let small := x < -(1 - eps)
      let large := 1 - eps < x
      let safeX := if small ∨ large then 0 else x
      let xm1 := x - 1
      let xp1 := x + 1
      let limitSmall := (-1) ^ n * (1 - n2 * xp1 + 1 / 6 * n2 * (n2 - 1) * xp1 * xp1)
      let limitLarge := 1 + n2 * xm1 + 1 / 6 * n2 * (n2 - 1) * xm1 * xm1
      if small then limitSmall else if large then limitLarge else cos (n * arccos safeX)

/-- `jnp.sign`, as used in nn/functions/chebyshev.py:120. -/
def signFn (x : ℝ) : ℝ := if 0 < x then 1 else if x < 0 then -1 else 0

/-- `basic_chebyshev`, nn/functions/chebyshev.py:67-123. -/
def basicChebyshev (eps x : ℝ) (num : ℤ) (limit : ℝ) : Except Err (ℕ → ℝ) :=
  let t := 2 * x / limit - 1
  (chebyshev eps t num).bind fun c => .ok fun k => if |t| ≤ 1 then c k else signFn t ^ k

/-! ## nn/functions/gaussian.py -/

/-- `_gaussian`, nn/functions/gaussian.py:27-35. -/
def gaussian (x : ℝ) (num : ℤ) : Except Err (ℕ → ℝ) :=
  if num < 1 then .error .valueError
  else
    .ok fun k =>
      let mu : ℝ := if num = 1 then 0 else k / (num - 1)
      let gamma : ℝ := √(2 * num) * (num - 1)
      exp (-gamma * (x - mu) ^ 2)

/-! ## The `basic_*`, `reciprocal_*` and `exponential_*` wrappers -/

/-- `basic_bernstein` (nn/functions/bernstein.py:88-132), `basic_gaussian` (nn/functions/gaussian.py:38-80) and `basic_fourier`
(nn/functions/trigonometric.py:98-140): the helper function `f` (`_bernstein`, `_gaussian`, `_fourier`) at `x / limit`. -/
def basicBasis (f : ℝ → ℤ → Except Err (ℕ → ℝ)) (x : ℝ) (num : ℤ) (limit : ℝ) : Except Err (ℕ → ℝ) :=
  f (x / limit) num

/-- `reciprocal_bernstein` (nn/functions/bernstein.py:135-269), `reciprocal_gaussian` (nn/functions/gaussian.py:83-212) and
`reciprocal_fourier` (nn/functions/trigonometric.py:143-265): the helper `f` at `1 - mapping`, optionally weighted. -/
def reciprocalBasis (f : ℝ → ℤ → Except Err (ℕ → ℝ)) (eps x : ℝ) (num : ℤ) (kind : String) (weighting : Bool) :
    Except Err (ℕ → ℝ) :=
  (reciprocalMapping eps x kind).bind fun m =>
    (f (1 - m) num).bind fun b => .ok fun k => if weighting then b k * m else b k

/-- `exponential_bernstein` (nn/functions/bernstein.py:272-380), `exponential_gaussian` (nn/functions/gaussian.py:215-324) and
`exponential_fourier` (nn/functions/trigonometric.py:268-376). -/
def exponentialBasis (f : ℝ → ℤ → Except Err (ℕ → ℝ)) (x : ℝ) (num : ℤ) (gamma : ℝ) (cuspless weighting : Bool) :
    Except Err (ℕ → ℝ) :=
  let m := exponentialMapping x gamma cuspless
  (f (1 - m) num).bind fun b => .ok fun k => if weighting then b k * m else b k

/-- `reciprocal_chebyshev`, nn/functions/chebyshev.py:126-248: the helper is evaluated at `2 * mapping - 1`. -/
def reciprocalChebyshev (eps epsneg x : ℝ) (num : ℤ) (kind : String) (weighting : Bool) : Except Err (ℕ → ℝ) :=
  (reciprocalMapping eps x kind).bind fun m =>
    (chebyshev epsneg (2 * m - 1) num).bind fun b => .ok fun k => if weighting then b k * m else b k

/-- `exponential_chebyshev`, nn/functions/chebyshev.py:251-359. -/
def exponentialChebyshev (epsneg x : ℝ) (num : ℤ) (gamma : ℝ) (cuspless weighting : Bool) : Except Err (ℕ → ℝ) :=
  let m := exponentialMapping x gamma cuspless
  (chebyshev epsneg (2 * m - 1) num).bind fun b => .ok fun k => if weighting then b k * m else b k

end

end E3x
