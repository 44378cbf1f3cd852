import Mathlib.Data.Int.Log
import Mathlib.Data.Real.Sqrt
import Mathlib.Data.Real.Archimedean
import Mathlib.Algebra.Order.Round

/-!
# Floating-point arithmetic (IEEE 754)

The numbers of the dtypes `bfloat16`, `float32` and `float64` and the operations the library applies to them: the exact result
is rounded to the nearest representable number, ties to even.  Numbers too large become infinite, numbers too small are
rounded to multiples of the smallest number, or, if the hardware flushes subnormal results, to zero.  These definitions model
the hardware and are part of the trusted base.  Simplification: the sign of zero is not modelled.
-/

namespace E3x

noncomputable section

/-- A floating-point format: `p` bits of precision, numbers are multiples of `2 ^ q`, the largest exponent is `emax`; `flush`:
results below the smallest normal number become zero. -/
structure FloatFormat where
  p : ℕ
  q : ℤ
  emax : ℤ
  flush : Bool

/-- `float32` -/
def float32 : FloatFormat := ⟨24, -149, 127, false⟩

/-- `float64` -/
def float64 : FloatFormat := ⟨53, -1074, 1023, false⟩

/-- `bfloat16` -/
def bfloat16 : FloatFormat := ⟨8, -133, 127, false⟩

/-- A floating-point value. -/
inductive FloatVal where
  | num (x : ℝ)
  | posInf
  | negInf
  | nan

namespace FloatFormat

variable (F : FloatFormat)

/-- `jnp.finfo(dtype).tiny`: the smallest positive normal number. -/
def tiny : ℝ := 2 ^ (F.q + F.p - 1)

/-- `jnp.finfo(dtype).max`: the largest finite number. -/
def maxFinite : ℝ := (2 ^ F.p - 1) * 2 ^ (F.emax - F.p + 1)

/-- The unit roundoff: half of `jnp.finfo(dtype).eps`. -/
def unit : ℝ := 2 ^ (-(F.p : ℤ))

/-- The nearest integer, ties to even. -/
def nearestEven (x : ℝ) : ℤ :=
  if Int.fract x < 1 / 2 then ⌊x⌋
  else if 1 / 2 < Int.fract x then ⌊x⌋ + 1
  else if ⌊x⌋ % 2 = 0 then ⌊x⌋ else ⌊x⌋ + 1

/-- The exponent of the last place of the numbers near `x`. -/
def lastPlace (x : ℝ) : ℤ := max (Int.log 2 |x| + 1 - F.p) F.q

/-- Rounding without regard to overflow. -/
def roundUnbounded (x : ℝ) : ℝ := nearestEven (x / 2 ^ F.lastPlace x) * 2 ^ F.lastPlace x

/-- Rounding of an exact result. -/
def round (x : ℝ) : FloatVal :=
  let r := F.roundUnbounded x
  if F.maxFinite < r then .posInf
  else if r < -F.maxFinite then .negInf
  else if F.flush ∧ |r| < F.tiny then .num 0
  else .num r

/-- The finite numbers of the format. -/
def IsNumber (x : ℝ) : Prop := F.round x = .num x

/-- `x + y` -/
def add : FloatVal → FloatVal → FloatVal
  | .num x, .num y => F.round (x + y)
  | .nan, _ => .nan
  | _, .nan => .nan
  | .posInf, .negInf => .nan
  | .negInf, .posInf => .nan
  | .posInf, _ => .posInf
  | _, .posInf => .posInf
  | .negInf, _ => .negInf
  | _, .negInf => .negInf

/-- An infinite result with the sign of a number; zero times infinity is not a number. -/
def infOfSign (x : ℝ) : FloatVal := if 0 < x then .posInf else if x < 0 then .negInf else .nan

/-- `x * y` -/
def mul : FloatVal → FloatVal → FloatVal
  | .num x, .num y => F.round (x * y)
  | .nan, _ => .nan
  | _, .nan => .nan
  | .posInf, .num y => infOfSign y
  | .negInf, .num y => infOfSign (-y)
  | .num x, .posInf => infOfSign x
  | .num x, .negInf => infOfSign (-x)
  | .posInf, .posInf => .posInf
  | .negInf, .negInf => .posInf
  | .posInf, .negInf => .negInf
  | .negInf, .posInf => .negInf

/-- `x / y` (zero is positive as a divisor). -/
def div : FloatVal → FloatVal → FloatVal
  | .num x, .num y => if y = 0 then infOfSign x else F.round (x / y)
  | .nan, _ => .nan
  | _, .nan => .nan
  | .posInf, .num y => if y < 0 then .negInf else .posInf
  | .negInf, .num y => if y < 0 then .posInf else .negInf
  | .num _, _ => .num 0
  | _, _ => .nan

/-- `jnp.sqrt` -/
def sqrt : FloatVal → FloatVal
  | .num x => if x < 0 then .nan else F.round (Real.sqrt x)
  | .posInf => .posInf
  | _ => .nan

end FloatFormat

namespace FloatVal

/-- `jnp.abs` -/
def abs : FloatVal → FloatVal
  | .num x => .num |x|
  | .nan => .nan
  | _ => .posInf

/-- `jnp.maximum`; not a number if an argument is. -/
def maximum : FloatVal → FloatVal → FloatVal
  | .nan, _ => .nan
  | _, .nan => .nan
  | .posInf, _ => .posInf
  | _, .posInf => .posInf
  | .negInf, y => y
  | x, .negInf => x
  | .num x, .num y => .num (max x y)

/-- `x > y`; false if an argument is not a number. -/
def gt : FloatVal → FloatVal → Prop
  | .nan, _ => False
  | _, .nan => False
  | .posInf, .posInf => False
  | .posInf, _ => True
  | .num x, .num y => y < x
  | .num _, .negInf => True
  | _, _ => False

end FloatVal

/-- The order in which the entries of a reduction are added (the compiler may choose any): a binary tree. -/
inductive SumOrder (κ : Type) where
  | entry (k : κ)
  | node (l r : SumOrder κ)

/-- The entries which are added. -/
def SumOrder.entries {κ : Type} : SumOrder κ → List κ
  | .entry k => [k]
  | .node l r => l.entries ++ r.entries

/-- The sum in floating-point arithmetic. -/
def SumOrder.sum {κ : Type} (F : FloatFormat) (y : κ → FloatVal) : SumOrder κ → FloatVal
  | .entry k => y k
  | .node l r => F.add (l.sum F y) (r.sum F y)

end

end E3x
