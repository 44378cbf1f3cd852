import Verif.Model.FloatArith
import Mathlib.Analysis.Complex.Exponential

/-!
# `indexed_softmax` in floating-point arithmetic

One segment (the entries with the same destination index, or one row of a dense index list) with every operation rounded.
`order` lists the entries of the segment and is the order in which the numerators are added; the initial value zero of the sum
changes nothing and is left out.
-/

namespace E3x

noncomputable section

variable {κ : Type}

/-- `-x` -/
def FloatVal.neg : FloatVal → FloatVal
  | .num x => .num (-x)
  | .posInf => .negInf
  | .negInf => .posInf
  | .nan => .nan

/-- `x - y` -/
def FloatFormat.sub (F : FloatFormat) (x y : FloatVal) : FloatVal := F.add x y.neg

/-- `jnp.exp`, correctly rounded. -/
def FloatFormat.exp (F : FloatFormat) : FloatVal → FloatVal
  | .num x => F.round (Real.exp x)
  | .posInf => .posInf
  | .negInf => .num 0
  | .nan => .nan

/-- `indexed_max` of a segment, ops/indexed.py:500-519 (dense: `init` is the smallest finite number), 547-553 (sparse: `init` is
negative infinity). -/
def segmentMaxFloat (init : FloatVal) (x : κ → FloatVal) (entries : List κ) : FloatVal :=
  entries.foldl (fun m k => m.maximum (x k)) init

/-- `indexed_softmax`, ops/indexed.py:792-815.  `exp` is the implementation of `jnp.exp`. -/
def softmaxFloat (F : FloatFormat) (exp : FloatVal → FloatVal) (init : FloatVal) (order : SumOrder κ) (x : κ → FloatVal)
    (mask : Option (κ → FloatVal)) : κ → FloatVal :=
  let maximum := segmentMaxFloat init x order.entries
  let numerator := fun k => exp (F.sub (x k) maximum)
  let numerator := match mask with
    | none => numerator
    | some w => fun k => F.mul (numerator k) (w k)
  let denominator := order.sum F numerator
  fun k => F.div (numerator k) denominator

end

end E3x
