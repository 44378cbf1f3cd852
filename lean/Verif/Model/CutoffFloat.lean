import Verif.Model.Basic
import Verif.Model.SoftmaxFloat

/-!
# nn/functions/cutoff.py in floating-point arithmetic
-/

namespace E3x

noncomputable section

open Classical in
/-- `smooth_cutoff`, nn/functions/cutoff.py:29-78, with every operation rounded.  `exp` is the implementation of `jnp.exp`, `cutoff`
the number to which the Python number is converted. -/
def smoothCutoffFloat (F : FloatFormat) (exp : FloatVal → FloatVal) (x : FloatVal) (cutoff : ℝ) : Except Err FloatVal :=
  if cutoff ≤ 0 then .error .valueError
  else
    let x := if cutoff ≠ 1 then F.div x (.num cutoff) else x
    let insideCutoff := FloatVal.gt (.num 1) x
    let safeX := if insideCutoff then x else .num 0
    .ok (if insideCutoff then
        exp (F.sub (.num 1) (F.div (.num 1) (F.sub (.num 1) (F.mul safeX safeX))))
      else .num 0)

end

end E3x
