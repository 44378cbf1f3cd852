import Verif.Model.Basic
import Verif.Model.FloatArith

/-!
# ops/safe.py in floating-point arithmetic

The same functions as in `Verif/Model/Safe.lean`, with every operation rounded.  An array whose norm is taken along some axes
is a function of the remaining (batch) indices `ι` and the reduced indices `κ`, listed in `batch` and `axis` (`axis=None`: a
batch of one).  `order` is the order in which `jnp.sum` adds the entries.
-/

namespace E3x

noncomputable section

variable {ι κ : Type}

/-- `jnp.max(jnp.abs(x))` of a list of numbers, starting with the first. -/
def maxAbs : List FloatVal → Except Err FloatVal
  | [] => .error .valueError
  | x :: xs => .ok (xs.foldl (fun m y => m.maximum y.abs) x.abs)

/-- `norm`, ops/safe.py:32-62. -/
def normFloat (F : FloatFormat) (order : SumOrder κ) (batch : List ι) (axis : List κ) (x : ι → κ → FloatVal) :
    Except Err (ι → FloatVal) :=
  match maxAbs (batch.flatMap fun i => axis.map (x i)) with
  | .error e => .error e
  | .ok m =>
    let a := m.maximum (.num F.tiny)
    let b := fun i k => F.div (x i k) a
    .ok fun i => F.mul a (F.sqrt (order.sum F fun k => F.mul (b i k) (b i k)))

open Classical in
/-- `normalize_and_return_norm`, ops/safe.py:87-114. -/
def normalizeAndReturnNormFloat (F : FloatFormat) (order : SumOrder κ) (batch : List ι) (axis : List κ)
    (x : ι → κ → FloatVal) : Except Err ((ι → κ → FloatVal) × (ι → FloatVal)) :=
  match normFloat F order batch axis x with
  | .error e => .error e
  | .ok n =>
    .ok (fun i k => F.div (x i k) (if (F.mul (n i) (n i)).gt (.num F.tiny) then n i else .num 1), n)

/-- The textbook formula `jnp.sqrt(jnp.sum(x * x, axis))`, to which the docstring of `norm` (ops/safe.py:37-42) compares it. -/
def naiveNormFloat (F : FloatFormat) (order : SumOrder κ) (x : κ → FloatVal) : FloatVal :=
  F.sqrt (order.sum F fun k => F.mul (x k) (x k))

end

end E3x
