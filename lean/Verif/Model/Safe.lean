import Mathlib.Analysis.SpecialFunctions.Sqrt
import Mathlib.Algebra.BigOperators.Group.Finset.Basic
import Mathlib.Data.Real.Basic
import Mathlib.Data.Fintype.Prod
import Mathlib.Data.Finset.Lattice.Fold
import Verif.Model.Basic

/-!
# Model of ops/safe.py

An array whose norm is taken along some axes is a function of the remaining (batch) indices `ι` and the reduced
indices `κ`.  (`axis=None` is the case of a one-element `ι`.)  The keyword `keepdims` only changes the shape, not the
values, and is not modelled.  `tiny` is `jnp.finfo(x.dtype).tiny`.
-/

namespace E3x

noncomputable section

open Real

variable {ι κ : Type} [Fintype ι] [Fintype κ]

/-- `a = jnp.maximum(jnp.max(jnp.abs(x)), tiny)`, ops/safe.py:60: the scale is taken over the *whole* array, batch
indices included. -/
def normScale (tiny : ℝ) (x : ι → κ → ℝ) (h : (Finset.univ : Finset (ι × κ)).Nonempty) : ℝ :=
  max (Finset.univ.sup' h fun p => |x p.1 p.2|) tiny

open Classical in
/-- `norm`, ops/safe.py:32-62. `jnp.max` of an empty array raises ValueError. -/
def norm (tiny : ℝ) (x : ι → κ → ℝ) : Except Err (ι → ℝ) :=
  if h : (Finset.univ : Finset (ι × κ)).Nonempty then
    let a := normScale tiny x h
    let b := fun i k => x i k / a
    .ok fun i => a * √(∑ k, b i k * b i k)
  else .error .valueError

/-- The hand-written derivative of `norm`, ops/safe.py:65-84: the tangent output. -/
def normTangent (tiny : ℝ) (x xDot : ι → κ → ℝ) : Except Err (ι → ℝ) :=
  (norm tiny x).bind fun n =>
    let masked := fun i => if n i > 0 then n i else 1
    .ok fun i => ∑ k, xDot i k * x i k / masked i

/-- `normalize_and_return_norm`, ops/safe.py:87-114. -/
def normalizeAndReturnNorm (tiny : ℝ) (x : ι → κ → ℝ) : Except Err ((ι → κ → ℝ) × (ι → ℝ)) :=
  (norm tiny x).bind fun n => .ok (fun i k => x i k / (if n i * n i > tiny then n i else 1), n)

/-- `normalize`, ops/safe.py:117-136. -/
def normalize (tiny : ℝ) (x : ι → κ → ℝ) : Except Err (ι → κ → ℝ) :=
  (normalizeAndReturnNorm tiny x).map Prod.fst

end

end E3x
