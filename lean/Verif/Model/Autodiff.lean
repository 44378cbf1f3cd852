import Mathlib.Analysis.Calculus.IteratedDeriv.Defs
import Mathlib.Analysis.SpecialFunctions.Trigonometric.Inverse
import Mathlib.Analysis.SpecialFunctions.Log.Basic
import Mathlib.Analysis.SpecialFunctions.Sqrt
import Mathlib.Logic.Function.Basic

/-!
# Model of reverse-mode automatic differentiation

e3x relies on `jax.grad`. Which gradients are finite depends on how a function is written, not only on its values: JAX
differentiates both branches of `jnp.where` and multiplies the derivative of the branch that is not selected by zero, so
that an infinite derivative there gives `nan`. This file models the part of `jax.grad` that matters for this: scalar
expressions (`Ex`), their evaluation with `nan` and infinities as `none` (`eval`), and the program which reverse mode
produces (`bp`), again as an expression, so that it can be differentiated further.

Simplifications: arrays are written out elementwise, arithmetic is exact (no overflow or underflow), expressions are
trees, so that the cotangents of shared subexpressions are added in a different order than in JAX.
-/

namespace E3x.AD

noncomputable section

/-- Scalar expressions over the inputs `var 0`, `var 1`, .... -/
inductive Ex : Type
  /-- an input -/
  | var (i : ℕ)
  | const (c : ℝ)
  | add (a b : Ex)
  | mul (a b : Ex)
  | div (a b : Ex)
  /-- The `n`-th derivative of a primitive `f` of JAX whose derivatives are finite everywhere: `jnp.exp`, `jnp.expm1`,
  `jnp.cos`, `jnp.sinc`, `jnp.tanh`, `jax.lax.erf`, `jax.scipy.special.expit`, `jax.nn.softplus`. -/
  | prim (f : ℝ → ℝ) (n : ℕ) (a : Ex)
  | log (a : Ex)
  | sqrt (a : Ex)
  | arccos (a : Ex)
  /-- `a < b` as the number 1 or 0 -/
  | lt (a b : Ex)
  /-- `a == b` as the number 1 or 0 -/
  | eq (a b : Ex)
  /-- `jnp.where(k, a, b)`; the condition holds if `k > 0` -/
  | sel (k a b : Ex)
  /-- `ops.norm` of a vector with three entries, with the hand-written derivative of ops/safe.py:65-84 -/
  | norm (a b c : Ex)
  /-- A function of one variable with a hand-written derivative (`jax.custom_jvp`): `f` and `df` are expressions in
  `var 0`, the derivative in direction `t` is `df * t`. -/
  | call (f df a : Ex)

namespace Ex

instance : Add Ex := ⟨add⟩
instance : Mul Ex := ⟨mul⟩
instance : Div Ex := ⟨div⟩
instance : Coe ℝ Ex := ⟨const⟩

/-- `-a` -/
def neg (a : Ex) : Ex := mul (const (-1)) a
/-- `a - b` -/
def sub (a b : Ex) : Ex := add a (neg b)
instance : Sub Ex := ⟨sub⟩
instance : Neg Ex := ⟨neg⟩

/-- The input `x` of functions of one variable. -/
def x : Ex := var 0

/-- `jnp.exp` -/
def exp (a : Ex) : Ex := prim Real.exp 0 a
/-- `jnp.cos` -/
def cos (a : Ex) : Ex := prim Real.cos 0 a
/-- `jnp.logical_or` -/
def or (a b : Ex) : Ex := sel a (const 1) b
/-- `jnp.logical_and` -/
def and (a b : Ex) : Ex := sel a b (const 0)
/-- `a <= b` -/
def le (a b : Ex) : Ex := sel (lt b a) (const 0) (const 1)
/-- a condition which does not depend on the inputs -/
def cond (p : Bool) : Ex := const (if p then 1 else 0)
/-- `jnp.sign`, whose derivative is zero. -/
def sign (a : Ex) : Ex := lt (const 0) a - lt a (const 0)
/-- `jnp.abs`; the derivative of JAX is `jnp.sign`. -/
def abs (a : Ex) : Ex := sel (lt (const 0) a) a (sel (lt a (const 0)) (-a) (const 0))
/-- `jnp.maximum`; for equal arguments the derivative of JAX is one half for each. -/
def max (a b : Ex) : Ex := sel (lt b a) a (sel (lt a b) b ((a + b) / const 2))
/-- `jnp.minimum`, likewise. -/
def min (a b : Ex) : Ex := sel (lt a b) a (sel (lt b a) b ((a + b) / const 2))

/-- Replace the inputs by expressions: function application without a custom derivative. -/
def subst (s : ℕ → Ex) : Ex → Ex
  | var i => s i
  | const c => const c
  | add a b => add (subst s a) (subst s b)
  | mul a b => mul (subst s a) (subst s b)
  | div a b => div (subst s a) (subst s b)
  | prim f n a => prim f n (subst s a)
  | log a => log (subst s a)
  | sqrt a => sqrt (subst s a)
  | arccos a => arccos (subst s a)
  | lt a b => lt (subst s a) (subst s b)
  | eq a b => eq (subst s a) (subst s b)
  | sel k a b => sel (subst s k) (subst s a) (subst s b)
  | norm a b c => norm (subst s a) (subst s b) (subst s c)
  | call f df a => call f df (subst s a)

/-- `f(a)` for a function of one variable. -/
def at' (f a : Ex) : Ex := subst (fun _ => a) f

open Classical in
/-- Evaluation; `none` stands for `nan` and infinite values. `jnp.where` evaluates both branches but its result is
only the selected one. -/
def eval : Ex → (ℕ → ℝ) → Option ℝ
  | var i, r => some (r i)
  | const c, _ => some c
  | add a b, r => do some ((← eval a r) + (← eval b r))
  | mul a b, r => do some ((← eval a r) * (← eval b r))
  | div a b, r => do
      let u ← eval a r
      let v ← eval b r
      if v = 0 then none else some (u / v)
  | prim f n a, r => do some (iteratedDeriv n f (← eval a r))
  | log a, r => do
      let u ← eval a r
      if u ≤ 0 then none else some (Real.log u)
  | sqrt a, r => do
      let u ← eval a r
      if u < 0 then none else some (Real.sqrt u)
  | arccos a, r => do
      let u ← eval a r
      if |u| ≤ 1 then some (Real.arccos u) else none
  | lt a b, r => do
      let u ← eval a r
      let v ← eval b r
      some (if u < v then 1 else 0)
  | eq a b, r => do
      let u ← eval a r
      let v ← eval b r
      some (if u = v then 1 else 0)
  | sel k a b, r => do
      let u ← eval k r
      if 0 < u then eval a r else eval b r
  | norm a b c, r => do
      let u ← eval a r
      let v ← eval b r
      let w ← eval c r
      some (Real.sqrt (u ^ 2 + v ^ 2 + w ^ 2))
  | call f _ a, r => do
      let u ← eval a r
      eval f fun _ => u

/-- Reverse mode: the expression for the cotangent of the input `i` if `ct` is the cotangent of the expression. -/
def bp : Ex → Ex → ℕ → Ex
  | var j, ct, i => if j = i then ct else const 0
  | const _, _, _ => const 0
  | add a b, ct, i => bp a ct i + bp b ct i
  | mul a b, ct, i => bp a (ct * b) i + bp b (a * ct) i
  | div a b, ct, i => bp a (ct / b) i + bp b (-ct * a / (b * b)) i
  | prim f n a, ct, i => bp a (ct * prim f (n + 1) a) i
  | log a, ct, i => bp a (ct / a) i
  | sqrt a, ct, i => bp a (ct * (const (1 / 2) / sqrt a)) i
  | arccos a, ct, i => bp a (-ct / sqrt (const 1 - a * a)) i
  | lt _ _, _, _ => const 0
  | eq _ _, _, _ => const 0
  | sel k a b, ct, i => bp a (sel k ct (const 0)) i + bp b (sel k (const 0) ct) i
  | norm a b c, ct, i =>
      let n := norm a b c
      let masked := sel (lt (const 0) n) n (const 1)
      bp a (ct / masked * a) i + bp b (ct / masked * b) i + bp c (ct / masked * c) i
  | call _ df a, ct, i => bp a (ct * at' df a) i

/-- `jax.grad` with respect to input `i`. -/
def grad (i : ℕ) (e : Ex) : Ex := bp e (const 1) i

/-- Repeated differentiation with respect to the inputs in the list. -/
def grads : List ℕ → Ex → Ex
  | [], e => e
  | i :: is, e => grads is (grad i e)

end Ex

end

end E3x.AD
