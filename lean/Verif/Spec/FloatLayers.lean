import Verif.Model.FloatLayers

/-!
# Specification of rounding errors of layers
-/

namespace E3x.Spec

noncomputable section

/-- An expression evaluates a function of some arrays: both agree for all real numbers. -/
def Evaluates (e : Arith Entry) (g : Arrays → ℝ) : Prop := ∀ v : Arrays, e.value v.get = g v

/-- The largest number of roundings which a term of the result undergoes, including the rounding of the entries. -/
def roundings {ν : Type} : Arith ν → ℕ
  | .entry _ => 1
  | .mask _ => 0
  | .add a b => max (roundings a) (roundings b) + 1
  | .mul a b => roundings a + roundings b + 1
  | .fma a b c => max (roundings a + roundings b) (roundings c) + 1

/-- A floating-point number obtained from a real number by rounding (or equal to it). -/
def Rounded (F : FloatFormat) (w : FloatVal) (a : ℝ) : Prop := ∃ b, w = .num b ∧ |b - a| ≤ F.unit * |a| + F.tiny

/-- A function applied to all entries. -/
def mapArrays (g : ℝ → ℝ) (v : Arrays) : Arrays where
  input a j p i f := g (v.input a j p i f)
  dense := ⟨fun p l f o => g (v.dense.kernel p l f o), fun o => g (v.dense.bias o)⟩
  tensor p l q m r n f := g (v.tensor p l q m r n f)
  fused := ⟨fun l f => g (v.fused.e1 l f), fun l f => g (v.fused.o1 l f), fun l f => g (v.fused.e2 l f),
    fun l f => g (v.fused.o2 l f), fun l f => g (v.fused.eee l f), fun l f => g (v.fused.ooe l f),
    fun l f => g (v.fused.eoo l f), fun l f => g (v.fused.oeo l f)⟩
  cg l m n := g (v.cg l m n)

/-- The bound of the error after `n` roundings: each contributes a relative error of at most `unit`, relative to the result for
the absolute values of all entries, and, if there is underflow, an absolute error of at most `tiny`, which later
multiplications may enlarge. -/
def errorBound (F : FloatFormat) (n : ℕ) (g : Arrays → ℝ) (v : Arrays) : ℝ :=
  ((1 + F.unit) ^ n - 1) * g (mapArrays (fun a => |a|) v) +
    (1 + F.unit) ^ n * ((1 + F.tiny) ^ n - 1) * g (mapArrays (fun a => max 1 |a|) v)

/-- The same parameters and Clebsch-Gordan coefficients. -/
def SameParameters (v v' : Arrays) : Prop := v'.dense = v.dense ∧ v'.tensor = v.tensor ∧ v'.fused = v.fused ∧ v'.cg = v.cg

/-- Argument `a`, of maximum degree `L`, is rotated: `einsum('...slf,lm->...smf', x, D)`. -/
def RotatedArgument (D : ℕ → ℕ → ℝ) (a L : ℕ) (v v' : Arrays) : Prop :=
  ∀ j p i f, v'.input a j p i f = ∑ l ∈ Finset.range ((L + 1) ^ 2), v.input a j p l f * D l i

/-- The result for real numbers if all masks are replaced by one. -/
def unmasked {ν : Type} (v : ν → ℝ) : Arith ν → ℝ
  | .entry k => v k
  | .mask _ => 1
  | .add a b => unmasked v a + unmasked v b
  | .mul a b => unmasked v a * unmasked v b
  | .fma a b c => unmasked v a * unmasked v b + unmasked v c

end

end E3x.Spec
