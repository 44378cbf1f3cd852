import Verif.Model.FloatArith
import Verif.Model.Message

/-!
# Layers in floating-point arithmetic

`Dense`, `Tensor`, `FusedTensor` and `MessagePass` compute each entry of their output by additions and multiplications of
entries of their arguments, parameters, Clebsch-Gordan coefficients and masks (nn/modules.py:186-240, 419-574, 750-1062,
1254-1351, 1379-1489).  The compiler chooses the order in which the contractions of an `einsum` are evaluated, the order in which
products are added, and whether a product and a sum are fused.  So an evaluation of an entry is any expression which is
equal to the entry for real numbers.  Simplification: all numbers have one format (`precision` flags, by which some hardware
multiplies with fewer bits, are not modelled).
-/

namespace E3x

noncomputable section

/-- An evaluation: `ν` are the entries of all arrays which are read, `mask` an entry one or zero of a mask. -/
inductive Arith (ν : Type) where
  | entry (k : ν)
  | mask (b : Bool)
  | add (a b : Arith ν)
  | mul (a b : Arith ν)
  | fma (a b c : Arith ν)

/-- `a * b + c`, rounded once. -/
def FloatFormat.fma (F : FloatFormat) : FloatVal → FloatVal → FloatVal → FloatVal
  | .num x, .num y, .num z => F.round (x * y + z)
  | .num _, .num _, z => z
  | x, y, z => F.add (F.mul x y) z

namespace Arith

variable {ν : Type}

/-- The result for real numbers. -/
def value (v : ν → ℝ) : Arith ν → ℝ
  | entry k => v k
  | mask b => if b then 1 else 0
  | add a b => a.value v + b.value v
  | mul a b => a.value v * b.value v
  | fma a b c => a.value v * b.value v + c.value v

/-- The result in floating-point arithmetic. -/
def float (F : FloatFormat) (w : ν → FloatVal) : Arith ν → FloatVal
  | entry k => w k
  | mask b => .num (if b then 1 else 0)
  | add a b => F.add (a.float F w) (b.float F w)
  | mul a b => F.mul (a.float F w) (b.float F w)
  | fma a b c => F.fma (a.float F w) (b.float F w) (c.float F w)

end Arith

/-- Names of the kernels of `FusedTensor`, nn/modules.py:873-918. -/
inductive FusedName where
  | e1 | o1 | e2 | o2 | eee | ooe | eoo | oeo

/-- The kernel with a name. -/
def FusedKernels.get (K : FusedKernels) : FusedName → ℕ → ℕ → ℝ
  | .e1 => K.e1
  | .o1 => K.o1
  | .e2 => K.e2
  | .o2 => K.o2
  | .eee => K.eee
  | .ooe => K.ooe
  | .eoo => K.eoo
  | .oeo => K.oeo

/-- The arrays a layer reads: arguments (argument number, row, entry), parameters, and Clebsch-Gordan coefficients. -/
structure Arrays where
  input : ℕ → ℕ → Ent
  dense : DenseParams
  tensor : TensorKernel
  fused : FusedKernels
  cg : ℕ → ℕ → ℕ → ℝ

/-- The position of an entry. -/
inductive Entry where
  | input (argument row p i f : ℕ)
  | kernel (p l f o : ℕ)
  | bias (o : ℕ)
  | tensor (p l q m r n f : ℕ)
  | fused (k : FusedName) (l f : ℕ)
  | cg (l m n : ℕ)

/-- The entry at a position. -/
def Arrays.get (v : Arrays) : Entry → ℝ
  | .input a j p i f => v.input a j p i f
  | .kernel p l f o => v.dense.kernel p l f o
  | .bias o => v.dense.bias o
  | .tensor p l q m r n f => v.tensor p l q m r n f
  | .fused k l f => v.fused.get k l f
  | .cg l m n => v.cg l m n

/-- Parameters of the tensor product created by `_create_tensor`, nn/modules.py:1065-1091 (`fused` is the value of
`Config.use_fused_tensor`). -/
def Arrays.tensorParams (fused : Bool) (v : Arrays) : TensorParams := if fused then .fused v.fused else .tensor v.tensor

/-- An entry of the output of `Dense`, nn/modules.py:186-240. -/
def denseEntry (features : ℕ) (useBias ps : Bool) (L F : ℕ) (p i f : ℕ) (v : Arrays) : ℝ :=
  (dense features useBias v.dense ⟨ps, L, F, v.input 0 0⟩).val p i f

/-- An entry of the output of `Tensor` or `FusedTensor`, nn/modules.py:419-574, 750-1062. -/
def tensorEntry (cfg : TensorCfg) (fused ps₁ ps₂ : Bool) (L₁ L₂ F : ℕ) (p i f : ℕ) (v : Arrays) : ℝ :=
  tensorVal cfg (v.tensorParams fused) v.cg ⟨ps₁, L₁, F, v.input 0 0⟩ ⟨ps₂, L₂, F, v.input 1 0⟩ p i f

/-- The arguments of `MessagePass`: node features (rows `0, …, n - 1` of argument 0), basis functions and weights (rows of
arguments 1 and 2, arranged as in `rows`). -/
structure MessageShape where
  n : ℕ
  ps : Bool
  L : ℕ
  F : ℕ
  bps : Bool
  bL : ℕ
  bF : ℕ
  rows : Lead ℕ
  weights : Bool

/-- `MessagePass.__call__`, nn/modules.py:1379-1489, applied to given arrays. -/
def messageLayer (cfg : ConvCfg) (fused : Bool) (s : MessageShape) (ix : IndexArgs) (v : Arrays) : Except Err Nodes :=
  messagePass cfg ⟨v.dense, v.tensorParams fused⟩ v.cg ⟨s.ps, s.L, s.F, (List.range s.n).map (v.input 0)⟩
    ⟨s.bps, s.bL, s.bF, s.rows.map (v.input 1)⟩ (if s.weights then some (s.rows.map (v.input 2)) else none) ix

/-- An entry of the output of `MessagePass` (node `j`). -/
def messageEntry (cfg : ConvCfg) (fused : Bool) (s : MessageShape) (ix : IndexArgs) (j p i f : ℕ) (v : Arrays) : ℝ :=
  match messageLayer cfg fused s ix v with
  | .ok z => z.rows.getD j 0 p i f
  | .error _ => 0

end

end E3x
