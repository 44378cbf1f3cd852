import Verif.Model.Features

/-!
# Model of `Dense`, `Embed` (nn/modules.py) and gated activations (nn/activations.py)

Learned parameters are arguments.
-/

namespace E3x

noncomputable section

/-- `flax.linen.Dense` applied to one row of `nIn` features. -/
def nnDense (nIn : ℕ) (kernel : ℕ → ℕ → ℝ) (bias : Option (ℕ → ℝ)) (row : ℕ → ℝ) (o : ℕ) : ℝ :=
  (∑ f ∈ Finset.range nIn, row f * kernel f o) + (match bias with | some b => b o | none => 0)

/-- Parameters of a `Dense` layer, by submodule name `'{l}{parity}'` (nn/modules.py:160-183): `kernel p l` belongs to
the submodule `'{l}+'` if `p = 0` and `'{l}-'` if `p = 1`. Only the submodule `'0+'` has a bias. -/
structure DenseParams where
  /-- parity, degree, input feature, output feature -/
  kernel : ℕ → ℕ → ℕ → ℕ → ℝ
  /-- bias of the submodule `'0+'` -/
  bias : ℕ → ℝ

/-- The submodule for degree `l` created by `_make_dense_for_each_degree`, nn/modules.py:160-183, applied to a row:
a bias is used only for `l == 0` (line 174). -/
def denseSub (nIn : ℕ) (P : DenseParams) (useBias : Bool) (parity l : ℕ) (row : ℕ → ℝ) (o : ℕ) : ℝ :=
  nnDense nIn (P.kernel parity l) (if useBias && l == 0 then some P.bias else none) row o

/-- `Dense.__call__`, nn/modules.py:186-240. Without pseudotensors the submodule names are `0+, 1-, 2+, …`
(lines 164-166). -/
def dense (features : ℕ) (useBias : Bool) (P : DenseParams) (x : Feat) : Feat :=
  if x.pseudo then
    let e := concatDegrees fun l i o => denseSub x.F P useBias 0 l (fun f => x.val 0 i f) o
    let o := concatDegrees fun l i o => denseSub x.F P false 1 l (fun f => x.val 1 i f) o
    { pseudo := true, L := x.L, F := features, val := fun p i f => if p = 0 then e i f else o i f }
  else
    { pseudo := false, L := x.L, F := features,
      val := fun _ => concatDegrees fun l i o => denseSub x.F P useBias (l % 2) l (fun f => x.val 0 i f) o }

/-- `Embed.__call__`, nn/modules.py:89-109, for one (in-range) integer: scalar features of even parity. -/
def embed (features : ℕ) (embedding : ℕ → ℕ → ℝ) (n : ℕ) : Feat :=
  { pseudo := false, L := 0, F := features, val := fun _ _ f => embedding n f }

/-- `_gated_linear`, nn/activations.py:49-68. All gates of the library are elementwise. -/
def gatedLinear (g : ℝ → ℝ) (x : Feat) : Feat :=
  { x with val := fun p i f => g (x.val 0 0 f) * x.val p i f }

end

end E3x
