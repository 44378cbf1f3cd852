import Verif.Model.Irreps
import Verif.Model.Tensor

/-!
# The example that predicts moment of inertia tensors

The functions `calculate_moment_of_inertia_tensor` and the class `Model` of docs/source/examples/moment_of_inertia.ipynb (line
numbers below are those of this file), for one structure of `n` points (no further batch axes).
-/

namespace E3x

noncomputable section

/-- `calculate_moment_of_inertia_tensor` (moment_of_inertia.ipynb:72-75). -/
def calculateInertia {n : ℕ} (masses : Fin n → ℝ) (positions : Fin n → Fin 3 → ℝ) (a b : Fin 3) : ℝ :=
  let diag : Fin n → Fin 3 → Fin 3 → ℝ := fun i a b => (∑ k, positions i k ^ 2) * (if a = b then 1 else 0)
  let outer : Fin n → Fin 3 → Fin 3 → ℝ := fun i a b => positions i b * positions i a
  ∑ i, masses i * (diag i a b - outer i a b)

/-- The parameters of `Model` (moment_of_inertia.ipynb:120-136); `features = 8` in the example. -/
structure InertiaNet where
  features : ℕ
  dense0 : DenseParams
  dense1 : DenseParams
  tensor1 : TensorParams
  dense2 : DenseParams
  tensor2 : TensorParams

/-- Mass and position of one point as features of maximum degree 1 without pseudotensors (moment_of_inertia.ipynb:127-128). -/
def pointFeatures (mass : ℝ) (position : Fin 3 → ℝ) : Feat :=
  ⟨false, 1, 1, fun _ i _ => if i = 0 then mass else if h : i - 1 < 3 then position ⟨i - 1, h⟩ else 0⟩

/-- The layers of `Model` (moment_of_inertia.ipynb:131-136) applied to one point: all of them act on every point separately.
Attributes that are not given have their default values (`use_bias = True`, `include_pseudotensors = True`). -/
def pointIrreps (cg : ℕ → ℕ → ℕ → ℝ) (net : InertiaNet) (mass : ℝ) (position : Fin 3 → ℝ) : Except Err Feat := do
  let x := dense net.features true net.dense0 (pointFeatures mass position)
  let x ← tensorDense none true ⟨some 1, true⟩ net.dense1 net.tensor1 cg x
  tensorDense (some 1) true ⟨some 2, true⟩ net.dense2 net.tensor2 cg x

/-- The irreps of all points, in the order of the points. -/
def allIrreps (cg : ℕ → ℕ → ℕ → ℝ) (net : InertiaNet) : List (ℝ × (Fin 3 → ℝ)) → Except Err (List Feat)
  | [] => .ok []
  | p :: ps => do
    let x ← pointIrreps cg net p.1 p.2
    let xs ← allIrreps cg net ps
    .ok (x :: xs)

/-- `Model.__call__` (moment_of_inertia.ipynb:125-146). `cg` is the table of coefficients used by the layers, `disk` and `outcome`
belong to the call of `clebsch_gordan` in line 144. -/
def predictInertia (disk : Disk CGCompressed) (outcome : SaveOutcome) (cg : ℕ → ℕ → ℕ → ℝ) (net : InertiaNet) {n : ℕ}
    (masses : Fin n → ℝ) (positions : Fin n → Fin 3 → ℝ) : Except Err (Fin 3 → Fin 3 → ℝ) := do
  let xs ← allIrreps cg net (List.ofFn fun i => (masses i, positions i))
  let x : ℕ → ℝ := fun l => (xs.map fun z => z.val 0 l 0).sum
  let table ← clebschGordan disk outcome 1 1 2 true
  .ok fun a b => ∑ l ∈ Finset.range 9, x l * table (1 + a) (1 + b) l

end

end E3x
