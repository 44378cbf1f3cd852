import Verif.Model.Irreps
import Verif.Model.Features

/-!
# Cartesian tensors from irreps

The recipe of docs/source/constructing_cartesian_tensors.rst (line numbers below are those of this file) that builds general
tensors of degrees 2 and 3 from irreps, and its continuation to all degrees. One batch element; a slice
`x[p, l**2:(l+1)**2, f]` is a function of the position in the slice.
-/

namespace E3x

noncomputable section

/-- The irrep `x[p, l**2:(l+1)**2, f]` (constructing_cartesian_tensors.rst:168, 264). -/
def irrepSlice (x : Feat) (p l f : ℕ) : ℕ → ℝ := fun n => x.val p (l ^ 2 + n) f

/-- `jnp.einsum('...n,lmn->lm', irrep, cg[1:4, 1:4, l**2:(l+1)**2])` (constructing_cartesian_tensors.rst:179-182). -/
def irrepMatrix (cg : ℕ → ℕ → ℕ → ℝ) (l : ℕ) (irrep : ℕ → ℝ) (a b : Fin 3) : ℝ :=
  ∑ n ∈ Finset.range (2 * l + 1), irrep n * cg (1 + a) (1 + b) (l ^ 2 + n)

/-- The tensor of degree 2 (constructing_cartesian_tensors.rst:166-192). -/
def tensorOfDegree2 (disk : Disk CGCompressed) (outcome : SaveOutcome) (x : Feat) (f : ℕ) :
    Except Err (Fin 3 → Fin 3 → ℝ) := do
  let components := [0, 1, 2].map fun l => irrepSlice x 0 l f
  let cg ← clebschGordan disk outcome 1 1 2 true
  let components := (List.zip (List.range 3) components).map fun c => irrepMatrix cg c.1 c.2
  .ok fun a b => (components.map fun t => t a b).sum

/-- `coupling_paths` (constructing_cartesian_tensors.rst:272-280). -/
def couplingPaths3 : List (ℕ × ℕ) := [(1, 0), (0, 1), (1, 1), (2, 1), (1, 2), (2, 2), (2, 3)]

/-- `jnp.einsum('...p,lmn,nop->...lmo', irrep, cg[1:4, 1:4, l1**2:(l1+1)**2], cg[l1**2:(l1+1)**2, 1:4, l2**2:(l2+1)**2])`
(constructing_cartesian_tensors.rst:284-288). -/
def irrepCube (cg : ℕ → ℕ → ℕ → ℝ) (path : ℕ × ℕ) (irrep : ℕ → ℝ) (a b c : Fin 3) : ℝ :=
  ∑ p ∈ Finset.range (2 * path.2 + 1), ∑ n ∈ Finset.range (2 * path.1 + 1),
    irrep p * cg (1 + a) (1 + b) (path.1 ^ 2 + n) * cg (path.1 ^ 2 + n) (1 + c) (path.2 ^ 2 + p)

/-- The tensor of degree 3 (constructing_cartesian_tensors.rst:262-296). -/
def tensorOfDegree3 (disk : Disk CGCompressed) (outcome : SaveOutcome) (x : Feat) :
    Except Err (Fin 3 → Fin 3 → Fin 3 → ℝ) := do
  let components := [(0, 0), (1, 0), (1, 1), (1, 2), (2, 0), (2, 1), (3, 0)].map fun lf => irrepSlice x 1 lf.1 lf.2
  let cg ← clebschGordan disk outcome 2 1 3 true
  let components := (List.zip couplingPaths3 components).map fun c => irrepCube cg c.1 c.2
  .ok fun a b c => (components.map fun t => t a b c).sum

/-- "Tensors with even higher degrees can be constructed analogously" (constructing_cartesian_tensors.rst:299): the tensor of
degree `n` for the irrep `a` of the degree at the end of a coupling path. The path is listed from the end to the beginning and
starts with degree 0 (a number) followed by degree 1 (a vector): `[l2, l1, 1, 0]` is the path `(l1, l2)` of `couplingPaths3`. -/
def pathTensor (cg : ℕ → ℕ → ℕ → ℝ) : (n : ℕ) → List ℕ → (ℕ → ℝ) → (Fin n → Fin 3) → ℝ
  | 0, _, a, _ => a 0
  | n + 1, path, a, i =>
    let l' := path.headD 0
    let l := path.tail.headD 0
    pathTensor cg n path.tail
      (fun q => ∑ p ∈ Finset.range (2 * l' + 1), a p * cg (l ^ 2 + q) (1 + i (Fin.last n)) (l' ^ 2 + p)) (Fin.init i)

/-- All coupling paths for tensors of degree `n`: irreps of degree `l` and vectors couple to the degrees from `|l - 1|` to
`l + 1`. -/
def couplingPaths : ℕ → List (List ℕ)
  | 0 => [[0]]
  | n + 1 => (couplingPaths n).flatMap fun path =>
    ((List.range (path.headD 0 + 2)).filter fun l' => path.headD 0 ≤ l' + 1 ∧ 1 ≤ path.headD 0 + l').map (· :: path)

/-- The tensor of degree `n` built from one irrep for each coupling path. -/
def tensorOfDegree (disk : Disk CGCompressed) (outcome : SaveOutcome) (n : ℕ) (irreps : List ℕ → ℕ → ℝ) :
    Except Err ((Fin n → Fin 3) → ℝ) := do
  let cg ← clebschGordan disk outcome ((n - 1 : ℕ) : ℤ) 1 n true
  .ok fun i => ((couplingPaths n).map fun path => pathTensor cg n path (irreps path) i).sum

end

end E3x
