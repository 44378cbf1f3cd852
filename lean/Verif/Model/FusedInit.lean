import Verif.Model.Initializers

/-!
# Model of the initialisation of FusedTensor layers
-/

namespace E3x

noncomputable section

/-- `var_in`, nn/modules.py:856-858; `lam` is `matrix_degree`. -/
def fusedVarIn (L1 L2 lam : ℕ) : ℝ :=
  let numMat : ℝ := 2 * lam + 1
  1 / Real.sqrt numMat * (numMat / (min (L1 + 1) (L2 + 1) : ℕ))

/-- `var_out`, nn/modules.py:861-871, for the entries of degree `l`; `S1`, `S2` are `num_parity1`, `num_parity2`. -/
def fusedVarOut (S1 S2 L1 L2 l : ℕ) : ℝ :=
  if S1 = S2 ∧ S2 = 2 then 1 / 2
  else if S1 = S2 ∧ S2 = 1 then
    if L1 = 0 ∨ L2 = 0 then 1 else if l = 0 then 1 else 2
  else 1

/-- `mask_e1`, `mask_o1`, `mask_e2`, `mask_o2`, nn/modules.py:846-849, for the entries of degree `l`. -/
def fusedMaskIn (S : ℕ) (odd : Bool) (l : ℕ) : Bool :=
  if S = 2 then true else if odd then l % 2 ≠ 0 else (l + 1) % 2 ≠ 0

/-- `mask_o3`, nn/modules.py:850-853, for the entries of degree `l`. -/
def fusedMaskOut (S1 S2 l : ℕ) : Bool := if S1 = S2 ∧ S2 = 1 then l ≠ 0 else true

/-- `_fused_tensor_init`, nn/initializers.py:392-413, for a whole array of shape `(degrees, features)`. The random array
exists, if its first entry does (the distribution is checked once). -/
def fusedInitArray (distribution : String) (draws : String → ℕ → ℕ → ℝ) (scale : ℕ → ℝ) (mask : ℕ → Bool) :
    Except Err (ℕ → ℕ → ℝ) :=
  match randomEntry distribution (fun _ => 0) 0 with
  | .error e => .error e
  | .ok _ => .ok fun l f =>
    match fusedTensorInit distribution (fun name => draws name l f) (scale l) (mask l) with
    | .ok v => v
    | .error _ => 0

/-- The parameters of a FusedTensor layer, nn/modules.py:845-918, initialised by `fused_tensor_normal` (the default) or
`fused_tensor_uniform`. The random numbers are arguments: `draws` depends on the name of the parameter. -/
def fusedInit (distribution : String) (draws : String → String → ℕ → ℕ → ℝ) (cfg : TensorCfg) (x y : Feat) :
    Except Err FusedKernels := do
  let s1 := chan x.pseudo
  let s2 := chan y.pseudo
  let varIn := fun _ => fusedVarIn x.L y.L (matrixDegree cfg x y)
  let varOut := fusedVarOut s1 s2 x.L y.L
  let e1 ← fusedInitArray distribution (draws "kernel_e1") varIn (fusedMaskIn s1 false)
  let o1 ← fusedInitArray distribution (draws "kernel_o1") varIn (fusedMaskIn s1 true)
  let e2 ← fusedInitArray distribution (draws "kernel_e2") varIn (fusedMaskIn s2 false)
  let o2 ← fusedInitArray distribution (draws "kernel_o2") varIn (fusedMaskIn s2 true)
  let eee ← fusedInitArray distribution (draws "kernel_eee") varOut (fun _ => true)
  let ooe ← fusedInitArray distribution (draws "kernel_ooe") varOut (fun _ => true)
  let eoo ← fusedInitArray distribution (draws "kernel_eoo") varOut (fusedMaskOut s1 s2)
  let oeo ← fusedInitArray distribution (draws "kernel_oeo") varOut (fusedMaskOut s1 s2)
  return ⟨e1, o1, e2, o2, eee, ooe, eoo, oeo⟩

end

end E3x
