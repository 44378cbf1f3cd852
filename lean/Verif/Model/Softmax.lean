import Verif.Model.Indexed
import Mathlib.Analysis.Complex.Exponential

/-!
# Model of `indexed_softmax`, ops/indexed.py:741-815
-/

namespace E3x

noncomputable section

/-- Optional multiplicative mask, ops/indexed.py:803-804. -/
def applyMult (mult : Option (List ℝ)) (numerator : List ℝ) : List ℝ :=
  match mult with
  | none => numerator
  | some w => List.zipWith (· * ·) numerator w

/-- `indexed_softmax`, sparse branch (single batch entry), ops/indexed.py:793-815. `keepdims=True` gathers
the reduced values back with the destination indices (ops/indexed.py:586-588, JAX clamps).
`ninf` is the initial value of the segment maximum. `stop_gradient` is the identity on values. -/
def softmaxSparse (ninf : ℝ) (xs : List ℝ) (mult : Option (List ℝ)) (dst : List Nat) (num : Nat) :
    Option (List ℝ) := do
  let mx ← gatherSparse (segmentReduce max ninf xs dst num) dst
  let numerator := applyMult mult (List.zipWith (fun x m => Real.exp (x - m)) xs mx)
  let den ← gatherSparse (segmentReduce (· + ·) 0 numerator dst num) dst
  return List.zipWith (· / ·) numerator den

/-- `indexed_softmax`, dense branch, one row, ops/indexed.py:793-815. `lo` is the initial value of the
masked maximum (finfo.min). -/
def softmaxDenseRow (lo : ℝ) (xs : List ℝ) (mult : Option (List ℝ)) (mask : List Bool) : List ℝ :=
  let mx := maskedFold max lo xs mask
  let numerator := applyMult mult (xs.map fun x => Real.exp (x - mx))
  let den := maskedFold (· + ·) 0 numerator mask
  numerator.map (· / den)

/-- `indexed_softmax`, dense branch, all rows. `mult` has the shape of `xs` (checked at
ops/indexed.py:779-784). -/
def softmaxDense (lo : ℝ) (xs : List (List ℝ)) (mult : Option (List (List ℝ)))
    (mask : List (List Bool)) : List (List ℝ) :=
  match mult with
  | none => List.zipWith (fun x m => softmaxDenseRow lo x none m) xs mask
  | some w => List.zipWith (fun x (wm : List ℝ × List Bool) => softmaxDenseRow lo x (some wm.1) wm.2) xs (w.zip mask)

/-- Argument checks of `indexed_softmax` before the reductions, ops/indexed.py:779-790. -/
def softmaxCheck (isFloat : Bool) (inputs : List Nat) (mult : Option (List Nat)) : Except Err Unit :=
  match mult with
  | some m => if m ≠ inputs then .error .valueError
    else if !isFloat then .error .valueError else .ok ()
  | none => if !isFloat then .error .valueError else .ok ()

end

end E3x
