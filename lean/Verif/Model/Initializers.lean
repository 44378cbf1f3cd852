import Verif.Model.Tensor
import Verif.Model.MatMat

/-!
# Model of nn/initializers.py

Random numbers are arguments: `draws` maps the name of a standard distribution to an array of numbers drawn from it.
Parameters are real; the branches for complex dtypes are in Model/ComplexInit.lean.
-/

namespace E3x

noncomputable section

/-- `_parity_degree_index_parity_list`, nn/initializers.py:42-69. -/
def parityDegreeIndexParityList (numParity numDegree : ℕ) : Except Err (List (ℕ × ℕ × ℕ)) :=
  if numParity = 2 then
    .ok ((List.range numDegree).map (fun l => (0, l, 0)) ++ (List.range numDegree).map (fun l => (1, l, 1)))
  else if numParity = 1 then .ok ((List.range numDegree).map fun l => (0, l, l % 2))
  else .error .valueError

/-- The arrays computed by `_compute_tensor_fans_and_mask`; axes of length one are left out, and so is the axis of
features, along which all entries are equal. -/
structure Fans where
  fanIn : ℕ → ℕ → ℝ
  fanOut : ℕ → ℕ → ℕ → ℕ → ℝ
  mask : ℕ → ℕ → ℕ → ℕ → ℕ → ℕ → Bool

/-- The body of the loop, nn/initializers.py:125-133. -/
def fansStep (s : Fans) (t : (ℕ × ℕ × ℕ) × (ℕ × ℕ × ℕ) × (ℕ × ℕ × ℕ)) : Fans :=
  let (p1, l1, d1) := t.1
  let (p2, l2, d2) := t.2.1
  let (p3, l3, d3) := t.2.2
  if (d1 + d2) % 2 ≠ d3 ∨ ¬ (absDiff l1 l2 ≤ l3 ∧ l3 ≤ l1 + l2) then
    { s with mask := fun a1 b1 a2 b2 a3 b3 =>
        if a1 = p1 ∧ b1 = l1 ∧ a2 = p2 ∧ b2 = l2 ∧ a3 = p3 ∧ b3 = l3 then false else s.mask a1 b1 a2 b2 a3 b3 }
  else
    { s with
      fanIn := fun a3 b3 => if a3 = p3 ∧ b3 = l3 then s.fanIn a3 b3 + 1 else s.fanIn a3 b3
      fanOut := fun a1 b1 a2 b2 =>
        if a1 = p1 ∧ b1 = l1 ∧ a2 = p2 ∧ b2 = l2 then s.fanOut a1 b1 a2 b2 + 1 else s.fanOut a1 b1 a2 b2 }

/-- `_compute_tensor_fans_and_mask`, nn/initializers.py:72-134. -/
def computeTensorFansAndMask (shape : List ℕ) : Except Err Fans :=
  match shape with
  | [s1, n1, s2, n2, s3, n3, _] =>
    match parityDegreeIndexParityList s1 n1, parityDegreeIndexParityList s2 n2, parityDegreeIndexParityList s3 n3 with
    | .ok all1, .ok all2, .ok all3 =>
      .ok ((all1.product (all2.product all3)).foldl fansStep ⟨fun _ _ => 0, fun _ _ _ _ => 0, fun _ _ _ _ _ _ => true⟩)
    | _, _, _ => .error .valueError
  | _ => .error .valueError

/-- `_random_array`, nn/initializers.py:142-198, for one entry. -/
def randomEntry (distribution : String) (draw : String → ℝ) (variance : ℝ) : Except Err ℝ :=
  if distribution = "truncated_normal" then
    .ok (Real.sqrt variance / 0.87962566103423978 * draw "truncated_normal")
  else if distribution = "normal" then .ok (Real.sqrt variance * draw "normal")
  else if distribution = "uniform" then .ok (Real.sqrt (3 * variance) * draw "uniform")
  else .error .valueError

/-- `tensor_variance_scaling` and its nested function `init`, nn/initializers.py:215-273. The random array exists, if its
first entry does (the distribution is checked once). -/
def tensorVarianceScaling (scale : ℝ) (mode distribution : String)
    (draws : String → ℕ → ℕ → ℕ → ℕ → ℕ → ℕ → ℕ → ℝ) (shape : List ℕ) : Except Err TensorKernel :=
  match computeTensorFansAndMask shape with
  | .error e => .error e
  | .ok s =>
    if mode ≠ "fan_in" ∧ mode ≠ "fan_out" ∧ mode ≠ "fan_avg" then .error .valueError
    else
      let denominator := fun p1 l1 p2 l2 p3 l3 =>
        if mode = "fan_in" then s.fanIn p3 l3
        else if mode = "fan_out" then s.fanOut p1 l1 p2 l2
        else (s.fanIn p3 l3 + s.fanOut p1 l1 p2 l2) / 2
      let denominator := fun p1 l1 p2 l2 p3 l3 =>
        if denominator p1 l1 p2 l2 p3 l3 > 0 then denominator p1 l1 p2 l2 p3 l3 else 1
      match randomEntry distribution (fun _ => 0) 0 with
      | .error e => .error e
      | .ok _ => .ok fun p1 l1 p2 l2 p3 l3 f =>
        if s.mask p1 l1 p2 l2 p3 l3 then
          match randomEntry distribution (fun name => draws name p1 l1 p2 l2 p3 l3 f)
            (scale / denominator p1 l1 p2 l2 p3 l3) with
          | .ok v => v
          | .error _ => 0
        else 0

/-- `tensor_glorot_uniform`, nn/initializers.py:276-290. -/
def tensorGlorotUniform := tensorVarianceScaling 1 "fan_avg" "uniform"

/-- `tensor_glorot_normal`, nn/initializers.py:296-312. -/
def tensorGlorotNormal := tensorVarianceScaling 1 "fan_avg" "truncated_normal"

/-- `tensor_lecun_uniform`, nn/initializers.py:318-332. -/
def tensorLecunUniform := tensorVarianceScaling 1 "fan_in" "uniform"

/-- `tensor_lecun_normal`, nn/initializers.py:335-349. -/
def tensorLecunNormal := tensorVarianceScaling 1 "fan_in" "truncated_normal"

/-- `tensor_he_uniform`, nn/initializers.py:352-366. -/
def tensorHeUniform := tensorVarianceScaling 2 "fan_in" "uniform"

/-- `tensor_he_normal`, nn/initializers.py:372-386. -/
def tensorHeNormal := tensorVarianceScaling 2 "fan_in" "truncated_normal"

/-- `_fused_tensor_init`, nn/initializers.py:392-413, for one entry of the array (`scale` and `mask` are broadcast). -/
def fusedTensorInit (distribution : String) (draw : String → ℝ) (scale : ℝ) (mask : Bool) : Except Err ℝ :=
  match randomEntry distribution draw scale with
  | .error e => .error e
  | .ok params => .ok (if mask then params else 0)

/-- `fused_tensor_normal`, nn/initializers.py:428-445. -/
def fusedTensorNormal := fusedTensorInit "truncated_normal"

/-- `fused_tensor_uniform`, nn/initializers.py:448-465. -/
def fusedTensorUniform := fusedTensorInit "uniform"

end

end E3x
