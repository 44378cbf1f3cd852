import Verif.Model.Message
import Verif.Model.Arrays
import Verif.Model.Indexed

/-!
# Model of the argument `weights` of `MessagePass` (nn/modules.py:1465-1473) before broadcasting

In Model/Message.lean the weights are given with an entry for every entry of the gathered inputs. Here they are an array
of any shape, and the check with `is_broadcastable` and the broadcasting of the product are modelled.
-/

namespace E3x

open NDArray

/-- The shape of an array over edges: `(P,)` or `(N, M)`. -/
def Lead.shape {α : Type} : Lead α → List ℕ
  | .vec xs => [xs.length]
  | .mat xs => [xs.length, (xs.headD []).length]

/-- Broadcasting of two shapes, from the last axis to the first. -/
def broadcastRev : List ℕ → List ℕ → List ℕ
  | [], t => t
  | s, [] => s
  | a :: s, b :: t => (if a = 1 then b else a) :: broadcastRev s t

/-- The shape of the product of two arrays (if they are broadcastable): axes are aligned at the end, axes of extent one are
stretched. -/
def broadcastShape (s t : List ℕ) : List ℕ := (broadcastRev s.reverse t.reverse).reverse

/-- The entry of an array that is broadcast to a shape with at least as many axes. -/
def broadcastEntry {α : Type} (w : NDArray α) (idx : List ℕ) : α := w.stretched (idx.drop (idx.length - w.ndim))

/-- An index into an axis of extent `a` that is stretched to `out`. -/
def stretchIndex (a out i : ℕ) : ℕ := if a = out then i else 0

noncomputable section

/-- `gathered_inputs *= weights` with the check in lines 1468-1472. If the product has other extents than the gathered
inputs, these are the new extents; extents that are not those of features are rejected by the following layers
(`ValueError`), which is done here. Simplification: weights with more axes than the gathered inputs, and a degree axis of
extent zero, are a `ValueError`. -/
def weightedArray (g : Edges) (w : NDArray ℝ) : Except Err Edges :=
  let S := chan g.pseudo
  let n := (g.L + 1) ^ 2
  let shape := g.rows.shape ++ [S, n, g.F]
  if !isBroadcastable shape w.shape then .error .valueError
  else if shape.length < w.ndim then .error .valueError
  else
    let out := broadcastShape shape w.shape
    match g.rows, out with
    | .vec xs, [P', S', n', F'] =>
      match extractMaxDegree [S', n', F'] with
      | .error e => .error e
      | .ok L' =>
        if L' < 0 then .error .valueError
        else .ok ⟨S' == 2, L'.toNat, F',
          .vec ((List.range P').map fun e p i f =>
            xs.getD (stretchIndex xs.length P' e) 0 (stretchIndex S S' p) (stretchIndex n n' i) (stretchIndex g.F F' f) *
              broadcastEntry w [e, p, i, f])⟩
    | .mat xs, [N', M', S', n', F'] =>
      match extractMaxDegree [S', n', F'] with
      | .error e => .error e
      | .ok L' =>
        if L' < 0 then .error .valueError
        else .ok ⟨S' == 2, L'.toNat, F',
          .mat ((List.range N').map fun e => (List.range M').map fun k p i f =>
            (xs.getD (stretchIndex xs.length N' e) []).getD (stretchIndex (xs.headD []).length M' k) 0
              (stretchIndex S S' p) (stretchIndex n n' i) (stretchIndex g.F F' f) *
              broadcastEntry w [e, k, p, i, f])⟩
    | _, _ => .error .assertion

/-- `MessagePass.__call__`, nn/modules.py:1379-1489, with weights of any shape. -/
def messagePassWeights (cfg : ConvCfg) (P : ConvParams) (cg : ℕ → ℕ → ℕ → ℝ) (x : Nodes) (basis : Edges)
    (weights : Option (NDArray ℝ)) (ix : IndexArgs) : Except Err Nodes :=
  match gatherSrc x.rows ix with
  | .error e => .error e
  | .ok g =>
    let gathered : Edges := { pseudo := x.pseudo, L := x.L, F := x.F, rows := g }
    match weights with
    | none => conv cfg P cg gathered (some basis) (autoIndexArgs ix x.rows.length x.rows.length)
    | some w =>
      match weightedArray gathered w with
      | .error e => .error e
      | .ok g => conv cfg P cg g (some basis) (autoIndexArgs ix x.rows.length x.rows.length)

end

end E3x
