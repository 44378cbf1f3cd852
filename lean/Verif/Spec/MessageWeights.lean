import Verif.Spec.Message
import Verif.Spec.Graph
import Verif.Spec.Arrays

/-!
# Specification of weights of any shape
-/

namespace E3x.Spec

/-- The entry of `w` at the index `idx` of a larger array (NumPy broadcasting): axes are aligned at the end, and an axis of
extent one is read at 0. -/
def broadcastAt (w : NDArray ℝ) (idx : List ℕ) : ℝ :=
  entry w ((List.range w.shape.length).map fun k =>
    if w.shape.getD k 1 = 1 then 0 else idx.getD (idx.length - w.shape.length + k) 0)

/-- Example: a weight for every edge. -/
example (f : ℕ → ℝ) (k p i c : ℕ) : broadcastAt ⟨[5, 1, 1, 1], f⟩ [k, p, i, c] = f k := by
  simp [broadcastAt, entry, ravel, List.range_succ]

/-- The edges of a sparse list with the weights `w[k]`. -/
def withWeights (w : NDArray ℝ) (E : List Edge) : List Edge :=
  E.mapIdx fun k e => { e with weight := fun p i f => broadcastAt w [k, p, i, f] }

/-- The slots of a dense list with the weights `w[r, k]`. -/
def withWeightsDense (w : NDArray ℝ) (G : List (List Edge)) : List (List Edge) :=
  G.mapIdx fun r row => row.mapIdx fun k e => { e with weight := fun p i f => broadcastAt w [r, k, p, i, f] }

/-- The weights are the same for all components: the axes -2 and -3, if present, have extent one. -/
def PerEdgeAndFeature (w : NDArray ℝ) : Prop := w.shape.reverse.getD 1 1 = 1 ∧ w.shape.reverse.getD 2 1 = 1

end E3x.Spec
