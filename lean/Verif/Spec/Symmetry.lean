import Verif.Model.Message
import Verif.Spec.Tensor

/-!
# Specification vocabulary for equivariance of whole layers

`Transformed A x x'` says that the features `x'` are the features `x` transformed by `A` (a rotation or a reflection),
node by node (edge by edge).
-/

namespace E3x.Spec

/-- Transforming all nodes. -/
noncomputable def actNodes (A : Feat → Feat) (x : Nodes) : Nodes :=
  { x with rows := x.rows.map fun v => (A (x.feat v)).val }

/-- Transforming all edges. -/
noncomputable def actEdges (A : Feat → Feat) (x : Edges) : Edges :=
  { x with rows := x.rows.map fun v => (A (x.feat v)).val }

/-- Equal extents, the same number of nodes, and equal entries. -/
def SameNodes (x y : Nodes) : Prop :=
  x.pseudo = y.pseudo ∧ x.L = y.L ∧ x.F = y.F ∧
    List.Forall₂ (fun v w => (x.feat v).Same (x.feat w)) x.rows y.rows

/-- The symmetry operations: rotations by a matrix with the properties of `IsRotation`, and the reflection. -/
inductive IsSymmetry (cg : ℕ → ℕ → ℕ → ℝ) : (Feat → Feat) → Prop where
  | rotate (D : ℕ → ℕ → ℝ) (h : IsRotation cg D) : IsSymmetry cg fun x => E3x.rotate x D
  | reflect : IsSymmetry cg E3x.reflect

end E3x.Spec
