import Verif.Model.Message
import Verif.Model.Wrappers
import Verif.Spec.Irreps

/-!
# Specification vocabulary for the two orders of irreps

docs/source/pitfalls.rst:6-41.  Position `j` of the degree axis holds the component of degree `degreeOf j` and of order
`componentOrder cart j` (Spec/Irreps.lean).
-/

namespace E3x.Spec

/-- `π j` is the position, in the order `cart`, of the component that the order `cart'` puts at position `j`: it has the same
degree and the same order. -/
def IsReordering (cart cart' : Bool) (π : ℕ → ℕ) : Prop :=
  ∀ j, degreeOf (π j) = degreeOf j ∧ componentOrder cart (π j) = componentOrder cart' j

/-- Features with the components at other positions: position `j` of the result is position `π j` of `x`. -/
def reordered (π : ℕ → ℕ) (x : Feat) : Feat := { x with val := fun p j f => x.val p (π j) f }

/-- All nodes. -/
def reorderedNodes (π : ℕ → ℕ) (x : Nodes) : Nodes := { x with rows := x.rows.map fun v p j f => v p (π j) f }

/-- All edges. -/
def reorderedEdges (π : ℕ → ℕ) (x : Edges) : Edges := { x with rows := x.rows.map fun v p j f => v p (π j) f }

/-- All entries of a result of `basis`; the other entries of the tuple unchanged. -/
def reorderedBasis {ι : Type} (π : ℕ → ℕ) (res : BasisResult ι) : BasisResult ι where
  out b := reordered π (res.out b)
  extra := res.extra

end E3x.Spec
