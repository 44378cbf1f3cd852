import Verif.Spec.Message

/-!
# Specification of superpositions of features
-/

namespace E3x.Spec

/-- `a * x + b * y` for every node. -/
noncomputable def combineNodes (a b : ℝ) (x y : Nodes) : Nodes :=
  { x with rows := List.zipWith (fun u v p i f => a * u p i f + b * v p i f) x.rows y.rows }

/-- Two arrays of node features of the same shape. -/
def SameNodeShape (x y : Nodes) : Prop :=
  x.pseudo = y.pseudo ∧ x.L = y.L ∧ x.F = y.F ∧ x.rows.length = y.rows.length

/-- The entries of `z` are `a` times those of `x` plus `b` times those of `y`. -/
def IsCombination (a b : ℝ) (x y z : Nodes) : Prop :=
  SameNodeShape z x ∧ SameNodeShape z y ∧ ∀ i < z.rows.length, ∀ p < chan z.pseudo, ∀ n < (z.L + 1) ^ 2, ∀ f < z.F,
    z.rows.getD i 0 p n f = a * x.rows.getD i 0 p n f + b * y.rows.getD i 0 p n f

end E3x.Spec
