import Verif.Spec.Message

/-!
# Specification of choosing features

`g f` is the feature of the original that becomes feature `f` of `n` features. The same choice is made in parameters.
-/

namespace E3x.Spec

/-- The chosen features of an array. -/
def pickEnt (g : ℕ → ℕ) (v : Ent) : Ent := fun p i f => v p i (g f)

/-- The chosen features. -/
def pickFeat (g : ℕ → ℕ) (n : ℕ) (x : Feat) : Feat := { x with F := n, val := pickEnt g x.val }

/-- The chosen features of all nodes. -/
def pickNodes (g : ℕ → ℕ) (n : ℕ) (x : Nodes) : Nodes := { x with F := n, rows := x.rows.map (pickEnt g) }

/-- The parameters of a dense layer for the chosen output features. -/
def pickDense (g : ℕ → ℕ) (P : DenseParams) : DenseParams :=
  { kernel := fun p l f o => P.kernel p l f (g o), bias := fun o => P.bias (g o) }

/-- The parameters of a tensor product layer for the chosen features. -/
def pickTensor (g : ℕ → ℕ) : TensorParams → TensorParams
  | .tensor k => .tensor fun p l q m r n f => k p l q m r n (g f)
  | .fused K => .fused
      { e1 := fun l f => K.e1 l (g f), o1 := fun l f => K.o1 l (g f)
        e2 := fun l f => K.e2 l (g f), o2 := fun l f => K.o2 l (g f)
        eee := fun l f => K.eee l (g f), ooe := fun l f => K.ooe l (g f)
        eoo := fun l f => K.eoo l (g f), oeo := fun l f => K.oeo l (g f) }

/-- The parameters of a message passing step for the chosen features. -/
def pickConv (g : ℕ → ℕ) (P : ConvParams) : ConvParams := ⟨pickDense g P.filter, pickTensor g P.tens⟩

end E3x.Spec
