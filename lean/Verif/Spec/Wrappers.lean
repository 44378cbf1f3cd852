import Verif.Model.Wrappers

/-!
# Specification vocabulary for radial-angular basis functions
-/

namespace E3x.Spec

variable {ι : Type}

/-- All components of a result of `basis` multiplied by the matrix `D` (from the right, leading `n × n` block); the other
entries of the tuple unchanged. -/
noncomputable def rotateBasis (n : ℕ) (D : ℕ → ℕ → ℝ) (res : BasisResult ι) : BasisResult ι where
  out b := { res.out b with val := fun s j f => ∑ i ∈ Finset.range n, (res.out b).val s i f * D i j }
  extra := res.extra

/-- The components of degree `l` of a result of `basis` multiplied by `(-1)^l`; the other entries of the tuple
unchanged. -/
noncomputable def invertBasis (res : BasisResult ι) : BasisResult ι where
  out b := { res.out b with val := fun s j f => (-1) ^ deg j * (res.out b).val s j f }
  extra := res.extra

/-- The entries of the returned tuple after the basis functions (`none`: no tuple), for the flags `return_cutoff` and
`return_norm`: first the values of the cutoff function, then the norms. -/
def basisExtra (returnCutoff returnNorm : Bool) (cut norm : ι → ℝ) : Option (List (ι → ℝ)) :=
  match returnCutoff, returnNorm with
  | false, false => none
  | true, false => some [cut]
  | false, true => some [norm]
  | true, true => some [cut, norm]

end E3x.Spec
