import Verif.Model.Tensor

/-!
# Specification of C68: Tensor layers with exchanged inputs
-/

namespace E3x.Spec

/-- The kernel of a Tensor layer for exchanged inputs. -/
def exchangedKernel (K : TensorKernel) : TensorKernel := fun p l q m r n f => (-1) ^ (l + m + n) * K q m p l r n f

end E3x.Spec
