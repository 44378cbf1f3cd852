import Verif.Model.HarmonicsFloat
import Verif.Model.SafeFloat

/-!
# Spherical harmonics of arbitrary vectors in floating-point arithmetic
-/

namespace E3x

noncomputable section

/-- Component `j` of row `i` of `spherical_harmonics(r, L)` (so3/irreps.py:41-170) can be `y`: the vectors are normalised
(so3/irreps.py:154-156, ops/safe.py:117-136) with sums of squares added in the given order, then the harmonics are computed. `batch`
lists the rows. -/
def SphericalHarmonicsFloatOf {ι : Type} (F : FloatFormat) (order : SumOrder (Fin 3)) (batch : List ι) (table : SHTable)
    (constant : ℕ → ℝ) (L : ℕ) (cart : Bool) (r : ι → Fin 3 → FloatVal) (i : ι) (j d : ℕ) (y : FloatVal) : Prop :=
  ∃ u norms, normalizeAndReturnNormFloat F order batch [0, 1, 2] r = .ok (u, norms) ∧
    SphericalHarmonicsFloat F table constant L cart (u i) j d y

end

end E3x
