import Verif.Model.ShippedTensors
import Verif.Spec.LookupTables

/-!
# The state after installing the package (tensor conversion)
-/

namespace E3x.Spec

/-- The package has just been installed: its archive of tensor-conversion matrices is the shipped one, there are no other
files, and no cache is configured. -/
noncomputable def freshTensorInstall : Disk (TCCompressed (ℕ → ℕ → ℝ)) :=
  ⟨.valid shippedTensorConversion, fun _ => .absent, none⟩

/-- Every entry of the array `A` agrees with the entry of `B` up to a relative error of `2⁻⁵²`; in particular, both have the
same zeros. -/
def EntrywiseClose (A B : ℕ → ℕ → ℝ) : Prop := ∀ i j, |A i j - B i j| ≤ 2⁻¹ ^ 52 * |B i j|

end E3x.Spec
