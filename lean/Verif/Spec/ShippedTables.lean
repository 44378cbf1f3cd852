import Verif.Model.ShippedHarmonics
import Verif.Spec.LookupTables

/-!
# The state after installing the package
-/

namespace E3x.Spec

/-- The package has just been installed: its archive is the shipped one, there are no other files, and no cache is
configured. -/
noncomputable def freshInstall : Disk SHCompressed := ⟨.valid shippedSphericalHarmonics, fun _ => .absent, none⟩

end E3x.Spec
