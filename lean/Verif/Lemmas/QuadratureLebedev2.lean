import Verif.Model.QuadratureLebedev
import Verif.Lemmas.QuadratureCheck
import Verif.Lemmas.QuadratureLebedev1

/-!
# Checked moments of the Lebedev rules
-/

namespace E3x

namespace QuadratureCheck

-- one rule at a time, to limit the memory
set_option Elab.async false

theorem lebedev107 : check 40000000000000 53 lebedevRule107 = true := by decide +kernel

theorem lebedev113 : check 40000000000000 56 lebedevRule113 = true := by decide +kernel

theorem lebedev119 : check 40000000000000 59 lebedevRule119 = true := by decide +kernel

theorem lebedev125 : check 40000000000000 62 lebedevRule125 = true := by decide +kernel

theorem lebedev131 : check 40000000000000 65 lebedevRule131 = true := by decide +kernel

end QuadratureCheck

end E3x
