import Verif.Model.QuadratureDelley
import Verif.Lemmas.QuadratureCheck

/-!
# Checked moments of the Delley rules
-/

namespace E3x

namespace QuadratureCheck

-- one rule at a time, to limit the memory
set_option Elab.async false

theorem delley5 : check 6000000000000000 2 delleyRule5 = true := by decide +kernel

theorem delley7 : check 6000000000000000 3 delleyRule7 = true := by decide +kernel

theorem delley11 : check 6000000000000000 5 delleyRule11 = true := by decide +kernel

theorem delley17 : check 6000000000000000 8 delleyRule17 = true := by decide +kernel

theorem delley23 : check 6000000000000000 11 delleyRule23 = true := by decide +kernel

theorem delley29 : check 6000000000000000 14 delleyRule29 = true := by decide +kernel

theorem delley35 : check 6000000000000000 17 delleyRule35 = true := by decide +kernel

theorem delley41 : check 6000000000000000 20 delleyRule41 = true := by decide +kernel

theorem delley47 : check 6000000000000000 23 delleyRule47 = true := by decide +kernel

theorem delley53 : check 6000000000000000 26 delleyRule53 = true := by decide +kernel

theorem delley59 : check 6000000000000000 29 delleyRule59 = true := by decide +kernel

theorem delley65 : check 6000000000000000 32 delleyRule65 = true := by decide +kernel

theorem delley71 : check 6000000000000000 35 delleyRule71 = true := by decide +kernel

theorem delley77 : check 6000000000000000 38 delleyRule77 = true := by decide +kernel

theorem delley83 : check 6000000000000000 41 delleyRule83 = true := by decide +kernel

theorem delley89 : check 6000000000000000 44 delleyRule89 = true := by decide +kernel

theorem delley95 : check 6000000000000000 47 delleyRule95 = true := by decide +kernel

theorem delley101 : check 6000000000000000 50 delleyRule101 = true := by decide +kernel

end QuadratureCheck

end E3x
