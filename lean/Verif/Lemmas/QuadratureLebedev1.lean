import Verif.Model.QuadratureLebedev
import Verif.Lemmas.QuadratureCheck
import Verif.Lemmas.QuadratureDelley

/-!
# Checked moments of the Lebedev rules
-/

namespace E3x

namespace QuadratureCheck

-- one rule at a time, to limit the memory
set_option Elab.async false

theorem lebedev3 : check 40000000000000 1 lebedevRule3 = true := by decide +kernel

theorem lebedev5 : check 40000000000000 2 lebedevRule5 = true := by decide +kernel

theorem lebedev7 : check 40000000000000 3 lebedevRule7 = true := by decide +kernel

theorem lebedev9 : check 40000000000000 4 lebedevRule9 = true := by decide +kernel

theorem lebedev11 : check 40000000000000 5 lebedevRule11 = true := by decide +kernel

theorem lebedev13 : check 40000000000000 6 lebedevRule13 = true := by decide +kernel

theorem lebedev15 : check 40000000000000 7 lebedevRule15 = true := by decide +kernel

theorem lebedev17 : check 40000000000000 8 lebedevRule17 = true := by decide +kernel

theorem lebedev19 : check 40000000000000 9 lebedevRule19 = true := by decide +kernel

theorem lebedev21 : check 40000000000000 10 lebedevRule21 = true := by decide +kernel

theorem lebedev23 : check 40000000000000 11 lebedevRule23 = true := by decide +kernel

theorem lebedev25 : check 40000000000000 12 lebedevRule25 = true := by decide +kernel

theorem lebedev27 : check 40000000000000 13 lebedevRule27 = true := by decide +kernel

theorem lebedev29 : check 40000000000000 14 lebedevRule29 = true := by decide +kernel

theorem lebedev31 : check 40000000000000 15 lebedevRule31 = true := by decide +kernel

theorem lebedev35 : check 40000000000000 17 lebedevRule35 = true := by decide +kernel

theorem lebedev41 : check 40000000000000 20 lebedevRule41 = true := by decide +kernel

theorem lebedev47 : check 40000000000000 23 lebedevRule47 = true := by decide +kernel

theorem lebedev53 : check 40000000000000 26 lebedevRule53 = true := by decide +kernel

theorem lebedev59 : check 40000000000000 29 lebedevRule59 = true := by decide +kernel

theorem lebedev65 : check 40000000000000 32 lebedevRule65 = true := by decide +kernel

theorem lebedev71 : check 40000000000000 35 lebedevRule71 = true := by decide +kernel

theorem lebedev77 : check 40000000000000 38 lebedevRule77 = true := by decide +kernel

theorem lebedev83 : check 40000000000000 41 lebedevRule83 = true := by decide +kernel

theorem lebedev89 : check 40000000000000 44 lebedevRule89 = true := by decide +kernel

theorem lebedev95 : check 40000000000000 47 lebedevRule95 = true := by decide +kernel

theorem lebedev101 : check 40000000000000 50 lebedevRule101 = true := by decide +kernel

end QuadratureCheck

end E3x
