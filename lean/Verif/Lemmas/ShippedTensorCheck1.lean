import Verif.Lemmas.ShippedTensorCheck
import Verif.Model.ShippedTensors

/-!
# All degrees of the shipped tensor-conversion matrices
-/

namespace E3x.Coefficients

theorem checkDegree0 : checkDegree 0 certRows0 certInverse0 certDen0 shippedS2t0 shippedT2s0 = true := by
  decide +kernel

theorem checkDegree1 : checkDegree 1 certRows1 certInverse1 certDen1 shippedS2t1 shippedT2s1 = true := by
  decide +kernel

theorem checkDegree2 : checkDegree 2 certRows2 certInverse2 certDen2 shippedS2t2 shippedT2s2 = true := by
  decide +kernel

theorem checkDegree3 : checkDegree 3 certRows3 certInverse3 certDen3 shippedS2t3 shippedT2s3 = true := by
  decide +kernel

theorem checkDegree4 : checkDegree 4 certRows4 certInverse4 certDen4 shippedS2t4 shippedT2s4 = true := by
  decide +kernel

theorem checkDegree5 : checkDegree 5 certRows5 certInverse5 certDen5 shippedS2t5 shippedT2s5 = true := by
  decide +kernel

theorem checkDegree6 : checkDegree 6 certRows6 certInverse6 certDen6 shippedS2t6 shippedT2s6 = true := by
  decide +kernel

theorem checkDegree7 : checkDegree 7 certRows7 certInverse7 certDen7 shippedS2t7 shippedT2s7 = true := by
  decide +kernel

theorem checkDegree8 : checkDegree 8 certRows8 certInverse8 certDen8 shippedS2t8 shippedT2s8 = true := by
  decide +kernel

theorem checkDegree9 : checkDegree 9 certRows9 certInverse9 certDen9 shippedS2t9 shippedT2s9 = true := by
  decide +kernel

theorem checkDegree10 : checkDegree 10 certRows10 certInverse10 certDen10 shippedS2t10 shippedT2s10 = true := by
  decide +kernel

theorem checkDegree11 : checkDegree 11 certRows11 certInverse11 certDen11 shippedS2t11 shippedT2s11 = true := by
  decide +kernel

theorem checkDegree12 : checkDegree 12 certRows12 certInverse12 certDen12 shippedS2t12 shippedT2s12 = true := by
  decide +kernel

theorem checkDegree13 : checkDegree 13 certRows13 certInverse13 certDen13 shippedS2t13 shippedT2s13 = true := by
  decide +kernel

theorem checkDegree14 : checkDegree 14 certRows14 certInverse14 certDen14 shippedS2t14 shippedT2s14 = true := by
  decide +kernel

theorem checkDegree15 : checkDegree 15 certRows15 certInverse15 certDen15 shippedS2t15 shippedT2s15 = true := by
  decide +kernel

end E3x.Coefficients
