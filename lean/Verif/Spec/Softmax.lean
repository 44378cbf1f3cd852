import Mathlib.Analysis.Complex.Exponential

/-! Specification of the softmax of one node: neighbours are (logit, weight) pairs. -/

namespace E3x.Spec

/-- `exp(x)·w / Σ_j exp(x_j)·w_j`, the weighted softmax of entry `e` among `nbrs`. -/
noncomputable def softmaxValue (nbrs : List (ℝ × ℝ)) (e : ℝ × ℝ) : ℝ :=
  Real.exp e.1 * e.2 / (nbrs.map fun q => Real.exp q.1 * q.2).sum

end E3x.Spec
