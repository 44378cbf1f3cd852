import Verif.Model.Features

/-!
# Specification vocabulary for features

The meaning of a feature array: a real number for every (parity, component, feature). An array without
pseudotensors holds only proper tensors: components of even degree have even parity (0), components of odd
degree odd parity (1). Components an array does not contain are zero.
-/

namespace E3x.Spec

/-- The value of the component with parity `p` (0 even, 1 odd), flat position `i` (degree `⌊√i⌋`), feature
`f` in the array `x`, zero if `x` has no such component. -/
noncomputable def comp (x : Feat) (p i f : ℕ) : ℝ :=
  if (x.L + 1) ^ 2 ≤ i ∨ 2 ≤ p then 0
  else if x.pseudo then x.val p i f
  else if p = deg i % 2 then x.val 0 i f else 0

/-- A matrix which does not mix degrees. -/
def BlockDiag (D : ℕ → ℕ → ℝ) : Prop := ∀ i j, deg i ≠ deg j → D i j = 0

/-- The identity matrix. -/
def one (i j : ℕ) : ℝ := if i = j then 1 else 0

/-- Matrix product of the leading `n × n` blocks. -/
noncomputable def mul (n : ℕ) (A B : ℕ → ℕ → ℝ) (i j : ℕ) : ℝ := ∑ k ∈ Finset.range n, A i k * B k j

end E3x.Spec
