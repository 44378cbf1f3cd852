import Verif.Spec.Energy
import Verif.Model.Forces
import Mathlib.Analysis.Calculus.Deriv.Basic

/-!
# Specification of C64: forces
-/

namespace E3x.Spec

/-- A function that returns energies and forces for the positions of `n` atoms does not raise exceptions; `U` is the sum of
the energies it returns and `F` are the forces it returns. -/
def Predicts {n : ℕ} (call : (Fin n → Fin 3 → ℝ) → Except Err (List ℝ × (Fin n → Fin 3 → ℝ)))
    (U : (Fin n → Fin 3 → ℝ) → ℝ) (F : (Fin n → Fin 3 → ℝ) → Fin n → Fin 3 → ℝ) : Prop :=
  ∀ X, ∃ E, call X = .ok (E, F X) ∧ U X = E.sum

/-- The power of the forces `F` when the atoms move with velocities `v`. -/
noncomputable def power {n : ℕ} (F v : Fin n → Fin 3 → ℝ) : ℝ := ∑ i, ∑ k, F i k * v i k

/-- `σ` maps the atoms of one graph to the atoms of another graph: the edges into `σ i` are the images of the edges into `i`,
with multiplicities, and the atomic numbers agree. -/
structure CoversGraph {n' m' n m : ℕ} (σ : Fin n' → Fin n) (A' : AtomGraph n' m') (A : AtomGraph n m) : Prop where
  numbers : ∀ i : Fin n', A'.numbers[(i : ℕ)]? = A.numbers[(σ i : ℕ)]?
  edges : ∀ (i : Fin n') (j : Fin n), (Finset.univ.filter fun b => A.dst b = σ i ∧ A.src b = j).card =
    (Finset.univ.filter fun b => A'.dst b = i ∧ σ (A'.src b) = j).card

/-- The atomic numbers of all `n` atoms are given, and there is at least one edge (otherwise `basis` raises an exception). -/
def WellFormedGraph {n m : ℕ} (A : AtomGraph n m) : Prop := A.numbers.length = n ∧ 0 < m

end E3x.Spec
