import Verif.Spec.Energy
import Verif.Model.Tetracubes

/-!
# Specification of C67: classification of tetracubes
-/

namespace E3x.Spec

/-- The batch in which shape number `b` is moved by the function `move b`. Labels are kept. -/
def movedBatch {n : ℕ} (move : ℕ → (Fin n → Fin 3 → ℝ) → Fin n → Fin 3 → ℝ) (batch : List ((Fin n → Fin 3 → ℝ) × ℕ)) :
    List ((Fin n → Fin 3 → ℝ) × ℕ) := batch.mapIdx fun b s => (move b s.1, s.2)

/-- A rotation (no reflection) followed by a shift and another order of the cubes. -/
def IsMotion {n : ℕ} (f : (Fin n → Fin 3 → ℝ) → Fin n → Fin 3 → ℝ) : Prop :=
  ∃ R, IsOrthogonal R ∧ det3x3 R = 1 ∧ ∃ (t : Fin 3 → ℝ) (σ : Equiv.Perm (Fin n)), ∀ X, f X = translated t (rotated R X) ∘ σ

/-- The same network, with the weights of pseudoscalar features (the second half of the flattened features) negated. -/
noncomputable def flipPseudo (net : TetraNet) : TetraNet :=
  { net with kernel := fun j k => if j < net.features then net.kernel j k else -net.kernel j k }

/-- The eight shapes with their labels. -/
noncomputable def allTetracubes : List ((Fin 4 → Fin 3 → ℝ) × ℕ) := List.ofFn fun k : Fin 8 => (tetracubes k, (k : ℕ))

end E3x.Spec
