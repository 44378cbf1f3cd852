import Verif.Spec.Energy

/-!
# Specification of C66: moment of inertia tensors
-/

namespace E3x.Spec

/-- The moment of inertia tensor of point masses. -/
noncomputable def inertiaTensor {n : ℕ} (m : Fin n → ℝ) (X : Fin n → Fin 3 → ℝ) : Matrix (Fin 3) (Fin 3) ℝ :=
  ∑ i, m i • ((X i ⬝ᵥ X i) • (1 : Matrix (Fin 3) (Fin 3) ℝ) - Matrix.vecMulVec (X i) (X i))

/-- `Model` predicts the tensor `y` for the masses `m` at the positions `X`. -/
def PredictsInertia {n : ℕ} (call : (Fin n → ℝ) → (Fin n → Fin 3 → ℝ) → Except Err (Fin 3 → Fin 3 → ℝ)) (m : Fin n → ℝ)
    (X : Fin n → Fin 3 → ℝ) (y : Matrix (Fin 3) (Fin 3) ℝ) : Prop :=
  ∃ t, call m X = .ok t ∧ y = Matrix.of t

end E3x.Spec
