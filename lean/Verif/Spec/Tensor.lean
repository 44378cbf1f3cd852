import Verif.Spec.Features

/-!
# Specification vocabulary for tensor products

`IsRotation cg D` collects what is used of the Wigner-D matrix of a rotation: it is block diagonal, trivial on scalars,
orthogonal, and intertwines the Clebsch-Gordan coupling.  (Props/WignerD.lean shows that the Wigner-D matrices of
all rotations have these properties.)
-/

namespace E3x.Spec

open Finset (range)

/-- Coupling rotated inputs is rotating the coupled inputs. -/
def Intertwines (cg : ℕ → ℕ → ℕ → ℝ) (D : ℕ → ℕ → ℝ) : Prop :=
  ∀ a b n, ∑ l ∈ range ((deg a + 1) ^ 2), ∑ m ∈ range ((deg b + 1) ^ 2), D a l * D b m * cg l m n =
    ∑ k ∈ range ((deg n + 1) ^ 2), cg a b k * D k n

/-- Orthogonality of every leading block. -/
def Orthogonal (D : ℕ → ℕ → ℝ) : Prop :=
  ∀ i j, ∑ k ∈ range ((deg i + 1) ^ 2), D i k * D j k = (if i = j then 1 else 0) ∧
    ∑ k ∈ range ((deg i + 1) ^ 2), D k i * D k j = (if i = j then 1 else 0)

/-- What is used of the Wigner-D matrix of a rotation. -/
structure IsRotation (cg : ℕ → ℕ → ℕ → ℝ) (D : ℕ → ℕ → ℝ) : Prop where
  blockDiag : BlockDiag D
  scalar : D 0 0 = 1
  orthogonal : Orthogonal D
  intertwines : Intertwines cg D

/-- The parity index under which an array stores (or would store) the parity `p`. -/
def slot (pseudo : Bool) (p : ℕ) : ℕ := if pseudo then p else 0

/-- The weighted sum over all pairs of components of `x` and `y` with parities `p`, `q` such that `p + q ≡ r`, coupled to
position `n` by Clebsch-Gordan coefficients.  The weight depends on parities and degrees only. -/
noncomputable def coupled (W : ℕ → ℕ → ℕ → ℕ → ℕ → ℕ → ℝ) (cg : ℕ → ℕ → ℕ → ℝ) (x y : Feat) (r n f : ℕ) : ℝ :=
  ∑ p ∈ range 2, ∑ q ∈ range 2, if (p + q) % 2 = r then
    ∑ l ∈ range ((x.L + 1) ^ 2), ∑ m ∈ range ((y.L + 1) ^ 2),
      comp x p l f * comp y q m f * W p (deg l) q (deg m) r (deg n) * cg l m n
  else 0

/-- The matrix `X` of the documentation of `FusedTensor`: components of parity `p` in the basis of matrices
`(2 lam + 1) × (2 lam + 1)`. -/
noncomputable def toMatrix (w : ℕ → ℝ) (cg : ℕ → ℕ → ℕ → ℝ) (lam : ℕ) (x : Feat) (p f a b : ℕ) : ℝ :=
  ∑ n ∈ range ((x.L + 1) ^ 2), w (deg n) * comp x p n f * cg (lam ^ 2 + a) (lam ^ 2 + b) n

/-- The fused tensor product of the documentation of `FusedTensor`. -/
noncomputable def fusedCoupled (w1 w2 : ℕ → ℕ → ℝ) (w3 : ℕ → ℕ → ℕ → ℝ) (cg : ℕ → ℕ → ℕ → ℝ) (lam : ℕ)
    (x y : Feat) (r n f : ℕ) : ℝ :=
  ∑ p ∈ range 2, ∑ q ∈ range 2, if (p + q) % 2 = r then
    ∑ a ∈ range (2 * lam + 1), ∑ b ∈ range (2 * lam + 1), w3 p q (deg n) *
      (∑ c ∈ range (2 * lam + 1), toMatrix (w1 p) cg lam x p f a c * toMatrix (w2 q) cg lam y q f c b) *
        cg (lam ^ 2 + a) (lam ^ 2 + b) n
  else 0

end E3x.Spec
