import Verif.Model.Irreps
import Verif.Model.Symbolic
import Verif.Model.Features
import Verif.Spec.LookupTables
import Verif.Spec.Irreps

/-!
# Specification vocabulary: maps that respect rotations and reflections
-/

namespace E3x.Spec

noncomputable section

open Finset

/-- `R` is a rotation: an orthogonal matrix with determinant one. -/
def IsSpatialRotation (R : Fin 3 → Fin 3 → ℝ) : Prop := IsOrthogonal R ∧ det3x3 R = 1

/-- `wigner_d(R, L)` returns `D`, whatever (valid) cache file it finds. -/
def IsWignerD (cart : Bool) (R : Fin 3 → Fin 3 → ℝ) (L : ℕ) (D : ℕ → ℕ → ℝ) : Prop :=
  ∀ disk, ValidDisk (wdKind wigTerms) (wdTable wigTerms) disk → ∀ o, wignerD disk o R L cart = .ok D

/-- A matrix with `2l+1` rows and `2k+1` columns which maps irreps of degree `l` (row vectors) to irreps of degree `k` such
that it does not matter whether a rotation is applied to the argument or to the result. -/
def RespectsRotations (cart : Bool) (l k : ℕ) (T : Fin (2 * l + 1) → Fin (2 * k + 1) → ℝ) : Prop :=
  ∀ R, IsSpatialRotation R → ∀ D E, IsWignerD cart R l D → IsWignerD cart R k E →
    ∀ (i : Fin (2 * l + 1)) (j : Fin (2 * k + 1)),
      ∑ i' : Fin (2 * l + 1), D (l ^ 2 + i) (l ^ 2 + i') * T i' j =
        ∑ j' : Fin (2 * k + 1), T i j' * E (k ^ 2 + j') (k ^ 2 + j)

/-- The result of rotating the irrep `x` of degree `l` with the Wigner-D matrix `D`. -/
def turnedIrrep (l : ℕ) (D : ℕ → ℕ → ℝ) (x : Fin (2 * l + 1) → ℝ) : Fin (2 * l + 1) → ℝ :=
  fun m => ∑ k, x k * D (l ^ 2 + k) (l ^ 2 + m)

/-- A function which maps feature arrays with the extents `ps, L, F` (pseudotensors, maximum degree, features) to arrays with
the extents `ps', L', G`, such that every entry of the result is a constant plus a linear combination of the entries of the
argument. -/
def IsAffine (Φ : Feat → Feat) (ps : Bool) (L F : ℕ) (ps' : Bool) (L' G : ℕ) : Prop :=
  ∃ (W : ℕ → ℕ → ℕ → ℕ → ℕ → ℕ → ℝ) (b : ℕ → ℕ → ℕ → ℝ), ∀ v,
    (Φ ⟨ps, L, F, v⟩).pseudo = ps' ∧ (Φ ⟨ps, L, F, v⟩).L = L' ∧ (Φ ⟨ps, L, F, v⟩).F = G ∧
    ∀ r < chan ps', ∀ n < (L' + 1) ^ 2, ∀ g < G, (Φ ⟨ps, L, F, v⟩).val r n g =
      b r n g + ∑ q ∈ range (chan ps), ∑ i ∈ range ((L + 1) ^ 2), ∑ f ∈ range F, v q i f * W q i f r n g

/-- For arguments with the given extents and results with maximum degree `L'`: transforming the argument transforms the result,
for all rotations and for the reflection. -/
def IsEquivariant (cart : Bool) (Φ : Feat → Feat) (ps : Bool) (L F L' : ℕ) : Prop :=
  ∀ v, (∀ R, IsSpatialRotation R → ∀ D D', IsWignerD cart R L D → IsWignerD cart R L' D' →
      (Φ (rotate ⟨ps, L, F, v⟩ D)).Same (rotate (Φ ⟨ps, L, F, v⟩) D')) ∧
    (Φ (reflect ⟨ps, L, F, v⟩)).Same (reflect (Φ ⟨ps, L, F, v⟩))

/-- A function of two feature arrays with equal numbers of features `F` which treats all features separately: every entry of
the result is a sum of products of an entry of the first argument, an entry of the second argument of the same feature, and a
coefficient. -/
def IsBilinear (B : Feat → Feat → Feat) (ps : Bool) (L : ℕ) (qs : Bool) (M F : ℕ) (ps' : Bool) (L' : ℕ) : Prop :=
  ∃ U : ℕ → ℕ → ℕ → ℕ → ℕ → ℕ → ℕ → ℝ, ∀ v w,
    (B ⟨ps, L, F, v⟩ ⟨qs, M, F, w⟩).pseudo = ps' ∧ (B ⟨ps, L, F, v⟩ ⟨qs, M, F, w⟩).L = L' ∧
    (B ⟨ps, L, F, v⟩ ⟨qs, M, F, w⟩).F = F ∧
    ∀ r < chan ps', ∀ n < (L' + 1) ^ 2, ∀ f < F, (B ⟨ps, L, F, v⟩ ⟨qs, M, F, w⟩).val r n f =
      ∑ p ∈ range (chan ps), ∑ l ∈ range ((L + 1) ^ 2), ∑ q ∈ range (chan qs), ∑ m ∈ range ((M + 1) ^ 2),
        v p l f * w q m f * U p l q m r n f

/-- Transforming both arguments transforms the result, for all rotations and for the reflection. -/
def IsEquivariant₂ (cart : Bool) (B : Feat → Feat → Feat) (ps : Bool) (L : ℕ) (qs : Bool) (M F L' : ℕ) : Prop :=
  ∀ v w, (∀ R, IsSpatialRotation R → ∀ D E D', IsWignerD cart R L D → IsWignerD cart R M E → IsWignerD cart R L' D' →
      (B (rotate ⟨ps, L, F, v⟩ D) (rotate ⟨qs, M, F, w⟩ E)).Same (rotate (B ⟨ps, L, F, v⟩ ⟨qs, M, F, w⟩) D')) ∧
    (B (reflect ⟨ps, L, F, v⟩) (reflect ⟨qs, M, F, w⟩)).Same (reflect (B ⟨ps, L, F, v⟩ ⟨qs, M, F, w⟩))

/-- Apply `φ` to the scalars and `ψ` to the pseudoscalars. -/
def onScalars (φ ψ : ℝ → ℝ) (x : Feat) : Feat :=
  { x with val := fun p i f => if p = 0 then φ (x.val p i f) else ψ (x.val p i f) }

end

end E3x.Spec
