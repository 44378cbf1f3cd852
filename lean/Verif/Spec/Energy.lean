import Verif.Spec.Covering
import Verif.Spec.Irreps
import Verif.Spec.LookupTables
import Verif.Model.Irreps

/-!
# Specification of C62: symmetries of predicted energies
-/

namespace E3x.Spec

/-- The table `cg` contains the coefficients returned by `clebsch_gordan`. -/
def LibraryCG (cart : Bool) (cg : ℕ → ℕ → ℕ → ℝ) : Prop :=
  ∀ disk, ValidDisk (cgKind symClebschGordan) (cgTable symClebschGordan) disk → ∀ (o : SaveOutcome) (l1 l2 l3 : ℕ),
    clebschGordan disk o l1 l2 l3 cart = .ok fun i j k =>
      if i < (l1 + 1) ^ 2 ∧ j < (l2 + 1) ^ 2 ∧ k < (l3 + 1) ^ 2 then cg i j k else 0

/-- The structure shifted by the vector `t`. -/
def translated {n : ℕ} (t : Fin 3 → ℝ) (X : Fin n → Fin 3 → ℝ) : Fin n → Fin 3 → ℝ := fun i k => X i k + t k

/-- The structure multiplied by the matrix `R`. -/
noncomputable def rotated {n : ℕ} (R : Fin 3 → Fin 3 → ℝ) (X : Fin n → Fin 3 → ℝ) : Fin n → Fin 3 → ℝ :=
  fun i => vecMul (X i) R

/-- The edges of a structure. -/
def geoEdges {m : ℕ} (dst src : Fin m → ℕ) (r : Fin m → Fin 3 → ℝ) : List GeoEdge := List.ofFn fun b => ⟨dst b, src b, r b⟩

/-- The edges that end in atom `i`. -/
def geoInto (G : List GeoEdge) (i : ℕ) : List GeoEdge := G.filter fun e => e.dst = i

/-- The same edge between other atoms. -/
def GeoEdge.relabel (σ : ℕ → ℕ) (e : GeoEdge) : GeoEdge := { e with dst := σ e.dst, src := σ e.src }

/-- `σ` maps the `n'` atoms of one structure to the `n` atoms of another, with corresponding edges (see `Covers`). -/
def CoversGeo (σ : ℕ → ℕ) (n' n : ℕ) (G' G : List GeoEdge) : Prop :=
  (∀ i < n', σ i < n) ∧ ∀ i < n', (geoInto G (σ i)).Perm ((geoInto G' i).map (GeoEdge.relabel σ))

/-- Conditions under which edges beyond the cutoff radius have no effect on a layer: the filter of a message-passing layer has
no bias (the default); every atom with an edge that attends to other atoms has an edge shorter than the radius (otherwise
the result is NaN, C58). -/
def LocalLayer (radius : ℝ) (G : List GeoEdge) : Layer → Prop
  | .messagePass _ cfg _ => cfg.useBasisBias = false
  | .attention .. => ∀ e ∈ G, ∃ e' ∈ G, e'.dst = e.dst ∧ Spec.length e'.disp < radius
  | _ => True

end E3x.Spec
