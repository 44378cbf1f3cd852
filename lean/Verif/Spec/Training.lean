import Verif.Model.Training
import Verif.Spec.Forces

/-!
# Specification of C65: batches of data and reported losses
-/

namespace E3x.Spec

/-- `N` data points of structures with `n` atoms. -/
structure WellFormedData (data : Dataset) (N n : ℕ) : Prop where
  energy : data.energy.length = N
  forces : data.forces.length = N
  positions : data.positions.length = N
  numbers : data.atomicNumbers.length = n
  forces_atoms : ∀ f ∈ data.forces, f.length = n
  positions_atoms : ∀ x ∈ data.positions, x.length = n

/-- The target energy of data point `p`. -/
noncomputable def targetEnergy (data : Dataset) (p : ℕ) : ℝ := data.energy.getD p 0

/-- The target forces of data point `p`. -/
noncomputable def targetForces (data : Dataset) {n : ℕ} (p : ℕ) : Fin n → Fin 3 → ℝ := fun i => (data.forces.getD p []).getD i 0

/-- The positions of the atoms in data point `p`. -/
noncomputable def dataPositions (data : Dataset) {n : ℕ} (p : ℕ) : Fin n → Fin 3 → ℝ := fun i => (data.positions.getD p []).getD i 0

/-- All ordered pairs of different atoms, once each. -/
def CompleteGraph {n m : ℕ} (A : AtomGraph n m) : Prop :=
  ∀ i j, (Finset.univ.filter fun b => A.dst b = i ∧ A.src b = j).card = if i = j then 0 else 1

/-- The squared deviation of one prediction. -/
noncomputable def halfSquare (x : ℝ) : ℝ := x ^ 2 / 2

/-- The mean of `f` over the components of the difference of two arrays of vectors. -/
noncomputable def componentMean {n : ℕ} (f : ℝ → ℝ) (F G : Fin n → Fin 3 → ℝ) : ℝ := (∑ i, ∑ k, f (F i k - G i k)) / (3 * n)

/-- The mean of a quantity over a list of data points. -/
noncomputable def meanOver (points : List ℕ) (q : ℕ → ℝ) : ℝ := (points.map q).sum / points.length

/-- The batch of the data points `p`: a graph of `B * n` atoms, of which atom `s * n + i` is atom `i` of data point `p[s]`, belongs
to segment `s`, and is connected by one edge in each direction with all other atoms of its data point and with no other atom. -/
structure IsDataBatch (data : Dataset) (n B : ℕ) (b : Batch) (p : List ℕ) : Prop where
  size : p.length = B
  energy : b.energy = p.map (targetEnergy data)
  forces_length : b.forces.length = B * n
  forces : ∀ (s : Fin B) (i : Fin n), b.forces.getD (s * n + i) 0 = targetForces data (p.getD s 0) i
  positions_length : b.positions.length = B * n
  positions : ∀ (s : Fin B) (i : Fin n), b.positions.getD (s * n + i) 0 = dataPositions data (p.getD s 0) i
  numbers_length : b.atomicNumbers.length = B * n
  numbers : ∀ (s : Fin B) (i : Fin n), b.atomicNumbers[(s * n + i : ℕ)]? = data.atomicNumbers[(i : ℕ)]?
  segments_length : b.segments.length = B * n
  segments : ∀ (s : Fin B) (i : Fin n), b.segments[(s * n + i : ℕ)]? = some (s : ℕ)
  edges_length : b.dst.length = b.src.length
  edges : ∀ x y, (b.dst.zip b.src).count (x, y) = if x < B * n ∧ y < B * n ∧ x ≠ y ∧ x / n = y / n then 1 else 0

/-- `losses` are the losses and errors returned by the steps of an epoch, one after the other, starting with the parameters
(and the state of the optimizer) `state` and ending with `state'`. -/
inductive Steps {S : Type} (step : S → Batch → Except Err (S × ℝ × ℝ × ℝ)) : S → List Batch → List (ℝ × ℝ × ℝ) → S → Prop
  | nil (state : S) : Steps step state [] [] state
  | cons {state state' state'' : S} {batch : Batch} {batches : List Batch} {loss : ℝ × ℝ × ℝ} {losses : List (ℝ × ℝ × ℝ)} :
    step state batch = .ok (state', loss) → Steps step state' batches losses state'' →
      Steps step state (batch :: batches) (loss :: losses) state''

end E3x.Spec
