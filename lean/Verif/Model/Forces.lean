import Verif.Model.Energy
import Mathlib.Analysis.Calculus.FDeriv.Basic

/-!
# Models that predict energies and forces

The method `__call__` and the end of the method `energy` of the class `MessagePassingModel` of
docs/source/examples/md17_ethanol.ipynb, for all models of the form of `Potential`.
-/

namespace E3x

noncomputable section

/-- A batch of structures as passed to `__call__` (md17 example): the number `n` of all atoms, their atomic numbers, the index
lists of the `m` edges. Simplification: the index lists have the same length and their entries are in range. -/
structure AtomGraph (n m : ℕ) where
  numbers : List ℕ
  dst : Fin m → Fin n
  src : Fin m → Fin n

/-- The second output of `energy` (md17 example, steps 1 to 6). -/
def segmentEnergies (tiny : ℝ) (disk : Disk SHCompressed) (o : SaveOutcome) (cg : ℕ → ℕ → ℕ → ℝ) (M : Potential) {n m : ℕ}
    (A : AtomGraph n m) (segments : List ℕ) (batchSize : ℕ) (X : Fin n → Fin 3 → ℝ) : Except Err (List ℝ) :=
  (atomicEnergies tiny disk o cg M A.numbers (fun b => A.dst b) (fun b => A.src b) (displacements X A.dst A.src)).map
    fun E => totalEnergies E segments batchSize

/-- The first output of `energy`, `-jnp.sum(energy)` (md17 example, `return -jnp.sum(energy), energy`). Simplification: zero
where an exception is raised, in which case `__call__` raises it as well. -/
def proxyOutput (tiny : ℝ) (disk : Disk SHCompressed) (o : SaveOutcome) (cg : ℕ → ℕ → ℕ → ℝ) (M : Potential) {n m : ℕ}
    (A : AtomGraph n m) (segments : List ℕ) (batchSize : ℕ) (X : Fin n → Fin 3 → ℝ) : ℝ :=
  match segmentEnergies tiny disk o cg M A segments batchSize X with
  | .ok E => -E.sum
  | .error _ => 0

/-- `__call__` (md17 example): `jax.value_and_grad(self.energy, argnums=1, has_aux=True)`. The default values are
`batch_segments = jnp.zeros_like(atomic_numbers)` and `batch_size = 1`. Simplification: the gradient with respect to the
positions is the mathematical derivative; that the library's own derivative rules compute it is C57. (`fderiv` is zero
where the function is not differentiable; the properties only speak about points where it is.) -/
def energyAndForces (tiny : ℝ) (disk : Disk SHCompressed) (o : SaveOutcome) (cg : ℕ → ℕ → ℕ → ℝ) (M : Potential) {n m : ℕ}
    (A : AtomGraph n m) (batch : Option (List ℕ × ℕ)) (X : Fin n → Fin 3 → ℝ) :
    Except Err (List ℝ × (Fin n → Fin 3 → ℝ)) :=
  let (segments, batchSize) := batch.getD (A.numbers.map fun _ => 0, 1)
  (segmentEnergies tiny disk o cg M A segments batchSize X).map fun E =>
    (E, fun i k => fderiv ℝ (proxyOutput tiny disk o cg M A segments batchSize) X (Pi.single i (Pi.single k 1)))

end

end E3x
