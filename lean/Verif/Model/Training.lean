import Verif.Model.Forces

/-!
# Preparing data and evaluating losses

The functions `prepare_datasets`, `prepare_batches`, `mean_squared_loss`, `mean_absolute_error`, `eval_step` and the loops of
`train_model` of docs/source/examples/md17_ethanol.ipynb (line numbers below are those of this file).
Random choices are arguments of the model.
-/

namespace E3x

noncomputable section

/-- The dictionaries `train_data` and `valid_data` (md17_ethanol.ipynb:99-110): arrays of shapes `(num_data,)`, `(num_data, num_atoms, 3)`, `(num_atoms,)`,
`(num_data, num_atoms, 3)`. -/
structure Dataset where
  energy : List ℝ
  forces : List (List (Fin 3 → ℝ))
  atomicNumbers : List ℕ
  positions : List (List (Fin 3 → ℝ))

/-- `jnp.mean` of a vector. -/
def listMean (x : List ℝ) : ℝ := x.sum / x.length

/-- Indexing the first axis of an array with a list of indices. Simplification: the indices are in range. -/
def takeRows {α : Type} [Inhabited α] (x : List α) (indices : List ℕ) : List α := indices.map (x.getD · default)

/-- `prepare_datasets` (md17_ethanol.ipynb:79-111): `choice` is the result of `jax.random.choice(key, num_data, shape=(num_draw,), replace=False)`.
`dataset['E'][..., 0]` is `data.energy`. -/
def prepareDatasets (data : Dataset) (choice : List ℕ) (numTrain numValid : ℕ) : Except Err (Dataset × Dataset × ℝ) :=
  let numData := data.energy.length
  let numDraw := numTrain + numValid
  if numData < numDraw then .error .runtimeError
  else
    let trainChoice := choice.take numTrain
    let validChoice := choice.drop numTrain
    let meanEnergy := listMean (takeRows data.energy trainChoice)
    let select (c : List ℕ) : Dataset :=
      ⟨(takeRows data.energy c).map (· - meanEnergy), takeRows data.forces c, data.atomicNumbers, takeRows data.positions c⟩
    .ok (select trainChoice, select validChoice, meanEnergy)

/-- The dictionaries returned by `prepare_batches` (md17_ethanol.ipynb:259-270). -/
structure Batch where
  energy : List ℝ
  forces : List (Fin 3 → ℝ)
  atomicNumbers : List ℕ
  positions : List (Fin 3 → ℝ)
  dst : List ℕ
  src : List ℕ
  segments : List ℕ

/-- `prepare_batches` (md17_ethanol.ipynb:239-270): `perm` is the result of `jax.random.permutation(key, data_size)`. The `ZeroDivisionError` for
`batch_size = 0` is represented by `runtimeError`. -/
def prepareBatches (perm : List ℕ) (data : Dataset) (batchSize : ℕ) : Except Err (List Batch) :=
  let dataSize := data.energy.length
  if batchSize = 0 then .error .runtimeError
  else
    let stepsPerEpoch := dataSize / batchSize
    let perms := reshapeRows (perm.take (stepsPerEpoch * batchSize)) stepsPerEpoch
    let numAtoms := data.atomicNumbers.length
    let segments := repeatEach (List.range batchSize) numAtoms
    let atomicNumbers := tile data.atomicNumbers batchSize
    let offsets := (List.range batchSize).map (· * numAtoms)
    match sparsePairwiseIndices numAtoms with
    | .error e => .error e
    | .ok (dst, src) =>
      let dst' := offsets.flatMap fun offset => dst.map (· + offset)
      let src' := offsets.flatMap fun offset => src.map (· + offset)
      .ok (perms.map fun p =>
        ⟨takeRows data.energy p, (takeRows data.forces p).flatten, atomicNumbers, (takeRows data.positions p).flatten,
          dst', src', segments⟩)

/-- `optax.l2_loss` (used in md17_ethanol.ipynb:289-290): `0.5 * (prediction - target) ** 2`. -/
def l2Loss (prediction target : ℝ) : ℝ := (prediction - target) ^ 2 / 2

/-- `jnp.mean(f(prediction, target))` of arrays of shape `(n,)`. -/
def meanOf (f : ℝ → ℝ → ℝ) (prediction target : List ℝ) : ℝ := listMean (List.zipWith f prediction target)

/-- `jnp.mean(f(prediction, target))` of arrays of shape `(n, 3)`. -/
def meanOf3 (f : ℝ → ℝ → ℝ) (prediction target : List (Fin 3 → ℝ)) : ℝ :=
  listMean (List.zipWith (fun p t => [f (p 0) (t 0), f (p 1) (t 1), f (p 2) (t 2)]) prediction target).flatten

/-- `mean_squared_loss` (md17_ethanol.ipynb:288-291). -/
def meanSquaredLoss (energyPrediction energyTarget : List ℝ) (forcesPrediction forcesTarget : List (Fin 3 → ℝ))
    (forcesWeight : ℝ) : ℝ :=
  meanOf l2Loss energyPrediction energyTarget + forcesWeight * meanOf3 l2Loss forcesPrediction forcesTarget

/-- `mean_absolute_error` (md17_ethanol.ipynb:293-294) of energies. -/
def meanAbsoluteError (prediction target : List ℝ) : ℝ := meanOf (fun p t => |p - t|) prediction target

/-- `mean_absolute_error` (md17_ethanol.ipynb:293-294) of forces. -/
def meanAbsoluteError3 (prediction target : List (Fin 3 → ℝ)) : ℝ := meanOf3 (fun p t => |p - t|) prediction target

/-- The graph given by index lists. -/
def listGraph (numbers : List ℕ) (n : ℕ) (dst src : List ℕ) (h : dst.length = src.length ∧ (∀ i ∈ dst, i < n) ∧ ∀ i ∈ src, i < n) :
    AtomGraph n dst.length :=
  ⟨numbers, fun b => ⟨dst[b], h.2.1 _ (List.getElem_mem _)⟩, fun b => ⟨src[b.1]'(h.1 ▸ b.2), h.2.2 _ (List.getElem_mem _)⟩⟩

/-- `model_apply(params, atomic_numbers, positions, dst_idx, src_idx, batch_segments, batch_size)` (md17_ethanol.ipynb:342-350). Simplification: index lists of
different lengths or with indices out of range are outside of the model (`indexError`; jax does not raise). -/
def modelApply (tiny : ℝ) (disk : Disk SHCompressed) (o : SaveOutcome) (cg : ℕ → ℕ → ℕ → ℝ) (M : Potential) (numbers : List ℕ)
    (positions : List (Fin 3 → ℝ)) (dst src : List ℕ) (batch : Option (List ℕ × ℕ)) : Except Err (List ℝ × List (Fin 3 → ℝ)) :=
  open Classical in
  if h : dst.length = src.length ∧ (∀ i ∈ dst, i < positions.length) ∧ ∀ i ∈ src, i < positions.length then
    (energyAndForces tiny disk o cg M (listGraph numbers positions.length dst src h) batch fun i => positions[i]).map fun out =>
      (out.1, List.ofFn out.2)
  else .error .indexError

/-- `eval_step` (md17_ethanol.ipynb:341-360). -/
def evalStep (model : Batch → Except Err (List ℝ × List (Fin 3 → ℝ))) (forcesWeight : ℝ) (batch : Batch) :
    Except Err (ℝ × ℝ × ℝ) :=
  (model batch).map fun out =>
    (meanSquaredLoss out.1 batch.energy out.2 batch.forces forcesWeight, meanAbsoluteError out.1 batch.energy,
      meanAbsoluteError3 out.2 batch.forces)

/-- One of the loops over batches in `train_model` (md17_ethanol.ipynb:387-405 for training, 408-421 for validation), with the running means: `step` is `train_step` (which changes the parameters
and the state of the optimizer, `state`) or `eval_step` (which does not). `i` batches have been processed. -/
def epochLoop {S : Type} (step : S → Batch → Except Err (S × ℝ × ℝ × ℝ)) : ℕ → S → ℝ × ℝ × ℝ → List Batch →
    Except Err (S × ℝ × ℝ × ℝ)
  | _, state, means, [] => .ok (state, means)
  | i, state, means, batch :: batches =>
    match step state batch with
    | .error e => .error e
    | .ok (state', loss, energyMae, forcesMae) =>
      epochLoop step (i + 1) state'
        (means.1 + (loss - means.1) / (i + 1), means.2.1 + (energyMae - means.2.1) / (i + 1),
          means.2.2 + (forcesMae - means.2.2) / (i + 1)) batches

/-- The evaluation on the validation set in `train_model` (md17_ethanol.ipynb:406-421). -/
def evaluate (model : Batch → Except Err (List ℝ × List (Fin 3 → ℝ))) (forcesWeight : ℝ) (batches : List Batch) :
    Except Err (ℝ × ℝ × ℝ) :=
  (epochLoop (fun (_ : Unit) b => (evalStep model forcesWeight b).map fun l => ((), l)) 0 () (0, 0, 0) batches).map Prod.snd

end

end E3x
