import Verif.Model.Network
import Verif.Model.Wrappers
import Verif.Model.Indexed
import Verif.Model.Activations
import Verif.Model.Functions

/-!
# Models that predict energies of structures

The example docs/source/examples/md17_ethanol.ipynb (class `MessagePassingModel`, cited below by the lines of its cell
"class MessagePassingModel"), and the class of models of the same form: basis functions of the displacements between the
atoms, an embedding of the atomic numbers, any program of layers of the library on the same graph, and a linear readout.
-/

namespace E3x

noncomputable section

/-- `gather_src(positions, src_idx) - gather_dst(positions, dst_idx)` (md17 example, step 1). Simplification: the index lists
have the same length `m` and their entries are in range. -/
def displacements {n m : ℕ} (X : Fin n → Fin 3 → ℝ) (dst src : Fin m → Fin n) : Fin m → Fin 3 → ℝ :=
  fun b k => X (src b) k - X (dst b) k

/-- Applying a function of the library to all entries of an array. Exceptions of these functions (nn/functions) depend only
on their other arguments. -/
def elementwise {α : Type} {m : ℕ} (f : ℝ → Except Err α) (x : Fin m → ℝ) : Except Err (Fin m → α) :=
  match f 0 with
  | .error e => .error e
  | .ok d => .ok fun b => match f (x b) with
    | .ok y => y
    | .error _ => d

/-- The array of basis functions of all edges. -/
def basisArray {m : ℕ} (res : BasisResult (Fin m)) (L num : ℕ) : Edges :=
  ⟨false, L, num, .vec (List.ofFn fun b => (res.out b).val)⟩

/-- A layer of a model all of whose layers use the same graph and the same basis functions. -/
inductive Layer where
  | dense (x : ℕ) (features : ℕ) (useBias : Bool) (P : DenseParams)
  | gated (x : ℕ) (g : ℝ → ℝ)
  | change (x : ℕ) (maxDegree : Option ℕ) (includePseudo : Option Bool)
  | add (x y : ℕ)
  | tensor (x y : ℕ) (cfg : TensorCfg) (T : TensorParams)
  | tensorDense (x : ℕ) (features : Option ℕ) (useBias : Bool) (cfg : TensorCfg) (P : DenseParams) (T : TensorParams)
  | messagePass (x : ℕ) (cfg : ConvCfg) (P : ConvParams)
  | attention (q kv : ℕ) (lo ninf : ℝ) (cfg : AttnCfg) (P : AttnParams)

/-- The call of a layer: `dst_idx=dst_idx, src_idx=src_idx`, the basis functions, and for attention layers the values of the
cutoff function. -/
def Layer.instr (cut : Option (Lead ℝ)) (ix : IndexArgs) : Layer → Instr
  | .dense x features useBias P => .dense x features useBias P
  | .gated x g => .gated x g
  | .change x L ps => .change x L ps
  | .add x y => .add x y
  | .tensor x y cfg T => .tensor x y cfg T
  | .tensorDense x features useBias cfg P T => .tensorDense x features useBias cfg P T
  | .messagePass x cfg P => .messagePass x 0 cfg P none ix
  | .attention q kv lo ninf cfg P => .attention q kv (some 0) lo ninf cfg P cut ix

/-- Attributes and parameters of a model. -/
structure Potential where
  features : ℕ
  embedding : ℕ → ℕ → ℝ
  maxDegree : ℕ
  num : ℕ
  radialFn : ℝ → ℕ → Except Err (ℕ → ℝ)
  cutoffFn : ℝ → Except Err ℝ
  dampingFn : Option (ℝ → Except Err ℝ)
  cartesianOrder : Bool
  layers : List Layer
  readout : ℕ → ℝ
  elementBias : ℕ → ℝ

/-- `nn.Dense(1, use_bias=False)(x)` and `jnp.squeeze(..., axis=(-1, -2, -3))` (md17 example, step 5): `squeeze` raises a
`ValueError` if the parity or the degree axis has more than one entry. -/
def readoutNodes (kernel : ℕ → ℝ) (x : Nodes) : Except Err (List ℝ) :=
  if x.pseudo = false ∧ x.L = 0 then .ok (x.rows.map fun v => ∑ f ∈ Finset.range x.F, v 0 0 f * kernel f)
  else .error .valueError

/-- The basis functions of the displacements `r` (md17 example, step 2). The values of the cutoff function are requested as
well (`return_cutoff=True`), for attention layers. -/
def Potential.basisFunctions (tiny : ℝ) (disk : Disk SHCompressed) (o : SaveOutcome) (M : Potential) {m : ℕ}
    (r : Fin m → Fin 3 → ℝ) : Except Err (BasisResult (Fin m)) :=
  basis tiny r M.maxDegree M.num (fun x n => elementwise (M.radialFn · n) x) (defaultAngularFn tiny disk o)
    (some fun x => elementwise M.cutoffFn x) true false (M.dampingFn.map fun d x => elementwise d x) M.cartesianOrder

/-- The embedded atomic numbers (md17 example, step 3). -/
def Potential.embedded (M : Potential) (numbers : List ℕ) : Nodes :=
  ⟨false, 0, M.features, numbers.map fun a => (embed M.features M.embedding a).val⟩

/-- The atomic energies (md17 example, steps 2 to 5) for the index lists `dst`, `src` and the displacements `r`. Broadcasting
of a single atomic energy is not modelled. -/
def atomicEnergies (tiny : ℝ) (disk : Disk SHCompressed) (o : SaveOutcome) (cg : ℕ → ℕ → ℕ → ℝ) (M : Potential)
    (numbers : List ℕ) {m : ℕ} (dst src : Fin m → ℕ) (r : Fin m → Fin 3 → ℝ) : Except Err (List ℝ) := do
  let res ← M.basisFunctions tiny disk o r
  let cut := (res.extra.bind List.head?).map fun c => Lead.vec (List.ofFn c)
  let ix : IndexArgs := { dst := some (List.ofFn dst), src := some (List.ofFn src) }
  let x := M.embedded numbers
  let xs ← runNetwork cg [basisArray res M.maxDegree M.num] (M.layers.map (Layer.instr cut ix)) [x]
  let energies ← readoutNodes M.readout (xs.getLastD x)
  if energies.length = numbers.length then .ok (List.zipWith (· + M.elementBias ·) energies numbers)
  else .error .valueError

/-- `jax.ops.segment_sum(atomic_energies, segment_ids=batch_segments, num_segments=batch_size)` (md17 example, step 6). -/
def totalEnergies (atomic : List ℝ) (segments : List ℕ) (batchSize : ℕ) : List ℝ :=
  segmentReduce (· + ·) 0 atomic segments batchSize

/-! ## The md17 example -/

/-- Parameters of one iteration of the md17 example. -/
structure IterParams where
  conv : ConvParams
  dense1 : DenseParams
  dense2 : DenseParams

/-- Step 4 of the md17 example: `k` more iterations; `x` is the position of the current features, `c` the number of arrays
computed so far. The attributes which are not given are the default values of the classes: `max_degree = None`,
`include_pseudotensors = True`, `use_basis_bias = False` (nn/modules.py:1212-1283, 1354-1376). -/
def md17Layers (features : ℕ) (P : ℕ → IterParams) : (k x c : ℕ) → List Layer
  | 0, _, _ => []
  | 1, x, c =>
    [.messagePass x ⟨⟨some 0, false⟩, false⟩ (P 0).conv, .change x (some 0) (some false), .add (c + 1) c,
      .dense (c + 2) features true (P 0).dense1, .gated (c + 3) siluGate, .dense (c + 4) features true (P 0).dense2,
      .add (c + 1) (c + 5)]
  | k + 2, x, c =>
    [.messagePass x ⟨⟨none, true⟩, false⟩ (P (k + 1)).conv, .add x c, .dense (c + 1) features true (P (k + 1)).dense1,
      .gated (c + 2) siluGate, .dense (c + 3) features true (P (k + 1)).dense2, .add x (c + 4)] ++
      md17Layers features P (k + 1) (c + 5) (c + 6)

/-- The md17 example. -/
def md17 (epsneg eps : ℝ) (features maxDegree numIterations numBasisFunctions : ℕ) (cutoff : ℝ) (cartesianOrder : Bool)
    (embedding : ℕ → ℕ → ℝ) (P : ℕ → IterParams) (kernel elementBias : ℕ → ℝ) : Potential where
  features := features
  embedding := embedding
  maxDegree := maxDegree
  num := numBasisFunctions
  radialFn x n := reciprocalBasis (bernstein epsneg) eps x n "shifted" false
  cutoffFn x := smoothCutoff x cutoff
  dampingFn := none
  cartesianOrder := cartesianOrder
  layers := md17Layers features P numIterations 0 1
  readout := kernel
  elementBias := elementBias

end

end E3x
