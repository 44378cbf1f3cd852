import Verif.Model.Energy

/-!
# The example that classifies tetracubes

docs/source/examples/tetracubes.ipynb (line numbers below are those of this file): the shapes, the two models, loss, accuracy
and `eval_step`. A shape is an array of `n` points (`n = 4` in the example); further batch axes only in `classifyStep`.
-/

namespace E3x

noncomputable section

/-- `tetracubes` (tetracubes.ipynb:61-86). -/
def tetracubes : Fin 8 → Fin 4 → Fin 3 → ℝ := ![
  ![![-1.5, 0, 0], ![-0.5, 0, 0], ![0.5, 0, 0], ![1.5, 0, 0]],
  ![![-0.5, -0.5, 0], ![-0.5, 0.5, 0], ![0.5, 0.5, 0], ![0.5, -0.5, 0]],
  ![![-1, 0.5, 0], ![0, 0.5, 0], ![0, -0.5, 0], ![1, -0.5, 0]],
  ![![-0.75, -0.75, 0], ![-0.75, 0.25, 0], ![0.25, 0.25, 0], ![1.25, 0.25, 0]],
  ![![-1, 0.25, 0], ![0, 0.25, 0], ![1, 0.25, 0], ![0, -0.75, 0]],
  ![![-0.75, 0.25, -0.25], ![0.25, 0.25, -0.25], ![0.25, -0.75, -0.25], ![0.25, 0.25, 0.75]],
  ![![-0.5, 0.25, -0.25], ![-0.5, 0.25, 0.75], ![0.5, 0.25, -0.25], ![0.5, -0.75, -0.25]],
  ![![-0.75, 0.5, -0.25], ![0.25, -0.5, 0.75], ![0.25, 0.5, -0.25], ![0.25, -0.5, -0.25]]]

/-- `shapes -= jnp.mean(shapes, keepdims=True, axis=-2)` (tetracubes.ipynb:159, 216). -/
def centered {n : ℕ} (X : Fin n → Fin 3 → ℝ) : Fin n → Fin 3 → ℝ := fun b k => X b k - (∑ c, X c k) / n

/-- Attributes and parameters of `EquivariantModel`. -/
structure TetraNet where
  features : ℕ
  maxDegree : ℕ
  dense1 : DenseParams
  tensor1 : TensorParams
  /-- `include_pseudotensors` of the second TensorDense layer: the variant of tetracubes.ipynb:173-174 -/
  includePseudo : Bool
  dense2 : DenseParams
  tensor2 : TensorParams
  kernel : ℕ → Fin 8 → ℝ
  bias : Fin 8 → ℝ

/-- The features of the whole shape: the mean over the cubes of the basis functions (tetracubes.ipynb:162-168). `cart` is the
default value of `cartesian_order`. -/
def cubeFeatures (tiny : ℝ) (disk : Disk SHCompressed) (o : SaveOutcome) (cart : Bool) (num L : ℕ) {n : ℕ}
    (X : Fin n → Fin 3 → ℝ) : Except Err Feat := do
  let res ← basis tiny X L num (fun x num => elementwise (fun x => .ok (triangularWindow x num 2)) x)
    (defaultAngularFn tiny disk o) none false false none cart
  .ok ⟨false, L, num, fun p i f => (∑ b, (res.out b).val p i f) / n⟩

/-- `jnp.reshape(x, (*x.shape[:-3], -1))` and `nn.Dense(features=8)` (tetracubes.ipynb:182-183). -/
def flatDense (kernel : ℕ → Fin 8 → ℝ) (bias : Fin 8 → ℝ) (x : Feat) (k : Fin 8) : ℝ :=
  (∑ p ∈ Finset.range (chan x.pseudo), ∑ i ∈ Finset.range ((x.L + 1) ^ 2), ∑ f ∈ Finset.range x.F,
    x.val p i f * kernel ((p * (x.L + 1) ^ 2 + i) * x.F + f) k) + bias k

/-- `x = e3x.nn.TensorDense()(x)` (tetracubes.ipynb:171). -/
def tetraHidden (cg : ℕ → ℕ → ℕ → ℝ) (net : TetraNet) (x : Feat) : Except Err Feat :=
  tensorDense none true ⟨none, true⟩ net.dense1 net.tensor1 cg x

/-- `EquivariantModel.__call__` (tetracubes.ipynb:157-184). -/
def tetraLogits (tiny : ℝ) (disk : Disk SHCompressed) (o : SaveOutcome) (cart : Bool) (cg : ℕ → ℕ → ℕ → ℝ) (net : TetraNet)
    {n : ℕ} (X : Fin n → Fin 3 → ℝ) : Except Err (Fin 8 → ℝ) := do
  let X := centered X
  let x ← cubeFeatures tiny disk o cart net.features net.maxDegree X
  let x ← tetraHidden cg net x
  let x ← tensorDense none true ⟨some 0, net.includePseudo⟩ net.dense2 net.tensor2 cg x
  .ok (flatDense net.kernel net.bias x)

/-- Parameters of `OrdinaryModel`. -/
structure OrdinaryNet where
  features : ℕ
  kernel1 : ℕ → ℕ → ℝ
  bias1 : ℕ → ℝ
  kernel2 : ℕ → ℕ → ℝ
  bias2 : ℕ → ℝ
  kernel3 : ℕ → Fin 8 → ℝ
  bias3 : Fin 8 → ℝ

/-- `OrdinaryModel.__call__` (tetracubes.ipynb:214-229). -/
def ordinaryLogits (net : OrdinaryNet) {n : ℕ} (X : Fin n → Fin 3 → ℝ) : Fin 8 → ℝ :=
  let X := centered X
  let x : ℕ → ℝ := fun o => (∑ b : Fin n, ∑ k : Fin 3, X b k * net.kernel1 (b * 3 + k) o) + net.bias1 o
  let x := fun o => max (x o) 0
  let x : ℕ → ℝ := fun o => (∑ f ∈ Finset.range net.features, x f * net.kernel2 f o) + net.bias2 o
  let x := fun o => max (x o) 0
  fun k => (∑ f ∈ Finset.range net.features, x f * net.kernel3 f k) + net.bias3 k

/-- One term of `optax.softmax_cross_entropy(logits, jax.nn.one_hot(labels, 8))` (tetracubes.ipynb:247-249). -/
def crossEntropy (logits : Fin 8 → ℝ) (label : ℕ) : ℝ :=
  -∑ k : Fin 8, (if (k : ℕ) = label then 1 else 0) * (logits k - Real.log (∑ j, Real.exp (logits j)))

/-- `jnp.argmax(logits, -1)`: the first position of the largest entry. -/
def argmax (logits : Fin 8 → ℝ) : Fin 8 :=
  (List.finRange 8).foldl (fun best k => if logits best < logits k then k else best) 0

/-- The logits of all shapes of a batch. -/
def batchLogits {n : ℕ} (call : (Fin n → Fin 3 → ℝ) → Except Err (Fin 8 → ℝ)) :
    List ((Fin n → Fin 3 → ℝ) × ℕ) → Except Err (List ((Fin 8 → ℝ) × ℕ))
  | [] => .ok []
  | s :: batch => do
    let logits ← call s.1
    let rest ← batchLogits call batch
    .ok ((logits, s.2) :: rest)

/-- `eval_step` with `cross_entropy_loss` and `compute_accuracy` (tetracubes.ipynb:247-252, 283-287). The means of an empty
batch (NaN) are 0 here. -/
def classifyStep {n : ℕ} (call : (Fin n → Fin 3 → ℝ) → Except Err (Fin 8 → ℝ)) (batch : List ((Fin n → Fin 3 → ℝ) × ℕ)) :
    Except Err (ℝ × ℝ) := do
  let xs ← batchLogits call batch
  let loss := (xs.map fun x => crossEntropy x.1 x.2).sum / xs.length
  let accuracy := (xs.map fun x => if (argmax x.1 : ℕ) = x.2 then (1 : ℝ) else 0).sum / xs.length
  .ok (loss, accuracy)

end

end E3x
