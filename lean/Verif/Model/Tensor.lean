import Verif.Model.Dense

/-!
# Model of `Tensor`, `FusedTensor`, `TensorDense` (nn/modules.py)

`cg` is the (infinite) table of Clebsch-Gordan coefficients indexed by flat positions, of which
`so3.clebsch_gordan(l1, l2, l3)` returns the leading part.  Learned parameters are arguments.  Einsums are written as
sums over the extents.
-/

namespace E3x

noncomputable section

open Finset (range)

/-- `_duplication_indices_for_max_degree`, nn/modules.py:243-260. -/
def duplicationIndices (L : ℕ) : List ℕ := (List.range (L + 1)).flatMap fun l => List.replicate (2 * l + 1) l

/-- `jnp.take` along one axis with `duplicationIndices L`. -/
def dup (L i : ℕ) : ℕ := (duplicationIndices L).getD i 0

/-- `_make_index_combinations`, nn/modules.py:286-311: triples (parity index, degree, parity). -/
def indexCombinations (parity maxDegree : ℕ) : List (ℕ × ℕ × ℕ) :=
  if parity = 2 then
    (List.range (maxDegree + 1)).map (fun l => (0, l, 0)) ++ (List.range (maxDegree + 1)).map (fun l => (1, l, 1))
  else (List.range (maxDegree + 1)).map fun l => (0, l, l % 2)

/-- Shape of a tensor product mask: `(S1, L1, S2, L2, S3, L3)`. -/
structure MaskShape where
  S1 : ℕ
  L1 : ℕ
  S2 : ℕ
  L2 : ℕ
  S3 : ℕ
  L3 : ℕ

/-- A mask array (one entry per index tuple). -/
abbrev Mask := ℕ → ℕ → ℕ → ℕ → ℕ → ℕ → ℝ

/-- `mask.at[p1, l1, p2, l2, p3, l3, :].set(0)`, nn/modules.py:325. An index outside the shape changes no entry inside
the shape (JAX drops out-of-bounds updates). -/
def Mask.setZero (mask : Mask) (p1 l1 p2 l2 p3 l3 : ℕ) : Mask := fun a1 b1 a2 b2 a3 b3 =>
  if a1 = p1 ∧ b1 = l1 ∧ a2 = p2 ∧ b2 = l2 ∧ a3 = p3 ∧ b3 = l3 then 0 else mask a1 b1 a2 b2 a3 b3

/-- `_make_tensor_product_mask`, nn/modules.py:263-326. As in the code, the index combinations run one past the last
degree. -/
def makeTensorProductMask (s : MaskShape) : Mask :=
  (indexCombinations s.S1 s.L1).foldl (fun mask pld1 =>
    (indexCombinations s.S2 s.L2).foldl (fun mask pld2 =>
      (indexCombinations s.S3 s.L3).foldl (fun mask pld3 =>
        if (pld1.2.2 + pld2.2.2) % 2 ≠ pld3.2.2 then
          mask.setZero pld1.1 pld1.2.1 pld2.1 pld2.2.1 pld3.1 pld3.2.1
        else mask) mask) mask) (fun _ _ _ _ _ _ => 1)

/-- Attributes of `Tensor`, `FusedTensor` (nn/modules.py:410-411, 741-742). -/
structure TensorCfg where
  maxDegree : Option ℕ
  includePseudo : Bool

/-- Output maximum degree, nn/modules.py:447-451 and 778-782. -/
def outDegree (cfg : TensorCfg) (x y : Feat) : ℕ := cfg.maxDegree.getD (max x.L y.L)

/-- Whether the output has two parity channels, nn/modules.py:475-481 and 810-816. -/
def outPseudo (cfg : TensorCfg) (x y : Feat) : Bool :=
  if (chan x.pseudo = chan y.pseudo ∧ chan y.pseudo = 1) ∧ (x.L = 0 ∨ y.L = 0 ∨ outDegree cfg x y = 0) then false
  else cfg.includePseudo

/-- The kernel of `Tensor`: indices (S1, L1+1, S2, L2+1, S3, L3+1, F). -/
abbrev TensorKernel := ℕ → ℕ → ℕ → ℕ → ℕ → ℕ → ℕ → ℝ

/-- `mixed_coupling_paths`, nn/modules.py:510. -/
def mixedPaths (cfg : TensorCfg) (x y : Feat) : Prop :=
  ¬ (chan x.pseudo = chan y.pseudo ∧ chan y.pseudo = chan (outPseudo cfg x y) ∧ chan (outPseudo cfg x y) = 2)

instance (cfg : TensorCfg) (x y : Feat) : Decidable (mixedPaths cfg x y) := by unfold mixedPaths; infer_instance

/-- The kernel after masking (only for mixed coupling paths, nn/modules.py:522-535) and expansion (538-540). -/
def expandedKernel (cfg : TensorCfg) (kernel : TensorKernel) (x y : Feat) : TensorKernel :=
  let L3 := outDegree cfg x y
  let mask := makeTensorProductMask
    ⟨chan x.pseudo, x.L + 1, chan y.pseudo, y.L + 1, chan (outPseudo cfg x y), L3 + 1⟩
  let masked : TensorKernel := fun p l q m r n f =>
    if mixedPaths cfg x y then kernel p l q m r n f * mask p l q m r n else kernel p l q m r n f
  fun p l q m r n f => masked p (dup x.L l) q (dup y.L m) r (dup L3 n) f

/-- The einsum for mixed coupling paths, nn/modules.py:542-551. -/
def mixedEinsum (k : TensorKernel) (cg : ℕ → ℕ → ℕ → ℝ) (x y : Feat) (r n f : ℕ) : ℝ :=
  ∑ p ∈ range (chan x.pseudo), ∑ l ∈ range ((x.L + 1) ^ 2),
    ∑ q ∈ range (chan y.pseudo), ∑ m ∈ range ((y.L + 1) ^ 2),
      x.val p l f * y.val q m f * k p l q m r n f * cg l m n

/-- `_couple_slices`, nn/modules.py:554-566. -/
def coupleSlices (kernel : TensorKernel) (cg : ℕ → ℕ → ℕ → ℝ) (x y : Feat) (i j k n f : ℕ) : ℝ :=
  ∑ l ∈ range ((x.L + 1) ^ 2), ∑ m ∈ range ((y.L + 1) ^ 2),
    x.val i l f * y.val j m f * kernel i l j m k n f * cg l m n

/-- The sum of slices if everything contains pseudotensors, nn/modules.py:568-574. -/
def slicesEinsum (k : TensorKernel) (cg : ℕ → ℕ → ℕ → ℝ) (x y : Feat) (r n f : ℕ) : ℝ :=
  let eee := coupleSlices k cg x y 0 0 0
  let ooe := coupleSlices k cg x y 1 1 0
  let eoo := coupleSlices k cg x y 0 1 1
  let oeo := coupleSlices k cg x y 1 0 1
  if r = 0 then eee n f + ooe n f else eoo n f + oeo n f

/-- `Tensor.__call__`, nn/modules.py:419-574. -/
def tensor (cfg : TensorCfg) (kernel : TensorKernel) (cg : ℕ → ℕ → ℕ → ℝ) (x y : Feat) : Except Err Feat :=
  if x.L + y.L < outDegree cfg x y then .error .valueError
  else if x.F ≠ y.F then .error .valueError
  else
    let k := expandedKernel cfg kernel x y
    .ok { pseudo := outPseudo cfg x y, L := outDegree cfg x y, F := x.F,
          val := if mixedPaths cfg x y then mixedEinsum k cg x y else slicesEinsum k cg x y }

/-- Kernels of `FusedTensor`, indexed by degree and feature, nn/modules.py:873-918. -/
structure FusedKernels where
  e1 : ℕ → ℕ → ℝ
  o1 : ℕ → ℕ → ℝ
  e2 : ℕ → ℕ → ℝ
  o2 : ℕ → ℕ → ℝ
  eee : ℕ → ℕ → ℝ
  ooe : ℕ → ℕ → ℝ
  eoo : ℕ → ℕ → ℝ
  oeo : ℕ → ℕ → ℝ

/-- `even`/`odd` masks repeated for each order, nn/modules.py:835-843: 0/1 valued. -/
def fusedMask (M : ℕ) (odd : Bool) (i : ℕ) : ℝ :=
  ((List.range (M + 1)).flatMap fun d =>
    List.replicate (2 * d + 1) (if odd then d % 2 else (d + 1) % 2)).getD i 0

/-- The largest of the three maximum degrees, nn/modules.py:820. -/
def fusedM (cfg : TensorCfg) (x y : Feat) : ℕ := max (max x.L y.L) (outDegree cfg x y)

/-- `matrix_degree = math.ceil(max_max_degree / 2)`, nn/modules.py:823. -/
def matrixDegree (cfg : TensorCfg) (x y : Feat) : ℕ := (fusedM cfg x y + 1) / 2

/-- `_split_into_even_and_odd_components`, nn/modules.py:968-982 (`p = 0`: even, `p = 1`: odd). -/
def splitParity (M : ℕ) (z : Feat) (p : ℕ) : ℕ → ℕ → ℝ :=
  if z.pseudo then z.val p
  else if p = 0 then fun i f => z.val 0 i f * fusedMask M false i
  else fun i f => z.val 0 i f * fusedMask M true i

/-- The slice `cg[i:j, i:j, :]`, nn/modules.py:824-832. -/
def cgSlice (cg : ℕ → ℕ → ℕ → ℝ) (lam : ℕ) (a b n : ℕ) : ℝ := cg (lam ^ 2 + a) (lam ^ 2 + b) n

/-- `_to_matrix`, nn/modules.py:989-1002, with the repeated kernel (934-947). -/
def fusedToMatrix (cgs : ℕ → ℕ → ℕ → ℝ) (L : ℕ) (z kernel : ℕ → ℕ → ℝ) (a b f : ℕ) : ℝ :=
  ∑ n ∈ range ((L + 1) ^ 2), z n f * kernel (dup L n) f * cgs a b n

/-- `_couple`, nn/modules.py:1010-1025. -/
def fusedCouple (lam : ℕ) (z1 z2 : ℕ → ℕ → ℕ → ℝ) (a b f : ℕ) : ℝ :=
  ∑ c ∈ range (2 * lam + 1), z1 a c f * z2 c b f

/-- `_to_vector`, nn/modules.py:1033-1045, with the repeated kernel (948-966). -/
def fusedToVector (cgs : ℕ → ℕ → ℕ → ℝ) (lam L3 : ℕ) (z : ℕ → ℕ → ℕ → ℝ) (kernel : ℕ → ℕ → ℝ) (n f : ℕ) : ℝ :=
  ∑ a ∈ range (2 * lam + 1), ∑ b ∈ range (2 * lam + 1), z a b f * kernel (dup L3 n) f * cgs a b n

/-- The array computed by `FusedTensor.__call__`, nn/modules.py:985-1062. -/
def fusedVal (cfg : TensorCfg) (K : FusedKernels) (cg : ℕ → ℕ → ℕ → ℝ) (x y : Feat) : ℕ → ℕ → ℕ → ℝ :=
  let M := fusedM cfg x y
  let lam := matrixDegree cfg x y
  let cgs := cgSlice cg lam
  let e1 := fusedToMatrix cgs x.L (splitParity M x 0) K.e1
  let o1 := fusedToMatrix cgs x.L (splitParity M x 1) K.o1
  let e2 := fusedToMatrix cgs y.L (splitParity M y 0) K.e2
  let o2 := fusedToMatrix cgs y.L (splitParity M y 1) K.o2
  let eee := fusedToVector cgs lam (outDegree cfg x y) (fusedCouple lam e1 e2) K.eee
  let ooe := fusedToVector cgs lam (outDegree cfg x y) (fusedCouple lam o1 o2) K.ooe
  let eoo := fusedToVector cgs lam (outDegree cfg x y) (fusedCouple lam e1 o2) K.eoo
  let oeo := fusedToVector cgs lam (outDegree cfg x y) (fusedCouple lam o1 e2) K.oeo
  let e3 : ℕ → ℕ → ℝ := fun n f => eee n f + ooe n f
  let o3 : ℕ → ℕ → ℝ := fun n f => eoo n f + oeo n f
  if outPseudo cfg x y then fun r n f => if r = 0 then e3 n f else o3 n f
  else fun _ n f => e3 n f * fusedMask M false n + o3 n f * fusedMask M true n

/-- `FusedTensor.__call__`, nn/modules.py:750-1062. -/
def fusedTensor (cfg : TensorCfg) (K : FusedKernels) (cg : ℕ → ℕ → ℕ → ℝ) (x y : Feat) : Except Err Feat :=
  if x.L + y.L < outDegree cfg x y then .error .valueError
  else if x.F ≠ y.F then .error .valueError
  else .ok { pseudo := outPseudo cfg x y, L := outDegree cfg x y, F := x.F, val := fusedVal cfg K cg x y }

/-- Parameters of the tensor product layer created by `_create_tensor`, nn/modules.py:1065-1091. -/
inductive TensorParams where
  | tensor (kernel : TensorKernel)
  | fused (kernels : FusedKernels)

/-- `_create_tensor`, nn/modules.py:1065-1091, applied to two inputs. -/
def anyTensor (cfg : TensorCfg) (P : TensorParams) (cg : ℕ → ℕ → ℕ → ℝ) (x y : Feat) : Except Err Feat :=
  match P with
  | .tensor k => tensor cfg k cg x y
  | .fused k => fusedTensor cfg k cg x y

/-- `TensorDense.__call__`, nn/modules.py:1157-1209. `jnp.split` into two halves of the feature axis. -/
def tensorDense (features : Option ℕ) (useBias : Bool) (cfg : TensorCfg) (P : DenseParams) (T : TensorParams)
    (cg : ℕ → ℕ → ℕ → ℝ) (x : Feat) : Except Err Feat :=
  let feats := features.getD x.F
  let y := dense (2 * feats) useBias P x
  let x1 : Feat := { y with F := feats }
  let x2 : Feat := { y with F := feats, val := fun p i f => y.val p i (feats + f) }
  anyTensor cfg T cg x1 x2

end

end E3x
