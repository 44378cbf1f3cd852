import Verif.Model.Irreps
import Mathlib.LinearAlgebra.Matrix.NonsingularInverse
import Mathlib.Data.Nat.Factorial.DoubleFactorial

/-!
# Model of the conversion between irreps and traceless symmetric tensors

so3/_tensor_conversion_lut.py (the symbolic computation of the matrices; the cache is modelled by `tcKind` in
Verif/Model/LookupTables.lean) and so3/irreps.py:325-554.

Symbolic expressions in `x, y, z` are elements of `MvPolynomial (Fin 3) ℝ` and sympy computes exactly. The components
of a tensor of degree `n` are indexed by lists of `n` elements of `Fin 3`.
-/

namespace E3x

noncomputable section

open MvPolynomial
open scoped Nat

/-! ## Library functions -/

/-- `itertools.combinations_with_replacement(xs, r)`: the first element `x` of a combination is an element of `xs`, the
others are a combination of `x` and the elements after it. -/
def combinationsWithReplacement {α : Type} : Nat → List α → List (List α)
  | 0, _ => [[]]
  | r + 1, xs => xs.tails.flatMap fun t => match t with
    | [] => []
    | x :: t => (combinationsWithReplacement r (x :: t)).map (x :: ·)

/-- `itertools.combinations(xs, r)` -/
def combinations {α : Type} : List α → Nat → List (List α)
  | _, 0 => [[]]
  | [], _ + 1 => []
  | x :: xs, r + 1 => (combinations xs r).map (x :: ·) ++ combinations xs (r + 1)

/-- `itertools.product(xs, repeat=n)` -/
def productRepeat {α : Type} (xs : List α) : Nat → List (List α)
  | 0 => [[]]
  | n + 1 => xs.flatMap fun x => (productRepeat xs n).map (x :: ·)

/-- The index tuples `itertools.combinations_with_replacement((0, 1, 2), r=n)` of the components that are stored. -/
def storedIndices (n : Nat) : List (List (Fin 3)) := combinationsWithReplacement n [0, 1, 2]

/-! ## so3/_tensor_conversion_lut.py -/

/-- The repeated outer product so3/_tensor_conversion_lut.py:77-81. -/
def outerPower (α : List (Fin 3)) : MvPolynomial (Fin 3) ℝ := α.foldl (fun a i => a * X i) 1

/-- The nested function `multi_dirac_delta` of `_traceless_tensor`, so3/_tensor_conversion_lut.py:83-105. It is only
called for lists with a positive even number of elements, so the assertion in line 99 is left out and `reduce` has no
empty list to fail on. -/
def multiDiracDelta (α : List (Fin 3)) : ℝ :=
  let counts := ([0, 1, 2].filter (· ∈ α)).map fun v => α.count v
  if counts.any (fun c => c % 2 = 1) then 0
  else (counts.map fun c => ((c - 1)‼ : ℝ)).prod

/-- `np.trace(t, axis1=-2, axis2=-1)`, so3/_tensor_conversion_lut.py:113. -/
def traceLastTwo (t : List (Fin 3) → MvPolynomial (Fin 3) ℝ) : List (Fin 3) → MvPolynomial (Fin 3) ℝ :=
  fun α => ∑ k : Fin 3, t (α ++ [k, k])

/-- `alphas[index_combination]` -/
def chosenAlphas (α : List (Fin 3)) (comb : List Nat) : List (Fin 3) := comb.map fun k => α.getD k 0

/-- `np.delete(alphas, index_combination)` -/
def leftoverAlphas (α : List (Fin 3)) (comb : List Nat) : List (Fin 3) :=
  ((List.range α.length).filter (· ∉ comb)).map fun k => α.getD k 0

/-- The innermost loop so3/_tensor_conversion_lut.py:131-136 for one tuple `alphas`, which changes one component. -/
def detraceComponent (n m : Nat) (ratio : ℝ) (trace : List (Fin 3) → MvPolynomial (Fin 3) ℝ)
    (b : List (Fin 3) → MvPolynomial (Fin 3) ℝ) (α : List (Fin 3)) : List (Fin 3) → MvPolynomial (Fin 3) ℝ :=
  Function.update b α ((combinations (List.range n) (2 * m)).foldl
    (fun acc comb => acc + C (multiDiracDelta (chosenAlphas α comb) * ratio) * trace (leftoverAlphas α comb)) (b α))

/-- One iteration of the loop so3/_tensor_conversion_lut.py:110-136; the state is the pair of `b` and `trace`. -/
def detraceStep (n : Nat) (s : (List (Fin 3) → MvPolynomial (Fin 3) ℝ) × (List (Fin 3) → MvPolynomial (Fin 3) ℝ))
    (m : Nat) : (List (Fin 3) → MvPolynomial (Fin 3) ℝ) × (List (Fin 3) → MvPolynomial (Fin 3) ℝ) :=
  let trace := traceLastTwo s.2
  let ratio : ℝ := (-1) ^ m * (((2 * n - 1 - 2 * m)‼ : ℝ) / ((2 * n - 1)‼ : ℝ))
  ((storedIndices n).foldl (detraceComponent n m ratio trace) s.1, trace)

/-- `_traceless_tensor`, so3/_tensor_conversion_lut.py:48-143. -/
def tracelessTensor (n : Nat) : List (MvPolynomial (Fin 3) ℝ) :=
  if n = 0 then [1]
  else if n = 1 then [X 0, X 1, X 2]
  else
    let b := ((List.range' 1 (n / 2)).foldl (detraceStep n) (outerPower, outerPower)).1
    (storedIndices n).map b

open Classical in
/-- `sympy.Matrix.LUsolve` (sympy 1.x): the solution of a linear system. It raises an error (a subclass of
`ValueError`) when the columns of the matrix are linearly dependent or when an overdetermined system has no solution. -/
def luSolve {r c : Nat} (A : Matrix (Fin r) (Fin c) ℝ) (b : Fin r → ℝ) : Except Err (Fin c → ℝ) :=
  if h : ∃! x, A.mulVec x = b then .ok h.choose else .error .valueError

open Classical in
/-- `A ** (-1)` for a `sympy.Matrix`; it raises an error (a subclass of `ValueError`) for a singular matrix. -/
def invert {n : Nat} (A : Matrix (Fin n) (Fin n) ℝ) : Except Err (Matrix (Fin n) (Fin n) ℝ) :=
  if A.det ≠ 0 then .ok A⁻¹ else .error .valueError

/-- The loop so3/_tensor_conversion_lut.py:194-195 over the columns `is`. -/
def solveColumns {r c : Nat} (A : Matrix (Fin r) (Fin c) ℝ) (B : Nat → Fin r → ℝ) :
    List Nat → Except Err (List (Fin c → ℝ))
  | [] => .ok []
  | i :: is =>
    match luSolve A (B i) with
    | .error e => .error e
    | .ok x =>
      match solveColumns A B is with
      | .error e => .error e
      | .ok xs => .ok (x :: xs)

/-- A matrix as an array, `0` outside of its extents. -/
def matrixArray {r c : Nat} (A : Matrix (Fin r) (Fin c) ℝ) : Nat → Nat → ℝ :=
  fun i j => if h : i < r ∧ j < c then A ⟨i, h.1⟩ ⟨j, h.2⟩ else 0

/-- `_tensor_conversion_matrices`, so3/_tensor_conversion_lut.py:146-200: the pair `(s2t, t2s)`. -/
def tensorConversionMatrices (l : Nat) : Except Err ((Nat → Nat → ℝ) × (Nat → Nat → ℝ)) :=
  let numCar := numCartMonomials l
  let numSph := numSphericalHarmonics l
  let map := monomialMap ((monomialPowers l).zipIdx)
  match storeTerms map (fun _ => 0) ((List.range numSph).map fun isph => (isph, sphTerms l ((isph : ℤ) - l))) with
  | .error e => .error e
  | .ok m2s =>
    match storeTerms map (fun _ => 0) ((tracelessTensor l).zipIdx.map fun p => (p.2, polyTerms p.1)) with
    | .error e => .error e
    | .ok m2t =>
      let A : Matrix (Fin numCar) (Fin numSph) ℝ := Matrix.of fun icar isph => m2s (icar, isph)
      match solveColumns A (fun i icar => m2t (icar, i)) (List.range numCar) with
      | .error e => .error e
      | .ok columns =>
        let s2t : Matrix (Fin numSph) (Fin numCar) ℝ := Matrix.of fun isph i => columns.getD i 0 isph
        match invert (s2t * s2t.transpose) with
        | .error e => .error e
        | .ok inverse => .ok (matrixArray s2t, matrixArray (s2t.transpose * inverse))

/-- `_tensor_conversion_matrices` as a function without errors, the argument of `tcKind`. That it never raises is
`C31_matrices` (Props/TensorConversion.lean). -/
def conversionMatrices (l : Nat) : (Nat → Nat → ℝ) × (Nat → Nat → ℝ) :=
  match tensorConversionMatrices l with
  | .ok p => p
  | .error _ => (fun _ _ => 0, fun _ _ => 0)

/-! ## so3/irreps.py -/

/-- An array of real numbers with any number of axes. -/
structure NdArray where
  shape : List Nat
  val : List Nat → ℝ

/-- `idx` is the index of an entry of an array with the given shape. -/
def InBounds (idx shape : List Nat) : Prop := List.Forall₂ (· < ·) idx shape

/-- `_check_tensor_shape`, so3/irreps.py:325-341. -/
def checkTensorShape (shape : List Nat) (degree : ℤ) : Except Err Unit :=
  if degree < 0 then .error .valueError
  else if shape.length = 0 then .error .valueError
  else if degree = 0 then
    if shape.getLast? ≠ some 1 then .error .valueError else .ok ()
  else
    if shape.drop (shape.length - degree.toNat) ≠ List.replicate degree.toNat 3 then .error .valueError else .ok ()

/-- `jnp.allclose(a, b, rtol, atol)` for arrays of the same shape. -/
def AllClose (shape : List Nat) (a b : List Nat → ℝ) (rtol atol : ℝ) : Prop :=
  ∀ idx, InBounds idx shape → |a idx - b idx| ≤ atol + rtol * |b idx|

/-- `jnp.transpose(x, axes)`: the axis `k` of the result is the axis `axes[k]` of `x`. -/
def transposeAxes (x : NdArray) (axes : List Nat) : NdArray :=
  ⟨axes.map fun a => x.shape.getD a 0,
    fun idx => x.val ((List.range x.shape.length).map fun a => idx.getD (axes.idxOf a) 0)⟩

/-- `jnp.trace(x, axis1=-2, axis2=-1)` -/
def traceLastAxes (x : NdArray) : NdArray :=
  ⟨x.shape.dropLast.dropLast,
    fun idx => ∑ k ∈ Finset.range (min (x.shape.getD (x.shape.length - 2) 0) (x.shape.getD (x.shape.length - 1) 0)),
      x.val (idx ++ [k, k])⟩

open Classical in
/-- `is_traceless_symmetric`, so3/irreps.py:344-380. -/
def isTracelessSymmetric (x : NdArray) (degree : ℤ) (rtol atol : ℝ) : Except Err Bool :=
  if degree < 0 then .error .valueError
  else
    match checkTensorShape x.shape degree with
    | .error e => .error e
    | .ok _ =>
      if degree < 2 then .ok true
      else
        let ndim := x.shape.length
        let batchDims := List.range (ndim - degree.toNat)
        let permutations := (List.range' (ndim - degree.toNat) degree.toNat).permutations
        if permutations.all fun p => AllClose x.shape x.val (transposeAxes x (batchDims ++ p)).val rtol atol then
          .ok (decide (AllClose (traceLastAxes x).shape (traceLastAxes x).val (fun _ => 0) rtol atol))
        else .ok false

/-- `x[(..., *_tensor_compression_indices(degree))]`, so3/irreps.py:383-420, 466. For degree `0` there are no indices
and the array is not changed. -/
def compressTensor (x : NdArray) (degree : Nat) : NdArray :=
  if degree = 0 then x
  else
    ⟨x.shape.take (x.shape.length - degree) ++ [(storedIndices degree).length],
      fun idx => x.val (idx.dropLast ++ ((storedIndices degree).getD (idx.getLast?.getD 0) []).map Fin.val)⟩

/-- `jnp.matmul(x, a)` for a matrix `a` with `n` rows and `m` columns. -/
def matmulLast (x : NdArray) (n m : Nat) (a : Nat → Nat → ℝ) : NdArray :=
  ⟨x.shape.dropLast ++ [m],
    fun idx => ∑ c ∈ Finset.range n, x.val (idx.dropLast ++ [c]) * a c (idx.getLast?.getD 0)⟩

/-- `tensor_to_irreps`, so3/irreps.py:423-466. -/
def tensorToIrreps (disk : Disk (TCCompressed (Nat → Nat → ℝ))) (outcome : SaveOutcome) (x : NdArray) (degree : ℤ)
    (cartesianOrder : Bool) (normalization : String) : Except Err NdArray :=
  if degree < 0 then .error .valueError
  else
    match checkTensorShape x.shape degree with
    | .error e => .error e
    | .ok _ =>
      let l := degree.toNat
      match (generateLookupTable (tcKind conversionMatrices) degree outcome disk).2 with
      | .error e => .error e
      | .ok table =>
        match table.t2s[l]? with
        | none => .error .indexError
        | some t2s =>
          match normalizationConstant normalization l with
          | .error e => .error e
          | .ok c =>
            let t2s := fun i m => t2s i m * c
            let t2s := if cartesianOrder then fun i m => t2s i ((cartPermDeg l).getD m 0) else t2s
            .ok (matmulLast (compressTensor x l) (numCartMonomials l) (numSphericalHarmonics l) t2s)

/-- `flat_index_map`, so3/irreps.py:492-496. -/
def flatIndexMap (degree : Nat) : List (Fin 3) → Option Nat :=
  assign (fun _ => none) ((productRepeat [0, 1, 2] degree).zipIdx.map fun p => (p.1, some p.2))

/-- `_tensor_expansion_indices`, so3/irreps.py:469-506 (`jnp.empty` is filled with zeros; `distinct_permutations` is
modelled as the list of distinct permutations, its order is abstracted). -/
def tensorExpansionIndices (degree : Nat) : Nat → Nat :=
  assign (fun _ => 0) ((storedIndices degree).zipIdx.flatMap fun p =>
    p.1.permutations.dedup.map fun q => ((flatIndexMap degree q).getD 0, p.2))

/-- Position of a multi-index in the flattened array, for `reshape`. -/
def flatPosition (α : List Nat) : Nat := α.foldl (fun acc k => 3 * acc + k) 0

/-- `y[..., _tensor_expansion_indices(degree)]` followed by the reshape, so3/irreps.py:551-554. -/
def expandTensor (y : NdArray) (degree : Nat) : NdArray :=
  if degree = 0 then ⟨y.shape.dropLast ++ [1], fun idx => y.val (idx.dropLast ++ [tensorExpansionIndices 0
    (idx.getLast?.getD 0)])⟩
  else ⟨y.shape.dropLast ++ List.replicate degree 3,
    fun idx => y.val (idx.take (idx.length - degree) ++
      [tensorExpansionIndices degree (flatPosition (idx.drop (idx.length - degree)))])⟩

/-- `irreps_to_tensor`, so3/irreps.py:509-554. -/
def irrepsToTensor (disk : Disk (TCCompressed (Nat → Nat → ℝ))) (outcome : SaveOutcome) (x : NdArray) (degree : ℤ)
    (cartesianOrder : Bool) (normalization : String) : Except Err NdArray :=
  if degree < 0 then .error .valueError
  else
    match x.shape.getLast? with
    | none => .error .indexError
    | some n =>
      if (n : ℤ) ≠ 2 * degree + 1 then .error .valueError
      else
        let l := degree.toNat
        match (generateLookupTable (tcKind conversionMatrices) degree outcome disk).2 with
        | .error e => .error e
        | .ok table =>
          match table.s2t[l]? with
          | none => .error .indexError
          | some s2t =>
            match normalizationConstant normalization l with
            | .error e => .error e
            | .ok c =>
              let s2t := fun m i => s2t m i / c
              let s2t := if cartesianOrder then fun m i => s2t ((cartPermDeg l).getD m 0) i else s2t
              .ok (expandTensor (matmulLast x (numSphericalHarmonics l) (numCartMonomials l) s2t) l)

end

end E3x
