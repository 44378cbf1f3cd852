import Verif.Model.Symbolic
import Verif.Model.Config
import Verif.Model.Safe
import Mathlib.Analysis.SpecialFunctions.Trigonometric.Basic

/-!
# Model of spherical harmonics, Clebsch-Gordan coefficients and Wigner-D matrices

so3/_normalization.py, so3/irreps.py and `wigner_d` of so3/rotations.py. Lookup tables come from the modelled
generators (`generateLookupTable`), so each function takes the state of the cache files and the outcome of a possible
save; only the returned value is modelled here (the effect on the files is that of `generateLookupTable`). The
arguments of the symbolic computations are those of Verif/Model/Symbolic.lean. Default values of keyword arguments are
modelled in Verif/Model/Config.lean; here all arguments are explicit.

An array is a function of its indices, `0` outside its extents. Gathers with indices outside of the array clamp them
(JAX). `jnp.asarray` (rounding to the default float type) is the identity on real numbers.
-/

namespace E3x

noncomputable section

open Finset (range)

/-- `normalization_constant`, so3/_normalization.py:35-44. -/
def normalizationConstant (normalization : String) (degree : Nat) : Except Err ℝ :=
  match checkNormalizationIsValid normalization with
  | .error e => .error e
  | .ok _ =>
    if normalization = "4pi" then .ok (Real.sqrt (2 * degree + 1))
    else if normalization = "orthonormal" then .ok (Real.sqrt ((2 * degree + 1) / (4 * Real.pi)))
    else .ok 1

/-- `cm.at[:, start:stop].multiply(c)` -/
def multiplyColumns (cm : Nat × Nat → ℝ) (start stop : Nat) (c : ℝ) : Nat × Nat → ℝ :=
  fun (i, j) => if start ≤ j ∧ j < stop then cm (i, j) * c else cm (i, j)

/-- The loop so3/irreps.py:146-149 over the degrees `ls`. -/
def applyNormalization (normalization : String) : List Nat → (Nat × Nat → ℝ) → Except Err (Nat × Nat → ℝ)
  | [], cm => .ok cm
  | l :: ls, cm =>
    match normalizationConstant normalization l with
    | .error e => .error e
    | .ok c => applyNormalization normalization ls (multiplyColumns cm (l ^ 2) ((l + 1) ^ 2) c)

/-- `cm[:, perm]` -/
def gatherColumns (perm : List Nat) (cm : Nat × Nat → ℝ) : Nat × Nat → ℝ :=
  fun (i, j) => match perm[j]? with
    | some k => cm (i, k)
    | none => 0

/-- `_integer_powers(x, max_degree)[p]`; an index outside of the array is clamped. -/
def gatherPower (x : ℝ) (L p : Nat) : ℝ := (integerPowers x L).getD (min p L) 0

/-- The coordinate `k` of a vector with `n` entries. -/
def coordinate {n : Nat} (r : Fin n → ℝ) (k : Nat) : ℝ := if h : k < n then r ⟨k, h⟩ else 0

/-- The monomials so3/irreps.py:162-167; `p` is a row of `ls`. -/
def cartesianMonomial {n : Nat} (L : Nat) (r : Fin n → ℝ) (p : List Nat) : ℝ :=
  gatherPower (coordinate r 0) L (p.getD 0 0) * gatherPower (coordinate r 1) L (p.getD 1 0) *
    gatherPower (coordinate r 2) L (p.getD 2 0)

/-- `spherical_harmonics`, so3/irreps.py:41-170. The batch axes of `r` are `ι`, its last axis has `n` entries; `tiny`
is the constant of `ops.normalize`. -/
def sphericalHarmonics (tiny : ℝ) (disk : Disk SHCompressed) (outcome : SaveOutcome) {ι : Type} [Fintype ι] {n : Nat}
    (r : ι → Fin n → ℝ) (maxDegree : ℤ) (rIsNormalized cartesianOrder : Bool) (normalization : String) :
    Except Err (ι → Nat → ℝ) :=
  if n ≠ 3 then .error .valueError
  else if maxDegree < 0 then .error .valueError
  else
    let L := maxDegree.toNat
    match (generateLookupTable (shKind sphTerms) maxDegree outcome disk).2 with
    | .error e => .error e
    | .ok table =>
      match applyNormalization normalization (List.range (L + 1)) table.cm with
      | .error e => .error e
      | .ok cm =>
        let cm := if cartesianOrder then gatherColumns (cartPerm L) cm else cm
        match (if rIsNormalized then .ok r else normalize tiny r) with
        | .error e => .error e
        | .ok r => .ok fun b j =>
            ∑ i ∈ range (totalCartMonomials L), cartesianMonomial L (r b) (table.ls i) * cm (i, j)

/-- `solid_harmonics`, so3/irreps.py:173-217. -/
def solidHarmonics (tiny : ℝ) (disk : Disk SHCompressed) (outcome : SaveOutcome) {ι : Type} [Fintype ι] {n : Nat}
    (r : ι → Fin n → ℝ) (maxDegree : ℤ) (cartesianOrder : Bool) : Except Err (ι → Nat → ℝ) :=
  sphericalHarmonics tiny disk outcome r maxDegree true cartesianOrder "racah"

/-- `a[s1:t1, s2:t2, s3:t3]` -/
def sliceCube (s1 t1 s2 t2 s3 t3 : Nat) (a : Nat × Nat × Nat → ℝ) : Nat → Nat → Nat → ℝ :=
  fun i j k => if s1 + i < t1 ∧ s2 + j < t2 ∧ s3 + k < t3 then a (s1 + i, s2 + j, s3 + k) else 0

/-- `cg[p1, :, :][:, p2, :][:, :, p3]` -/
def gatherCube (p1 p2 p3 : List Nat) (cg : Nat → Nat → Nat → ℝ) : Nat → Nat → Nat → ℝ :=
  fun i j k => match p1[i]?, p2[j]?, p3[k]? with
    | some i, some j, some k => cg i j k
    | _, _, _ => 0

/-- `clebsch_gordan`, so3/irreps.py:220-270. -/
def clebschGordan (disk : Disk CGCompressed) (outcome : SaveOutcome) (maxDegree1 maxDegree2 maxDegree3 : ℤ)
    (cartesianOrder : Bool) : Except Err (Nat → Nat → Nat → ℝ) :=
  if maxDegree1 < 0 then .error .valueError
  else if maxDegree2 < 0 then .error .valueError
  else if maxDegree3 < 0 then .error .valueError
  else
    let maxDegree := max (max maxDegree1 maxDegree2) maxDegree3
    match (generateLookupTable (cgKind symClebschGordan) maxDegree outcome disk).2 with
    | .error e => .error e
    | .ok table =>
      let cg := sliceCube 0 ((maxDegree1.toNat + 1) ^ 2) 0 ((maxDegree2.toNat + 1) ^ 2) 0 ((maxDegree3.toNat + 1) ^ 2)
        table.cg
      .ok (if cartesianOrder then
        gatherCube (cartPerm maxDegree1.toNat) (cartPerm maxDegree2.toNat) (cartPerm maxDegree3.toNat) cg
      else cg)

/-- `clebsch_gordan_for_degrees`, so3/irreps.py:273-322. -/
def clebschGordanForDegrees (disk : Disk CGCompressed) (outcome : SaveOutcome) (degree1 degree2 degree3 : ℤ)
    (cartesianOrder : Bool) : Except Err (Nat → Nat → Nat → ℝ) :=
  if degree1 < 0 then .error .valueError
  else if degree2 < 0 then .error .valueError
  else if degree3 < 0 then .error .valueError
  else
    let maxDegree := max (max degree1 degree2) degree3
    match (generateLookupTable (cgKind symClebschGordan) maxDegree outcome disk).2 with
    | .error e => .error e
    | .ok table =>
      let cg := sliceCube (degree1.toNat ^ 2) ((degree1.toNat + 1) ^ 2) (degree2.toNat ^ 2) ((degree2.toNat + 1) ^ 2)
        (degree3.toNat ^ 2) ((degree3.toNat + 1) ^ 2) table.cg
      .ok (if cartesianOrder then
        gatherCube (cartPermDeg degree1.toNat) (cartPermDeg degree2.toNat) (cartPermDeg degree3.toNat) cg
      else cg)

/-- The monomials so3/rotations.py:427-438 of the nine entries of the matrix in row-major order
(`rot.reshape(…, 1, -1)`). -/
def rotationMonomial {n m : Nat} (L : Nat) (rot : Fin n → Fin m → ℝ) (p : List Nat) : ℝ :=
  let entry := fun k : Nat => if h : k / 3 < n then coordinate (rot ⟨k / 3, h⟩) (k % 3) else 0
  ∏ k : Fin 9, gatherPower (entry k) L (p.getD k 0)

/-- The loop so3/rotations.py:447-455 over the degrees `ls`: `dmat.at[i:j, i:j].set(entries[a:b].reshape(num, num))`. -/
def assembleBlocks (entries : Nat → ℝ) : List Nat → (Nat → Nat → ℝ) → Nat → Nat → ℝ
  | [], dmat => dmat
  | l :: ls, dmat =>
    let i := l ^ 2
    let j := (l + 1) ^ 2
    let b := ((l + 1) * (2 * l + 1) * (2 * l + 3)) / 3
    let a := b - (2 * l + 1) ^ 2
    let num := 2 * l + 1
    assembleBlocks entries ls fun p q =>
      if (i ≤ p ∧ p < j) ∧ (i ≤ q ∧ q < j) then entries (a + ((p - i) * num + (q - i))) else dmat p q

/-- `wigner_d`, so3/rotations.py:373-456, for one matrix (the batch axes are only carried along). -/
def wignerD (disk : Disk WDCompressed) (outcome : SaveOutcome) {n m : Nat} (rot : Fin n → Fin m → ℝ) (maxDegree : ℤ)
    (cartesianOrder : Bool) : Except Err (Nat → Nat → ℝ) :=
  if ¬ (n = 3 ∧ m = 3) then .error .valueError
  else
    match (generateLookupTable (wdKind wigTerms) maxDegree outcome disk).2 with
    | .error e => .error e
    | .ok table =>
      let L := maxDegree.toNat
      let cm := if cartesianOrder then gatherColumns (cartPermWignerD L) table.cm else table.cm
      let entries := fun w => ∑ i ∈ range (totalRotMonomials L), rotationMonomial L rot (table.ls i) * cm (i, w)
      .ok (assembleBlocks entries (List.range (L + 1)) fun _ _ => 0)

end

end E3x
