import Verif.Model.Common
import Mathlib.Data.Real.Basic
import Mathlib.Data.List.ProdSigma
import Mathlib.Logic.Function.Basic

/-!
# Model of the lookup-table generators

so3/_lookup_table_generation_utility.py, so3/_clebsch_gordan_lut.py, so3/_spherical_harmonics_lut.py,
so3/_wigner_d_lut.py and so3/_tensor_conversion_lut.py.

Conventions. A table is a function of its indices, `0` (or `[]`) outside the extents of the array. The numbers are
real numbers (the code rounds the exact sympy values to float64 once; saving and loading float64 values is exact).
The results of the symbolic computations (`_clebsch_gordan`, `_spherical_harmonics`, …) are arguments here; they are
modelled in `Verif/Model/Symbolic.lean`. Logging is not modelled. `num_processes` only selects between `map` and
`pool.starmap`, which return the same list.
-/

namespace E3x

/-! ## Shared by all generators -/

/-- What is found at a path: nothing, an archive written completely, or a file that is not a complete archive
(an interrupted write, a damaged download). -/
inductive CacheFile (C : Type) where
  | absent
  | valid (content : C)
  | corrupt

/-- The state a generator reads and writes: the file shipped with the package, the file system (paths are numbers),
and the path stored in the `Config` class for this kind of table (config.py:46-49 and 82-127; `none` initially). -/
structure Disk (C : Type) where
  package : CacheFile C
  files : Nat → CacheFile C
  config : Option Nat

/-- The exceptions caught at so3/_lookup_table_generation_utility.py:65. -/
def caughtOnLoad : Err → Bool
  | .badZipFile => true
  | .osError => true
  | .keyError => true
  | .valueError => true
  | _ => false

/-- The branch at so3/_lookup_table_generation_utility.py:61-75: the file shipped with the package; failures are
caught and give an empty table. -/
def loadPackage {T C : Type} (package : CacheFile C) (load : C → Except Err (ℤ × T)) (empty : T) :
    Except Err (ℤ × T) :=
  match package with
  | .valid c =>
    match load c with
    | .ok r => .ok r
    | .error e => if caughtOnLoad e then .ok (-1, empty) else .error e
  | .corrupt => .ok (-1, empty)
  | .absent => .ok (-1, empty)

/-- `_load_lookup_table_from_disk`, so3/_lookup_table_generation_utility.py:26-75. The configured file is read without
any exception handling (lines 58-60). -/
def loadLookupTableFromDisk {T C : Type} (disk : Disk C) (load : C → Except Err (ℤ × T)) (empty : T) :
    Except Err (ℤ × T) :=
  match disk.config with
  | none => loadPackage disk.package load empty
  | some path =>
    match disk.files path with
    | .absent => loadPackage disk.package load empty
    | .valid c => load c
    | .corrupt => .error .badZipFile

/-- What the operating system does with a save: it completes; `open` fails (the file is untouched); writing fails
after `open(…, 'wb')` has truncated the file. -/
inductive SaveOutcome where
  | success
  | openFails
  | writeFails
  deriving DecidableEq

/-- `_save_lookup_table_to_disk`, so3/_lookup_table_generation_utility.py:139-163. Both kinds of `OSError` are caught. -/
def saveLookupTableToDisk {C : Type} (disk : Disk C) (outcome : SaveOutcome) (content : C) : Disk C :=
  match disk.config with
  | none => disk
  | some path =>
    match outcome with
    | .success => { disk with files := Function.update disk.files path (.valid content) }
    | .openFails => disk
    | .writeFails => { disk with files := Function.update disk.files path .corrupt }

/-- The parts in which the four generators differ. `extend lstart L t` computes the entries of the degrees
`lstart … L` that are missing from the partially filled table `t`. -/
structure LutKind (T C : Type) where
  empty : Nat → T
  load : Nat → C → Except Err (ℤ × T)
  extend : Nat → Nat → T → Except Err T
  compress : T → C
  degree : C → ℤ

/-- The common control flow of `_generate_clebsch_gordan_lookup_table` (so3/_clebsch_gordan_lut.py:75-190),
`_generate_spherical_harmonics_lookup_table` (so3/_spherical_harmonics_lut.py:85-209),
`_generate_wigner_d_lookup_table` (so3/_wigner_d_lut.py:66-216) and `_generate_tensor_conversion_lookup_table`
(so3/_tensor_conversion_lut.py:235-317): check the degree, load, return if everything is there, otherwise compute the
missing degrees, save, return. -/
def generateLookupTable {T C : Type} (kind : LutKind T C) (maxDegree : ℤ) (outcome : SaveOutcome) (disk : Disk C) :
    Disk C × Except Err T :=
  if maxDegree < 0 then (disk, .error .valueError)
  else
    match loadLookupTableFromDisk disk (kind.load maxDegree.toNat) (kind.empty maxDegree.toNat) with
    | .error e => (disk, .error e)
    | .ok (cachedMaxDegree, table) =>
      if maxDegree ≤ cachedMaxDegree then (disk, .ok table)
      else
        match kind.extend (cachedMaxDegree + 1).toNat maxDegree.toNat table with
        | .error e => (disk, .error e)
        | .ok table => (saveLookupTableToDisk disk outcome (kind.compress table), .ok table)

/-- What programs do with one kind of lookup table: request it; request it and be killed during that request;
configure another cache path (`Config.set_*_cache`); remove a file. For a killed process the outcome says how far the
save came: the file is untouched, truncated and not completed, or complete. -/
inductive LutOp where
  | request (maxDegree : ℤ) (outcome : SaveOutcome)
  | crash (maxDegree : ℤ) (progress : SaveOutcome)
  | setCache (path : Option Nat)
  | remove (path : Nat)

/-- One step; only requests produce a result. After a crash a new process starts with the initial configuration
(config.py:46-49). -/
def LutOp.step {T C : Type} (kind : LutKind T C) (op : LutOp) (disk : Disk C) : Disk C × Option (Except Err T) :=
  match op with
  | .request maxDegree outcome =>
    let r := generateLookupTable kind maxDegree outcome disk
    (r.1, some r.2)
  | .crash maxDegree progress =>
    ({ (generateLookupTable kind maxDegree progress disk).1 with config := none }, none)
  | .setCache path => ({ disk with config := path }, none)
  | .remove path => ({ disk with files := Function.update disk.files path .absent }, none)

/-- A history: the final state and the results of its steps. -/
def runLut {T C : Type} (kind : LutKind T C) : List LutOp → Disk C → Disk C × List (Option (Except Err T))
  | [], disk => (disk, [])
  | op :: ops, disk =>
    let r := op.step kind disk
    let rest := runLut kind ops r.1
    (rest.1, r.2 :: rest.2)

/-- Repeated item assignment `a[i] = v` (numpy scatter with duplicate indices: the last one wins; also `dict` item
assignment). -/
def assign {ι α : Type} [DecidableEq ι] (t : ι → α) (xs : List (ι × α)) : ι → α :=
  xs.foldl (fun t p => Function.update t p.1 p.2) t

/-- Integers `-l … l`: `range(-l, l + 1)`. -/
def orders (l : Nat) : List ℤ := (List.range (2 * l + 1)).map fun k : Nat => (k : ℤ) - l

/-- The flat index `l * l + l + m`. -/
def lmIndex (l : Nat) (m : ℤ) : Nat := (((l * l + l : Nat) : ℤ) + m).toNat

/-! ## Clebsch-Gordan coefficients -/

/-- `ClebschGordanLookupTable`, so3/_clebsch_gordan_lut.py:43-53. -/
structure CGTable where
  maxDegree : ℤ
  cg : Nat × Nat × Nat → ℝ

/-- `_CompressedLookupTable`, so3/_clebsch_gordan_lut.py:56-72 (`i0`, `i1`, `i2` and `cg` zipped). -/
structure CGCompressed where
  maxDegree : ℤ
  entries : List ((Nat × Nat × Nat) × ℝ)

/-- `_init_empty_lookup_table`, so3/_clebsch_gordan_lut.py:82-88. -/
def cgEmpty (L : Nat) : CGTable := ⟨L, fun _ => 0⟩

/-- `a[:n, :n, :n]` -/
def slice3 (n : Nat) (t : Nat × Nat × Nat → ℝ) : Nat × Nat × Nat → ℝ :=
  fun p => if p.1 < n ∧ p.2.1 < n ∧ p.2.2 < n then t p else 0

/-- `_load_from_cache`, so3/_clebsch_gordan_lut.py:90-112. Scattering outside the extents raises `IndexError`. -/
noncomputable def cgLoad (L : Nat) (c : CGCompressed) : Except Err (ℤ × CGTable) :=
  if c.maxDegree < 0 then .ok (-1, cgEmpty L)
  else
    let n := totalSphericalHarmonics c.maxDegree.toNat
    if c.entries.all (fun e => e.1.1 < n && e.1.2.1 < n && e.1.2.2 < n) then
      let cg := assign (fun _ => 0) c.entries
      if (L : ℤ) ≤ c.maxDegree then
        .ok (c.maxDegree, ⟨L, slice3 (totalSphericalHarmonics L) cg⟩)
      else
        .ok (c.maxDegree, ⟨L, fun p => if p.1 < n ∧ p.2.1 < n ∧ p.2.2 < n then cg p else (cgEmpty L).cg p⟩)
    else .error .indexError

/-- `_compress`, so3/_clebsch_gordan_lut.py:114-125: `np.nonzero` lists the indices in row-major order. -/
noncomputable def cgCompress (t : CGTable) : CGCompressed :=
  let n := totalSphericalHarmonics t.maxDegree.toNat
  let r := List.range n
  ⟨t.maxDegree, ((r ×ˢ r ×ˢ r).filter (fun p => t.cg p ≠ 0)).map fun p => (p, t.cg p)⟩

/-- The list `degrees_and_orders`, so3/_clebsch_gordan_lut.py:154-168. -/
def cgDegreesAndOrders (lstart L : Nat) : List ((Nat × ℤ) × (Nat × ℤ) × (Nat × ℤ)) :=
  (List.range (L + 1)).flatMap fun l1 =>
  (List.range (L + 1)).flatMap fun l2 =>
  (List.range' (max l1 l2 - min l1 l2) (min (l1 + l2) L + 1 - (max l1 l2 - min l1 l2))).flatMap fun l3 =>
  if l1 < lstart ∧ l2 < lstart ∧ l3 < lstart then [] else
  (orders l1).flatMap fun m1 =>
  (orders l2).flatMap fun m2 =>
  ([m1 + m2, m1 - m2, m2 - m1, -m1 - m2].filter fun m3 => ¬ (l3 : ℤ) < |m3|).map fun m3 =>
  ((l1, m1), (l2, m2), (l3, m3))

/-- so3/_clebsch_gordan_lut.py:154-181; `sym` is `_clebsch_gordan`. -/
noncomputable def cgExtend (sym : Nat → ℤ → Nat → ℤ → Nat → ℤ → ℝ) (lstart L : Nat) (t : CGTable) :
    Except Err CGTable :=
  .ok ⟨t.maxDegree, assign t.cg ((cgDegreesAndOrders lstart L).map fun x =>
    ((lmIndex x.1.1 x.1.2, lmIndex x.2.1.1 x.2.1.2, lmIndex x.2.2.1 x.2.2.2),
      sym x.1.1 x.1.2 x.2.1.1 x.2.1.2 x.2.2.1 x.2.2.2))⟩

/-- The Clebsch-Gordan generator, so3/_clebsch_gordan_lut.py:75-190. -/
noncomputable def cgKind (sym : Nat → ℤ → Nat → ℤ → Nat → ℤ → ℝ) : LutKind CGTable CGCompressed :=
  ⟨cgEmpty, cgLoad, cgExtend sym, cgCompress, CGCompressed.maxDegree⟩

/-! ## Spherical harmonics -/

/-- `SphericalHarmonicsLookupTable`, so3/_spherical_harmonics_lut.py:46-62. -/
structure SHTable where
  maxDegree : ℤ
  cm : Nat × Nat → ℝ
  ls : Nat → List Nat

/-- `_CompressedLookupTable`, so3/_spherical_harmonics_lut.py:65-82. -/
structure SHCompressed where
  maxDegree : ℤ
  ls : Nat → List Nat
  entries : List ((Nat × Nat) × ℝ)

/-- `_init_empty_lookup_table`, so3/_spherical_harmonics_lut.py:92-102. -/
def shEmpty (L : Nat) : SHTable :=
  ⟨L, fun _ => 0, fun i => if i < totalCartMonomials L then [0, 0, 0] else []⟩

/-- `a[:n, :k]` -/
def slice2 (n k : Nat) (t : Nat × Nat → ℝ) : Nat × Nat → ℝ :=
  fun p => if p.1 < n ∧ p.2 < k then t p else 0

/-- `_load_from_cache`, so3/_spherical_harmonics_lut.py:104-129. -/
noncomputable def shLoad (L : Nat) (c : SHCompressed) : Except Err (ℤ × SHTable) :=
  if c.maxDegree < 0 then .ok (-1, shEmpty L)
  else
    let ncar := totalCartMonomials c.maxDegree.toNat
    let nsph := totalSphericalHarmonics c.maxDegree.toNat
    if c.entries.all (fun e => e.1.1 < ncar && e.1.2 < nsph) then
      let cm := assign (fun _ => 0) c.entries
      if (L : ℤ) ≤ c.maxDegree then
        .ok (c.maxDegree, ⟨L, slice2 (totalCartMonomials L) (totalSphericalHarmonics L) cm,
          fun i => if i < totalCartMonomials L then c.ls i else []⟩)
      else
        .ok (c.maxDegree, ⟨L, fun p => if p.1 < ncar ∧ p.2 < nsph then cm p else (shEmpty L).cm p,
          fun i => if i < ncar then c.ls i else (shEmpty L).ls i⟩)
    else .error .indexError

/-- `_compress`, so3/_spherical_harmonics_lut.py:131-142. -/
noncomputable def shCompress (t : SHTable) : SHCompressed :=
  let ncar := totalCartMonomials t.maxDegree.toNat
  let nsph := totalSphericalHarmonics t.maxDegree.toNat
  ⟨t.maxDegree, t.ls,
    ((List.range ncar ×ˢ List.range nsph).filter (fun p => t.cm p ≠ 0)).map fun p => (p, t.cm p)⟩

/-- Dictionary from the powers to their row, starting at row `idx`: the loops at
so3/_spherical_harmonics_lut.py:171-178 and so3/_wigner_d_lut.py:187-196. -/
def monomialRows (powers : Nat → List (List Nat)) (lstart L idx : Nat) : List (List Nat × Nat) :=
  ((List.range' lstart (L + 1 - lstart)).flatMap powers).zipIdx idx

/-- The dictionary `monomial_map`. -/
def monomialMap (rows : List (List Nat × Nat)) : List Nat → Option Nat :=
  assign (fun _ => none) (rows.map fun p => (p.1, some p.2))

/-- A polynomial as the list `polynomial.terms()` of pairs of powers and coefficient. -/
abbrev Terms := List (List Nat × ℝ)

/-- The assignments `cm[monomial_map[monomial], column] = coefficient` for a list of columns with their polynomials:
so3/_spherical_harmonics_lut.py:195-200, so3/_wigner_d_lut.py:203-207. A monomial missing from the dictionary raises
`KeyError`. -/
noncomputable def storeTerms (map : List Nat → Option Nat) (cm : Nat × Nat → ℝ) (columns : List (Nat × Terms)) :
    Except Err (Nat × Nat → ℝ) :=
  let entries := columns.flatMap fun col => col.2.map fun term => (map term.1, col.1, term.2)
  if entries.all (fun e => e.1.isSome) then
    .ok (assign cm (entries.map fun e => ((e.1.getD 0, e.2.1), e.2.2)))
  else .error .keyError

/-- so3/_spherical_harmonics_lut.py:171-200; `sph l m` is `_spherical_harmonics(l, m).terms()`. -/
noncomputable def shExtend (sph : Nat → ℤ → Terms) (lstart L : Nat) (t : SHTable) : Except Err SHTable :=
  let rows := monomialRows monomialPowers lstart L (if 0 < lstart then totalCartMonomials (lstart - 1) else 0)
  let columns := (List.range' lstart (L + 1 - lstart)).flatMap fun l =>
    (orders l).map fun m => (lmIndex l m, sph l m)
  match storeTerms (monomialMap rows) t.cm columns with
  | .error e => .error e
  | .ok cm => .ok ⟨t.maxDegree, cm, assign t.ls (rows.map fun p => (p.2, p.1))⟩

/-- The spherical-harmonics generator, so3/_spherical_harmonics_lut.py:85-209. -/
noncomputable def shKind (sph : Nat → ℤ → Terms) : LutKind SHTable SHCompressed :=
  ⟨shEmpty, shLoad, shExtend sph, shCompress, SHCompressed.maxDegree⟩

/-! ## Wigner-D matrices -/

/-- `WignerDLookupTable`, so3/_wigner_d_lut.py:50-63. -/
structure WDTable where
  maxDegree : ℤ
  cm : Nat × Nat → ℝ
  ls : Nat → List Nat

/-- The entries `cm{l}`, `i0{l}`, `i1{l}` (zipped) and `ls{l}` of the archive. -/
structure WDBlock where
  entries : List ((Nat × Nat) × ℝ)
  ls : List (List Nat)

/-- The archive written by `_compress`, so3/_wigner_d_lut.py:107-123: one block per degree (the keys of degree `l`
exist iff `l < blocks.length`). -/
structure WDCompressed where
  maxDegree : ℤ
  blocks : List WDBlock

/-- `_init_empty_lookup_table`, so3/_wigner_d_lut.py:73-83. -/
def wdEmpty (L : Nat) : WDTable :=
  ⟨L, fun _ => 0, fun i => if i < totalRotMonomials L then List.replicate 9 0 else []⟩

/-- The running offset `irot`: the sum of the sizes of the previous blocks. -/
def rotOffset (l : Nat) : Nat := ((List.range l).map numRotMonomials).sum

/-- The running offset `iwig`: the sum of the sizes of the previous blocks. -/
def wigOffset (l : Nat) : Nat := ((List.range l).map numWignerD).sum

/-- `a[i : i + n, j : j + k] = b` -/
def setBlock (t : Nat × Nat → ℝ) (i n j k : Nat) (b : Nat × Nat → ℝ) : Nat × Nat → ℝ :=
  fun p => if (i ≤ p.1 ∧ p.1 < i + n) ∧ (j ≤ p.2 ∧ p.2 < j + k) then b (p.1 - i, p.2 - j) else t p

/-- `a[i : i + n] = rows` for an array of rows -/
def setRows (t : Nat → List Nat) (i n : Nat) (rows : List (List Nat)) : Nat → List Nat :=
  fun p => if i ≤ p ∧ p < i + n then rows.getD (p - i) [] else t p

/-- The block of degree `l` can be read: scattering is within the extents (else `IndexError`) and `ls{l}` has the
right number of rows (else `ValueError`). -/
def wdBlockCheck (l : Nat) (b : WDBlock) : Option Err :=
  if ¬ b.entries.all (fun e => e.1.1 < numRotMonomials l && e.1.2 < numWignerD l) then some .indexError
  else if b.ls.length ≠ numRotMonomials l then some .valueError
  else none

/-- One iteration of the loop at so3/_wigner_d_lut.py:96-104. -/
noncomputable def wdLoadStep (blocks : List WDBlock) (t : WDTable) (l : Nat) : Except Err WDTable :=
  match blocks[l]? with
  | none => .error .keyError
  | some b =>
    match wdBlockCheck l b with
    | some e => .error e
    | none => .ok ⟨t.maxDegree,
        setBlock t.cm (rotOffset l) (numRotMonomials l) (wigOffset l) (numWignerD l) (assign (fun _ => 0) b.entries),
        setRows t.ls (rotOffset l) (numRotMonomials l) b.ls⟩

/-- `_load_from_cache`, so3/_wigner_d_lut.py:85-105. -/
noncomputable def wdLoad (L : Nat) (c : WDCompressed) : Except Err (ℤ × WDTable) :=
  if c.maxDegree < 0 then .ok (-1, wdEmpty L)
  else
    match (List.range (min c.maxDegree.toNat L + 1)).foldlM (wdLoadStep c.blocks) (wdEmpty L) with
    | .error e => .error e
    | .ok t => .ok (c.maxDegree, t)

/-- `_compress`, so3/_wigner_d_lut.py:107-123. -/
noncomputable def wdCompress (t : WDTable) : WDCompressed :=
  ⟨t.maxDegree, (List.range (t.maxDegree + 1).toNat).map fun l =>
    let cm := fun p : Nat × Nat => t.cm (rotOffset l + p.1, wigOffset l + p.2)
    ⟨((List.range (numRotMonomials l) ×ˢ List.range (numWignerD l)).filter (fun p => cm p ≠ 0)).map
        fun p => (p, cm p),
      (List.range (numRotMonomials l)).map fun i => t.ls (rotOffset l + i)⟩⟩

/-- The list `wigner_d_entries`: so3/_wigner_d_lut.py:152-183; `wig l mrot msph` is the list of terms of
`_polynomial_dot_product(Y_{l,msph}, _rotate_xyz_polynomial(Y_{l,mrot}))`. -/
noncomputable def wdEntries (wig : Nat → ℤ → ℤ → Terms) (lstart L : Nat) : List Terms :=
  (List.range' lstart (L + 1 - lstart)).flatMap fun l =>
    (orders l).flatMap fun mrot => (orders l).map fun msph => wig l mrot msph

/-- so3/_wigner_d_lut.py:185-207. -/
noncomputable def wdExtend (wig : Nat → ℤ → ℤ → Terms) (lstart L : Nat) (t : WDTable) : Except Err WDTable :=
  let rows := monomialRows rotationPowers lstart L (if 0 < lstart then totalRotMonomials (lstart - 1) else 0)
  let offset := if 0 < lstart then totalWignerD (lstart - 1) else 0
  let columns := (wdEntries wig lstart L).zipIdx.map fun p => (p.2 + offset, p.1)
  match storeTerms (monomialMap rows) t.cm columns with
  | .error e => .error e
  | .ok cm => .ok ⟨t.maxDegree, cm, assign t.ls (rows.map fun p => (p.2, p.1))⟩

/-- The Wigner-D generator, so3/_wigner_d_lut.py:66-216. -/
noncomputable def wdKind (wig : Nat → ℤ → ℤ → Terms) : LutKind WDTable WDCompressed :=
  ⟨wdEmpty, wdLoad, wdExtend wig, wdCompress, WDCompressed.maxDegree⟩

/-! ## Tensor conversion -/

/-- `TensorConversionLookupTable`, so3/_tensor_conversion_lut.py:203-232: lists with one matrix per degree. -/
structure TCTable (M : Type) where
  maxDegree : ℤ
  s2t : List M
  t2s : List M

/-- The archive written from `_unpack_lists`, so3/_tensor_conversion_lut.py:260-268. -/
structure TCCompressed (M : Type) where
  maxDegree : ℤ
  s2t : Nat → Option M
  t2s : Nat → Option M

/-- `_init_empty_lookup_table`, so3/_tensor_conversion_lut.py:242-244. -/
def tcEmpty {M : Type} (L : Nat) : TCTable M := ⟨L, [], []⟩

/-- One iteration of the loop at so3/_tensor_conversion_lut.py:255-257. -/
def tcLoadStep {M : Type} (c : TCCompressed M) (t : TCTable M) (l : Nat) : Except Err (TCTable M) :=
  match c.s2t l, c.t2s l with
  | some a, some b => .ok ⟨t.maxDegree, t.s2t ++ [a], t.t2s ++ [b]⟩
  | _, _ => .error .keyError

/-- `_load_from_cache`, so3/_tensor_conversion_lut.py:246-258. -/
def tcLoad {M : Type} (L : Nat) (c : TCCompressed M) : Except Err (ℤ × TCTable M) :=
  if c.maxDegree < 0 then .ok (-1, tcEmpty L)
  else
    match (List.range (min L c.maxDegree.toNat + 1)).foldlM (tcLoadStep c) (tcEmpty L) with
    | .error e => .error e
    | .ok t => .ok (c.maxDegree, t)

/-- `_unpack_lists`, so3/_tensor_conversion_lut.py:260-268 (the lists of a complete table have `max_degree + 1`
elements). -/
def tcCompress {M : Type} (t : TCTable M) : TCCompressed M :=
  ⟨t.maxDegree, fun l => if (l : ℤ) < t.maxDegree + 1 then t.s2t[l]? else none,
    fun l => if (l : ℤ) < t.maxDegree + 1 then t.t2s[l]? else none⟩

/-- so3/_tensor_conversion_lut.py:297-308; `conv` is `_tensor_conversion_matrices`. -/
def tcExtend {M : Type} (conv : Nat → M × M) (lstart L : Nat) (t : TCTable M) : Except Err (TCTable M) :=
  let new := (List.range' lstart (L + 1 - lstart)).map conv
  .ok ⟨t.maxDegree, t.s2t ++ new.map (·.1), t.t2s ++ new.map (·.2)⟩

/-- The tensor-conversion generator, so3/_tensor_conversion_lut.py:235-317. -/
def tcKind {M : Type} (conv : Nat → M × M) : LutKind (TCTable M) (TCCompressed M) :=
  ⟨tcEmpty, tcLoad, tcExtend conv, tcCompress, TCCompressed.maxDegree⟩

end E3x
