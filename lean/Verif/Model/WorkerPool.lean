import Verif.Model.LookupTables

/-!
# Model of the generation of lookup tables with several processes, and of the command line programs

so3/_clebsch_gordan_lut.py, so3/_spherical_harmonics_lut.py, so3/_wigner_d_lut.py and so3/_tensor_conversion_lut.py with
`num_processes > 1`, and their `__main__` blocks.

`mp.Pool.map` and `mp.Pool.starmap` (part of the trusted base): the tasks are divided into chunks, the chunks are processed
by any worker and finish in any order, and the results of a chunk are put in its place. The call returns when all chunks have
finished.
-/

namespace E3x

/-- The number of tasks in a chunk: `len(tasks)` divided by four times the number of processes, rounded up. -/
def chunkSize (numTasks numProcesses : Nat) : Nat :=
  numTasks / (4 * numProcesses) + if numTasks % (4 * numProcesses) = 0 then 0 else 1

/-- The number of chunks. -/
def numChunks (numTasks numProcesses : Nat) : Nat :=
  (numTasks + chunkSize numTasks numProcesses - 1) / chunkSize numTasks numProcesses

/-- The state of the call after the chunks `finished` have finished, in this order. -/
def poolState {α β : Type} (f : α → β) (tasks : List α) (size : Nat) (finished : List Nat) : Nat → Option (List β) :=
  finished.foldl (fun s i => Function.update s i (some (((tasks.drop (i * size)).take size).map f))) fun _ => none

/-- `pool.map(f, tasks)`, `pool.starmap(f, tasks)`. `none`: the call does not return. -/
def poolMap {α β : Type} (f : α → β) (tasks : List α) (numProcesses : Nat) (finished : Nat → List Nat) :
    Option (List β) :=
  let n := numChunks tasks.length numProcesses
  let state := poolState f tasks (chunkSize tasks.length numProcesses) (finished n)
  ((List.range n).mapM state).map List.flatten

/-- How the generators evaluate a function for a list of tasks: with a pool if `num_processes > 1`, sequentially otherwise
(for example so3/_clebsch_gordan_lut.py:170-175). `finished n` is the order in which `n` chunks finish. -/
def computeAll {α β : Type} (numProcesses : Nat) (finished : Nat → List Nat) (f : α → β) (tasks : List α) :
    Option (List β) :=
  if numProcesses > 1 then poolMap f tasks numProcesses finished else some (tasks.map f)

/-- Indexing a Python list; a negative index counts from the end. -/
def pyGet {α : Type} (xs : List α) (i : ℤ) : Option α := if 0 ≤ i then xs[i.toNat]? else if 0 ≤ i + xs.length then xs[(i + xs.length).toNat]? else none

/-- so3/_clebsch_gordan_lut.py:154-181. -/
noncomputable def cgExtendPool (numProcesses : Nat) (finished : Nat → List Nat)
    (sym : Nat → ℤ → Nat → ℤ → Nat → ℤ → ℝ) (lstart L : Nat) (t : CGTable) : Option (Except Err CGTable) :=
  let tasks := cgDegreesAndOrders lstart L
  (computeAll numProcesses finished (fun x => sym x.1.1 x.1.2 x.2.1.1 x.2.1.2 x.2.2.1 x.2.2.2) tasks).map fun cgs =>
    .ok ⟨t.maxDegree, assign t.cg ((tasks.zip cgs).map fun p =>
      ((lmIndex p.1.1.1 p.1.1.2, lmIndex p.1.2.1.1 p.1.2.1.2, lmIndex p.1.2.2.1 p.1.2.2.2), p.2))⟩

/-- The list `degrees_and_orders`, so3/_spherical_harmonics_lut.py:180-184, so3/_wigner_d_lut.py:152-156. -/
def shDegreesAndOrders (lstart L : Nat) : List (Nat × ℤ) :=
  (List.range' lstart (L + 1 - lstart)).flatMap fun l => (orders l).map fun m => (l, m)

/-- so3/_spherical_harmonics_lut.py:171-200. -/
noncomputable def shExtendPool (numProcesses : Nat) (finished : Nat → List Nat) (sph : Nat → ℤ → Terms) (lstart L : Nat)
    (t : SHTable) : Option (Except Err SHTable) :=
  let rows := monomialRows monomialPowers lstart L (if 0 < lstart then totalCartMonomials (lstart - 1) else 0)
  let tasks := shDegreesAndOrders lstart L
  (computeAll numProcesses finished (fun x => sph x.1 x.2) tasks).map fun polynomials =>
    let columns := (tasks.zip polynomials).map fun p => (lmIndex p.1.1 p.1.2, p.2)
    match storeTerms (monomialMap rows) t.cm columns with
    | .error e => .error e
    | .ok cm => .ok ⟨t.maxDegree, cm, assign t.ls (rows.map fun p => (p.2, p.1))⟩

/-- `_construct_polynomial_pairs`, so3/_wigner_d_lut.py:158-168. `none`: `IndexError`. -/
def polynomialPairs {P Q : Type} (lstart L : Nat) (sphPolynomials : List P) (rotPolynomials : List Q) :
    Option (List (P × Q)) :=
  ((List.range' lstart (L + 1 - lstart)).flatMap fun l =>
    (orders l).flatMap fun mrot => (orders l).map fun msph => (l, mrot, msph)).mapM fun x =>
    let offset : ℤ := (x.1 : ℤ) ^ 2 + x.1 - (lstart : ℤ) ^ 2
    let irot := offset + x.2.1
    let isph := offset + x.2.2
    match pyGet sphPolynomials isph, pyGet rotPolynomials irot with
    | some p, some q => some (p, q)
    | _, _ => none

/-- so3/_wigner_d_lut.py:152-207; `sph` is `_spherical_harmonics`, `rotate` is `_rotate_xyz_polynomial`, and `dot` gives the
terms of `_polynomial_dot_product`. -/
noncomputable def wdExtendPool {P Q : Type} (numProcesses : Nat) (finished : Nat → List Nat) (sph : Nat → ℤ → P)
    (rotate : P → Q) (dot : P → Q → Terms) (lstart L : Nat) (t : WDTable) : Option (Except Err WDTable) :=
  match computeAll numProcesses finished (fun x => sph x.1 x.2) (shDegreesAndOrders lstart L) with
  | none => none
  | some sphPolynomials =>
    match computeAll numProcesses finished rotate sphPolynomials with
    | none => none
    | some rotPolynomials =>
      match polynomialPairs lstart L sphPolynomials rotPolynomials with
      | none => some (.error .indexError)
      | some pairs =>
        match computeAll numProcesses finished (fun x => dot x.1 x.2) pairs with
        | none => none
        | some entries =>
          let rows := monomialRows rotationPowers lstart L (if 0 < lstart then totalRotMonomials (lstart - 1) else 0)
          let offset := if 0 < lstart then totalWignerD (lstart - 1) else 0
          let columns := entries.zipIdx.map fun p => (p.2 + offset, p.1)
          match storeTerms (monomialMap rows) t.cm columns with
          | .error e => some (.error e)
          | .ok cm => some (.ok ⟨t.maxDegree, cm, assign t.ls (rows.map fun p => (p.2, p.1))⟩)

/-- so3/_tensor_conversion_lut.py:297-308. -/
def tcExtendPool {M : Type} (numProcesses : Nat) (finished : Nat → List Nat) (conv : Nat → M × M) (lstart L : Nat)
    (t : TCTable M) : Option (Except Err (TCTable M)) :=
  (computeAll numProcesses finished conv (List.range' lstart (L + 1 - lstart))).map fun new =>
    .ok (new.foldl (fun t p => ⟨t.maxDegree, t.s2t ++ [p.1], t.t2s ++ [p.2]⟩) t)

/-- The `__main__` blocks (for example so3/_clebsch_gordan_lut.py:193-223) with `--path`: a new process configures the cache
and generates the table. -/
def pregenerate {T C : Type} (kind : LutKind T C) (maxDegree : ℤ) (path : Nat) (outcome : SaveOutcome) (disk : Disk C) :
    Disk C × Except Err T :=
  generateLookupTable kind maxDegree outcome { disk with config := some path }

/-- The `__main__` blocks without `--path`: the configured cache is the file of the package itself. -/
def pregeneratePackage {T C : Type} (kind : LutKind T C) (maxDegree : ℤ) (outcome : SaveOutcome) (disk : Disk C) :
    Disk C × Except Err T :=
  let r := generateLookupTable kind maxDegree outcome ⟨disk.package, fun _ => disk.package, some 0⟩
  ({ disk with package := r.1.files 0 }, r.2)

end E3x
