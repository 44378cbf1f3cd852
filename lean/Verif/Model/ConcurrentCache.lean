import Verif.Model.LookupTables

/-!
# Model of several programs that share the disk cache of a lookup table

so3/_lookup_table_generation_utility.py and the generators that use it (see Model/LookupTables.lean), for requests made at
the same time by processes or threads with access to the same files. The code uses no locks. Every request is divided into
steps: read (lines 58-75), compute the missing entries and open the file for writing (line 156, which truncates the file),
write and close it (line 157). A schedule is any sequence of steps of any requests. A process that is killed is a request
that makes no further steps.

`config_cache_path.exists()` and reading the file are one step: a file never vanishes here, so that a file that is found and
read later is a file that is found and read at that later time. Reading is one step; a read during a write is a read of an
incomplete file. Simplification: if an archive is overwritten while it is written, the result is a complete archive or a file
that cannot be read, never an archive that can be read and has wrong content (zip archives contain checksums).
-/

namespace E3x

/-- Where a request stands: not started; the file has been read, but degrees are missing; the file has been opened for
writing (with its version at this moment); finished. -/
inductive RequestPhase (T : Type) where
  | start
  | loaded (cachedMaxDegree : ℤ) (table : T)
  | writing (version : Nat) (table : T)
  | done (result : Except Err T)

/-- A request: `Config.*_cache` of its process, the requested degree. -/
structure CacheRequest (T : Type) where
  path : Option Nat
  maxDegree : ℤ
  phase : RequestPhase T

/-- The files, and all requests. The version of a file counts how often it has been opened for writing or closed. -/
structure SharedCache (T C : Type) where
  package : CacheFile C
  files : Nat → CacheFile C
  version : Nat → Nat
  requests : Nat → CacheRequest T

/-- What the operating system does in a step: nothing unusual; `open` fails; writing fails; what other processes wrote in
the meantime destroys the file. -/
inductive StepChoice where
  | good
  | openFails
  | writeFails
  | torn
  deriving DecidableEq

/-- The check of the degree, reading, and the return if nothing is missing (for example so3/_clebsch_gordan_lut.py:125-146). -/
def readStep {T C : Type} (kind : LutKind T C) (w : SharedCache T C) (r : CacheRequest T) : RequestPhase T :=
  if r.maxDegree < 0 then .done (.error .valueError)
  else
    match loadLookupTableFromDisk ⟨w.package, w.files, r.path⟩ (kind.load r.maxDegree.toNat)
      (kind.empty r.maxDegree.toNat) with
    | .error e => .done (.error e)
    | .ok (cachedMaxDegree, table) =>
      if r.maxDegree ≤ cachedMaxDegree then .done (.ok table) else .loaded cachedMaxDegree table

/-- The state after request `i` has reached a phase. -/
def SharedCache.setPhase {T C : Type} (w : SharedCache T C) (i : Nat) (ph : RequestPhase T) : SharedCache T C :=
  { w with requests := Function.update w.requests i { w.requests i with phase := ph } }

/-- A file is opened or closed. -/
def SharedCache.setFile {T C : Type} (w : SharedCache T C) (f : Nat) (file : CacheFile C) : SharedCache T C :=
  { w with files := Function.update w.files f file, version := Function.update w.version f (w.version f + 1) }

/-- One step of request `i`. Saving is so3/_lookup_table_generation_utility.py:139-163; if other requests opened or closed
the file since it was opened, the file may be destroyed (`torn`). -/
def SharedCache.advance {T C : Type} (kind : LutKind T C) (w : SharedCache T C) (i : Nat) (choice : StepChoice) :
    SharedCache T C :=
  let r := w.requests i
  match r.phase with
  | .start => w.setPhase i (readStep kind w r)
  | .loaded cachedMaxDegree table =>
    match kind.extend (cachedMaxDegree + 1).toNat r.maxDegree.toNat table with
    | .error e => w.setPhase i (.done (.error e))
    | .ok table =>
      match r.path with
      | none => w.setPhase i (.done (.ok table))
      | some f =>
        if choice = .openFails then w.setPhase i (.done (.ok table))
        else (w.setFile f .corrupt).setPhase i (.writing (w.version f + 1) table)
  | .writing version table =>
    match r.path with
    | none => w.setPhase i (.done (.ok table))
    | some f =>
      let damaged := choice = .writeFails ∨ (version ≠ w.version f ∧ choice = .torn)
      (w.setFile f (if damaged then .corrupt else .valid (kind.compress table))).setPhase i (.done (.ok table))
  | .done _ => w

/-- A schedule: who makes the next step, and what happens in it. -/
def runSchedule {T C : Type} (kind : LutKind T C) (steps : List (Nat × StepChoice)) (w : SharedCache T C) :
    SharedCache T C :=
  steps.foldl (fun w s => w.advance kind s.1 s.2) w

end E3x
