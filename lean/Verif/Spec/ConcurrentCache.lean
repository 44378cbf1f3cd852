import Verif.Model.ConcurrentCache
import Verif.Spec.LookupTables

/-!
# Specification of a shared cache
-/

namespace E3x.Spec

/-- What a request has returned, if it has finished. -/
def answer {T C : Type} (w : SharedCache T C) (i : Nat) : Option (Except Err T) :=
  match (w.requests i).phase with
  | .done r => some r
  | _ => none

/-- What a request should return. -/
def rightAnswer {T : Type} (table : Nat → T) (L : ℤ) : Except Err T :=
  if L < 0 then .error .valueError else .ok (table L.toNat)

/-- No request has started, and all files are valid. -/
def ValidStart {T C : Type} (kind : LutKind T C) (table : Nat → T) (w : SharedCache T C) : Prop :=
  ValidDisk kind table ⟨w.package, w.files, none⟩ ∧ ∀ i, (w.requests i).phase = .start

/-- The request is between opening the file `f` for writing and closing it. -/
def IsWriting {T C : Type} (w : SharedCache T C) (i f : Nat) : Prop :=
  (w.requests i).path = some f ∧ ∃ v t, (w.requests i).phase = .writing v t

/-- A schedule as it is enforced by a lock on each file, held for each reading and each writing (but not during the
computation): while a request writes a file, no other request with this file makes a step. -/
def Locked {T C : Type} (kind : LutKind T C) : List (Nat × StepChoice) → SharedCache T C → Prop
  | [], _ => True
  | s :: steps, w =>
    (∀ i f, i ≠ s.1 → IsWriting w i f → (w.requests s.1).path ≠ some f) ∧ Locked kind steps (w.advance kind s.1 s.2)

/-- The steps in which a request that runs alone meets a given outcome of saving. -/
def aloneChoice : SaveOutcome → StepChoice
  | .success => .good
  | .openFails => .openFails
  | .writeFails => .writeFails

/-- No file exists, and all requests use the cache file 0. -/
def emptyCache {T C : Type} (degrees : Nat → ℤ) : SharedCache T C :=
  ⟨.absent, fun _ => .absent, fun _ => 0, fun i => ⟨some 0, degrees i, .start⟩⟩

end E3x.Spec
