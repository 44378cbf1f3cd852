import Verif.Model.WorkerPool
import Verif.Spec.LookupTables

/-!
# Specification of worker pools and pregenerated tables
-/

namespace E3x.Spec

/-- Every chunk of a call finishes at some time; the order is arbitrary, and a chunk may even be processed twice. -/
def AllFinish (finished : Nat → List Nat) : Prop := ∀ n, ∀ i < n, i ∈ finished n

/-- The same generator without the ability to compute anything that is not in a file. -/
def readOnly {T C : Type} (kind : LutKind T C) : LutKind T C := { kind with extend := fun _ _ _ => .error .runtimeError }

end E3x.Spec
