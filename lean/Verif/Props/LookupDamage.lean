import Verif.Props.LookupTables

/-!
# C33: unreadable package files
-/

namespace E3x

open Spec

/-- **C33 (unreadable package file).** Suppose no cache file is configured, or the configured file does not exist, and reading the
file shipped with the package raises an exception.  If the exception is one of `BadZipFile`, `OSError`, `KeyError` and `ValueError`,
the request still returns the table of the requested degree; every other exception reaches the caller. -/
theorem C33_damaged_package {T C : Type} {kind : LutKind T C} {table : Nat → T} (hg : Generator kind table) (disk : Disk C)
    (hc : disk.config = none ∨ ∃ path, disk.config = some path ∧ disk.files path = .absent) (L : ℕ) (content : C)
    (hp : disk.package = .valid content) (e : Err) (he : kind.load L content = .error e) (outcome : SaveOutcome) :
    (generateLookupTable kind L outcome disk).2 =
      if e ∈ [Err.badZipFile, Err.osError, Err.keyError, Err.valueError] then .ok (table L) else .error e := by
  have hload : loadLookupTableFromDisk disk (kind.load L) (kind.empty L) = loadPackage disk.package (kind.load L) (kind.empty L) := by
    unfold loadLookupTableFromDisk
    rcases hc with h | ⟨path, h, h'⟩
    · rw [h]
    · rw [h]
      simp only [h']
  have h1 : loadLookupTableFromDisk disk (kind.load L) (kind.empty L) =
      if e ∈ [Err.badZipFile, Err.osError, Err.keyError, Err.valueError] then .ok (-1, kind.empty L) else .error e := by
    rw [hload, hp]
    unfold loadPackage
    simp only [he]
    cases e <;> simp [caughtOnLoad]
  split_ifs at h1 ⊢ with hm
  · have h2 : (generateLookupTable kind L outcome (noFiles C)).2 = .ok (table L) :=
      (generate_spec (Generator.correct hg) (noFiles_valid _ _) L outcome).1
    have h3 : loadLookupTableFromDisk (noFiles C) (kind.load L) (kind.empty L) = .ok (-1, kind.empty L) := rfl
    rw [← h2]
    unfold generateLookupTable
    simp only [Int.toNat_natCast, h1, h3]
    split_ifs
    · rfl
    · rfl
    · split <;> rfl
  · unfold generateLookupTable
    simp only [Int.toNat_natCast, h1]
    rw [if_neg (by omega)]

/-- a file in which the matrices of degree 1 are missing is ignored -/
example (conv : Nat → ℕ × ℕ) : (generateLookupTable (tcKind conv) (1 : ℕ) .success
    ⟨.valid ⟨1, fun l => if l = 0 then some 0 else none, fun _ => some 0⟩, fun _ => .absent, none⟩).2 = .ok (tcTable conv 1) := by
  rw [C33_damaged_package (.tensorConversion conv) _ (.inl rfl) 1 _ rfl .keyError rfl]
  rfl

end E3x
