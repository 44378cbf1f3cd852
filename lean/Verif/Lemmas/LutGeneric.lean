import Verif.Spec.LookupTables

/-!
# The control flow shared by the lookup-table generators
-/

namespace E3x

open Spec

/-- What the four parts of a generator have to satisfy. -/
structure LutCorrect {T C : Type} (kind : LutKind T C) (table : Nat → T) : Prop where
  scratch : ∀ L, kind.extend 0 L (kind.empty L) = .ok (table L)
  negative : ∀ c L, kind.degree c < 0 → kind.load L c = .ok (-1, kind.empty L)
  degree_compress : ∀ n, kind.degree (kind.compress (table n)) = n
  roundtrip : ∀ n : Nat, kind.load n (kind.compress (table n)) = .ok ((n : ℤ), table n)
  smaller : ∀ c (n L : Nat), kind.degree c = n → kind.load n c = .ok ((n : ℤ), table n) → L ≤ n →
    kind.load L c = .ok ((n : ℤ), table L)
  larger : ∀ c (n L : Nat), kind.degree c = n → kind.load n c = .ok ((n : ℤ), table n) → n < L →
    ∃ t, kind.load L c = .ok ((n : ℤ), t) ∧ kind.extend (n + 1) L t = .ok (table L)

variable {T C : Type} {kind : LutKind T C} {table : Nat → T}

/-- A load is *good* for degree `L` if it is complete or can be completed. -/
def GoodLoad (kind : LutKind T C) (table : Nat → T) (L : Nat) (r : ℤ × T) : Prop :=
  -1 ≤ r.1 ∧ (((L : ℤ) ≤ r.1 ∧ r.2 = table L) ∨
    (r.1 < L ∧ kind.extend (r.1 + 1).toNat L r.2 = .ok (table L)))

theorem goodLoad_content (hk : LutCorrect kind table) {c : C} (hc : ValidContent kind table c) (L : Nat) :
    ∃ r, kind.load L c = .ok r ∧ GoodLoad kind table L r ∧ r.1 = max (-1) (kind.degree c) := by
  rcases hc with hc | ⟨n, hn, hc⟩
  · refine ⟨_, hk.negative c L hc, ⟨by simp, Or.inr ⟨by simp; omega, ?_⟩⟩, by simp; omega⟩
    exact hk.scratch L
  · rcases Nat.lt_or_ge n L with h | h
    · obtain ⟨t, ht, he⟩ := hk.larger c n L hn hc h
      refine ⟨_, ht, ⟨by simp, Or.inr ⟨by simpa using h, ?_⟩⟩, by simp [hn]⟩
      simpa using he
    · exact ⟨_, hk.smaller c n L hn hc h, ⟨by simp, Or.inl ⟨by simpa using h, rfl⟩⟩, by simp [hn]⟩

theorem goodLoad_empty (hk : LutCorrect kind table) (L : Nat) : GoodLoad kind table L (-1, kind.empty L) :=
  ⟨by simp, Or.inr ⟨by simp; omega, hk.scratch L⟩⟩

/-- Loading from a valid state succeeds; if the configured file exists, the degree is the one stored there. -/
theorem goodLoad_disk (hk : LutCorrect kind table) {disk : Disk C} (hd : ValidDisk kind table disk) (L : Nat) :
    ∃ r, loadLookupTableFromDisk disk (kind.load L) (kind.empty L) = .ok r ∧ GoodLoad kind table L r ∧
      ∀ p, disk.config = some p → storedDegree kind (disk.files p) ≤ r.1 := by
  have hpkg : ∃ r, loadPackage disk.package (kind.load L) (kind.empty L) = .ok r ∧ GoodLoad kind table L r := by
    cases h : disk.package with
    | absent => exact ⟨_, rfl, goodLoad_empty hk L⟩
    | corrupt => exact ⟨_, rfl, goodLoad_empty hk L⟩
    | valid c =>
      obtain ⟨r, hr, hg, _⟩ := goodLoad_content hk (hd.1 c h) L
      exact ⟨r, by simp [loadPackage, hr], hg⟩
  unfold loadLookupTableFromDisk
  cases hc : disk.config with
  | none =>
    obtain ⟨r, hr, hg⟩ := hpkg
    exact ⟨r, hr, hg, by simp⟩
  | some p =>
    have hp := hd.2 p
    cases hf : disk.files p with
    | absent =>
      obtain ⟨r, hr, hg⟩ := hpkg
      refine ⟨r, by simpa [hf] using hr, hg, ?_⟩
      intro q hq
      cases hq
      rw [hf]
      exact hg.1
    | corrupt => rw [hf] at hp; exact hp.elim
    | valid c =>
      rw [hf] at hp
      obtain ⟨r, hr, hg, hdeg⟩ := goodLoad_content hk hp L
      refine ⟨r, by simpa [hf] using hr, hg, ?_⟩
      intro q hq
      cases hq
      rw [hf, hdeg]
      exact le_refl _

/-- A request returns the right table, whatever happens to the save. The state afterwards is the old one, or the old
one after saving the new table, whose degree is higher than the one stored before. -/
theorem generate_spec (hk : LutCorrect kind table) {disk : Disk C} (hd : ValidDisk kind table disk) (L : Nat)
    (outcome : SaveOutcome) :
    (generateLookupTable kind L outcome disk).2 = .ok (table L) ∧
      ((generateLookupTable kind L outcome disk).1 = disk ∨
        (generateLookupTable kind L outcome disk).1 =
          saveLookupTableToDisk disk outcome (kind.compress (table L)) ∧
        ∀ p, disk.config = some p → storedDegree kind (disk.files p) < L) := by
  obtain ⟨r, hr, ⟨h1, h2⟩, h3⟩ := goodLoad_disk hk hd L
  unfold generateLookupTable
  rw [if_neg (by omega)]
  simp only [Int.toNat_natCast, hr]
  rcases h2 with ⟨h2, ht⟩ | ⟨h2, ht⟩
  · rw [if_pos h2]
    exact ⟨by rw [ht], Or.inl rfl⟩
  · rw [if_neg (by omega), ht]
    exact ⟨rfl, Or.inr ⟨rfl, fun p hp => lt_of_le_of_lt (h3 p hp) h2⟩⟩

theorem validContent_compress (hk : LutCorrect kind table) (L : Nat) :
    ValidContent kind table (kind.compress (table L)) :=
  Or.inr ⟨L, hk.degree_compress L, hk.roundtrip L⟩

theorem validDisk_update {disk : Disk C} (hd : ValidDisk kind table disk) (p : Nat) (f : CacheFile C)
    (hf : ValidFile kind table f) : ValidDisk kind table { disk with files := Function.update disk.files p f } := by
  refine ⟨hd.1, fun q => ?_⟩
  by_cases h : q = p
  · subst h; simpa using hf
  · simpa [Function.update_of_ne h] using hd.2 q

theorem validDisk_save (hk : LutCorrect kind table) {disk : Disk C} (hd : ValidDisk kind table disk) (L : Nat)
    (outcome : SaveOutcome) (ho : outcome ≠ .writeFails) :
    ValidDisk kind table (saveLookupTableToDisk disk outcome (kind.compress (table L))) := by
  unfold saveLookupTableToDisk
  cases disk.config with
  | none => exact hd
  | some p =>
    cases outcome with
    | success => exact validDisk_update hd p _ (validContent_compress hk L)
    | openFails => exact hd
    | writeFails => exact absurd rfl ho

/-- a request for a negative degree -/
theorem generate_negative (kind : LutKind T C) (L : ℤ) (h : L < 0) (outcome : SaveOutcome) (disk : Disk C) :
    generateLookupTable kind L outcome disk = (disk, .error .valueError) := by
  unfold generateLookupTable
  rw [if_pos h]

theorem generate_valid (hk : LutCorrect kind table) {disk : Disk C} (hd : ValidDisk kind table disk) (L : ℤ)
    (outcome : SaveOutcome) (ho : outcome ≠ .writeFails) :
    ValidDisk kind table (generateLookupTable kind L outcome disk).1 := by
  rcases lt_or_ge L 0 with h | h
  · rw [generate_negative _ _ h]; exact hd
  · lift L to Nat using h
    rcases (generate_spec hk hd L outcome).2 with h | ⟨h, _⟩
    · rw [h]; exact hd
    · rw [h]; exact validDisk_save hk hd L outcome ho

theorem generate_result (hk : LutCorrect kind table) {disk : Disk C} (hd : ValidDisk kind table disk) (L : ℤ)
    (outcome : SaveOutcome) :
    (generateLookupTable kind L outcome disk).2 = if L < 0 then .error .valueError else .ok (table L.toNat) := by
  split
  · rw [generate_negative _ _ (by assumption)]
  · lift L to Nat using (by omega)
    simpa using (generate_spec hk hd L outcome).1

theorem step_valid (hk : LutCorrect kind table) {disk : Disk C} (hd : ValidDisk kind table disk) (op : LutOp)
    (hop : Clean op) : ValidDisk kind table (op.step kind disk).1 := by
  cases op with
  | request L o => exact generate_valid hk hd L o hop
  | crash L o => exact generate_valid hk hd L o hop
  | setCache p => exact hd
  | remove p => exact validDisk_update hd p _ trivial

theorem step_result (hk : LutCorrect kind table) {disk : Disk C} (hd : ValidDisk kind table disk) (op : LutOp) :
    (op.step kind disk).2 = expected table op := by
  cases op with
  | request L o =>
    show some _ = some _
    rw [generate_result hk hd]
  | crash L o => rfl
  | setCache p => rfl
  | remove p => rfl

/-- the package file is never written -/
theorem generate_package (kind : LutKind T C) (L : ℤ) (o : SaveOutcome) (disk : Disk C) :
    (generateLookupTable kind L o disk).1.package = disk.package ∧
      (generateLookupTable kind L o disk).1.config = disk.config := by
  unfold generateLookupTable
  split
  · exact ⟨rfl, rfl⟩
  · split
    · exact ⟨rfl, rfl⟩
    · split
      · exact ⟨rfl, rfl⟩
      · split
        · exact ⟨rfl, rfl⟩
        · unfold saveLookupTableToDisk
          cases hcfg : disk.config with
          | none => exact ⟨rfl, hcfg⟩
          | some p => cases o <;> simp [hcfg]

theorem generate_degree (hk : LutCorrect kind table) {disk : Disk C} (hd : ValidDisk kind table disk) (L : ℤ)
    (outcome : SaveOutcome) (ho : outcome ≠ .writeFails) (p : Nat) :
    storedDegree kind (disk.files p) ≤ storedDegree kind ((generateLookupTable kind L outcome disk).1.files p) := by
  rcases lt_or_ge L 0 with h | h
  · rw [generate_negative _ _ h]
  · lift L to Nat using h
    rcases (generate_spec hk hd L outcome).2 with h | ⟨h, hlt⟩
    · rw [h]
    · rw [h]
      unfold saveLookupTableToDisk
      cases hcfg : disk.config with
      | none => exact le_refl _
      | some q =>
        cases outcome with
        | openFails => exact le_refl _
        | writeFails => exact absurd rfl ho
        | success =>
          by_cases hpq : p = q
          · subst hpq
            simp only [Function.update_self]
            have h1 := hlt p hcfg
            have h2 : storedDegree kind (.valid (kind.compress (table L))) = L := by
              show max (-1) (kind.degree _) = (L : ℤ)
              rw [hk.degree_compress L]
              omega
            rw [h2]
            omega
          · simp [Function.update_of_ne hpq]

theorem step_degree (hk : LutCorrect kind table) {disk : Disk C} (hd : ValidDisk kind table disk) (op : LutOp)
    (hop : Clean op) (p : Nat) (hp : op ≠ .remove p) :
    storedDegree kind (disk.files p) ≤ storedDegree kind ((op.step kind disk).1.files p) := by
  cases op with
  | request L o => exact generate_degree hk hd L o hop p
  | crash L o => exact generate_degree hk hd L o hop p
  | setCache q => exact le_refl _
  | remove q =>
    have : p ≠ q := fun h => hp (by rw [h])
    show _ ≤ storedDegree kind (Function.update disk.files q .absent p)
    rw [Function.update_of_ne this]

theorem run_results (hk : LutCorrect kind table) (ops : List LutOp) {disk : Disk C} (hd : ValidDisk kind table disk)
    (hops : ∀ op ∈ ops, Clean op) : (runLut kind ops disk).2 = ops.map (expected table) := by
  induction ops generalizing disk with
  | nil => rfl
  | cons op ops ih =>
    show (op.step kind disk).2 :: _ = _
    rw [step_result hk hd, List.map_cons]
    congr 1
    exact ih (step_valid hk hd op (hops op (by simp))) (fun o ho => hops o (by simp [ho]))

theorem run_valid (hk : LutCorrect kind table) (ops : List LutOp) {disk : Disk C} (hd : ValidDisk kind table disk)
    (hops : ∀ op ∈ ops, Clean op) : ValidDisk kind table (runLut kind ops disk).1 := by
  induction ops generalizing disk with
  | nil => exact hd
  | cons op ops ih =>
    exact ih (step_valid hk hd op (hops op (by simp))) (fun o ho => hops o (by simp [ho]))

theorem run_degree (hk : LutCorrect kind table) (ops : List LutOp) {disk : Disk C} (hd : ValidDisk kind table disk)
    (hops : ∀ op ∈ ops, Clean op) (p : Nat) (hp : LutOp.remove p ∉ ops) :
    storedDegree kind (disk.files p) ≤ storedDegree kind ((runLut kind ops disk).1.files p) := by
  induction ops generalizing disk with
  | nil => exact le_refl _
  | cons op ops ih =>
    refine le_trans (step_degree hk hd op (hops op (by simp)) p (fun h => hp (by simp [h]))) ?_
    exact ih (step_valid hk hd op (hops op (by simp))) (fun o ho => hops o (by simp [ho]))
      (fun h => hp (by simp [h]))

end E3x
