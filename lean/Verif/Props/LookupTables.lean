import Verif.Lemmas.LutKinds3

/-!
# C33, C34, C35: lookup tables and their disk caches

The tables that should be returned are `Spec.cgTable`, `Spec.shTable`, `Spec.wdTable` and `Spec.tcTable`: formulas for
the entries that do not mention caches. `Spec.expected` says what each step of a history should return,
`Spec.ValidDisk` what a valid state is, and `Spec.Clean` that a step does not leave an incomplete file behind.
-/

namespace E3x

open Spec

/-! ## C33 -/

/-- **C33 (Clebsch-Gordan).** In every history of requests (any degrees in any order, with successful and failing
saves), crashes, changes of the configured path and removals of files, starting from every valid state, each request
returns exactly the specified table (`ValueError` for a negative degree), and the degree stored in a file never
decreases unless the file is removed. -/
theorem C33_clebsch_gordan (sym : Nat → ℤ → Nat → ℤ → Nat → ℤ → ℝ) (disk : Disk CGCompressed)
    (hd : ValidDisk (cgKind sym) (cgTable sym) disk) (ops : List LutOp) (hops : ∀ op ∈ ops, Clean op) :
    (runLut (cgKind sym) ops disk).2 = ops.map (expected (cgTable sym)) ∧
      ∀ path, LutOp.remove path ∉ ops → storedDegree (cgKind sym) (disk.files path) ≤
        storedDegree (cgKind sym) ((runLut (cgKind sym) ops disk).1.files path) :=
  ⟨run_results (cg_correct sym) ops hd hops, fun p hp => run_degree (cg_correct sym) ops hd hops p hp⟩

/-- **C33 (spherical harmonics).** -/
theorem C33_spherical_harmonics (sph : Nat → ℤ → Terms) (hs : ShWellFormed sph) (disk : Disk SHCompressed)
    (hd : ValidDisk (shKind sph) (shTable sph) disk) (ops : List LutOp) (hops : ∀ op ∈ ops, Clean op) :
    (runLut (shKind sph) ops disk).2 = ops.map (expected (shTable sph)) ∧
      ∀ path, LutOp.remove path ∉ ops → storedDegree (shKind sph) (disk.files path) ≤
        storedDegree (shKind sph) ((runLut (shKind sph) ops disk).1.files path) :=
  ⟨run_results (sh_correct sph hs) ops hd hops, fun p hp => run_degree (sh_correct sph hs) ops hd hops p hp⟩

/-- **C33 (Wigner-D).** -/
theorem C33_wigner_d (wig : Nat → ℤ → ℤ → Terms) (hw : WdWellFormed wig) (disk : Disk WDCompressed)
    (hd : ValidDisk (wdKind wig) (wdTable wig) disk) (ops : List LutOp) (hops : ∀ op ∈ ops, Clean op) :
    (runLut (wdKind wig) ops disk).2 = ops.map (expected (wdTable wig)) ∧
      ∀ path, LutOp.remove path ∉ ops → storedDegree (wdKind wig) (disk.files path) ≤
        storedDegree (wdKind wig) ((runLut (wdKind wig) ops disk).1.files path) :=
  ⟨run_results (wd_correct wig hw) ops hd hops, fun p hp => run_degree (wd_correct wig hw) ops hd hops p hp⟩

/-- **C33 (tensor conversion).** -/
theorem C33_tensor_conversion {M : Type} (conv : Nat → M × M) (disk : Disk (TCCompressed M))
    (hd : ValidDisk (tcKind conv) (tcTable conv) disk) (ops : List LutOp) (hops : ∀ op ∈ ops, Clean op) :
    (runLut (tcKind conv) ops disk).2 = ops.map (expected (tcTable conv)) ∧
      ∀ path, LutOp.remove path ∉ ops → storedDegree (tcKind conv) (disk.files path) ≤
        storedDegree (tcKind conv) ((runLut (tcKind conv) ops disk).1.files path) :=
  ⟨run_results (tc_correct conv) ops hd hops, fun p hp => run_degree (tc_correct conv) ops hd hops p hp⟩

/-- a state without any files -/
def noFiles (C : Type) : Disk C := ⟨.absent, fun _ => .absent, none⟩

theorem noFiles_valid {T C : Type} (kind : LutKind T C) (table : Nat → T) : ValidDisk kind table (noFiles C) :=
  ⟨fun _ h => by simp [noFiles] at h, fun _ => trivial⟩

theorem Generator.correct {T C : Type} {kind : LutKind T C} {table : Nat → T} (hg : Generator kind table) :
    LutCorrect kind table := by
  cases hg with
  | clebschGordan sym => exact cg_correct sym
  | sphericalHarmonics sph h => exact sh_correct sph h
  | wignerD wig h => exact wd_correct wig h
  | tensorConversion conv => exact tc_correct conv

/-- **C33 (same as from scratch).** For all four kinds of tables: a request in a valid state returns what the same
request returns when there is no file at all, i.e. when everything is computed. -/
theorem C33_from_scratch {T C : Type} {kind : LutKind T C} {table : Nat → T} (hg : Generator kind table)
    (disk : Disk C) (hd : ValidDisk kind table disk) (L : ℤ) (outcome : SaveOutcome) :
    (generateLookupTable kind L outcome disk).2 = (generateLookupTable kind L .success (noFiles _)).2 := by
  rw [generate_result (Generator.correct hg) hd, generate_result (Generator.correct hg) (noFiles_valid _ _)]

/-- A valid state with a damaged package file and a configured file that contains the table of degree 2, and a history
that needs smaller and larger degrees, changes the path, and survives a crash after the save. -/
example (sym : Nat → ℤ → Nat → ℤ → Nat → ℤ → ℝ) :
    let disk : Disk CGCompressed :=
      ⟨.corrupt, fun p => if p = 7 then .valid (cgCompress (cgTable sym 2)) else .absent, some 7⟩
    let ops : List LutOp := [.request 1 .success, .request 3 .openFails, .request 4 .success, .crash 5 .success,
      .request 2 .success, .setCache (some 7), .request 5 .success, .setCache none, .request (-1) .success,
      .remove 3]
    ValidDisk (cgKind sym) (cgTable sym) disk ∧ (∀ op ∈ ops, Clean op) ∧
      (runLut (cgKind sym) ops disk).2 = [some (.ok (cgTable sym 1)), some (.ok (cgTable sym 3)),
        some (.ok (cgTable sym 4)), none, some (.ok (cgTable sym 2)), none, some (.ok (cgTable sym 5)), none,
        some (.error .valueError), none] := by
  intro disk ops
  have hd : ValidDisk (cgKind sym) (cgTable sym) disk := by
    refine ⟨fun c h => by simp [disk] at h, fun p => ?_⟩
    by_cases hp : p = 7
    · subst hp
      exact validContent_compress (cg_correct sym) 2
    · simp [disk, hp, ValidFile]
  have ho : ∀ op ∈ ops, Clean op := by simp [ops, Clean]
  exact ⟨hd, ho, (C33_clebsch_gordan sym disk hd ops ho).1⟩

/-- the hypotheses on the polynomials can be met -/
example : ShWellFormed (fun l _ => [([l, 0, 0], 1)]) ∧ WdWellFormed (fun l _ _ => [(l :: List.replicate 8 0, 1)]) := by
  constructor
  · intro l m _
    refine ⟨by simp, fun t ht => ?_⟩
    simp only [List.mem_singleton] at ht
    subst ht
    exact ((C21_monomial_powers l).1 _).2 ⟨l, 0, 0, rfl, by omega⟩
  · intro l a b _ _
    refine ⟨by simp, fun t ht => ?_⟩
    simp only [List.mem_singleton] at ht
    subst ht
    exact ((C21_rotation_powers l).1 _).2 ⟨by simp, by simp⟩

/-! ## C34 -/

/-- **C34 (Clebsch-Gordan).** Compressing any table of degree `n` and loading the result for a degree `L ≤ n` gives
the entries of the table whose three degrees are at most `L` (and zeros elsewhere); for `L = n` this is the table
itself. -/
theorem C34_clebsch_gordan (t : CGTable) (n L : Nat) (hn : t.maxDegree = n)
    (ht : ∀ i j k, ¬ (i < totalSphericalHarmonics n ∧ j < totalSphericalHarmonics n ∧ k < totalSphericalHarmonics n) →
      t.cg (i, j, k) = 0) (hL : L ≤ n) :
    ∃ r : CGTable, cgLoad L (cgCompress t) = .ok ((n : ℤ), r) ∧ r.maxDegree = L ∧
      (∀ i j k, r.cg (i, j, k) = if i < totalSphericalHarmonics L ∧ j < totalSphericalHarmonics L ∧
        k < totalSphericalHarmonics L then t.cg (i, j, k) else 0) ∧ (L = n → r = t) := by
  refine ⟨_, cg_roundtrip t n L hn (fun i j k h => ht i j k (by simpa only [degree_le_iff] using h)) hL, rfl,
    fun i j k => rfl, ?_⟩
  rintro rfl
  obtain ⟨d, cg⟩ := t
  dsimp only at hn ht ⊢
  rw [hn]
  congr 1
  funext ⟨i, j, k⟩
  unfold slice3
  split
  · rfl
  · rename_i h
    exact (ht i j k h).symm

/-- **C34 (spherical harmonics).** -/
theorem C34_spherical_harmonics (t : SHTable) (n L : Nat) (hn : t.maxDegree = n)
    (ht : ∀ i j, ¬ (i < totalCartMonomials n ∧ j < totalSphericalHarmonics n) → t.cm (i, j) = 0)
    (hls : ∀ i, totalCartMonomials n ≤ i → t.ls i = []) (hL : L ≤ n) :
    ∃ r : SHTable, shLoad L (shCompress t) = .ok ((n : ℤ), r) ∧ r.maxDegree = L ∧
      (∀ i j, r.cm (i, j) = if i < totalCartMonomials L ∧ j < totalSphericalHarmonics L then t.cm (i, j) else 0) ∧
      (∀ i, r.ls i = if i < totalCartMonomials L then t.ls i else []) ∧ (L = n → r = t) := by
  refine ⟨_, sh_roundtrip t n L hn ht hL, rfl, fun i j => rfl, fun i => rfl, ?_⟩
  rintro rfl
  obtain ⟨d, cm, ls⟩ := t
  dsimp only at hn ht hls ⊢
  rw [hn]
  congr 1
  · funext ⟨i, j⟩
    unfold slice2
    split
    · rfl
    · rename_i h
      exact (ht i j h).symm
  · funext i
    split
    · rfl
    · exact (hls i (by omega)).symm

/-- **C34 (Wigner-D).** The archive contains only the diagonal blocks, so the table must be block diagonal, as every
table the generator produces is (`C34_wigner_d_tables`). -/
theorem C34_wigner_d (t : WDTable) (n L : Nat) (hn : t.maxDegree = n) (ht : BlockDiagonal n t) (hL : L ≤ n) :
    ∃ r : WDTable, wdLoad L (wdCompress t) = .ok ((n : ℤ), r) ∧ r.maxDegree = L ∧
      (∀ i w, r.cm (i, w) = if i < totalRotMonomials L ∧ w < totalWignerD L then t.cm (i, w) else 0) ∧
      (∀ i, r.ls i = if i < totalRotMonomials L then t.ls i else []) ∧ (L = n → r = t) := by
  refine ⟨_, wd_roundtrip t n L hn ht hL, rfl, fun i w => rfl, fun i => rfl, ?_⟩
  rintro rfl
  obtain ⟨d, cm, ls⟩ := t
  dsimp only at hn
  subst hn
  unfold wdRestrict
  congr 1
  · funext ⟨i, w⟩
    unfold slice2
    split
    · rfl
    · rename_i h
      symm
      apply ht.1
      intro l hl hc
      apply h
      have h1 := inRows_lt hc.1 (show l < L + 1 by omega)
      have h2 := inCols_lt hc.2 (show l < L + 1 by omega)
      rw [rotOffset_total] at h1
      rw [wigOffset_total] at h2
      exact ⟨h1, h2⟩
  · funext i
    split
    · rfl
    · exact (ht.2 i (by omega)).symm

/-- **C34 (Wigner-D).** The tables of the generator are block diagonal. -/
theorem C34_wigner_d_tables (wig : Nat → ℤ → ℤ → Terms) (hw : WdWellFormed wig) (n : Nat) :
    BlockDiagonal n (wdTable wig n) := wdTable_blockDiagonal wig hw n

/-- **C34 (tensor conversion).** -/
theorem C34_tensor_conversion {M : Type} (t : TCTable M) (n L : Nat) (hn : t.maxDegree = n)
    (h1 : t.s2t.length = n + 1) (h2 : t.t2s.length = n + 1) (hL : L ≤ n) :
    tcLoad L (tcCompress t) = .ok ((n : ℤ), ⟨L, t.s2t.take (L + 1), t.t2s.take (L + 1)⟩) :=
  tc_roundtrip t n L hn h1 h2 hL

/-- a table of degree 1 with three entries, one of them outside the part of degree 0 -/
example : ∃ t : CGTable, t.maxDegree = (1 : Nat) ∧ (∀ i j k, ¬ (i < totalSphericalHarmonics 1 ∧
    j < totalSphericalHarmonics 1 ∧ k < totalSphericalHarmonics 1) → t.cg (i, j, k) = 0) ∧
    cgLoad 0 (cgCompress t) = .ok (1, ⟨0, fun p => if p = (0, 0, 0) then 5 else 0⟩) := by
  refine ⟨⟨1, fun p => if p = (0, 0, 0) then 5 else if p = (1, 2, 3) then -1 else 0⟩, rfl, ?_, ?_⟩
  · intro i j k h
    dsimp only
    have h' : ¬ (i < 4 ∧ j < 4 ∧ k < 4) := h
    rw [if_neg, if_neg]
    · intro hc; simp only [Prod.mk.injEq] at hc; omega
    · intro hc; simp only [Prod.mk.injEq] at hc; omega
  · obtain ⟨r, hr, h1, h2, _⟩ := C34_clebsch_gordan
      ⟨1, fun p => if p = (0, 0, 0) then 5 else if p = (1, 2, 3) then -1 else 0⟩ 1 0 rfl (by
        intro i j k h
        dsimp only
        have h' : ¬ (i < 4 ∧ j < 4 ∧ k < 4) := h
        rw [if_neg, if_neg]
        · intro hc; simp only [Prod.mk.injEq] at hc; omega
        · intro hc; simp only [Prod.mk.injEq] at hc; omega) (by omega)
    refine hr.trans ?_
    congr 2
    obtain ⟨d, cg⟩ := r
    dsimp only at h1
    subst h1
    congr 1
    funext ⟨i, j, k⟩
    refine (h2 i j k).trans ?_
    show (if i < 1 ∧ j < 1 ∧ k < 1 then _ else _) = _
    by_cases h : i = 0 ∧ j = 0 ∧ k = 0
    · obtain ⟨rfl, rfl, rfl⟩ := h
      simp
    · rw [if_neg (by omega), if_neg (by simpa using h)]

/-! ## C35 -/

/-- **C35 (a failing write).** In a valid state a request returns the specified table whatever happens to the save,
including a write that fails half-way. -/
theorem C35_write_error_tolerated {T C : Type} {kind : LutKind T C} {table : Nat → T} (hg : Generator kind table) (disk : Disk C)
    (hd : ValidDisk kind table disk) (L : Nat) (outcome : SaveOutcome) :
    (generateLookupTable kind L outcome disk).2 = .ok (table L) :=
  (generate_spec (Generator.correct hg) hd L outcome).1

/-- **C35 (partial: crashes at harmless points).** If every interrupted save died before the file was truncated or
after it was complete, every later request still returns the specified table. Missing: a process that dies between
these two points (`C35_fails`). -/
theorem C35_crash_partial {T C : Type} {kind : LutKind T C} {table : Nat → T} (hg : Generator kind table) (disk : Disk C)
    (hd : ValidDisk kind table disk) (before after : List LutOp) (L : ℤ) (progress : SaveOutcome)
    (hp : progress ≠ .writeFails) (hb : ∀ op ∈ before, Clean op) (ha : ∀ op ∈ after, Clean op) :
    (runLut kind (before ++ .crash L progress :: after) disk).2 =
      (before ++ .crash L progress :: after).map (expected table) := by
  apply run_results (Generator.correct hg) _ hd
  intro op hop
  rcases List.mem_append.1 hop with h | h
  · exact hb op h
  · rcases List.mem_cons.1 h with rfl | h
    · exact hp
    · exact ha op h

/-- **C35 (no cache configured).** Without a configured path a crash at any point does no harm. -/
theorem C35_crash_without_cache {T C : Type} {kind : LutKind T C} {table : Nat → T} (hg : Generator kind table) (disk : Disk C)
    (hd : ValidDisk kind table disk) (hc : disk.config = none) (L : ℤ) (progress : SaveOutcome)
    (after : List LutOp) (ha : ∀ op ∈ after, Clean op) :
    (runLut kind (.crash L progress :: after) disk).2 =
      none :: after.map (expected table) := by
  have h : ((LutOp.crash L progress).step kind disk).1 = disk := by
    have h1 : (generateLookupTable kind L progress disk).1 = disk := by
      rcases lt_or_ge L 0 with h | h
      · rw [generate_negative _ _ h]
      · lift L to Nat using h
        rcases (generate_spec (Generator.correct hg) hd L progress).2 with h | ⟨h, _⟩
        · exact h
        · rw [h]; unfold saveLookupTableToDisk; rw [hc]
    show ({ (generateLookupTable kind L progress disk).1 with config := none } : Disk _) = disk
    rw [h1, ← hc]
  show none :: (runLut kind after ((LutOp.crash L progress).step kind disk).1).2 = _
  rw [h, run_results (Generator.correct hg) after hd ha]

/-- **C35 (negation).** While the configured file is incomplete, every request raises, in every continuation that does
not remove the file or configure another path; for every kind of table. -/
theorem C35_incomplete_file {T C : Type} (kind : LutKind T C) (disk : Disk C) (path : Nat)
    (hc : disk.config = some path) (hf : disk.files path = .corrupt) (requests : List (ℤ × SaveOutcome)) :
    (runLut kind (requests.map fun r => .request r.1 r.2) disk).2 =
      requests.map fun r => some (.error (if r.1 < 0 then .valueError else .badZipFile)) := by
  induction requests with
  | nil => rfl
  | cons r rs ih =>
    have h : generateLookupTable kind r.1 r.2 disk =
        (disk, .error (if r.1 < 0 then .valueError else .badZipFile)) := by
      unfold generateLookupTable
      split
      · rfl
      · unfold loadLookupTableFromDisk
        rw [hc]
        dsimp only
        rw [hf]
    show some (generateLookupTable kind r.1 r.2 disk).2 ::
      (runLut kind (rs.map fun r => .request r.1 r.2) (generateLookupTable kind r.1 r.2 disk).1).2 = _
    rw [h]
    dsimp only
    rw [ih]
    rfl

/-- **C35 (the claim is false).** Starting without any files: a process configures a cache path, requests a table and
is killed while the file is written; the next process configures the same path. All its requests raise. -/
theorem C35_fails {T C : Type} {kind : LutKind T C} {table : Nat → T} (hg : Generator kind table) (L : Nat) (requests : List (ℤ × SaveOutcome)) :
    (runLut kind ([.setCache (some 0), .crash L .writeFails, .setCache (some 0)] ++
        requests.map fun r => .request r.1 r.2) (noFiles _)).2 =
      [none, none, none] ++ requests.map fun r => some (.error (if r.1 < 0 then .valueError else .badZipFile)) := by
  have hgen : (generateLookupTable kind L .writeFails { noFiles C with config := some 0 }).1 =
      saveLookupTableToDisk { noFiles C with config := some 0 } .writeFails (kind.compress (table L)) := by
    unfold generateLookupTable loadLookupTableFromDisk
    rw [if_neg (by omega)]
    simp only [noFiles, loadPackage, Int.toNat_natCast]
    rw [if_neg (by omega)]
    have : kind.extend (-1 + 1 : ℤ).toNat L (kind.empty L) = .ok (table L) :=
      (Generator.correct hg).scratch L
    rw [this]
  show none :: none :: none :: _ = _
  have := C35_incomplete_file kind
    { (generateLookupTable kind L .writeFails { noFiles C with config := some 0 }).1 with
      config := some 0 } 0 rfl (by rw [hgen]; simp [saveLookupTableToDisk]) requests
  rw [← this]
  rfl

/-- **C35 (recovery).** Removing the incomplete file is enough: if it was the only damage, every later request returns
the specified table. -/
theorem C35_recovery {T C : Type} {kind : LutKind T C} {table : Nat → T} (hg : Generator kind table) (disk : Disk C) (path : Nat)
    (hd : ValidDisk kind table { disk with files := Function.update disk.files path .absent })
    (after : List LutOp) (ha : ∀ op ∈ after, Clean op) :
    (runLut kind (.remove path :: after) disk).2 = none :: after.map (expected table) := by
  exact congrArg (List.cons none) (run_results (Generator.correct hg) after hd ha)

/-- the state after the crash of `C35_fails` meets the hypothesis of `C35_recovery` -/
example (sym : Nat → ℤ → Nat → ℤ → Nat → ℤ → ℝ) :
    Generator (cgKind sym) (cgTable sym) ∧ ValidDisk (cgKind sym) (cgTable sym)
      { (⟨.absent, fun _ => .corrupt, some 0⟩ : Disk CGCompressed) with
        files := Function.update (fun p => if p = 0 then .corrupt else .absent) 0 .absent } := by
  refine ⟨.clebschGordan sym, fun c h => by simp at h, fun p => ?_⟩
  by_cases hp : p = 0
  · subst hp; simp [ValidFile]
  · simp [ValidFile, hp]

end E3x
