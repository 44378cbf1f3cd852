import Verif.Spec.ConcurrentCache
import Verif.Props.LookupTables
import Mathlib.Tactic.IntervalCases

/-!
# C91: programs that share a disk cache
-/

namespace E3x

open Spec

variable {T C : Type} {kind : LutKind T C} {table : Nat → T}

/-- Everything known about one request in every schedule. `lock` excludes unreadable files. -/
def GoodPhase (kind : LutKind T C) (table : Nat → T) (lock : Prop) (r : CacheRequest T) : Prop :=
  match r.phase with
  | .start => True
  | .loaded c t => 0 ≤ r.maxDegree ∧ c < r.maxDegree ∧
      kind.extend (c + 1).toNat r.maxDegree.toNat t = .ok (table r.maxDegree.toNat)
  | .writing _ t => 0 ≤ r.maxDegree ∧ t = table r.maxDegree.toNat
  | .done res => res = rightAnswer table r.maxDegree ∨
      (¬ lock ∧ res = .error .badZipFile ∧ r.path ≠ none ∧ 0 ≤ r.maxDegree)

/-- A file that may be incomplete. -/
def GoodFile (kind : LutKind T C) (table : Nat → T) : CacheFile C → Prop
  | .valid c => ValidContent kind table c
  | _ => True

theorem advance_path (w : SharedCache T C) (i j : Nat) (c : StepChoice) :
    ((w.advance kind i c).requests j).path = (w.requests j).path ∧
      ((w.advance kind i c).requests j).maxDegree = (w.requests j).maxDegree := by
  have hs : ∀ (w : SharedCache T C) (ph : RequestPhase T), ((w.setPhase i ph).requests j).path = (w.requests j).path ∧
      ((w.setPhase i ph).requests j).maxDegree = (w.requests j).maxDegree := by
    intro w ph
    unfold SharedCache.setPhase
    by_cases h : j = i
    · subst h; simp
    · simp [h]
  unfold SharedCache.advance
  dsimp only
  cases (w.requests i).phase with
  | start => exact hs _ _
  | loaded d t =>
    dsimp only
    cases kind.extend (d + 1).toNat (w.requests i).maxDegree.toNat t with
    | error e => exact hs _ _
    | ok t =>
      dsimp only
      cases (w.requests i).path with
      | none => exact hs _ _
      | some f =>
        dsimp only
        split_ifs
        · exact hs _ _
        · exact hs (w.setFile f .corrupt) _
  | writing v t =>
    dsimp only
    cases (w.requests i).path with
    | none => exact hs _ _
    | some f => exact hs (w.setFile f _) _
  | done r => exact ⟨rfl, rfl⟩

theorem readStep_good (hk : LutCorrect kind table) (w : SharedCache T C) (r : CacheRequest T)
    (hp : ∀ c, w.package = .valid c → ValidContent kind table c) (lock : Prop)
    (hf : ∀ f, r.path = some f → GoodFile kind table (w.files f) ∧ (lock → w.files f ≠ .corrupt)) :
    GoodPhase kind table lock { r with phase := readStep kind w r } := by
  unfold readStep
  by_cases hL : r.maxDegree < 0
  · rw [if_pos hL]
    left
    simp [rightAnswer, hL]
  rw [if_neg hL]
  have h0 : 0 ≤ r.maxDegree := by omega
  have hcast : ((r.maxDegree.toNat : ℕ) : ℤ) = r.maxDegree := Int.toNat_of_nonneg h0
  by_cases hc : ∃ f, r.path = some f ∧ w.files f = .corrupt
  · obtain ⟨f, h1, h2⟩ := hc
    unfold loadLookupTableFromDisk
    simp only [h1, h2]
    right
    exact ⟨fun hl => (hf f h1).2 hl h2, rfl, by simp [h1], h0⟩
  have hgood : ∃ x, loadLookupTableFromDisk ⟨w.package, w.files, r.path⟩ (kind.load r.maxDegree.toNat)
      (kind.empty r.maxDegree.toNat) = .ok x ∧ GoodLoad kind table r.maxDegree.toNat x := by
    have hd : ValidDisk kind table ⟨w.package, fun g => if r.path = some g then w.files g else .absent, r.path⟩ := by
      refine ⟨hp, fun g => ?_⟩
      dsimp only
      split_ifs with h
      · have := (hf g h).1
        cases hw : w.files g with
        | absent => trivial
        | corrupt => exact absurd ⟨g, h, hw⟩ hc
        | valid c => rw [hw] at this; exact this
      · trivial
    obtain ⟨x, h1, h2, -⟩ := goodLoad_disk hk hd r.maxDegree.toNat
    refine ⟨x, ?_, h2⟩
    rw [← h1]
    unfold loadLookupTableFromDisk
    dsimp only
    cases r.path with
    | none => rfl
    | some f => simp
  obtain ⟨⟨d, t⟩, h1, -, h2⟩ := hgood
  rw [h1]
  dsimp only at h2 ⊢
  rw [hcast] at h2
  rcases h2 with ⟨h2, h3⟩ | ⟨h2, h3⟩
  · rw [if_pos h2]
    left
    simp [rightAnswer, hL, h3]
  · rw [if_neg (by omega)]
    exact ⟨h0, h2, h3⟩

/-- What holds in every schedule. -/
structure CacheInv (kind : LutKind T C) (table : Nat → T) (w : SharedCache T C) : Prop where
  package : ∀ c, w.package = .valid c → ValidContent kind table c
  files : ∀ f, GoodFile kind table (w.files f)
  phases : ∀ i, GoodPhase kind table False (w.requests i)

theorem setPhase_phases {w : SharedCache T C} {lock : Prop} (h : ∀ i, GoodPhase kind table lock (w.requests i)) (i : Nat)
    (ph : RequestPhase T) (hi : GoodPhase kind table lock { w.requests i with phase := ph }) (j : Nat) :
    GoodPhase kind table lock ((w.setPhase i ph).requests j) := by
  unfold SharedCache.setPhase
  by_cases hj : j = i
  · subst hj; simpa using hi
  · simpa [hj] using h j

theorem setFile_files {w : SharedCache T C} (h : ∀ f, GoodFile kind table (w.files f)) (f : Nat) (file : CacheFile C)
    (hf : GoodFile kind table file) (g : Nat) : GoodFile kind table ((w.setFile f file).files g) := by
  unfold SharedCache.setFile
  by_cases hg : g = f
  · subst hg; simpa using hf
  · simpa [hg] using h g

/-- One step of a request, except for reading. -/
theorem advance_inv (hk : LutCorrect kind table) {w : SharedCache T C} {lock : Prop}
    (hp : ∀ c, w.package = .valid c → ValidContent kind table c) (hf : ∀ f, GoodFile kind table (w.files f))
    (hr : ∀ i, GoodPhase kind table lock (w.requests i)) (i : Nat) (c : StepChoice)
    (hl : lock → ∀ f, (w.requests i).path = some f → (w.requests i).phase = .start → w.files f ≠ .corrupt) :
    (∀ c', (w.advance kind i c).package = .valid c' → ValidContent kind table c') ∧
    (∀ f, GoodFile kind table ((w.advance kind i c).files f)) ∧
    (∀ j, GoodPhase kind table lock ((w.advance kind i c).requests j)) := by
  unfold SharedCache.advance
  dsimp only
  have hi := hr i
  have right : 0 ≤ (w.requests i).maxDegree → ∀ t, t = table (w.requests i).maxDegree.toNat →
      GoodPhase kind table lock { w.requests i with phase := .done (.ok t) } := by
    intro h0 t ht
    left
    rw [ht]
    show _ = rightAnswer table (w.requests i).maxDegree
    unfold rightAnswer
    rw [if_neg (by omega)]
  unfold GoodPhase at hi
  cases hph : (w.requests i).phase with
  | start =>
    exact ⟨hp, hf, setPhase_phases hr i _ (readStep_good hk w _ hp lock fun f h => ⟨hf f, fun h' => hl h' f h hph⟩)⟩
  | loaded d t =>
    rw [hph] at hi
    dsimp only at hi ⊢
    rw [hi.2.2]
    dsimp only
    cases hpath : (w.requests i).path with
    | none => exact ⟨hp, hf, setPhase_phases hr i _ (right hi.1 _ rfl)⟩
    | some f =>
      dsimp only
      split_ifs
      · exact ⟨hp, hf, setPhase_phases hr i _ (right hi.1 _ rfl)⟩
      · exact ⟨hp, setFile_files hf f .corrupt trivial,
          setPhase_phases (w := w.setFile f .corrupt) hr i _ ⟨hi.1, rfl⟩⟩
  | writing v t =>
    rw [hph] at hi
    dsimp only at hi ⊢
    cases hpath : (w.requests i).path with
    | none => exact ⟨hp, hf, setPhase_phases hr i _ (right hi.1 _ hi.2)⟩
    | some f =>
      refine ⟨hp, setFile_files hf f _ ?_, setPhase_phases (w := w.setFile f _) hr i _ (right hi.1 _ hi.2)⟩
      split_ifs
      · trivial
      · rw [hi.2]; exact validContent_compress hk _
  | done r => exact ⟨hp, hf, hr⟩

theorem run_path (steps : List (Nat × StepChoice)) (w : SharedCache T C) (j : Nat) :
    ((runSchedule kind steps w).requests j).path = (w.requests j).path ∧
      ((runSchedule kind steps w).requests j).maxDegree = (w.requests j).maxDegree := by
  induction steps generalizing w with
  | nil => exact ⟨rfl, rfl⟩
  | cons s steps ih =>
    have h1 := ih (w.advance kind s.1 s.2)
    have h2 := advance_path (kind := kind) w s.1 j s.2
    exact ⟨h1.1.trans h2.1, h1.2.trans h2.2⟩

theorem goodFile_of_valid {file : CacheFile C} (h : ValidFile kind table file) : GoodFile kind table file := by
  cases file with
  | absent => trivial
  | corrupt => trivial
  | valid c => exact h

theorem run_inv (hk : LutCorrect kind table) (steps : List (Nat × StepChoice)) {w : SharedCache T C}
    (h : CacheInv kind table w) : CacheInv kind table (runSchedule kind steps w) := by
  induction steps generalizing w with
  | nil => exact h
  | cons s steps ih =>
    obtain ⟨h1, h2, h3⟩ := advance_inv hk h.package h.files h.phases s.1 s.2 (fun h => h.elim)
    exact ih ⟨h1, h2, h3⟩

theorem start_inv {w : SharedCache T C} (h : ValidStart kind table w) : CacheInv kind table w :=
  ⟨h.1.1, fun f => goodFile_of_valid (h.1.2 f), fun i => by unfold GoodPhase; rw [h.2 i]; trivial⟩

/-- **C91 (never a wrong table).** Any number of processes that share caches: in every schedule, with failing writes, writes
that overlap and processes that are killed at any point, each request that finishes returns exactly the specified table, or
raises because it met an incomplete file (only if a cache is configured). -/
theorem C91_never_wrong (hg : Generator kind table) (w : SharedCache T C) (hw : ValidStart kind table w)
    (steps : List (Nat × StepChoice)) (i : Nat) (res : Except Err T)
    (hres : answer (runSchedule kind steps w) i = some res) :
    res = rightAnswer table (w.requests i).maxDegree ∨
      (res = .error .badZipFile ∧ (w.requests i).path ≠ none ∧ 0 ≤ (w.requests i).maxDegree) := by
  have h := (run_inv (Generator.correct hg) steps (start_inv hw)).phases i
  obtain ⟨e1, e2⟩ := run_path (kind := kind) steps w i
  unfold answer at hres
  unfold GoodPhase at h
  cases hph : ((runSchedule kind steps w).requests i).phase with
  | done r =>
    rw [hph] at h hres
    dsimp only at h hres
    injection hres with hres
    subst hres
    rw [e1, e2] at h
    rcases h with h | ⟨-, h⟩
    · exact Or.inl h
    · exact Or.inr h
  | start => rw [hph] at hres; cases hres
  | loaded _ _ => rw [hph] at hres; cases hres
  | writing _ _ => rw [hph] at hres; cases hres

/-- **C91 (without a cache).** A request of a process without a configured cache returns the specified table, whatever other
processes do. -/
theorem C91_no_cache (hg : Generator kind table) (w : SharedCache T C) (hw : ValidStart kind table w)
    (steps : List (Nat × StepChoice)) (i : Nat) (hi : (w.requests i).path = none) (res : Except Err T)
    (hres : answer (runSchedule kind steps w) i = some res) : res = rightAnswer table (w.requests i).maxDegree := by
  rcases C91_never_wrong hg w hw steps i res hres with h | ⟨-, h, -⟩
  · exact h
  · exact absurd hi h

/-- A request as far as a complete cache lets it come. -/
def NeverWrites (r : CacheRequest T) : Prop := r.path ≠ none → r.phase = .start ∨ ∃ x, r.phase = .done x

theorem complete_step (hk : LutCorrect kind table) {w : SharedCache T C}
    (hd : ValidDisk kind table ⟨w.package, w.files, none⟩)
    (hc : ∀ i f, (w.requests i).path = some f → (w.requests i).maxDegree ≤ storedDegree kind (w.files f))
    (hn : ∀ i, NeverWrites (w.requests i)) (i : Nat) (c : StepChoice) :
    (w.advance kind i c).files = w.files ∧ (w.advance kind i c).package = w.package ∧
      ∀ j, NeverWrites ((w.advance kind i c).requests j) := by
  have hset : ∀ ph, NeverWrites { w.requests i with phase := ph } → ∀ j, NeverWrites ((w.setPhase i ph).requests j) := by
    intro ph h j
    unfold SharedCache.setPhase
    by_cases hj : j = i
    · subst hj; simpa using h
    · simpa [hj] using hn j
  unfold SharedCache.advance
  dsimp only
  have hi := hn i
  unfold NeverWrites at hi
  cases hph : (w.requests i).phase with
  | start =>
    refine ⟨rfl, rfl, hset _ ?_⟩
    intro hp
    obtain ⟨f, hf⟩ := Option.ne_none_iff_exists'.mp hp
    right
    show ∃ x, readStep kind w (w.requests i) = _
    dsimp only at hf
    unfold readStep
    by_cases hL : (w.requests i).maxDegree < 0
    · exact ⟨_, by rw [if_pos hL]⟩
    rw [if_neg hL]
    have hd' : ValidDisk kind table ⟨w.package, w.files, (w.requests i).path⟩ := hd
    obtain ⟨r, h1, -, h3⟩ := goodLoad_disk hk hd' (w.requests i).maxDegree.toNat
    rw [h1]
    have := h3 f hf
    have := hc i f hf
    dsimp only at *
    exact ⟨_, by rw [if_pos (by omega)]⟩
  | loaded d t =>
    rw [hph] at hi
    dsimp only
    cases hp : (w.requests i).path with
    | none =>
      cases kind.extend (d + 1).toNat (w.requests i).maxDegree.toNat t with
      | error e => exact ⟨rfl, rfl, hset _ fun h => absurd hp h⟩
      | ok t => exact ⟨rfl, rfl, hset _ fun h => absurd hp h⟩
    | some f =>
      rcases hi (by simp [hp]) with h | ⟨x, h⟩ <;> cases h
  | writing v t =>
    rw [hph] at hi
    dsimp only
    cases hp : (w.requests i).path with
    | none => exact ⟨rfl, rfl, hset _ fun h => absurd hp h⟩
    | some f =>
      rcases hi (by simp [hp]) with h | ⟨x, h⟩ <;> cases h
  | done r => exact ⟨rfl, rfl, hn⟩

theorem answer_right {w : SharedCache T C} (h : ∀ i, GoodPhase kind table True (w.requests i)) (i : Nat) (res : Except Err T)
    (hres : answer w i = some res) : res = rightAnswer table (w.requests i).maxDegree := by
  have h := h i
  unfold answer at hres
  unfold GoodPhase at h
  cases hph : (w.requests i).phase with
  | done r =>
    rw [hph] at h hres
    dsimp only at h hres
    injection hres with hres
    subst hres
    rcases h with h | ⟨h, -⟩
    · exact h
    · exact absurd trivial h
  | start => rw [hph] at hres; cases hres
  | loaded _ _ => rw [hph] at hres; cases hres
  | writing _ _ => rw [hph] at hres; cases hres

/-- **C91 (complete caches).** If every configured file already contains all degrees that are requested with it, any number of
processes may share it: in every schedule all answers are right, and no file changes. -/
theorem C91_complete (hg : Generator kind table) (w : SharedCache T C) (hw : ValidStart kind table w)
    (hc : ∀ i f, (w.requests i).path = some f → (w.requests i).maxDegree ≤ storedDegree kind (w.files f))
    (steps : List (Nat × StepChoice)) :
    (runSchedule kind steps w).files = w.files ∧
      ∀ i res, answer (runSchedule kind steps w) i = some res → res = rightAnswer table (w.requests i).maxDegree := by
  have hk := Generator.correct hg
  have main : ∀ (steps : List (Nat × StepChoice)) (w : SharedCache T C),
      ValidDisk kind table ⟨w.package, w.files, none⟩ →
      (∀ i f, (w.requests i).path = some f → (w.requests i).maxDegree ≤ storedDegree kind (w.files f)) →
      (∀ i, NeverWrites (w.requests i)) → (∀ i, GoodPhase kind table True (w.requests i)) →
      (runSchedule kind steps w).files = w.files ∧
        ∀ i, GoodPhase kind table True ((runSchedule kind steps w).requests i) := by
    intro steps
    induction steps with
    | nil => intro w _ _ _ h; exact ⟨rfl, h⟩
    | cons s steps ih =>
      intro w hd hc hn hr
      obtain ⟨h1, h2, h3⟩ := complete_step hk hd hc hn s.1 s.2
      have h4 := (advance_inv hk hd.1 (fun f => goodFile_of_valid (hd.2 f)) hr s.1 s.2 (by
        intro _ f _ _ hcorrupt
        have := hd.2 f
        rw [show (Disk.files ⟨w.package, w.files, none⟩ : Nat → CacheFile C) = w.files from rfl, hcorrupt] at this
        exact this)).2.2
      obtain ⟨h5, h6⟩ := ih (w.advance kind s.1 s.2) (by rw [h1, h2]; exact hd) (by
        intro i f
        have := advance_path (kind := kind) w s.1 i s.2
        rw [this.1, this.2, h1]
        exact hc i f) h3 h4
      exact ⟨h5.trans h1, h6⟩
  obtain ⟨h1, h2⟩ := main steps w hw.1 hc (fun i _ => Or.inl (hw.2 i))
    (fun i => by unfold GoodPhase; rw [hw.2 i]; trivial)
  refine ⟨h1, fun i res hres => ?_⟩
  rw [← (run_path (kind := kind) steps w i).2]
  exact answer_right h2 i res hres

/-- What a lock maintains: only files that are being written are incomplete, and nobody else touches them. -/
structure LockInv (kind : LutKind T C) (table : Nat → T) (w : SharedCache T C) : Prop where
  package : ∀ c, w.package = .valid c → ValidContent kind table c
  files : ∀ f, GoodFile kind table (w.files f)
  phases : ∀ i, GoodPhase kind table True (w.requests i)
  corrupt : ∀ f, w.files f = .corrupt → ∃ i, IsWriting w i f
  version : ∀ i f v t, (w.requests i).path = some f → (w.requests i).phase = .writing v t → v = w.version f

theorem lock_step (hk : LutCorrect kind table) {w : SharedCache T C} (h : LockInv kind table w) (i : Nat) (c : StepChoice)
    (hc : c ≠ .writeFails) (hl : ∀ j f, j ≠ i → IsWriting w j f → (w.requests i).path ≠ some f) :
    LockInv kind table (w.advance kind i c) := by
  have hread : True → ∀ f, (w.requests i).path = some f → (w.requests i).phase = .start → w.files f ≠ .corrupt := by
    intro _ f hp hs hcor
    obtain ⟨j, hj⟩ := h.corrupt f hcor
    refine hl j f ?_ hj hp
    rintro rfl
    obtain ⟨-, v, t, ht⟩ := hj
    rw [hs] at ht
    cases ht
  obtain ⟨h1, h2, h3⟩ := advance_inv hk h.package h.files h.phases i c hread
  -- requests other than `i`
  have other : ∀ (w' : SharedCache T C) ph j, j ≠ i → (w'.setPhase i ph).requests j = w'.requests j := by
    intro w' ph j hj
    simp [SharedCache.setPhase, hj]
  have self : ∀ (w' : SharedCache T C) ph, (w'.setPhase i ph).requests i = { w'.requests i with phase := ph } := by
    intro w' ph
    simp [SharedCache.setPhase]
  -- steps that do not touch files
  have quiet : ∀ ph, (∀ v t, ph ≠ .writing v t) → (∀ v t, (w.requests i).phase ≠ .writing v t ∨ (w.requests i).path = none) →
      (∀ f, (w.setPhase i ph).files f = .corrupt → ∃ j, IsWriting (w.setPhase i ph) j f) ∧
      (∀ j f v t, ((w.setPhase i ph).requests j).path = some f → ((w.setPhase i ph).requests j).phase = .writing v t →
        v = (w.setPhase i ph).version f) := by
    intro ph hph hold
    constructor
    · intro f hf
      obtain ⟨j, hj⟩ := h.corrupt f hf
      refine ⟨j, ?_⟩
      have hji : j ≠ i := by
        rintro rfl
        obtain ⟨hp, v, t, ht⟩ := hj
        rcases hold v t with h' | h'
        · exact h' ht
        · rw [h'] at hp; cases hp
      unfold IsWriting
      rw [other w ph j hji]
      exact hj
    · intro j f v t hp ht
      by_cases hji : j = i
      · subst hji
        rw [self] at ht
        exact absurd ht (hph v t)
      · rw [other w ph j hji] at hp ht
        exact h.version j f v t hp ht
  suffices hs : (∀ f, (w.advance kind i c).files f = .corrupt → ∃ j, IsWriting (w.advance kind i c) j f) ∧
      (∀ j f v t, ((w.advance kind i c).requests j).path = some f →
        ((w.advance kind i c).requests j).phase = .writing v t → v = (w.advance kind i c).version f) from
    ⟨h1, h2, h3, hs.1, hs.2⟩
  clear h1 h2 h3
  have hi := h.phases i
  unfold GoodPhase at hi
  unfold SharedCache.advance
  dsimp only
  cases hph : (w.requests i).phase with
  | start =>
    refine quiet _ ?_ (by simp [hph])
    intro v t
    unfold readStep
    split_ifs
    · simp
    · split
      · simp
      · split_ifs <;> simp
  | loaded d t =>
    rw [hph] at hi
    dsimp only at hi ⊢
    rw [hi.2.2]
    dsimp only
    cases hp : (w.requests i).path with
    | none => exact quiet _ (by simp) (by simp [hph])
    | some f =>
      dsimp only
      split_ifs with hopen
      · exact quiet _ (by simp) (by simp [hph])
      · constructor
        · intro g hg
          by_cases hgf : g = f
          · subst hgf
            refine ⟨i, ?_⟩
            unfold IsWriting
            rw [self]
            exact ⟨hp, _, _, rfl⟩
          · have hg' : w.files g = .corrupt := by
              simpa [SharedCache.setPhase, SharedCache.setFile, hgf] using hg
            obtain ⟨j, hj⟩ := h.corrupt g hg'
            have hji : j ≠ i := by
              rintro rfl
              rw [hj.1] at hp
              exact hgf (Option.some.inj hp)
            refine ⟨j, ?_⟩
            unfold IsWriting
            rw [other _ _ j hji]
            exact hj
        · intro j g v t' hpj htj
          by_cases hji : j = i
          · subst hji
            rw [self] at hpj htj
            dsimp only at htj
            have hg : g = f := Option.some.inj (hpj.symm.trans hp)
            subst hg
            injection htj with hv
            simp [SharedCache.setPhase, SharedCache.setFile, ← hv]
          · rw [other _ _ j hji] at hpj htj
            have hgf : g ≠ f := by
              rintro rfl
              exact hl j g hji ⟨hpj, v, t', htj⟩ hp
            simpa [SharedCache.setPhase, SharedCache.setFile, hgf] using h.version j g v t' hpj htj
  | writing v t =>
    rw [hph] at hi
    dsimp only at hi ⊢
    cases hp : (w.requests i).path with
    | none => exact quiet _ (by simp) (by simp [hp])
    | some f =>
      dsimp only
      have hv := h.version i f v t hp hph
      rw [if_neg (by simp [hc, hv])]
      constructor
      · intro g hg
        have hgf : g ≠ f := by
          rintro rfl
          simp [SharedCache.setPhase, SharedCache.setFile] at hg
        have hg' : w.files g = .corrupt := by
          simpa [SharedCache.setPhase, SharedCache.setFile, hgf] using hg
        obtain ⟨j, hj⟩ := h.corrupt g hg'
        have hji : j ≠ i := by
          rintro rfl
          rw [hj.1] at hp
          exact hgf (Option.some.inj hp)
        refine ⟨j, ?_⟩
        unfold IsWriting
        rw [other _ _ j hji]
        exact hj
      · intro j g v' t' hpj htj
        by_cases hji : j = i
        · subst hji
          rw [self] at htj
          cases htj
        · rw [other _ _ j hji] at hpj htj
          have hgf : g ≠ f := by
            rintro rfl
            exact hl j g hji ⟨hpj, v', t', htj⟩ hp
          simpa [SharedCache.setPhase, SharedCache.setFile, hgf] using h.version j g v' t' hpj htj
  | done r => exact ⟨h.corrupt, h.version⟩

theorem lock_run (hk : LutCorrect kind table) (steps : List (Nat × StepChoice)) {w : SharedCache T C}
    (h : LockInv kind table w) (hc : ∀ s ∈ steps, s.2 ≠ .writeFails) (hl : Locked kind steps w) :
    LockInv kind table (runSchedule kind steps w) := by
  induction steps generalizing w with
  | nil => exact h
  | cons s steps ih =>
    exact ih (lock_step hk h s.1 s.2 (hc s (List.mem_cons_self ..)) (fun j f hj => hl.1 j f hj))
      (fun s' hs' => hc s' (List.mem_cons_of_mem _ hs')) hl.2

/-- **C91 (locks).** With a lock on each file, held while it is read and while it is written (the code takes none), and
without failing writes, all answers are right in every schedule, and every file that is not being written is absent or
valid. -/
theorem C91_locked (hg : Generator kind table) (w : SharedCache T C) (hw : ValidStart kind table w)
    (steps : List (Nat × StepChoice)) (hc : ∀ s ∈ steps, s.2 ≠ .writeFails) (hl : Locked kind steps w) :
    (∀ i res, answer (runSchedule kind steps w) i = some res → res = rightAnswer table (w.requests i).maxDegree) ∧
      ∀ f, (∀ i, ¬ IsWriting (runSchedule kind steps w) i f) →
        ValidFile kind table ((runSchedule kind steps w).files f) := by
  have h0 : LockInv kind table w := by
    refine ⟨hw.1.1, fun f => goodFile_of_valid (hw.1.2 f), fun i => ?_, fun f hf => ?_, fun i f v t _ ht => ?_⟩
    · unfold GoodPhase; rw [hw.2 i]; trivial
    · have := hw.1.2 f
      rw [show (Disk.files ⟨w.package, w.files, none⟩ : Nat → CacheFile C) = w.files from rfl, hf] at this
      exact this.elim
    · rw [hw.2 i] at ht; cases ht
  have h := lock_run (Generator.correct hg) steps h0 hc hl
  refine ⟨fun i res hres => ?_, fun f hf => ?_⟩
  · rw [← (run_path (kind := kind) steps w i).2]
    exact answer_right h.phases i res hres
  · have h1 := h.files f
    cases hfile : (runSchedule kind steps w).files f with
    | absent => trivial
    | valid c => rw [hfile] at h1; exact h1
    | corrupt =>
      obtain ⟨i, hi⟩ := h.corrupt f hfile
      exact absurd hi (hf i)

/-- **C91 (alone).** A request that is not interrupted by other requests does what `generateLookupTable` (C33-C35) does: same
answer, same files. -/
theorem C91_alone (kind : LutKind T C) (w : SharedCache T C) (i : Nat) (hi : (w.requests i).phase = .start)
    (outcome : SaveOutcome) :
    let c := aloneChoice outcome
    let w' := runSchedule kind [(i, c), (i, c), (i, c)] w
    let r := generateLookupTable kind (w.requests i).maxDegree outcome ⟨w.package, w.files, (w.requests i).path⟩
    w'.files = r.1.files ∧ answer w' i = some r.2 := by
  intro c w' r
  have hdone : ∀ (w : SharedCache T C) x, (w.requests i).phase = .done x → w.advance kind i c = w := by
    intro w x hx
    unfold SharedCache.advance
    dsimp only
    rw [hx]
  have hsetd : ∀ (w : SharedCache T C) x, ((w.setPhase i (.done x)).requests i).phase = .done x := by
    intro w x; simp [SharedCache.setPhase]
  have hans : ∀ (w : SharedCache T C) x, (w.requests i).phase = .done x → answer w i = some x := by
    intro w x hx; unfold answer; rw [hx]
  have e1 : w.advance kind i c = w.setPhase i (readStep kind w (w.requests i)) := by
    show SharedCache.advance kind w i c = _
    unfold SharedCache.advance
    dsimp only
    rw [hi]
  have hw' : w' = ((w.advance kind i c).advance kind i c).advance kind i c := rfl
  have hr : r = generateLookupTable kind (w.requests i).maxDegree outcome ⟨w.package, w.files, (w.requests i).path⟩ := rfl
  clear_value w' r
  subst hw' hr
  rw [e1]
  unfold readStep generateLookupTable
  by_cases hL : (w.requests i).maxDegree < 0
  · rw [if_pos hL, if_pos hL, hdone _ _ (hsetd _ _), hdone _ _ (hsetd _ _)]
    exact ⟨rfl, hans _ _ (hsetd _ _)⟩
  rw [if_neg hL, if_neg hL]
  cases loadLookupTableFromDisk ⟨w.package, w.files, (w.requests i).path⟩ (kind.load (w.requests i).maxDegree.toNat)
      (kind.empty (w.requests i).maxDegree.toNat) with
  | error e =>
    dsimp only
    rw [hdone _ _ (hsetd _ _), hdone _ _ (hsetd _ _)]
    exact ⟨rfl, hans _ _ (hsetd _ _)⟩
  | ok r =>
    obtain ⟨d, t⟩ := r
    dsimp only
    by_cases hd : (w.requests i).maxDegree ≤ d
    · rw [if_pos hd, if_pos hd, hdone _ _ (hsetd _ _), hdone _ _ (hsetd _ _)]
      exact ⟨rfl, hans _ _ (hsetd _ _)⟩
    rw [if_neg hd, if_neg hd]
    cases hext : kind.extend (d + 1).toNat (w.requests i).maxDegree.toNat t with
    | error e => simp [SharedCache.advance, SharedCache.setPhase, hext, answer]
    | ok t' =>
      cases hp : (w.requests i).path with
      | none => simp [SharedCache.advance, SharedCache.setPhase, hext, hp, answer, saveLookupTableToDisk]
      | some f =>
        cases outcome <;>
          simp [c, aloneChoice, SharedCache.advance, SharedCache.setPhase, SharedCache.setFile, hext, hp, answer,
            saveLookupTableToDisk]

/-- How many steps a request needs at most. -/
def RequestPhase.rest : RequestPhase T → Nat
  | .start => 3
  | .loaded _ _ => 2
  | .writing _ _ => 1
  | .done _ => 0

theorem readStep_rest (w : SharedCache T C) (r : CacheRequest T) : (readStep kind w r).rest ≤ 2 := by
  unfold readStep
  by_cases h : r.maxDegree < 0
  · rw [if_pos h]; simp [RequestPhase.rest]
  rw [if_neg h]
  cases loadLookupTableFromDisk ⟨w.package, w.files, r.path⟩ (kind.load r.maxDegree.toNat)
      (kind.empty r.maxDegree.toNat) with
  | error e => simp [RequestPhase.rest]
  | ok x =>
    dsimp only
    split_ifs <;> simp [RequestPhase.rest]

theorem advance_rest (w : SharedCache T C) (i j : Nat) (c : StepChoice) :
    ((w.advance kind i c).requests j).phase.rest ≤ (w.requests j).phase.rest - if i = j then 1 else 0 := by
  by_cases hji : i = j
  · subst hji
    rw [if_pos rfl]
    unfold SharedCache.advance
    dsimp only
    cases hph : (w.requests i).phase with
    | start =>
      simp only [SharedCache.setPhase, Function.update_self]
      exact readStep_rest w _
    | loaded d t =>
      dsimp only
      cases kind.extend (d + 1).toNat (w.requests i).maxDegree.toNat t with
      | error e => simp [SharedCache.setPhase, RequestPhase.rest]
      | ok t =>
        cases (w.requests i).path with
        | none => simp [SharedCache.setPhase, RequestPhase.rest]
        | some f =>
          dsimp only
          split_ifs <;> simp [SharedCache.setPhase, SharedCache.setFile, RequestPhase.rest]
    | writing v t =>
      cases (w.requests i).path <;> simp [SharedCache.setPhase, SharedCache.setFile, RequestPhase.rest]
    | done r => simp [hph, RequestPhase.rest]
  · rw [if_neg hji]
    have : (w.advance kind i c).requests j = w.requests j := by
      have hj : j ≠ i := fun h => hji h.symm
      have hs : ∀ (w' : SharedCache T C) ph, (w'.setPhase i ph).requests j = w'.requests j := by
        intro w' ph; simp [SharedCache.setPhase, hj]
      unfold SharedCache.advance
      dsimp only
      cases (w.requests i).phase with
      | start => exact hs _ _
      | loaded d t =>
        dsimp only
        cases kind.extend (d + 1).toNat (w.requests i).maxDegree.toNat t with
        | error e => exact hs _ _
        | ok t =>
          cases (w.requests i).path with
          | none => exact hs _ _
          | some f =>
            dsimp only
            split_ifs
            · exact hs _ _
            · exact hs (w.setFile f .corrupt) _
      | writing v t =>
        cases (w.requests i).path with
        | none => exact hs _ _
        | some f => exact hs (w.setFile f _) _
      | done r => rfl
    rw [this]
    omega

/-- **C91 (no waiting).** Requests never wait for each other: a request has finished as soon as it has made three steps,
whatever other requests do or do not do. -/
theorem C91_finishes (kind : LutKind T C) (w : SharedCache T C) (steps : List (Nat × StepChoice)) (i : Nat)
    (h : 3 ≤ (steps.map Prod.fst).count i) : (answer (runSchedule kind steps w) i).isSome := by
  have main : ∀ (steps : List (Nat × StepChoice)) (w : SharedCache T C),
      ((runSchedule kind steps w).requests i).phase.rest ≤ (w.requests i).phase.rest - (steps.map Prod.fst).count i := by
    intro steps
    induction steps with
    | nil => intro w; exact Nat.le_refl _
    | cons s steps ih =>
      intro w
      refine (ih (w.advance kind s.1 s.2)).trans ?_
      have := advance_rest (kind := kind) w s.1 i s.2
      rw [List.map_cons, List.count_cons]
      simp only [beq_iff_eq]
      omega
  have h1 := main steps w
  have h2 : (w.requests i).phase.rest ≤ 3 := by
    cases (w.requests i).phase <;> simp [RequestPhase.rest]
  have h3 : ((runSchedule kind steps w).requests i).phase.rest = 0 := by omega
  unfold answer
  cases hph : ((runSchedule kind steps w).requests i).phase with
  | done r => rfl
  | start => rw [hph] at h3; cases h3
  | loaded _ _ => rw [hph] at h3; cases h3
  | writing _ _ => rw [hph] at h3; cases h3

/-- **C91 (damage stays).** If a file is incomplete and nobody is computing or writing with it, then it remains so, and every
request that finds it raises, in every schedule. -/
theorem C91_stays_broken (kind : LutKind T C) (w : SharedCache T C) (f : Nat) (hf : w.files f = .corrupt)
    (hw : ∀ i, (w.requests i).path = some f → (w.requests i).phase = .start ∨ ∃ x, (w.requests i).phase = .done x)
    (steps : List (Nat × StepChoice)) :
    (runSchedule kind steps w).files f = .corrupt ∧
      ∀ i, (w.requests i).path = some f → (w.requests i).phase = .start → 0 ≤ (w.requests i).maxDegree →
        ∀ res, answer (runSchedule kind steps w) i = some res → res = .error .badZipFile := by
  have main : ∀ (steps : List (Nat × StepChoice)) (w : SharedCache T C), w.files f = .corrupt →
      (∀ i, (w.requests i).path = some f → (w.requests i).phase = .start ∨ ∃ x, (w.requests i).phase = .done x) →
      (runSchedule kind steps w).files f = .corrupt ∧
      ∀ i, (w.requests i).path = some f → 0 ≤ (w.requests i).maxDegree →
        ((w.requests i).phase = .start ∨ (w.requests i).phase = .done (.error .badZipFile)) →
        (((runSchedule kind steps w).requests i).phase = .start ∨
          ((runSchedule kind steps w).requests i).phase = .done (.error .badZipFile)) := by
    intro steps
    induction steps with
    | nil => intro w hf _; exact ⟨hf, fun i _ _ h => h⟩
    | cons s steps ih =>
      intro w hf hw
      obtain ⟨i, c⟩ := s
      have hpaths := fun j => advance_path (kind := kind) w i j c
      have hother : ∀ j, j ≠ i → (w.advance kind i c).requests j = w.requests j := by
        intro j hj
        have hs : ∀ (w' : SharedCache T C) ph, (w'.setPhase i ph).requests j = w'.requests j := by
          intro w' ph; simp [SharedCache.setPhase, hj]
        unfold SharedCache.advance
        dsimp only
        cases (w.requests i).phase with
        | start => exact hs _ _
        | loaded d t =>
          dsimp only
          cases kind.extend (d + 1).toNat (w.requests i).maxDegree.toNat t with
          | error e => exact hs _ _
          | ok t =>
            cases (w.requests i).path with
            | none => exact hs _ _
            | some f =>
              dsimp only
              split_ifs
              · exact hs _ _
              · exact hs (w.setFile f .corrupt) _
        | writing v t =>
          cases (w.requests i).path with
          | none => exact hs _ _
          | some f => exact hs (w.setFile f _) _
        | done r => rfl
      have hstep : (w.advance kind i c).files f = .corrupt ∧
          ((w.requests i).path = some f →
            (∃ x, ((w.advance kind i c).requests i).phase = .done x) ∧
            (0 ≤ (w.requests i).maxDegree →
              ((w.requests i).phase = .start ∨ (w.requests i).phase = .done (.error .badZipFile)) →
              ((w.advance kind i c).requests i).phase = .done (.error .badZipFile))) := by
        by_cases hp : (w.requests i).path = some f
        · unfold SharedCache.advance
          dsimp only
          rcases hw i hp with h | ⟨x, h⟩
          · rw [h]
            refine ⟨hf, fun _ => ?_⟩
            have : readStep kind w (w.requests i) =
                if (w.requests i).maxDegree < 0 then .done (.error .valueError) else .done (.error .badZipFile) := by
              unfold readStep loadLookupTableFromDisk
              simp only [hp, hf]
            simp only [SharedCache.setPhase, Function.update_self, this]
            constructor
            · split_ifs
              · exact ⟨_, rfl⟩
              · exact ⟨_, rfl⟩
            · intro h0 _
              rw [if_neg (by omega)]
          · rw [h]
            refine ⟨hf, fun _ => ⟨⟨x, h⟩, fun _ h' => ?_⟩⟩
            rcases h' with h' | h'
            · cases h'
            · dsimp only; rw [h]; exact h'
        · refine ⟨?_, fun h => absurd h hp⟩
          have hfile : ∀ g file, (w.requests i).path = some g → (w.setFile g file).files f = .corrupt := by
            intro g file hg
            have : f ≠ g := by rintro rfl; exact hp hg
            simpa [SharedCache.setFile, this] using hf
          unfold SharedCache.advance
          dsimp only
          cases (w.requests i).phase with
          | start => exact hf
          | loaded d t =>
            dsimp only
            cases kind.extend (d + 1).toNat (w.requests i).maxDegree.toNat t with
            | error e => exact hf
            | ok t =>
              cases hg : (w.requests i).path with
              | none => exact hf
              | some g =>
                dsimp only
                split_ifs
                · exact hf
                · exact hfile g _ hg
          | writing v t =>
            cases hg : (w.requests i).path with
            | none => exact hf
            | some g => exact hfile g _ hg
          | done r => exact hf
      obtain ⟨h1, h2⟩ := ih (w.advance kind i c) hstep.1 (by
        intro j hj
        rw [(hpaths j).1] at hj
        by_cases hji : j = i
        · subst hji; exact Or.inr (hstep.2 hj).1
        · rw [hother j hji]; exact hw j hj)
      refine ⟨h1, fun j hj h0 hph => ?_⟩
      refine h2 j ((hpaths j).1.trans hj) (by rw [(hpaths j).2]; exact h0) ?_
      by_cases hji : j = i
      · subst hji; exact Or.inr ((hstep.2 hj).2 h0 hph)
      · rw [hother j hji]; exact hph
  obtain ⟨h1, h2⟩ := main steps w hf hw
  refine ⟨h1, fun i hp hs h0 res hres => ?_⟩
  unfold answer at hres
  rcases h2 i hp h0 (Or.inl hs) with h | h
  · rw [h] at hres; cases hres
  · rw [h] at hres; exact (Option.some.inj hres).symm

theorem emptyCache_valid (kind : LutKind T C) (table : Nat → T) (degrees : Nat → ℤ) :
    ValidStart kind table (emptyCache degrees : SharedCache T C) :=
  ⟨⟨fun _ h => by simp [emptyCache] at h, fun _ => trivial⟩, fun _ => rfl⟩

/-- **C91 fails without locks (reading).** Two processes request the same table with an empty cache, no write fails and no
process is killed: if one reads the file while the other writes it, it raises. -/
theorem C91_torn_read (hg : Generator kind table) (L : Nat) :
    let w := runSchedule kind [(0, .good), (0, .good), (1, .good), (0, .good)] (emptyCache fun _ => (L : ℤ))
    answer w 0 = some (.ok (table L)) ∧ answer w 1 = some (.error .badZipFile) ∧
      w.files 0 = .valid (kind.compress (table L)) := by
  have hs : kind.extend 0 L (kind.empty L) = .ok (table L) := (Generator.correct hg).scratch L
  have hneg : ¬ ((L : ℤ) ≤ -1) := by omega
  have hneg' : ¬ ((L : ℤ) < 0) := by omega
  simp [runSchedule, emptyCache, SharedCache.advance, SharedCache.setPhase, SharedCache.setFile, readStep,
    loadLookupTableFromDisk, loadPackage, hs, answer, hneg, hneg']

/-- **C91 fails without locks (lost work).** A process that requested a smaller degree can replace a table that another
process has stored in the meantime: the degree stored in the file decreases, though all writes succeed (one process alone
never decreases it, C33). -/
theorem C91_lost_update (hg : Generator kind table) (L M : Nat) :
    let w := runSchedule kind [(0, .good), (1, .good), (1, .good), (1, .good)]
      (emptyCache fun i => if i = 0 then (M : ℤ) else L)
    storedDegree kind (w.files 0) = L ∧
      storedDegree kind ((runSchedule kind [(0, .good), (0, .good)] w).files 0) = M := by
  have hk := Generator.correct hg
  have hsL : kind.extend 0 L (kind.empty L) = .ok (table L) := hk.scratch L
  have hsM : kind.extend 0 M (kind.empty M) = .ok (table M) := hk.scratch M
  have hL : ¬ ((L : ℤ) ≤ -1) := by omega
  have hM : ¬ ((M : ℤ) ≤ -1) := by omega
  have hL' : ¬ ((L : ℤ) < 0) := by omega
  have hM' : ¬ ((M : ℤ) < 0) := by omega
  have h1 : max (-1) (L : ℤ) = L := by omega
  have h2 : max (-1) (M : ℤ) = M := by omega
  simp [runSchedule, emptyCache, SharedCache.advance, SharedCache.setPhase, SharedCache.setFile, readStep,
    loadLookupTableFromDisk, loadPackage, hsL, hsM, hL, hM, hL', hM', storedDegree, hk.degree_compress]

/-- **C91 fails without locks (writing).** Two processes request the same table with an empty cache, no write fails and no
process is killed. Both return the right table, but the file can be destroyed; then every later request with this file
raises. -/
theorem C91_torn_write (hg : Generator kind table) (L : Nat) (degrees : Nat → ℤ) (h0 : degrees 0 = L)
    (h1 : degrees 1 = L) (later : List (Nat × StepChoice)) :
    let w := runSchedule kind ([(0, .good), (1, .good), (0, .good), (1, .good), (0, .torn), (1, .torn)] ++ later)
      (emptyCache degrees)
    w.files 0 = .corrupt ∧ ∀ i, 2 ≤ i → 0 ≤ degrees i → ∀ res, answer w i = some res → res = .error .badZipFile := by
  have hs : kind.extend 0 L (kind.empty L) = .ok (table L) := (Generator.correct hg).scratch L
  have hneg : ¬ ((L : ℤ) ≤ -1) := by omega
  have hneg' : ¬ ((L : ℤ) < 0) := by omega
  have hother : ∀ i, 2 ≤ i → (runSchedule kind [(0, .good), (1, .good), (0, .good), (1, .good), (0, .torn), (1, .torn)]
      (emptyCache degrees : SharedCache T C)).requests i = ⟨some 0, degrees i, .start⟩ := by
    intro i hi
    have e0 : i ≠ 0 := by omega
    have e1 : i ≠ 1 := by omega
    simp [runSchedule, emptyCache, SharedCache.advance, SharedCache.setPhase, SharedCache.setFile, readStep,
      loadLookupTableFromDisk, loadPackage, hs, hneg, hneg', h0, h1, e0, e1]
  intro w
  have hw : w = runSchedule kind later (runSchedule kind
      [(0, .good), (1, .good), (0, .good), (1, .good), (0, .torn), (1, .torn)] (emptyCache degrees)) := by
    simp only [w, runSchedule, List.foldl_append]
  rw [hw]
  have := C91_stays_broken kind (runSchedule kind
      [(0, .good), (1, .good), (0, .good), (1, .good), (0, .torn), (1, .torn)] (emptyCache degrees)) 0 (by
    simp [runSchedule, emptyCache, SharedCache.advance, SharedCache.setPhase, SharedCache.setFile, readStep,
      loadLookupTableFromDisk, loadPackage, hs, hneg, hneg', h0, h1]) (by
    intro i _
    rcases Nat.lt_or_ge i 2 with hi | hi
    · right
      interval_cases i <;>
        simp [runSchedule, emptyCache, SharedCache.advance, SharedCache.setPhase, SharedCache.setFile, readStep,
          loadLookupTableFromDisk, loadPackage, hs, hneg, hneg', h0, h1]
    · left; rw [hother i hi]) later
  refine ⟨this.1, fun i hi hd res hres => ?_⟩
  exact this.2 i (by rw [hother i hi]) (by rw [hother i hi]) (by rw [hother i hi]; exact hd) res hres

/-- The hypotheses of `C91_never_wrong`, `C91_no_cache` and `C91_complete` are met by requests of degree at most 2 that share
a file with the table of degree 2 and by requests without a cache; some of them finish. -/
example (sym : Nat → ℤ → Nat → ℤ → Nat → ℤ → ℝ) :
    let w : SharedCache CGTable CGCompressed := ⟨.corrupt, fun f => if f = 7 then .valid (cgCompress (cgTable sym 2)) else .absent,
      fun _ => 0, fun i => if i = 0 then ⟨none, 4, .start⟩ else ⟨some 7, 1, .start⟩⟩
    Generator (cgKind sym) (cgTable sym) ∧ ValidStart (cgKind sym) (cgTable sym) w ∧ (w.requests 0).path = none ∧
      (∀ i f, (w.requests i).path = some f → (w.requests i).maxDegree ≤ storedDegree (cgKind sym) (w.files f)) ∧
      ∃ res, answer (runSchedule (cgKind sym) [(3, .good), (0, .good), (2, .good), (0, .good), (0, .good)] w) 0 =
        some res := by
  intro w
  have hk := Generator.correct (Generator.clebschGordan sym)
  refine ⟨.clebschGordan sym, ⟨⟨fun c h => by simp [w] at h, fun p => ?_⟩, fun i => ?_⟩, rfl, ?_, ?_⟩
  · show ValidFile _ _ (if p = 7 then _ else _)
    split_ifs
    · exact validContent_compress hk 2
    · trivial
  · simp only [w]; split_ifs <;> rfl
  · intro i f
    by_cases h1 : i = 0
    · simp [w, h1]
    · have : (cgKind sym).degree (cgCompress (cgTable sym 2)) = 2 := hk.degree_compress 2
      simp only [w, if_neg h1]
      intro h
      have hf : f = 7 := (Option.some.inj h).symm
      simp [storedDegree, this, hf]
  · exact Option.isSome_iff_exists.mp (C91_finishes (cgKind sym) w _ 0 (by decide))

/-- The hypotheses of `C91_locked`: two processes read the empty cache, compute at the same time, and write one after the
other; the second one is not delayed by a third one with another file, and the fourth one is killed after reading. -/
example (sym : Nat → ℤ → Nat → ℤ → Nat → ℤ → ℝ) :
    let steps : List (Nat × StepChoice) :=
      [(0, .good), (1, .good), (3, .good), (0, .good), (2, .good), (0, .torn), (1, .good), (1, .good), (2, .openFails)]
    let w : SharedCache CGTable CGCompressed := ⟨.absent, fun _ => .absent, fun _ => 0,
      fun i => ⟨some (if i = 2 then 1 else 0), 2, .start⟩⟩
    ValidStart (cgKind sym) (cgTable sym) w ∧ (∀ s ∈ steps, s.2 ≠ .writeFails) ∧ Locked (cgKind sym) steps w ∧
      (runSchedule (cgKind sym) steps w).files 0 = .valid (cgCompress (cgTable sym 2)) := by
  intro steps w
  have hs : (cgKind sym).extend 0 2 ((cgKind sym).empty 2) = .ok (cgTable sym 2) :=
    (Generator.correct (Generator.clebschGordan sym)).scratch 2
  have hc : (cgKind sym).compress = cgCompress := rfl
  refine ⟨⟨⟨fun c h => by simp [w] at h, fun p => trivial⟩, fun i => rfl⟩, by decide, ?_, ?_⟩
  · simp only [steps, Locked, IsWriting]
    refine ⟨?_, ?_, ?_, ?_, ?_, ?_, ?_, ?_, ?_, trivial⟩ <;>
      · intro i f hi
        rintro ⟨hp, v, t, ht⟩
        rcases i with _ | _ | _ | _ | i <;>
          simp [w, SharedCache.advance, SharedCache.setPhase, SharedCache.setFile, readStep,
            loadLookupTableFromDisk, loadPackage, hs] at hi hp ht ⊢ <;> omega
  · simp [steps, w, runSchedule, SharedCache.advance, SharedCache.setPhase, SharedCache.setFile, readStep,
      loadLookupTableFromDisk, loadPackage, hs, hc]

end E3x
