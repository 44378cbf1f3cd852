import Verif.Spec.WorkerPool
import Verif.Props.LookupTables

/-!
# C93: generation of lookup tables with several processes, and in advance
-/

namespace E3x

open Spec

theorem flatten_drop_take {α : Type} (xs : List α) (w : Nat) :
    ∀ J, ((List.range J).map fun i => (xs.drop (i * w)).take w).flatten = xs.take (J * w) := by
  intro J
  induction J with
  | zero => simp
  | succ J ih =>
    rw [List.range_succ, List.map_append, List.flatten_append, ih, Nat.add_mul, List.take_add]
    simp

theorem poolState_eq {α β : Type} (f : α → β) (tasks : List α) (size : Nat) (finished : List Nat) (i : Nat)
    (hi : i ∈ finished) : poolState f tasks size finished i = some (((tasks.drop (i * size)).take size).map f) := by
  unfold poolState
  suffices h : ∀ (finished : List Nat) (s : Nat → Option (List β)),
      (i ∈ finished ∨ s i = some (((tasks.drop (i * size)).take size).map f)) →
      finished.foldl (fun s i => Function.update s i (some (((tasks.drop (i * size)).take size).map f))) s i =
        some (((tasks.drop (i * size)).take size).map f) from h finished _ (Or.inl hi)
  intro finished
  induction finished with
  | nil => intro s h; simpa using h
  | cons j js ih =>
    intro s h
    rw [List.foldl_cons]
    apply ih
    by_cases hij : i = j
    · right; subst hij; simp
    · rcases h with h | h
      · left
        rcases List.mem_cons.mp h with h | h
        · exact absurd h hij
        · exact h
      · right; simp [hij, h]

theorem mapM_range {β : Type} (g : Nat → Option β) (v : Nat → β) (n : Nat) (h : ∀ i < n, g i = some (v i)) :
    (List.range n).mapM g = some ((List.range n).map v) := by
  induction n with
  | zero => rfl
  | succ n ih =>
    rw [List.range_succ, List.mapM_append, ih fun i hi => h i (by omega)]
    simp [h n (by omega)]

/-- **C93 (pool).** Evaluating a function for a list of tasks gives the same list for every number of processes and every
order in which they finish. -/
theorem C93_pool {α β : Type} (finished : Nat → List Nat) (hf : AllFinish finished) (numProcesses : Nat) (f : α → β)
    (tasks : List α) : computeAll numProcesses finished f tasks = some (tasks.map f) := by
  unfold computeAll
  by_cases h : numProcesses > 1
  swap
  · rw [if_neg h]
  rw [if_pos h]
  unfold poolMap
  dsimp only
  generalize hw : chunkSize tasks.length numProcesses = w
  rw [mapM_range _ (fun i => ((tasks.drop (i * w)).take w).map f)]
  · simp only [Option.map_some, Option.some.injEq]
    have : (List.range (numChunks tasks.length numProcesses)).map (fun i => ((tasks.drop (i * w)).take w).map f) =
        ((List.range (numChunks tasks.length numProcesses)).map fun i => (tasks.drop (i * w)).take w).map (List.map f) := by
      simp
    rw [this, ← List.map_flatten, flatten_drop_take]
    congr 1
    apply List.take_of_length_le
    unfold numChunks
    rw [hw]
    rcases Nat.eq_zero_or_pos w with h0 | h0
    · have : tasks.length = 0 := by
        unfold chunkSize at hw
        subst h0
        have hm := Nat.div_add_mod tasks.length (4 * numProcesses)
        split_ifs at hw with hr
        · rw [show tasks.length / (4 * numProcesses) = 0 by omega, hr] at hm
          simpa using hm.symm
      omega
    · have := Nat.div_add_mod (tasks.length + w - 1) w
      have := Nat.mod_lt (tasks.length + w - 1) h0
      rw [Nat.mul_comm]
      omega
  · intro i hi
    exact poolState_eq f tasks w _ i (hf _ i hi)

theorem zip_map_self {α β γ : Type} (xs : List α) (f : α → β) (g : α × β → γ) :
    (xs.zip (xs.map f)).map g = xs.map fun x => g (x, f x) := by
  induction xs with
  | nil => rfl
  | cons x xs ih => simp [ih]

/-- **C93 (Clebsch-Gordan).** -/
theorem C93_clebsch_gordan (finished : Nat → List Nat) (hf : AllFinish finished) (numProcesses : Nat)
    (sym : Nat → ℤ → Nat → ℤ → Nat → ℤ → ℝ) (lstart L : Nat) (t : CGTable) :
    cgExtendPool numProcesses finished sym lstart L t = some ((cgKind sym).extend lstart L t) := by
  unfold cgExtendPool
  dsimp only
  rw [C93_pool finished hf, Option.map_some, zip_map_self]
  rfl

/-- **C93 (spherical harmonics).** -/
theorem C93_spherical_harmonics (finished : Nat → List Nat) (hf : AllFinish finished) (numProcesses : Nat)
    (sph : Nat → ℤ → Terms) (lstart L : Nat) (t : SHTable) :
    shExtendPool numProcesses finished sph lstart L t = some ((shKind sph).extend lstart L t) := by
  unfold shExtendPool
  dsimp only
  rw [C93_pool finished hf, Option.map_some, zip_map_self]
  have : (shDegreesAndOrders lstart L).map (fun x => (lmIndex x.1 x.2, sph x.1 x.2)) =
      (List.range' lstart (L + 1 - lstart)).flatMap fun l => (orders l).map fun m => (lmIndex l m, sph l m) := by
    unfold shDegreesAndOrders
    rw [List.map_flatMap]
    simp only [List.map_map]
    rfl
  rw [this]
  rfl

/-- The position of a degree and order in the list of tasks. -/
theorem degreesAndOrders_get (lstart : Nat) (k : Nat) :
    ((List.range' lstart k).flatMap fun l => (orders l).map fun m => (l, m)).length = (lstart + k) ^ 2 - lstart ^ 2 ∧
    ∀ (l : Nat) (m : ℤ), lstart ≤ l → l < lstart + k → |m| ≤ (l : ℤ) →
      ((List.range' lstart k).flatMap fun l => (orders l).map fun m => (l, m))[((l : ℤ) ^ 2 + l - (lstart : ℤ) ^ 2 + m).toNat]? =
        some (l, m) := by
  induction k with
  | zero => exact ⟨by simp, fun l m h1 h2 => by omega⟩
  | succ k ih =>
    obtain ⟨ih1, ih2⟩ := ih
    have hsplit : ((List.range' lstart (k + 1)).flatMap fun l => (orders l).map fun m => (l, m)) =
        ((List.range' lstart k).flatMap fun l => (orders l).map fun m => (l, m)) ++
          (orders (lstart + k)).map fun m => (lstart + k, m) := by
      rw [List.range'_concat, List.flatMap_append]
      simp
    have hsq : lstart ^ 2 ≤ (lstart + k) ^ 2 := Nat.pow_le_pow_left (by omega) 2
    have hsq' : (lstart + (k + 1)) ^ 2 = (lstart + k) ^ 2 + 2 * (lstart + k) + 1 := by ring
    rw [hsplit]
    refine ⟨?_, fun l m h1 h2 hm => ?_⟩
    · rw [List.length_append, ih1, List.length_map, orders_length]
      omega
    · rcases Nat.lt_or_ge l (lstart + k) with h | h
      · have := ih2 l m h1 h hm
        rw [List.getElem?_append_left]
        · exact this
        · exact (List.getElem?_eq_some_iff.mp this).1
      · have hl : l = lstart + k := by omega
        subst hl
        rw [abs_le] at hm
        have hidx : (((lstart + k : ℕ) : ℤ) ^ 2 + ((lstart + k : ℕ) : ℤ) - (lstart : ℤ) ^ 2 + m).toNat =
            ((lstart + k) ^ 2 - lstart ^ 2) + (((lstart + k : ℕ) : ℤ) + m).toNat := by
          have e : (((lstart + k : ℕ) : ℤ) ^ 2 - (lstart : ℤ) ^ 2) = (((lstart + k) ^ 2 - lstart ^ 2 : ℕ) : ℤ) := by
            rw [Nat.cast_sub hsq]; push_cast; ring
          omega
        rw [hidx, List.getElem?_append_right (by rw [ih1]; omega), ih1, Nat.add_sub_cancel_left]
        have hlt : (((lstart + k : ℕ) : ℤ) + m).toNat < 2 * (lstart + k) + 1 := by omega
        simp only [orders, List.map_map, List.getElem?_map, List.getElem?_range hlt, Option.map_some, Function.comp]
        congr 2
        omega

theorem mapM_some {α β : Type} (xs : List α) (g : α → Option β) (v : α → β) (h : ∀ x ∈ xs, g x = some (v x)) :
    xs.mapM g = some (xs.map v) := by
  induction xs with
  | nil => rfl
  | cons x xs ih =>
    rw [List.mapM_cons, h x (List.mem_cons_self ..), ih fun y hy => h y (List.mem_cons_of_mem _ hy)]
    rfl

theorem mem_orders_abs {l : Nat} {m : ℤ} (h : m ∈ orders l) : |m| ≤ (l : ℤ) := by
  simp only [orders, List.mem_map, List.mem_range] at h
  obtain ⟨k, hk, rfl⟩ := h
  rw [abs_le]
  omega

/-- **C93 (Wigner-D).** Every entry is computed from the spherical harmonics of its degree and orders, though they are looked
up by positions in a list that starts at degree `lstart`. -/
theorem C93_wigner_d {P Q : Type} (finished : Nat → List Nat) (hf : AllFinish finished) (numProcesses : Nat)
    (sph : Nat → ℤ → P) (rotate : P → Q) (dot : P → Q → Terms) (lstart L : Nat) (t : WDTable) :
    wdExtendPool numProcesses finished sph rotate dot lstart L t =
      some ((wdKind fun l mrot msph => dot (sph l msph) (rotate (sph l mrot))).extend lstart L t) := by
  unfold wdExtendPool
  rw [C93_pool finished hf]
  dsimp only
  rw [C93_pool finished hf]
  dsimp only
  have hget : ∀ {γ : Type} (g : Nat × ℤ → γ) (l : Nat) (m : ℤ), lstart ≤ l → l < lstart + (L + 1 - lstart) → |m| ≤ (l : ℤ) →
      pyGet ((shDegreesAndOrders lstart L).map g) ((l : ℤ) ^ 2 + l - (lstart : ℤ) ^ 2 + m) = some (g (l, m)) := by
    intro γ g l m h1 h2 h3
    unfold pyGet
    have h4 := abs_le.mp h3
    have hpos : 0 ≤ (l : ℤ) ^ 2 + l - (lstart : ℤ) ^ 2 + m := by
      have : (lstart : ℤ) ^ 2 ≤ (l : ℤ) ^ 2 := by
        have : lstart ^ 2 ≤ l ^ 2 := Nat.pow_le_pow_left h1 2
        exact_mod_cast this
      omega
    rw [if_pos hpos, List.getElem?_map]
    unfold shDegreesAndOrders
    rw [(degreesAndOrders_get lstart (L + 1 - lstart)).2 l m h1 h2 h3]
    rfl
  have hpairs : polynomialPairs lstart L ((shDegreesAndOrders lstart L).map fun x => sph x.1 x.2)
      (((shDegreesAndOrders lstart L).map fun x => sph x.1 x.2).map rotate) =
      some (((List.range' lstart (L + 1 - lstart)).flatMap fun l =>
        (orders l).flatMap fun mrot => (orders l).map fun msph => (l, mrot, msph)).map fun x =>
        (sph x.1 x.2.2, rotate (sph x.1 x.2.1))) := by
    unfold polynomialPairs
    apply mapM_some
    rintro ⟨l, mrot, msph⟩ hx
    simp only [List.mem_flatMap, List.mem_map, List.mem_range'_1, Prod.mk.injEq] at hx
    obtain ⟨l', hl, mrot', h1, msph', h2, rfl, rfl, rfl⟩ := hx
    dsimp only
    rw [hget (fun x => sph x.1 x.2) l' msph' hl.1 hl.2 (mem_orders_abs h2), List.map_map,
      hget (rotate ∘ fun x => sph x.1 x.2) l' mrot' hl.1 hl.2 (mem_orders_abs h1)]
    rfl
  rw [hpairs]
  dsimp only
  rw [C93_pool finished hf]
  dsimp only
  have hentries : (((List.range' lstart (L + 1 - lstart)).flatMap fun l =>
        (orders l).flatMap fun mrot => (orders l).map fun msph => (l, mrot, msph)).map fun x =>
        (sph x.1 x.2.2, rotate (sph x.1 x.2.1))).map (fun x => dot x.1 x.2) =
      wdEntries (fun l mrot msph => dot (sph l msph) (rotate (sph l mrot))) lstart L := by
    unfold wdEntries
    simp only [List.map_map, List.map_flatMap]
    rfl
  rw [hentries]
  unfold wdKind wdExtend
  dsimp only
  generalize storeTerms _ _ _ = x
  cases x <;> rfl

/-- **C93 (tensor conversion).** -/
theorem C93_tensor_conversion {M : Type} (finished : Nat → List Nat) (hf : AllFinish finished) (numProcesses : Nat)
    (conv : Nat → M × M) (lstart L : Nat) (t : TCTable M) :
    tcExtendPool numProcesses finished conv lstart L t = some ((tcKind conv).extend lstart L t) := by
  unfold tcExtendPool
  rw [C93_pool finished hf, Option.map_some]
  have h : ∀ (new : List (M × M)) (t : TCTable M),
      new.foldl (fun t p => (⟨t.maxDegree, t.s2t ++ [p.1], t.t2s ++ [p.2]⟩ : TCTable M)) t =
        ⟨t.maxDegree, t.s2t ++ new.map (·.1), t.t2s ++ new.map (·.2)⟩ := by
    intro new
    induction new with
    | nil => intro t; simp
    | cons p new ih => intro t; rw [List.foldl_cons, ih]; simp
  rw [h]
  rfl

/-- Non-vacuity: chunks that finish in reverse order; twenty tasks and two processes have seven chunks of three tasks. -/
example : AllFinish (fun n => (List.range n).reverse) ∧ chunkSize 20 2 = 3 ∧ numChunks 20 2 = 7 :=
  ⟨fun n i hi => by simpa using hi, by decide, by decide⟩

/-- If a worker is lost, the call does not return; it never returns a shorter or shifted list. -/
example : poolMap (fun x : Nat => x) [0, 1, 2, 3, 4, 5, 6, 7, 8, 9] 2 (fun _ => [0, 1, 3, 4]) = none := by decide

variable {T C : Type} {kind : LutKind T C} {table : Nat → T}

theorem readOnly_generate (hk : LutCorrect kind table) {disk : Disk C} (hd : ValidDisk kind table disk) (L : Nat)
    (hsup : ∃ r, loadLookupTableFromDisk disk (kind.load L) (kind.empty L) = .ok r ∧ (L : ℤ) ≤ r.1) (o : SaveOutcome) :
    generateLookupTable (readOnly kind) L o disk = (disk, .ok (table L)) := by
  obtain ⟨r, h1, h2⟩ := hsup
  obtain ⟨r', h3, h4, -⟩ := goodLoad_disk hk hd L
  rw [h1] at h3
  injection h3 with h3
  subst h3
  unfold generateLookupTable
  rw [if_neg (by omega)]
  simp only [Int.toNat_natCast]
  rw [show (readOnly kind).load L = kind.load L from rfl, show (readOnly kind).empty L = kind.empty L from rfl, h1]
  dsimp only
  rw [if_pos h2]
  rcases h4.2 with h | h
  · rw [h.2]
  · omega

/-- Where the table for a smaller degree comes from does not depend on the degree. -/
theorem load_degree (hk : LutCorrect kind table) {disk : Disk C} (hd : ValidDisk kind table disk) (L M : Nat)
    (r : ℤ × T) (h : loadLookupTableFromDisk disk (kind.load L) (kind.empty L) = .ok r) :
    ∃ r', loadLookupTableFromDisk disk (kind.load M) (kind.empty M) = .ok r' ∧ r'.1 = r.1 := by
  have hp : ∀ r, loadPackage disk.package (kind.load L) (kind.empty L) = .ok r →
      ∃ r', loadPackage disk.package (kind.load M) (kind.empty M) = .ok r' ∧ r'.1 = r.1 := by
    intro r hr
    cases hpk : disk.package with
    | absent => rw [hpk] at hr; injection hr with hr; exact ⟨_, rfl, by rw [← hr]⟩
    | corrupt => rw [hpk] at hr; injection hr with hr; exact ⟨_, rfl, by rw [← hr]⟩
    | valid c =>
      obtain ⟨a, ha, -, ha'⟩ := goodLoad_content hk (hd.1 c hpk) L
      obtain ⟨b, hb, -, hb'⟩ := goodLoad_content hk (hd.1 c hpk) M
      rw [hpk] at hr
      simp only [loadPackage, ha] at hr
      injection hr with hr
      exact ⟨b, by simp [loadPackage, hb], by rw [hb', ← hr, ha']⟩
  unfold loadLookupTableFromDisk at h ⊢
  cases hc : disk.config with
  | none => rw [hc] at h; exact hp r h
  | some p =>
    rw [hc] at h
    dsimp only at h ⊢
    have hv := hd.2 p
    cases hf : disk.files p with
    | absent => rw [hf] at h; exact hp r h
    | corrupt => rw [hf] at hv; exact hv.elim
    | valid c =>
      rw [hf] at h hv
      dsimp only at h ⊢
      obtain ⟨a, ha, -, ha'⟩ := goodLoad_content hk hv L
      obtain ⟨b, hb, -, hb'⟩ := goodLoad_content hk hv M
      rw [ha] at h
      injection h with h
      exact ⟨b, hb, by rw [hb', ← h, ha']⟩

theorem generate_load (hk : LutCorrect kind table) {disk : Disk C} (hd : ValidDisk kind table disk) (L : Nat) (path : Nat)
    (hc : disk.config = some path) :
    ∃ r, loadLookupTableFromDisk (generateLookupTable kind L .success disk).1 (kind.load L) (kind.empty L) = .ok r ∧
      (L : ℤ) ≤ r.1 := by
  obtain ⟨r, h1, h2, -⟩ := goodLoad_disk hk hd L
  unfold generateLookupTable
  rw [if_neg (by omega)]
  simp only [Int.toNat_natCast, h1]
  rcases h2.2 with ⟨h3, -⟩ | ⟨h3, h4⟩
  · rw [if_pos h3]
    exact ⟨r, h1, h3⟩
  · rw [if_neg (by omega), h4]
    dsimp only
    obtain ⟨b, hb, -, hb'⟩ := goodLoad_content hk (validContent_compress hk L) L
    refine ⟨b, ?_, ?_⟩
    · simp [saveLookupTableToDisk, hc, loadLookupTableFromDisk, hb]
    · rw [hb', hk.degree_compress]; omega

/-- **C93 (in advance).** After a table has been generated with `python -m ... --max_degree L --path p`, all programs that
configure this cache get the specified table for every degree up to `L` without computing anything, and without writing. -/
theorem C93_pregenerated (hg : Generator kind table) (disk : Disk C) (hd : ValidDisk kind table disk) (L M : Nat)
    (hM : M ≤ L) (path : Nat) (outcome : SaveOutcome) :
    let disk' := { (pregenerate kind L path .success disk).1 with config := some path }
    (pregenerate kind L path .success disk).2 = .ok (table L) ∧
      generateLookupTable (readOnly kind) M outcome disk' = (disk', .ok (table M)) := by
  have hk := Generator.correct hg
  have hd' : ValidDisk kind table { disk with config := some path } := hd
  have hcfg : (generateLookupTable kind L .success { disk with config := some path }).1.config = some path := by
    obtain ⟨-, h | ⟨h, -⟩⟩ := generate_spec hk hd' L .success
    · rw [h]
    · rw [h]; rfl
  have hsame : { (pregenerate kind L path .success disk).1 with config := some path } =
      (generateLookupTable kind L .success { disk with config := some path }).1 := by
    unfold pregenerate
    generalize generateLookupTable kind L .success { disk with config := some path } = g at hcfg ⊢
    obtain ⟨⟨pk, fs, cf⟩, res⟩ := g
    dsimp only at hcfg ⊢
    rw [hcfg]
  intro disk'
  refine ⟨(generate_spec hk hd' L .success).1, ?_⟩
  show generateLookupTable (readOnly kind) M outcome
    { (pregenerate kind L path .success disk).1 with config := some path } =
    ({ (pregenerate kind L path .success disk).1 with config := some path }, _)
  rw [hsame]
  have hv : ValidDisk kind table (generateLookupTable kind L .success { disk with config := some path }).1 :=
    generate_valid hk hd' L .success (by simp)
  obtain ⟨r, h1, h2⟩ := generate_load hk hd' L path rfl
  obtain ⟨r', h3, h4⟩ := load_degree hk hv L M r h1
  exact readOnly_generate hk hv M ⟨r', h3, by rw [h4]; omega⟩ outcome

/-- **C93 (in the package).** The same without `--path` and for programs without a configured cache, if the file of the
package is absent or valid. -/
theorem C93_pregenerated_package (hg : Generator kind table) (disk : Disk C) (hd : ValidDisk kind table disk)
    (hp : disk.package ≠ .corrupt) (L M : Nat) (hM : M ≤ L) (outcome : SaveOutcome) :
    let disk' := { (pregeneratePackage kind L .success disk).1 with config := none }
    (pregeneratePackage kind L .success disk).2 = .ok (table L) ∧
      generateLookupTable (readOnly kind) M outcome disk' = (disk', .ok (table M)) := by
  have hk := Generator.correct hg
  have hfile : ValidFile kind table disk.package := by
    cases h : disk.package with
    | absent => trivial
    | corrupt => exact absurd h hp
    | valid c => exact hd.1 c h
  have hd' : ValidDisk kind table ⟨disk.package, fun _ => disk.package, some 0⟩ := ⟨hd.1, fun _ => hfile⟩
  have hv := generate_valid hk hd' L .success (by simp)
  intro disk'
  refine ⟨(generate_spec hk hd' L .success).1, ?_⟩
  have hvd : ValidDisk kind table disk' := by
    refine ⟨fun c hc => ?_, hd.2⟩
    have := hv.2 0
    have hc' : (generateLookupTable kind L .success ⟨disk.package, fun _ => disk.package, some 0⟩).1.files 0 = .valid c := hc
    rw [hc'] at this
    exact this
  obtain ⟨r, h1, h2⟩ := generate_load hk hd' L 0 rfl
  -- the file of the package now contains the table
  have hload : loadLookupTableFromDisk disk' (kind.load L) (kind.empty L) = .ok r := by
    have hcfg : (generateLookupTable kind L .success ⟨disk.package, fun _ => disk.package, some 0⟩).1.config = some 0 := by
      obtain ⟨-, h | ⟨h, -⟩⟩ := generate_spec hk hd' L .success
      · rw [h]
      · rw [h]; rfl
    have hpk : (generateLookupTable kind L .success ⟨disk.package, fun _ => disk.package, some 0⟩).1.package =
        disk.package := (generate_package ..).1
    show loadPackage ((generateLookupTable kind L .success ⟨disk.package, fun _ => disk.package, some 0⟩).1.files 0) _ _ = _
    unfold loadLookupTableFromDisk at h1
    rw [hcfg] at h1
    dsimp only at h1
    have hvf := hv.2 0
    cases hf : (generateLookupTable kind L .success ⟨disk.package, fun _ => disk.package, some 0⟩).1.files 0 with
    | absent =>
      -- nothing was written, so the file of the package is absent as well
      rw [hf] at h1
      dsimp only at h1
      rw [hpk] at h1
      obtain ⟨-, h | ⟨h, -⟩⟩ := generate_spec hk hd' L .success
      · rw [h] at hf
        have hf' : disk.package = .absent := hf
        rw [hf'] at h1
        exact h1
      · rw [h] at hf
        simp [saveLookupTableToDisk] at hf
    | corrupt => rw [hf] at hvf; exact hvf.elim
    | valid c =>
      rw [hf] at h1
      dsimp only at h1
      simp only [loadPackage, h1]
  obtain ⟨r', h3, h4⟩ := load_degree hk hvd L M r hload
  exact readOnly_generate hk hvd M ⟨r', h3, by rw [h4]; omega⟩ outcome

/-- **C93 fails for damaged packages.** Programs tolerate a damaged file of the package (C33), but the program that would
generate it again raises, and changes nothing. -/
theorem C93_damaged_package (kind : LutKind T C) (disk : Disk C) (hp : disk.package = .corrupt) (L : Nat)
    (outcome : SaveOutcome) : pregeneratePackage kind L outcome disk = (disk, .error .badZipFile) := by
  obtain ⟨pk, fs, cf⟩ := disk
  dsimp only at hp
  subst hp
  unfold pregeneratePackage generateLookupTable loadLookupTableFromDisk
  simp only
  rw [if_neg (by omega)]

/-- **C93 (nothing to do).** If the file of the package contains the degree, `--path p` does not create the file `p`. -/
theorem C93_no_file (hg : Generator kind table) (disk : Disk C) (hd : ValidDisk kind table disk) (L : Nat) (path : Nat)
    (hf : disk.files path = .absent) (hL : (L : ℤ) ≤ storedDegree kind disk.package) (outcome : SaveOutcome) :
    (pregenerate kind L path outcome disk).1.files path = .absent := by
  have hk := Generator.correct hg
  cases hp : disk.package with
  | absent => rw [hp] at hL; simp [storedDegree] at hL; omega
  | corrupt => rw [hp] at hL; simp [storedDegree] at hL; omega
  | valid c =>
    obtain ⟨r, h1, h2, h3⟩ := goodLoad_content hk (hd.1 c hp) L
    rw [hp] at hL
    have hL' : (L : ℤ) ≤ r.1 := by rw [h3]; exact hL
    unfold pregenerate generateLookupTable loadLookupTableFromDisk
    rw [if_neg (by omega)]
    simp only [hf, hp, loadPackage, Int.toNat_natCast, h1]
    rw [if_pos hL']
    exact hf

/-- The hypotheses of the theorems about pregenerated tables are met: a package with degree 2, and a cache file that does not
exist; degrees 2 (nothing to do) and 4 are generated. -/
example (sym : Nat → ℤ → Nat → ℤ → Nat → ℤ → ℝ) :
    let disk : Disk CGCompressed := ⟨.valid (cgCompress (cgTable sym 2)), fun _ => .absent, none⟩
    ValidDisk (cgKind sym) (cgTable sym) disk ∧ disk.package ≠ .corrupt ∧ disk.files 5 = .absent ∧
      ((2 : Nat) : ℤ) ≤ storedDegree (cgKind sym) disk.package ∧
      (pregenerate (cgKind sym) (2 : Nat) 5 .success disk).1.files 5 = .absent ∧
      (pregenerate (cgKind sym) (4 : Nat) 5 .success disk).2 = .ok (cgTable sym 4) := by
  intro disk
  have hg := Generator.clebschGordan sym
  have hk := Generator.correct hg
  have hd : ValidDisk (cgKind sym) (cgTable sym) disk := by
    refine ⟨fun c h => ?_, fun _ => trivial⟩
    have : cgCompress (cgTable sym 2) = c := by
      injection h
    rw [← this]
    exact validContent_compress hk 2
  have h2 : ((2 : Nat) : ℤ) ≤ storedDegree (cgKind sym) disk.package := by
    have : (cgKind sym).degree (cgCompress (cgTable sym 2)) = (2 : Nat) := hk.degree_compress 2
    simp only [disk, storedDegree, this]
    omega
  exact ⟨hd, by simp [disk], rfl, h2, C93_no_file hg disk hd 2 5 rfl h2 .success,
    (C93_pregenerated hg disk hd 4 4 (by omega) 5 .success).1⟩

end E3x
