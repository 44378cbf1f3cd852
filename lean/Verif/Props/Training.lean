import Verif.Spec.Training
import Verif.Props.Forces
import Verif.Props.Pairwise

/-!
# C65: batches of data and reported losses
-/

namespace E3x

open Spec

/-! ### Lists -/

theorem getD_flatten {α : Type} (n : ℕ) (d : α) : ∀ (l : List (List α)), (∀ x ∈ l, x.length = n) → ∀ s i, i < n →
    l.flatten.getD (s * n + i) d = (l.getD s []).getD i d
  | [], _, s, i, _ => by simp
  | x :: l, h, 0, i, hi => by
    have hx := h x (by simp)
    rw [List.flatten_cons, List.getD_append _ _ _ _ (by omega)]
    simp
  | x :: l, h, s + 1, i, hi => by
    have hx := h x (by simp)
    rw [List.flatten_cons, List.getD_append_right _ _ _ _ (by rw [hx, Nat.add_mul]; omega)]
    have e : (s + 1) * n + i - x.length = s * n + i := by rw [hx, Nat.add_mul]; omega
    rw [e, getD_flatten n d l (fun y hy => h y (by simp [hy])) s i hi]
    simp

theorem length_flatten_const {α : Type} (n : ℕ) : ∀ (l : List (List α)), (∀ x ∈ l, x.length = n) → l.flatten.length = l.length * n
  | [], _ => by simp
  | x :: l, h => by
    rw [List.flatten_cons, List.length_append, length_flatten_const n l fun y hy => h y (by simp [hy]), h x (by simp),
      List.length_cons, Nat.add_mul]
    omega

theorem getD_takeRows {α : Type} [Inhabited α] (x : List α) (p : List ℕ) (s : ℕ) (hs : s < p.length) :
    (takeRows x p).getD s default = x.getD (p.getD s 0) default := by
  unfold takeRows
  rw [List.getD_eq_getElem _ _ (by simpa using hs), List.getElem_map, List.getD_eq_getElem p _ hs]

theorem length_takeRows {α : Type} [Inhabited α] (x : List α) (p : List ℕ) : (takeRows x p).length = p.length := by
  simp [takeRows]

theorem mem_takeRows {α : Type} [Inhabited α] {x : List α} {p : List ℕ} (h : ∀ i ∈ p, i < x.length) {a : α} (ha : a ∈ takeRows x p) :
    a ∈ x := by
  unfold takeRows at ha
  obtain ⟨i, hi, rfl⟩ := List.mem_map.1 ha
  rw [List.getD_eq_getElem _ _ (h i hi)]
  exact List.getElem_mem _

/-! ### Data sets -/

theorem wellFormed_select {data : Dataset} {N n : ℕ} (h : WellFormedData data N n) {c : List ℕ} (hc : ∀ p ∈ c, p < N) (shift : ℝ) :
    WellFormedData ⟨(takeRows data.energy c).map (· - shift), takeRows data.forces c, data.atomicNumbers, takeRows data.positions c⟩
      c.length n where
  energy := by simp [length_takeRows]
  forces := by simp [length_takeRows]
  positions := by simp [length_takeRows]
  numbers := h.numbers
  forces_atoms f hf := h.forces_atoms f (mem_takeRows (fun i hi => by rw [h.forces]; exact hc i hi) hf)
  positions_atoms f hf := h.positions_atoms f (mem_takeRows (fun i hi => by rw [h.positions]; exact hc i hi) hf)

/-- The data points of a selection. -/
theorem select_points {data : Dataset} {c : List ℕ} (shift : ℝ) (n q : ℕ) (hq : q < c.length) :
    let sel : Dataset := ⟨(takeRows data.energy c).map (· - shift), takeRows data.forces c, data.atomicNumbers, takeRows data.positions c⟩
    targetEnergy sel q = targetEnergy data c[q] - shift ∧ (targetForces sel q : Fin n → Fin 3 → ℝ) = targetForces data c[q] ∧
      (dataPositions sel q : Fin n → Fin 3 → ℝ) = dataPositions data c[q] := by
  intro sel
  have e : c.getD q 0 = c[q] := List.getD_eq_getElem _ _ hq
  refine ⟨?_, ?_, ?_⟩
  · have := getD_takeRows data.energy c q hq
    rw [e] at this
    unfold targetEnergy
    show ((takeRows data.energy c).map (· - shift)).getD q 0 = _
    rw [List.getD_eq_getElem _ _ (by simpa [length_takeRows] using hq), List.getElem_map]
    rw [List.getD_eq_getElem _ _ (by simpa [length_takeRows] using hq)] at this
    rw [this]
    rfl
  · have := getD_takeRows data.forces c q hq
    rw [e] at this
    unfold targetForces
    funext i
    show ((takeRows data.forces c).getD q []).getD i 0 = _
    exact congrArg (fun l => l.getD (i : ℕ) 0) this
  · have := getD_takeRows data.positions c q hq
    rw [e] at this
    unfold dataPositions
    funext i
    show ((takeRows data.positions c).getD q []).getD i 0 = _
    exact congrArg (fun l => l.getD (i : ℕ) 0) this

theorem sum_sub_const (l : List ℝ) (c : ℝ) : (l.map (· - c)).sum = l.sum - l.length * c := by
  induction l with
  | nil => simp
  | cons a l ih =>
    simp only [List.map_cons, List.sum_cons, ih, List.length_cons]
    push_cast
    ring

/-- **C65 (data sets).** `prepare_datasets` raises an exception if more data points are requested than there are. Otherwise it
returns data sets of the requested sizes that have no data point in common, contain no data point twice, and keep energies, forces
and positions of the same data point together; the mean energy of the training set is subtracted from all energies, so the
energies of the training set sum up to zero. -/
theorem C65_datasets (data : Dataset) (N n : ℕ) (h : WellFormedData data N n) (numTrain numValid : ℕ) (choice : List ℕ) :
    (N < numTrain + numValid → prepareDatasets data choice numTrain numValid = .error .runtimeError) ∧
    (numTrain + numValid ≤ N → choice.length = numTrain + numValid → choice.Nodup → (∀ p ∈ choice, p < N) →
      ∃ train valid mean t v, prepareDatasets data choice numTrain numValid = .ok (train, valid, mean) ∧
      WellFormedData train numTrain n ∧ WellFormedData valid numValid n ∧ train.atomicNumbers = data.atomicNumbers ∧
      valid.atomicNumbers = data.atomicNumbers ∧ (t ++ v).Nodup ∧ t.length = numTrain ∧ v.length = numValid ∧
      mean = meanOver t (targetEnergy data) ∧ train.energy.sum = 0 ∧
      (∀ q (hq : q < t.length), targetEnergy train q = targetEnergy data t[q] - mean ∧
        (targetForces train q : Fin n → Fin 3 → ℝ) = targetForces data t[q] ∧
        (dataPositions train q : Fin n → Fin 3 → ℝ) = dataPositions data t[q]) ∧
      ∀ q (hq : q < v.length), targetEnergy valid q = targetEnergy data v[q] - mean ∧
        (targetForces valid q : Fin n → Fin 3 → ℝ) = targetForces data v[q] ∧
        (dataPositions valid q : Fin n → Fin 3 → ℝ) = dataPositions data v[q]) := by
  unfold prepareDatasets
  dsimp only
  rw [h.energy]
  refine ⟨fun hN => by rw [if_pos hN], fun hN hlen hnodup hlt => ?_⟩
  rw [if_neg (by omega)]
  have lt : (choice.take numTrain).length = numTrain := by simp; omega
  have lv : (choice.drop numTrain).length = numValid := by simp; omega
  refine ⟨_, _, _, choice.take numTrain, choice.drop numTrain, rfl, ?_, ?_, rfl, rfl, ?_, lt, lv, ?_, ?_, ?_, ?_⟩
  · have := wellFormed_select h (c := choice.take numTrain) (fun p hp => hlt p (List.mem_of_mem_take hp))
      (listMean (takeRows data.energy (choice.take numTrain)))
    rw [lt] at this
    exact this
  · have := wellFormed_select h (c := choice.drop numTrain) (fun p hp => hlt p (List.mem_of_mem_drop hp))
      (listMean (takeRows data.energy (choice.take numTrain)))
    rw [lv] at this
    exact this
  · rw [List.take_append_drop]
    exact hnodup
  · unfold listMean meanOver
    rw [length_takeRows]
    rfl
  · dsimp only
    rw [sum_sub_const]
    unfold listMean
    by_cases h0 : (takeRows data.energy (choice.take numTrain)).length = 0
    · rw [List.length_eq_zero_iff.1 h0]
      simp
    · have : ((takeRows data.energy (choice.take numTrain)).length : ℝ) ≠ 0 := by exact_mod_cast h0
      field_simp
      ring
  · intro q hq
    exact select_points _ n q hq
  · intro q hq
    exact select_points _ n q hq

/-! ### Running means -/

theorem running_mean_step (m x s : ℝ) (i : ℕ) (h : m * i = s) : (m + (x - m) / (i + 1)) * ((i + 1 : ℕ) : ℝ) = s + x := by
  have : ((i : ℝ) + 1) ≠ 0 := by positivity
  push_cast
  field_simp
  rw [← h]
  ring

theorem epoch_sums {S : Type} (step : S → Batch → Except Err (S × ℝ × ℝ × ℝ)) (batches : List Batch) :
    ∀ (i : ℕ) (state state' : S) (means out sums : ℝ × ℝ × ℝ), epochLoop step i state means batches = .ok (state', out) →
      means.1 * i = sums.1 → means.2.1 * i = sums.2.1 → means.2.2 * i = sums.2.2 →
      ∃ losses, Steps step state batches losses state' ∧ losses.length = batches.length ∧
        out.1 * ((i + batches.length : ℕ) : ℝ) = sums.1 + (losses.map fun l => l.1).sum ∧
        out.2.1 * ((i + batches.length : ℕ) : ℝ) = sums.2.1 + (losses.map fun l => l.2.1).sum ∧
        out.2.2 * ((i + batches.length : ℕ) : ℝ) = sums.2.2 + (losses.map fun l => l.2.2).sum := by
  induction batches with
  | nil =>
    intro i state state' means out sums h h1 h2 h3
    obtain ⟨rfl, rfl⟩ := Prod.mk.inj (Except.ok.inj h)
    refine ⟨[], .nil _, rfl, ?_, ?_, ?_⟩ <;> simp [h1, h2, h3]
  | cons b bs ih =>
    intro i state state' means out sums h h1 h2 h3
    unfold epochLoop at h
    cases hs : step state b with
    | error e => rw [hs] at h; cases h
    | ok r =>
      rw [hs] at h
      obtain ⟨s1, l1, l2, l3⟩ := r
      dsimp only at h
      obtain ⟨losses, t1, t2, t3, t4, t5⟩ := ih (i + 1) s1 state' _ out (sums.1 + l1, sums.2.1 + l2, sums.2.2 + l3) h
        (running_mean_step _ _ _ _ h1) (running_mean_step _ _ _ _ h2) (running_mean_step _ _ _ _ h3)
      refine ⟨(l1, l2, l3) :: losses, .cons hs t1, by simp [t2], ?_, ?_, ?_⟩
      · rw [show i + (b :: bs).length = i + 1 + bs.length from by simp; omega, t3]
        simp [add_assoc]
      · rw [show i + (b :: bs).length = i + 1 + bs.length from by simp; omega, t4]
        simp [add_assoc]
      · rw [show i + (b :: bs).length = i + 1 + bs.length from by simp; omega, t5]
        simp [add_assoc]

/-- **C65 (running means).** The loss and the errors reported for an epoch are the means of the values of all its batches. -/
theorem C65_running_mean {S : Type} (step : S → Batch → Except Err (S × ℝ × ℝ × ℝ)) (batches : List Batch) (hb : batches ≠ [])
    (state state' : S) (out : ℝ × ℝ × ℝ) (h : epochLoop step 0 state (0, 0, 0) batches = .ok (state', out)) :
    ∃ losses, Steps step state batches losses state' ∧ losses.length = batches.length ∧
      out = (listMean (losses.map fun l => l.1), listMean (losses.map fun l => l.2.1), listMean (losses.map fun l => l.2.2)) := by
  obtain ⟨losses, h1, h2, h3, h4, h5⟩ := epoch_sums step batches 0 state state' (0, 0, 0) out (0, 0, 0) h (by simp) (by simp) (by simp)
  refine ⟨losses, h1, h2, ?_⟩
  have hpos : ((0 + batches.length : ℕ) : ℝ) ≠ 0 := by
    have : 0 < batches.length := List.length_pos_iff.2 hb
    exact_mod_cast (by omega)
  have e : ((losses.length : ℕ) : ℝ) = ((0 + batches.length : ℕ) : ℝ) := by rw [h2]; simp
  refine Prod.ext ?_ (Prod.ext ?_ ?_)
  · dsimp only
    unfold listMean
    rw [List.length_map, e, eq_div_iff hpos, h3]
    simp
  · dsimp only
    unfold listMean
    rw [List.length_map, e, eq_div_iff hpos, h4]
    simp
  · dsimp only
    unfold listMean
    rw [List.length_map, e, eq_div_iff hpos, h5]
    simp

/-- **C65 (running means, exceptions).** An epoch raises an exception if and only if one of its steps does. -/
theorem C65_epoch_error {S : Type} (step : S → Batch → Except Err (S × ℝ × ℝ × ℝ)) (batches : List Batch) (i : ℕ) (state : S)
    (means : ℝ × ℝ × ℝ) :
    (∃ out, epochLoop step i state means batches = .ok out) ↔ ∃ losses state', Steps step state batches losses state' := by
  induction batches generalizing i state means with
  | nil => exact ⟨fun _ => ⟨[], state, .nil _⟩, fun _ => ⟨_, rfl⟩⟩
  | cons b bs ih =>
    unfold epochLoop
    cases hs : step state b with
    | error e =>
      refine ⟨fun ⟨out, h⟩ => (by cases h), fun ⟨losses, state', h⟩ => ?_⟩
      cases h with
      | cons h1 _ => rw [hs] at h1; cases h1
    | ok r =>
      obtain ⟨s1, l1, l2, l3⟩ := r
      dsimp only
      rw [ih]
      constructor
      · rintro ⟨losses, state', h⟩
        exact ⟨_, state', .cons hs h⟩
      · rintro ⟨losses, state', h⟩
        cases h with
        | cons h1 h2 =>
          rw [hs] at h1
          obtain ⟨rfl, -⟩ := Prod.mk.inj (Except.ok.inj h1)
          exact ⟨_, state', h2⟩

/-! ### Batches -/

theorem flatten_chunks {α : Type} (xs : List α) (w : ℕ) : ∀ J, ((List.range J).map fun i => (xs.drop (i * w)).take w).flatten =
    xs.take (J * w)
  | 0 => by simp
  | J + 1 => by
    rw [List.range_succ, List.map_append, List.flatten_append, flatten_chunks xs w J, Nat.add_mul, List.take_add]
    simp

theorem reshapeRows_spec {α : Type} (xs : List α) (J B : ℕ) (h : xs.length = J * B) :
    (reshapeRows xs J).flatten = xs ∧ (reshapeRows xs J).length = J ∧ ∀ p ∈ reshapeRows xs J, p.length = B := by
  unfold reshapeRows
  rcases Nat.eq_zero_or_pos J with rfl | hJ
  · have : xs = [] := List.length_eq_zero_iff.1 (by omega)
    subst this
    simp
  · have hw : xs.length / J = B := by rw [h, Nat.mul_div_cancel_left _ hJ]
    rw [hw]
    refine ⟨?_, by simp, fun p hp => ?_⟩
    · rw [flatten_chunks, ← h, List.take_length]
    · obtain ⟨i, hi, rfl⟩ := List.mem_map.1 hp
      rw [List.mem_range] at hi
      rw [List.length_take, List.length_drop, h]
      have : (i + 1) * B ≤ J * B := Nat.mul_le_mul_right _ hi
      rw [Nat.add_mul] at this
      omega

theorem zip_flatMap {α β : Type} (l : List α) (f g : α → List β) (h : ∀ a, (f a).length = (g a).length) :
    (l.flatMap f).zip (l.flatMap g) = l.flatMap fun a => (f a).zip (g a) := by
  induction l with
  | nil => rfl
  | cons a l ih => rw [List.flatMap_cons, List.flatMap_cons, List.flatMap_cons, List.zip_append (h a), ih]

/-- The edges of a batch. -/
theorem batch_edges (n B : ℕ) (hn : 0 < n) (x y : ℕ) :
    ((((List.range B).map (· * n)).flatMap fun o => ((allPairs n true).map Prod.fst).map (· + o)).zip
      (((List.range B).map (· * n)).flatMap fun o => ((allPairs n true).map Prod.snd).map (· + o))).count (x, y) =
      if x < B * n ∧ y < B * n ∧ x ≠ y ∧ x / n = y / n then 1 else 0 := by
  rw [zip_flatMap _ _ _ fun o => by simp]
  have e : (((List.range B).map (· * n)).flatMap fun o =>
      (((allPairs n true).map Prod.fst).map (· + o)).zip (((allPairs n true).map Prod.snd).map (· + o))) =
      (List.range B).flatMap fun s => (allPairs n true).map fun p => (p.1 + s * n, p.2 + s * n) := by
    rw [List.flatMap_map]
    congr 1
    funext s
    rw [List.map_map, List.map_map, List.zip_map']
    rfl
  rw [e]
  have hdiv : ∀ s i, i < n → (i + s * n) / n = s := fun s i hi => by
    rw [Nat.add_mul_div_right _ _ hn, Nat.div_eq_of_lt hi, zero_add]
  have hnodup : ((List.range B).flatMap fun s => (allPairs n true).map fun p => (p.1 + s * n, p.2 + s * n)).Nodup := by
    rw [List.nodup_flatMap]
    refine ⟨fun s _ => (nodup_allPairs n true).map fun p q hpq => ?_, ?_⟩
    · simp only [Prod.mk.injEq] at hpq
      exact Prod.ext (by omega) (by omega)
    · refine List.nodup_range.imp fun {s t} hst => ?_
      rw [Function.onFun, List.disjoint_left]
      intro z hz hz'
      obtain ⟨p, hp, rfl⟩ := List.mem_map.1 hz
      obtain ⟨q, hq, hpq⟩ := List.mem_map.1 hz'
      simp only [Prod.mk.injEq] at hpq
      have hp := (mem_allPairs (i := p.1) (j := p.2)).1 hp
      have hq := (mem_allPairs (i := q.1) (j := q.2)).1 hq
      have h1 := hdiv s p.1 hp.1
      have h2 := hdiv t q.1 hq.1
      rw [hpq.1, h1] at h2
      exact hst h2
  have hmem : (x, y) ∈ ((List.range B).flatMap fun s => (allPairs n true).map fun p => (p.1 + s * n, p.2 + s * n)) ↔
      x < B * n ∧ y < B * n ∧ x ≠ y ∧ x / n = y / n := by
    rw [List.mem_flatMap]
    constructor
    · rintro ⟨s, hs, hz⟩
      rw [List.mem_range] at hs
      obtain ⟨p, hp, hpq⟩ := List.mem_map.1 hz
      simp only [Prod.mk.injEq] at hpq
      obtain ⟨hi, hj, hne⟩ := (mem_allPairs (i := p.1) (j := p.2)).1 hp
      have := hne rfl
      have hle : (s + 1) * n ≤ B * n := Nat.mul_le_mul_right _ hs
      rw [Nat.add_mul] at hle
      obtain ⟨rfl, rfl⟩ := hpq
      refine ⟨by omega, by omega, by omega, ?_⟩
      rw [hdiv s _ hi, hdiv s _ hj]
    · rintro ⟨hx, hy, hne, hd⟩
      have hxn : x / n < B := Nat.div_lt_of_lt_mul (by rw [Nat.mul_comm]; exact hx)
      have e1 := Nat.div_add_mod x n
      have e2 := Nat.div_add_mod y n
      rw [Nat.mul_comm] at e1 e2
      refine ⟨x / n, List.mem_range.2 hxn, List.mem_map.2 ⟨(x % n, y % n), mem_allPairs.2 ⟨Nat.mod_lt _ hn, Nat.mod_lt _ hn, fun _ h => hne ?_⟩, ?_⟩⟩
      · rw [← e1, ← e2, h, hd]
      · simp only [Prod.mk.injEq]
        rw [hd] at e1 ⊢
        omega
  split
  · next h => exact List.count_eq_one_of_mem hnodup (hmem.2 h)
  · next h => exact List.count_eq_zero_of_not_mem fun hm => h (hmem.1 hm)

theorem tile_get {α : Type} (xs : List α) (B s i : ℕ) (hs : s < B) (hi : i < xs.length) :
    (tile xs B)[s * xs.length + i]? = xs[i]? := by
  have h := getD_flatten xs.length (none : Option α) ((List.replicate B xs).map fun l => l.map some)
    (by simp) s i hi
  rw [← List.map_flatten] at h
  unfold tile
  have hlen : s * xs.length + i < (List.replicate B xs).flatten.length := by
    rw [length_flatten_const xs.length _ (by simp), List.length_replicate]
    have : (s + 1) * xs.length ≤ B * xs.length := Nat.mul_le_mul_right _ hs
    rw [Nat.add_mul] at this
    omega
  rw [List.getElem?_eq_getElem hlen, List.getElem?_eq_getElem hi]
  rw [List.getD_eq_getElem _ _ (by simpa using hlen), List.getElem_map] at h
  rw [h]
  simp [hs, hi]

theorem repeatEach_get (B n s i : ℕ) (hs : s < B) (hi : i < n) : (repeatEach (List.range B) n)[s * n + i]? = some s := by
  rw [repeatEach_range]
  have hle : (s + 1) * n ≤ B * n := Nat.mul_le_mul_right _ hs
  rw [Nat.add_mul] at hle
  rw [List.getElem?_map, List.getElem?_range (by omega), Option.map_some, Nat.add_comm, Nat.add_mul_div_right _ _ (by omega),
    Nat.div_eq_of_lt hi, zero_add]

/-- **C65 (batches).** `prepare_batches` uses no data point twice, leaves out fewer than `batch_size` of them, and returns batches
in which every structure keeps its energy, forces, positions and atomic numbers and is connected only with itself. -/
theorem C65_batches (data : Dataset) (N n : ℕ) (h : WellFormedData data N n) (perm : List ℕ) (hperm : perm.Perm (List.range N))
    (B : ℕ) (hB : 0 < B) :
    (n = 0 → prepareBatches perm data B = .error .valueError) ∧
    (0 < n → ∃ batches ps, prepareBatches perm data B = .ok batches ∧ batches.length = N / B ∧
      List.Forall₂ (IsDataBatch data n B) batches ps ∧ ps.flatten.Nodup ∧ (∀ p ∈ ps.flatten, p < N) ∧
      ps.flatten.length = N / B * B ∧ N < ps.flatten.length + B) := by
  unfold prepareBatches
  dsimp only
  rw [if_neg (by omega), h.energy, h.numbers]
  constructor
  · rintro rfl
    rfl
  · intro hn
    have hlen : (perm.take (N / B * B)).length = N / B * B := by
      rw [List.length_take, hperm.length_eq, List.length_range]
      exact Nat.min_eq_left (Nat.div_mul_le_self _ _)
    obtain ⟨r1, r2, r3⟩ := reshapeRows_spec (perm.take (N / B * B)) (N / B) B hlen
    rw [C01_sparse_pairwise n hn true]
    dsimp only
    have hlt : ∀ p ∈ perm, p < N := fun p hp => List.mem_range.1 (hperm.mem_iff.1 hp)
    refine ⟨_, reshapeRows (perm.take (N / B * B)) (N / B), rfl, by simp [r2], ?_, ?_, ?_, ?_, ?_⟩
    · rw [List.forall₂_map_left_iff, List.forall₂_same]
      intro p hp
      have hpB := r3 p hp
      have hpN : ∀ i ∈ p, i < N := fun i hi => hlt i (List.mem_of_mem_take (r1 ▸ List.mem_flatten.2 ⟨p, hp, hi⟩))
      have hf : ∀ x ∈ takeRows data.forces p, x.length = n := fun x hx =>
        h.forces_atoms x (mem_takeRows (fun i hi => by rw [h.forces]; exact hpN i hi) hx)
      have hx : ∀ x ∈ takeRows data.positions p, x.length = n := fun x hx =>
        h.positions_atoms x (mem_takeRows (fun i hi => by rw [h.positions]; exact hpN i hi) hx)
      refine ⟨hpB, rfl, ?_, fun s i => ?_, ?_, fun s i => ?_, ?_, fun s i => ?_, ?_, fun s i => ?_, ?_, ?_⟩
      · dsimp only
        rw [length_flatten_const n _ hf, length_takeRows, hpB]
      · dsimp only
        rw [getD_flatten n 0 _ hf s i i.2]
        exact congrArg (fun l => l.getD (i : ℕ) 0) (getD_takeRows data.forces p s (by rw [hpB]; exact s.2))
      · dsimp only
        rw [length_flatten_const n _ hx, length_takeRows, hpB]
      · dsimp only
        rw [getD_flatten n 0 _ hx s i i.2]
        exact congrArg (fun l => l.getD (i : ℕ) 0) (getD_takeRows data.positions p s (by rw [hpB]; exact s.2))
      · dsimp only [tile]
        rw [length_flatten_const n _ (by simp [h.numbers]), List.length_replicate]
      · dsimp only
        have := tile_get data.atomicNumbers B s i s.2 (by rw [h.numbers]; exact i.2)
        rw [h.numbers] at this
        exact this
      · dsimp only
        rw [repeatEach_range]
        simp
      · exact repeatEach_get B n s i s.2 i.2
      · dsimp only
        simp [List.length_flatMap]
      · intro x y
        exact batch_edges n B hn x y
    · rw [r1]
      exact (List.take_sublist _ _).nodup (hperm.nodup_iff.2 List.nodup_range)
    · intro p hp
      rw [r1] at hp
      exact hlt p (List.mem_of_mem_take hp)
    · rw [r1, hlen]
    · rw [r1, hlen]
      have h1 := Nat.div_add_mod N B
      have h2 := Nat.mod_lt N hB
      rw [Nat.mul_comm] at h1
      omega

/-! ### Predictions for batches -/

theorem card_eq_count {m : ℕ} {α : Type} [DecidableEq α] [BEq α] [LawfulBEq α] (f : Fin m → α) (a : α) :
    (Finset.univ.filter fun b => f b = a).card = (List.ofFn f).count a := by
  rw [List.ofFn_eq_map, List.count, List.countP_map, List.countP_eq_length_filter]
  have : (Finset.univ.filter fun b => f b = a) = ((List.finRange m).filter ((fun x => x == a) ∘ f)).toFinset := by
    ext b
    simp
  rw [this, List.toFinset_card_of_nodup ((List.nodup_finRange m).filter _)]

theorem listGraph_count (numbers : List ℕ) (n : ℕ) (dst src : List ℕ)
    (h : dst.length = src.length ∧ (∀ i ∈ dst, i < n) ∧ ∀ i ∈ src, i < n) (i j : Fin n) :
    (Finset.univ.filter fun b => (listGraph numbers n dst src h).dst b = i ∧ (listGraph numbers n dst src h).src b = j).card =
      (dst.zip src).count ((i : ℕ), (j : ℕ)) := by
  have e : dst.zip src = List.ofFn fun b : Fin dst.length => (dst[b], src[b.1]'(h.1 ▸ b.2)) := by
    apply List.ext_getElem
    · simp [h.1]
    · intro k h1 h2
      simp
  rw [e, ← card_eq_count]
  congr 1
  ext b
  simp only [Finset.mem_filter, Finset.mem_univ, true_and, Prod.mk.injEq, listGraph, Fin.ext_iff]

theorem batch_in_range {data : Dataset} {n B : ℕ} {b : Batch} {p : List ℕ} (hb : IsDataBatch data n B b p) :
    b.dst.length = b.src.length ∧ (∀ i ∈ b.dst, i < b.positions.length) ∧ ∀ i ∈ b.src, i < b.positions.length := by
  have key : ∀ x y, (x, y) ∈ b.dst.zip b.src → x < B * n ∧ y < B * n := by
    intro x y hxy
    have h1 := List.count_pos_iff.2 hxy
    rw [hb.edges] at h1
    split at h1
    · next h => exact ⟨h.1, h.2.1⟩
    · omega
  rw [hb.positions_length]
  refine ⟨hb.edges_length, fun i hi => ?_, fun i hi => ?_⟩
  · obtain ⟨k, hk, rfl⟩ := List.getElem_of_mem hi
    have hk' : k < b.src.length := hb.edges_length ▸ hk
    refine (key b.dst[k] b.src[k] ?_).1
    have : k < (b.dst.zip b.src).length := by rw [List.length_zip]; omega
    have := List.getElem_mem this
    rwa [List.getElem_zip] at this
  · obtain ⟨k, hk, rfl⟩ := List.getElem_of_mem hi
    have hk' : k < b.dst.length := hb.edges_length ▸ hk
    refine (key b.dst[k] b.src[k] ?_).2
    have : k < (b.dst.zip b.src).length := by rw [List.length_zip]; omega
    have := List.getElem_mem this
    rwa [List.getElem_zip] at this

theorem atomSlot_lt {n B : ℕ} (s : Fin B) (i : Fin n) : (s : ℕ) * n + i < B * n := by
  have hle : ((s : ℕ) + 1) * n ≤ B * n := Nat.mul_le_mul_right _ s.2
  rw [Nat.add_mul] at hle
  have := i.2
  omega

theorem atomSlot_div {n : ℕ} (s : ℕ) (i : Fin n) : (s * n + i) / n = s := by
  rw [Nat.add_comm, Nat.add_mul_div_right _ _ i.pos, Nat.div_eq_of_lt i.2, zero_add]

/-- **C65 (predictions).** The predictions for a batch are the energies and forces that the model predicts for its data points one
by one (with the edges between all pairs of atoms). -/
theorem C65_predictions (tiny : ℝ) (ht : 0 < tiny) (disk : Disk SHCompressed)
    (hd : ValidDisk (shKind sphTerms) (shTable sphTerms) disk) (o' o : SaveOutcome) (cg : ℕ → ℕ → ℕ → ℝ) (M : Potential)
    (data : Dataset) {n m B : ℕ} (hB : 0 < B) (b : Batch) (p : List ℕ) (hb : IsDataBatch data n B b p)
    (A : AtomGraph n m) (hA : WellFormedGraph A) (hnum : A.numbers = data.atomicNumbers) (hcomplete : CompleteGraph A)
    (U : (Fin n → Fin 3 → ℝ) → ℝ) (F : (Fin n → Fin 3 → ℝ) → Fin n → Fin 3 → ℝ)
    (hU : Predicts (energyAndForces tiny disk o' cg M A none) U F) (hdiff : ∀ q ∈ p, DifferentiableAt ℝ U (dataPositions data q)) :
    ∃ G, modelApply tiny disk o cg M b.atomicNumbers b.positions b.dst b.src (some (b.segments, B)) =
        .ok (p.map fun q => U (dataPositions data q), G) ∧ G.length = B * n ∧
      ∀ (s : Fin B) (i : Fin n), G.getD (s * n + i) 0 = F (dataPositions data (p.getD s 0)) i := by
  have hr := batch_in_range hb
  unfold modelApply
  rw [dif_pos hr]
  set Ab := listGraph b.atomicNumbers b.positions.length b.dst b.src hr with hAb
  have hlen := hb.positions_length
  let σ : Fin B → Fin n → Fin b.positions.length := fun s i => ⟨s * n + i, by rw [hlen]; exact atomSlot_lt s i⟩
  have hσ : ∀ s, Function.Injective (σ s) := by
    intro s i j hij
    have : (s : ℕ) * n + i = s * n + j := congrArg Fin.val hij
    exact Fin.ext (by omega)
  have hn : 0 < n := (A.dst ⟨0, hA.2⟩).pos
  have hnum' : ∀ s, CoversGraph (σ s) A Ab := by
    intro s
    refine ⟨fun i => ?_, fun i j => ?_⟩
    · rw [hnum]
      exact (hb.numbers s i).symm
    · rw [hAb, listGraph_count, hb.edges]
      have hi : ((σ s i : Fin b.positions.length) : ℕ) < B * n := atomSlot_lt s i
      have hj : (j : ℕ) < B * n := by rw [← hlen]; exact j.2
      have hdi : ((σ s i : Fin b.positions.length) : ℕ) / n = s := atomSlot_div s i
      by_cases hjs : (j : ℕ) / n = s
      · let j0 : Fin n := ⟨(j : ℕ) % n, Nat.mod_lt _ hn⟩
        have hj0 : σ s j0 = j := by
          apply Fin.ext
          show (s : ℕ) * n + (j : ℕ) % n = j
          rw [← hjs, Nat.mul_comm]
          exact Nat.div_add_mod _ _
        have e : (Finset.univ.filter fun b => A.dst b = i ∧ σ s (A.src b) = j) = Finset.univ.filter fun b => A.dst b = i ∧ A.src b = j0 := by
          ext b
          simp only [Finset.mem_filter, Finset.mem_univ, true_and]
          rw [← hj0, (hσ s).eq_iff]
        rw [e, hcomplete]
        by_cases hij : i = j0
        · rw [if_pos hij, if_neg]
          rintro ⟨-, -, h, -⟩
          apply h
          rw [← hj0, hij]
        · rw [if_neg hij, if_pos]
          refine ⟨hi, hj, fun h => hij (hσ s ?_), by rw [hdi, hjs]⟩
          rw [hj0]
          exact Fin.ext h
      · rw [if_neg (fun h => hjs (by rw [← h.2.2.2, hdi])), Finset.card_eq_zero.2]
        rw [Finset.filter_eq_empty_iff]
        rintro b - ⟨-, h⟩
        apply hjs
        rw [← h]
        exact atomSlot_div s _
  have hwf : WellFormedGraph Ab := by
    refine ⟨?_, ?_⟩
    · show b.atomicNumbers.length = b.positions.length
      rw [hb.numbers_length, hlen]
    · by_contra h0
      have hz : b.dst = [] := List.length_eq_zero_iff.1 (by omega)
      -- there are at least two atoms, as the graph of one structure has an edge
      have hne : A.dst ⟨0, hA.2⟩ ≠ A.src ⟨0, hA.2⟩ := by
        intro heq
        have := hcomplete (A.dst ⟨0, hA.2⟩) (A.src ⟨0, hA.2⟩)
        rw [if_pos heq, Finset.card_eq_zero, Finset.filter_eq_empty_iff] at this
        exact this (Finset.mem_univ (⟨0, hA.2⟩ : Fin m)) ⟨rfl, rfl⟩
      have := hb.edges (σ ⟨0, hB⟩ (A.dst ⟨0, hA.2⟩)) (σ ⟨0, hB⟩ (A.src ⟨0, hA.2⟩))
      rw [hz, if_pos ⟨atomSlot_lt _ _, atomSlot_lt _ _, fun h => hne (hσ _ (Fin.ext h)), by
        rw [show ((σ ⟨0, hB⟩ (A.dst ⟨0, hA.2⟩) : Fin b.positions.length) : ℕ) / n = _ from atomSlot_div _ _,
          show ((σ ⟨0, hB⟩ (A.src ⟨0, hA.2⟩) : Fin b.positions.length) : ℕ) / n = _ from atomSlot_div _ _]⟩] at this
      simp at this
  have hX : ∀ s : Fin B, (fun i => (fun j : Fin b.positions.length => b.positions[j]) (σ s i)) = dataPositions data (p.getD s 0) := by
    intro s
    funext i
    rw [← hb.positions s i, List.getD_eq_getElem _ _ (by rw [hlen]; exact atomSlot_lt s i)]
    rfl
  have hmem : ∀ s : Fin B, p.getD s 0 ∈ p := fun s => by
    rw [List.getD_eq_getElem _ _ (by rw [hb.size]; exact s.2)]
    exact List.getElem_mem _
  obtain ⟨E, G, hE, hEl, hs⟩ := C64_batch tiny ht disk hd o' o cg M (fun _ => n) (fun _ => m) (fun _ => A) Ab (fun _ => hA) hwf σ hσ
    hnum' b.segments (by rw [hb.segments_length, hlen]) (fun s i => hb.segments s i) (fun j => by
      have hj : (j : ℕ) < B * n := by rw [← hlen]; exact j.2
      refine ⟨⟨(j : ℕ) / n, Nat.div_lt_of_lt_mul (by rw [Nat.mul_comm]; exact hj)⟩, ⟨(j : ℕ) % n, Nat.mod_lt _ hn⟩, Fin.ext ?_⟩
      show (j : ℕ) / n * n + (j : ℕ) % n = j
      rw [Nat.mul_comm]
      exact Nat.div_add_mod _ _) (fun _ => U) (fun _ => F) (fun _ => hU) (fun j => b.positions[j])
      (fun s => by rw [hX s]; exact hdiff _ (hmem s))
  refine ⟨List.ofFn G, ?_, by rw [List.length_ofFn, hlen], fun s i => ?_⟩
  · rw [hE]
    simp only [Except.map]
    congr 2
    apply List.ext_getElem
    · rw [hEl, List.length_map, hb.size]
    · intro s h1 h2
      have h3 : s < B := hEl ▸ h1
      have h4 := (hs ⟨s, h3⟩).1
      rw [List.getElem?_eq_getElem h1] at h4
      have h5 := Option.some.inj h4
      rw [h5, hX ⟨s, h3⟩, List.getElem_map, List.getD_eq_getElem _ _ (by rw [hb.size]; exact h3)]
  · rw [List.getD_eq_getElem _ _ (by rw [List.length_ofFn, hlen]; exact atomSlot_lt s i), List.getElem_ofFn, ← hX s, ← (hs s).2 i]

/-! ### Losses -/

theorem meanOf_map (f : ℝ → ℝ → ℝ) (p : List ℕ) (u t : ℕ → ℝ) : meanOf f (p.map u) (p.map t) = meanOver p fun q => f (u q) (t q) := by
  unfold meanOf listMean meanOver
  rw [List.zipWith_map]
  simp [List.zipWith_self]

theorem sum_range_block (g : ℕ → ℝ) (n : ℕ) : ∀ B, ∑ j ∈ Finset.range (B * n), g j = ∑ s ∈ Finset.range B, ∑ i ∈ Finset.range n, g (s * n + i)
  | 0 => by simp
  | B + 1 => by rw [Finset.sum_range_succ, ← sum_range_block g n B, Nat.add_mul, one_mul, Finset.sum_range_add]

theorem meanOf3_eq (f : ℝ → ℝ → ℝ) (G T : List (Fin 3 → ℝ)) (L : ℕ) (hG : G.length = L) (hT : T.length = L) :
    meanOf3 f G T = (∑ j ∈ Finset.range L, ∑ k, f (G.getD j 0 k) (T.getD j 0 k)) / (3 * L) := by
  have e : List.zipWith (fun p t : Fin 3 → ℝ => [f (p 0) (t 0), f (p 1) (t 1), f (p 2) (t 2)]) G T =
      (List.range L).map fun j => [f (G.getD j 0 0) (T.getD j 0 0), f (G.getD j 0 1) (T.getD j 0 1), f (G.getD j 0 2) (T.getD j 0 2)] := by
    apply List.ext_getElem
    · simp [hG, hT]
    · intro j h1 h2
      have h3 : j < L := by simpa using h2
      rw [List.getElem_zipWith, List.getElem_map, List.getElem_range, List.getD_eq_getElem _ _ (by omega), List.getD_eq_getElem _ _ (by omega)]
  unfold meanOf3 listMean
  rw [e, length_flatten_const 3 _ (by simp), List.sum_flatten, List.map_map, List.length_map, List.length_range, list_sum_range]
  have : ((L * 3 : ℕ) : ℝ) = 3 * L := by push_cast; ring
  rw [this]
  congr 1

theorem meanOf3_batch (f : ℝ → ℝ) {n B : ℕ} (G T : List (Fin 3 → ℝ)) (hG : G.length = B * n)
    (hT : T.length = B * n) (p : List ℕ) (hp : p.length = B) (F F' : ℕ → Fin n → Fin 3 → ℝ)
    (h1 : ∀ (s : Fin B) (i : Fin n), G.getD (s * n + i) 0 = F (p.getD s 0) i)
    (h2 : ∀ (s : Fin B) (i : Fin n), T.getD (s * n + i) 0 = F' (p.getD s 0) i) :
    meanOf3 (fun a b => f (a - b)) G T = meanOver p fun q => componentMean f (F q) (F' q) := by
  rw [meanOf3_eq _ G T _ hG hT, sum_range_block]
  have e : ((p.map fun q => componentMean f (F q) (F' q)).sum) = ∑ s ∈ Finset.range B, componentMean f (F (p.getD s 0)) (F' (p.getD s 0)) := by
    rw [← list_sum_range]
    congr 1
    apply List.ext_getElem
    · simp [hp]
    · intro s hs1 hs2
      have : s < p.length := by simpa using hs1
      simp [this]
  unfold meanOver
  rw [e, hp]
  unfold componentMean
  rw [← Finset.sum_div, div_div]
  congr 1
  · refine Finset.sum_congr rfl fun s hs => ?_
    rw [Finset.sum_range]
    refine Finset.sum_congr rfl fun i _ => ?_
    have hs : s < B := Finset.mem_range.1 hs
    have e1 := h1 ⟨s, hs⟩ i
    have e2 := h2 ⟨s, hs⟩ i
    dsimp only at e1 e2
    rw [e1, e2]
  · push_cast
    ring

theorem meanOver_add (p : List ℕ) (a b : ℕ → ℝ) (w : ℝ) : meanOver p a + w * meanOver p b = meanOver p fun q => a q + w * b q := by
  unfold meanOver
  have : (p.map fun q => a q + w * b q).sum = (p.map a).sum + w * (p.map b).sum := by
    induction p with
    | nil => simp
    | cons q p ih => simp only [List.map_cons, List.sum_cons, ih]; ring
  rw [this]
  ring

/-- The model applied to a batch, as in `eval_step` and `train_step`. -/
noncomputable def applyBatch (tiny : ℝ) (disk : Disk SHCompressed) (o : SaveOutcome) (cg : ℕ → ℕ → ℕ → ℝ) (M : Potential) (B : ℕ) (b : Batch) :
    Except Err (List ℝ × List (Fin 3 → ℝ)) :=
  modelApply tiny disk o cg M b.atomicNumbers b.positions b.dst b.src (some (b.segments, B))

/-- **C65 (losses).** The loss and the errors of a batch are the means of the losses and errors of its data points. -/
theorem C65_losses (tiny : ℝ) (ht : 0 < tiny) (disk : Disk SHCompressed)
    (hd : ValidDisk (shKind sphTerms) (shTable sphTerms) disk) (o' o : SaveOutcome) (cg : ℕ → ℕ → ℕ → ℝ) (M : Potential)
    (data : Dataset) {n m B : ℕ} (hB : 0 < B) (b : Batch) (p : List ℕ) (hb : IsDataBatch data n B b p)
    (A : AtomGraph n m) (hA : WellFormedGraph A) (hnum : A.numbers = data.atomicNumbers) (hcomplete : CompleteGraph A)
    (U : (Fin n → Fin 3 → ℝ) → ℝ) (F : (Fin n → Fin 3 → ℝ) → Fin n → Fin 3 → ℝ)
    (hU : Predicts (energyAndForces tiny disk o' cg M A none) U F) (hdiff : ∀ q ∈ p, DifferentiableAt ℝ U (dataPositions data q))
    (forcesWeight : ℝ) :
    evalStep (applyBatch tiny disk o cg M B) forcesWeight b = .ok
      (meanOver p fun q => halfSquare (U (dataPositions data q) - targetEnergy data q) +
          forcesWeight * componentMean halfSquare (F (dataPositions data q)) (targetForces data q),
        meanOver p fun q => |U (dataPositions data q) - targetEnergy data q|,
        meanOver p fun q => componentMean abs (F (dataPositions data q)) (targetForces data q)) := by
  obtain ⟨G, h1, h2, h3⟩ := C65_predictions tiny ht disk hd o' o cg M data hB b p hb A hA hnum hcomplete U F hU hdiff
  unfold evalStep applyBatch
  rw [h1]
  simp only [Except.map]
  congr 2
  · unfold meanSquaredLoss
    rw [hb.energy, meanOf_map, show (l2Loss : ℝ → ℝ → ℝ) = fun a b => halfSquare (a - b) from rfl,
      meanOf3_batch halfSquare G b.forces h2 hb.forces_length p hb.size (fun q => F (dataPositions data q)) (targetForces data) h3 hb.forces,
      meanOver_add]
  · congr 1
    · unfold meanAbsoluteError
      rw [hb.energy, meanOf_map]
    · unfold meanAbsoluteError3
      exact meanOf3_batch abs G b.forces h2 hb.forces_length p hb.size (fun q => F (dataPositions data q)) (targetForces data) h3 hb.forces

theorem steps_values {S : Type} (step : S → Batch → Except Err (S × ℝ × ℝ × ℝ)) (state : S) (val : List ℕ → ℝ × ℝ × ℝ)
    (batches : List Batch) (ps : List (List ℕ)) (h : List.Forall₂ (fun b p => step state b = .ok (state, val p)) batches ps) :
    Steps step state batches (ps.map val) state := by
  induction h with
  | nil => exact .nil _
  | cons h1 _ ih => exact .cons h1 ih

theorem steps_unique {S : Type} {step : S → Batch → Except Err (S × ℝ × ℝ × ℝ)} {state s1 s2 : S} {batches : List Batch}
    {l1 l2 : List (ℝ × ℝ × ℝ)} (h1 : Steps step state batches l1 s1) (h2 : Steps step state batches l2 s2) : l1 = l2 := by
  induction h1 generalizing l2 with
  | nil => cases h2; rfl
  | cons a _ ih =>
    cases h2 with
    | cons b h2 =>
      rw [a] at b
      obtain ⟨rfl, rfl⟩ := Prod.mk.inj (Except.ok.inj b)
      rw [ih h2]

theorem mean_of_means (ps : List (List ℕ)) (B : ℕ) (h : ∀ p ∈ ps, p.length = B) (q : ℕ → ℝ) :
    listMean (ps.map fun p => meanOver p q) = meanOver ps.flatten q := by
  have hs : (ps.map fun p => meanOver p q).sum = (ps.flatten.map q).sum / B := by
    induction ps with
    | nil => simp
    | cons p ps ih =>
      rw [List.map_cons, List.sum_cons, ih fun p hp => h p (by simp [hp]), List.flatten_cons, List.map_append, List.sum_append]
      unfold meanOver
      rw [h p (by simp)]
      ring
  unfold listMean
  rw [hs]
  unfold meanOver
  rw [length_flatten_const B ps h, List.length_map, div_div]
  congr 1
  push_cast
  ring

/-- **C65 (validation).** The loss and the errors reported for the validation set are the means over all data points that are used
(all but fewer than `batch_size` many), with the energies and forces that the model predicts for every single data point: how the
data points are distributed over the batches has no influence. -/
theorem C65_validation (tiny : ℝ) (ht : 0 < tiny) (disk : Disk SHCompressed)
    (hd : ValidDisk (shKind sphTerms) (shTable sphTerms) disk) (o' o : SaveOutcome) (cg : ℕ → ℕ → ℕ → ℝ) (M : Potential)
    (data : Dataset) {N n m B : ℕ} (hdata : WellFormedData data N n) (hB : 0 < B) (hN : B ≤ N) (perm : List ℕ)
    (hperm : perm.Perm (List.range N)) (A : AtomGraph n m) (hA : WellFormedGraph A) (hnum : A.numbers = data.atomicNumbers)
    (hcomplete : CompleteGraph A) (U : (Fin n → Fin 3 → ℝ) → ℝ) (F : (Fin n → Fin 3 → ℝ) → Fin n → Fin 3 → ℝ)
    (hU : Predicts (energyAndForces tiny disk o' cg M A none) U F) (hdiff : ∀ q < N, DifferentiableAt ℝ U (dataPositions data q))
    (forcesWeight : ℝ) :
    ∃ batches used, prepareBatches perm data B = .ok batches ∧ used.Nodup ∧ (∀ q ∈ used, q < N) ∧
      used.length = N / B * B ∧ N < used.length + B ∧
      evaluate (applyBatch tiny disk o cg M B) forcesWeight batches = .ok
        (meanOver used fun q => halfSquare (U (dataPositions data q) - targetEnergy data q) +
            forcesWeight * componentMean halfSquare (F (dataPositions data q)) (targetForces data q),
          meanOver used fun q => |U (dataPositions data q) - targetEnergy data q|,
          meanOver used fun q => componentMean abs (F (dataPositions data q)) (targetForces data q)) := by
  have hn : 0 < n := (A.dst ⟨0, hA.2⟩).pos
  obtain ⟨batches, ps, h1, h2, h3, h4, h5, h7, h6⟩ := (C65_batches data N n hdata perm hperm B hB).2 hn
  refine ⟨batches, ps.flatten, h1, h4, h5, h7, h6, ?_⟩
  have hne : batches ≠ [] := by
    intro h0
    rw [h0, List.length_nil] at h2
    have := Nat.div_pos hN hB
    omega
  set step : Unit → Batch → Except Err (Unit × ℝ × ℝ × ℝ) := fun _ b =>
    (evalStep (applyBatch tiny disk o cg M B) forcesWeight b).map fun l => ((), l) with hstep
  have hval := steps_values step () (fun p =>
      (meanOver p fun q => halfSquare (U (dataPositions data q) - targetEnergy data q) +
          forcesWeight * componentMean halfSquare (F (dataPositions data q)) (targetForces data q),
        meanOver p fun q => |U (dataPositions data q) - targetEnergy data q|,
        meanOver p fun q => componentMean abs (F (dataPositions data q)) (targetForces data q))) batches ps (by
    have : ∀ (bs : List Batch) (qs : List (List ℕ)), List.Forall₂ (IsDataBatch data n B) bs qs → (∀ p ∈ qs.flatten, p < N) →
        List.Forall₂ (fun b p => step () b = .ok ((), (meanOver p fun q => halfSquare (U (dataPositions data q) - targetEnergy data q) +
          forcesWeight * componentMean halfSquare (F (dataPositions data q)) (targetForces data q),
        meanOver p fun q => |U (dataPositions data q) - targetEnergy data q|,
        meanOver p fun q => componentMean abs (F (dataPositions data q)) (targetForces data q)))) bs qs := by
      intro bs qs hbs
      induction hbs with
      | nil => exact fun _ => .nil
      | @cons b p bs qs hb _ ih =>
        intro hlt
        refine .cons ?_ (ih fun p hp => hlt p (by simp [hp]))
        rw [hstep]
        dsimp only
        rw [C65_losses tiny ht disk hd o' o cg M data hB b p hb A hA hnum hcomplete U F hU
          (fun q hq => hdiff q (hlt q (by simp [hq]))) forcesWeight]
        rfl
    exact this batches ps h3 h5)
  obtain ⟨⟨st, out⟩, hout⟩ := (C65_epoch_error step batches 0 () (0, 0, 0)).2 ⟨_, _, hval⟩
  obtain ⟨losses, g1, -, g3⟩ := C65_running_mean step batches hne () st out hout
  have hps : ∀ p ∈ ps, p.length = B := by
    have : ∀ (bs : List Batch) (qs : List (List ℕ)), List.Forall₂ (IsDataBatch data n B) bs qs → ∀ p ∈ qs, p.length = B := by
      intro bs qs hbs
      induction hbs with
      | nil => simp
      | cons hb _ ih =>
        intro p hp
        rcases List.mem_cons.1 hp with rfl | hp
        · exact hb.size
        · exact ih p hp
    exact this batches ps h3
  unfold evaluate
  rw [← hstep, hout]
  rw [steps_unique g1 hval] at g3
  simp only [List.map_map, Function.comp_def] at g3
  rw [mean_of_means ps B hps, mean_of_means ps B hps, mean_of_means ps B hps] at g3
  simp only [Except.map]
  rw [g3]

/-! ### Non-vacuity -/

/-- **C65 (too few data points).** If there are fewer data points than `batch_size`, no batch is formed, and the loss and errors that
are reported are zero, whatever the model predicts. -/
theorem C65_too_few (data : Dataset) {N n B : ℕ} (hdata : WellFormedData data N n) (hn : 0 < n) (hN : N < B) (perm : List ℕ)
    (hperm : perm.Perm (List.range N)) (model : Batch → Except Err (List ℝ × List (Fin 3 → ℝ))) (forcesWeight : ℝ) :
    prepareBatches perm data B = .ok [] ∧ evaluate model forcesWeight [] = .ok (0, 0, 0) := by
  obtain ⟨batches, ps, h1, h2, -⟩ := (C65_batches data N n hdata perm hperm B (by omega)).2 hn
  rw [Nat.div_eq_of_lt hN, List.length_eq_zero_iff] at h2
  exact ⟨by rw [h1, h2], rfl⟩

/-- Three data points of a dimer, at the distances 1, 2, 3. -/
def dimerData : Dataset where
  energy := [5, 7, 6]
  forces := [[![1, 0, 0], ![-1, 0, 0]], [![2, 0, 0], ![-2, 0, 0]], [![0, 0, 0], ![0, 0, 0]]]
  atomicNumbers := [1, 8]
  positions := [[![0, 0, 0], ![1, 0, 0]], [![0, 0, 0], ![2, 0, 0]], [![0, 0, 0], ![3, 0, 0]]]

theorem dimerData_wellFormed : WellFormedData dimerData 3 2 :=
  ⟨rfl, rfl, rfl, rfl, by simp [dimerData], by simp [dimerData]⟩

-- Splitting the data points into two for training and one for validation.
example : ∃ train valid, prepareDatasets dimerData [2, 0, 1] 2 1 = .ok (train, valid, 11 / 2) ∧ train.energy = [1 / 2, -1 / 2] ∧
    valid.energy = [3 / 2] := by
  have hm : listMean (takeRows dimerData.energy [2, 0]) = 11 / 2 := by
    simp only [dimerData, takeRows, listMean]
    norm_num
  refine ⟨⟨(takeRows dimerData.energy [2, 0]).map (· - 11 / 2), takeRows dimerData.forces [2, 0], [1, 8], takeRows dimerData.positions [2, 0]⟩,
    ⟨(takeRows dimerData.energy [1]).map (· - 11 / 2), takeRows dimerData.forces [1], [1, 8], takeRows dimerData.positions [1]⟩, ?_, ?_, ?_⟩
  · rw [← hm]
    rfl
  · simp only [takeRows, dimerData]
    norm_num
  · simp only [takeRows, dimerData]
    norm_num

example : prepareDatasets dimerData [2, 0, 1] 3 1 = .error .runtimeError :=
  (C65_datasets dimerData 3 2 dimerData_wellFormed 3 1 [2, 0, 1]).1 (by norm_num)

example : WellFormedData dimerData 3 2 ∧ ([2, 0, 1] : List ℕ).length = 2 + 1 ∧ ([2, 0, 1] : List ℕ).Nodup ∧ ∀ p ∈ [2, 0, 1], p < 3 :=
  ⟨dimerData_wellFormed, rfl, by decide, by decide⟩

example : prepareBatches [2, 0, 1] dimerData 4 = .ok [] :=
  (C65_too_few dimerData dimerData_wellFormed (by norm_num) (by norm_num) [2, 0, 1] (by decide) (fun _ => .ok ([], [])) 1).1

-- The losses of the md17 example for the data points, in batches of two: one of the data points is not used.
example (tiny : ℝ) (ht : 0 < tiny) (disk : Disk SHCompressed) (hd : ValidDisk (shKind sphTerms) (shTable sphTerms) disk)
    (o : SaveOutcome) (cg : ℕ → ℕ → ℕ → ℝ) (eps : ℝ) (embedding : ℕ → ℕ → ℝ) (P : ℕ → IterParams) (kernel elementBias : ℕ → ℝ) :
    let M := md17 (1 / 2 ^ 24) eps 32 2 3 16 5 false embedding P kernel elementBias
    ∃ U F, Predicts (energyAndForces tiny disk o cg M (dimerGraph 1 8) none) U F ∧
      ∃ (batches : List Batch) (used : List ℕ) (out : ℝ × ℝ × ℝ), prepareBatches [2, 0, 1] dimerData 2 = .ok batches ∧ used.Nodup ∧ used.length = 2 ∧
        evaluate (applyBatch tiny disk o cg M 2) 1 batches = .ok out ∧
        out.2.1 = (used.map fun q => |U (dataPositions dimerData q) - targetEnergy dimerData q|).sum / 2 := by
  intro M
  obtain ⟨U, F, h1, h2⟩ := C64_md17 tiny ht disk hd o cg (1 / 2 ^ 24) eps (by positivity) 32 2 3 16 (by norm_num) 5
    (by norm_num) false embedding P kernel elementBias (dimerGraph 1 8) ⟨rfl, by norm_num⟩ none (by simp)
  have hdiff : ∀ q < 3, DifferentiableAt ℝ U (dataPositions dimerData q) := by
    intro q hq
    refine (h2 _ fun b => ?_).1
    have hl : Spec.length (displacements (dataPositions dimerData q) (dimerGraph 1 8).dst (dimerGraph 1 8).src b) = q + 1 := by
      refine dimer_length _ _ (by positivity) ?_ b 1 8
      interval_cases q <;> simp [dataPositions, dimerData, Fin.sum_univ_three] <;> norm_num
    rw [hl]
    constructor
    · rw [lt_div_iff₀ (by positivity)]
      have : (0 : ℝ) ≤ q := by positivity
      linarith
    · rw [div_lt_iff₀ (by positivity)]
      have : (q : ℝ) ≤ 2 := by exact_mod_cast (by omega : q ≤ 2)
      linarith
  obtain ⟨batches, used, e1, e2, -, hlen, -, e5⟩ := C65_validation tiny ht disk hd o o cg M dimerData dimerData_wellFormed (B := 2)
    (by norm_num) (by norm_num) [2, 0, 1] (by decide) (dimerGraph 1 8) ⟨rfl, by norm_num⟩ rfl (by unfold CompleteGraph; decide)
    U F h1 hdiff 1
  exact ⟨U, F, h1, batches, used, _, e1, e2, hlen, e5, by simp only [meanOver, hlen]; norm_num⟩

end E3x
