import Verif.Lemmas.ShippedHarmonics1
import Verif.Lemmas.TensorCertificate
import Verif.Lemmas.TensorConversion

/-!
# Checking the shipped tensor-conversion matrices
-/

namespace E3x.Coefficients

open Finset

/-! ## Checks, by recursors and operations on natural numbers -/

/-- the entry of a row in column `j`, passed on to `k` -/
def flook (row : List CertEntry) (j : ℕ) (k : Bool → ℕ → Bool) : Bool :=
  List.rec (k false 0) (fun e _ ih => bif Nat.beq e.column j then k e.negative e.size else ih) row

/-- the entry of a row in column `j` -/
def look (row : List CertEntry) (j : ℕ) : ℤ :=
  List.rec 0 (fun e _ ih => bif Nat.beq e.column j then (if e.negative then -(e.size : ℤ) else e.size) else ih) row

theorem flook_spec (row : List CertEntry) (j : ℕ) : ∃ neg size, (∀ k, flook row j k = k neg size) ∧
    look row j = if neg then -(size : ℤ) else size := by
  induction row with
  | nil => exact ⟨false, 0, fun _ => rfl, rfl⟩
  | cons e row ih =>
    obtain ⟨neg, size, h1, h2⟩ := ih
    by_cases h : Nat.beq e.column j = true
    · refine ⟨e.negative, e.size, fun k => ?_, ?_⟩
      · show cond _ _ _ = _
        rw [h]; rfl
      · show cond _ _ _ = _
        rw [h]; rfl
    · rw [Bool.not_eq_true] at h
      refine ⟨neg, size, fun k => ?_, ?_⟩
      · rw [← h1 k]
        show cond _ _ _ = _
        rw [h]; rfl
      · rw [← h2]
        show cond _ _ _ = _
        rw [h]; rfl

/-- the columns are increasing and in the given range -/
def fcols (row : List CertEntry) : ℕ → ℕ → Bool :=
  List.rec (motive := fun _ => ℕ → ℕ → Bool) (fun lo hi => Nat.ble lo hi)
    (fun e _ ih lo hi => Nat.ble lo e.column && ih (Nat.add e.column 1) hi) row

/-- the number `∑ x_j Bʲ` of a row, as a difference -/
def fpack (B : ℕ) (row : List CertEntry) : ℕ → ℕ → (ℕ → ℕ → Bool) → Bool :=
  List.rec (fun p n k => k p n)
    (fun e _ ih p n k => force (Nat.mul e.size (Nat.pow B e.column)) fun t =>
      bif e.negative then force (Nat.add n t) fun n => ih p n k else force (Nat.add p t) fun p => ih p n k) row

/-- the sum of the absolute values of a row -/
def fnorm (row : List CertEntry) : ℕ := List.rec 0 (fun e _ ih => Nat.add e.size ih) row

theorem look_cons (e : CertEntry) (row : List CertEntry) (j : ℕ) : look (e :: row) j =
    if e.column = j then (if e.negative then -(e.size : ℤ) else e.size) else look row j := by
  have h : look (e :: row) j =
    bif Nat.beq e.column j then (if e.negative then -(e.size : ℤ) else e.size) else look row j := rfl
  rw [h]
  by_cases hc : e.column = j
  · rw [if_pos hc, show Nat.beq e.column j = true by rw [Nat.beq_eq]; exact hc, cond_true]
  · rw [if_neg hc, show Nat.beq e.column j = false by rw [← Bool.not_eq_true, Nat.beq_eq]; exact hc, cond_false]

theorem look_norm (row : List CertEntry) (j : ℕ) : |look row j| ≤ fnorm row := by
  induction row with
  | nil => exact le_of_eq abs_zero
  | cons e row ih =>
    have h : fnorm (e :: row) = e.size + fnorm row := rfl
    have h0 : (0 : ℤ) ≤ fnorm row := Int.natCast_nonneg _
    rw [look_cons, h]
    push_cast
    split_ifs
    · rw [abs_neg, Nat.abs_cast]; omega
    · rw [Nat.abs_cast]; omega
    · omega

theorem look_below {row : List CertEntry} {lo hi : ℕ} (h : fcols row lo hi = true) {j : ℕ} (hj : j < lo) : look row j = 0 := by
  induction row generalizing lo with
  | nil => rfl
  | cons e row ih =>
    have h' : (Nat.ble lo e.column && fcols row (Nat.add e.column 1) hi) = true := h
    rw [Bool.and_eq_true, Nat.ble_eq] at h'
    rw [look_cons, if_neg (by omega)]
    exact ih h'.2 (by show j < e.column + 1; omega)

theorem fcols_le {row : List CertEntry} {lo hi : ℕ} (h : fcols row lo hi = true) : lo ≤ hi := by
  induction row generalizing lo with
  | nil => exact Nat.le_of_ble_eq_true h
  | cons e row ih =>
    have h' : (Nat.ble lo e.column && fcols row (Nat.add e.column 1) hi) = true := h
    rw [Bool.and_eq_true, Nat.ble_eq] at h'
    have : e.column + 1 ≤ hi := ih h'.2
    omega

theorem fpack_spec (B : ℕ) {row : List CertEntry} {lo hi : ℕ} (h : fcols row lo hi = true) (p n : ℕ) : ∃ p' n' : ℕ,
    (∀ k, fpack B row p n k = k p' n') ∧ (p' : ℤ) - n' = p - n + ∑ j ∈ range hi, look row j * B ^ j := by
  induction row generalizing lo p n with
  | nil => exact ⟨p, n, fun _ => rfl, by simp [look]⟩
  | cons e row ih =>
    have h' : (Nat.ble lo e.column && fcols row (Nat.add e.column 1) hi) = true := h
    rw [Bool.and_eq_true, Nat.ble_eq] at h'
    have hlt : e.column < hi := fcols_le h'.2
    have h0 : look row e.column = 0 := look_below h'.2 (Nat.lt_succ_self _)
    have hs : ∑ j ∈ range hi, look (e :: row) j * (B : ℤ) ^ j =
        (if e.negative then -(e.size : ℤ) else e.size) * B ^ e.column + ∑ j ∈ range hi, look row j * (B : ℤ) ^ j := by
      have : ∀ j ∈ range hi, look (e :: row) j * (B : ℤ) ^ j =
          (if j = e.column then (if e.negative then -(e.size : ℤ) else e.size) * B ^ e.column else 0) +
            look row j * (B : ℤ) ^ j := by
        intro j _
        rw [look_cons]
        by_cases hj : e.column = j
        · subst hj
          rw [if_pos rfl, if_pos rfl, h0]
          ring
        · rw [if_neg hj, if_neg (Ne.symm hj), zero_add]
      rw [sum_congr rfl this, sum_add_distrib, sum_ite_eq', if_pos (mem_range.2 hlt)]
    have e0 : ∀ k, fpack B (e :: row) p n k = force (Nat.mul e.size (Nat.pow B e.column)) fun t =>
      bif e.negative then force (Nat.add n t) fun n => fpack B row p n k else
        force (Nat.add p t) fun p => fpack B row p n k := fun _ => rfl
    have ht : Nat.mul e.size (Nat.pow B e.column) = e.size * B ^ e.column := rfl
    have ha : ∀ a b, Nat.add a b = a + b := fun _ _ => rfl
    rw [hs]
    simp only [e0, force_eq, ht, ha]
    cases e.negative
    · obtain ⟨p', n', h1, h2⟩ := ih h'.2 (p + e.size * B ^ e.column) n
      refine ⟨p', n', fun k => by rw [cond_false, h1], ?_⟩
      rw [h2]
      push_cast
      (try simp only [Bool.false_eq_true, if_false])
      ring
    · obtain ⟨p', n', h1, h2⟩ := ih h'.2 p (n + e.size * B ^ e.column)
      refine ⟨p', n', fun k => by rw [cond_true, h1], ?_⟩
      rw [h2]
      push_cast
      simp only [if_true]
      ring

/-- adds a product to two accumulators -/
def faddmul (neg : Bool) (x up un p n : ℕ) (k : ℕ → ℕ → Bool) : Bool :=
  bif neg then force (Nat.add p (Nat.mul x un)) fun p => force (Nat.add n (Nat.mul x up)) fun n => k p n
  else force (Nat.add p (Nat.mul x up)) fun p => force (Nat.add n (Nat.mul x un)) fun n => k p n

theorem faddmul_spec (neg : Bool) (x up un p n : ℕ) : ∃ p' n' : ℕ, (∀ k, faddmul neg x up un p n k = k p' n') ∧
    (p' : ℤ) - n' = p - n + (if neg then -(x : ℤ) else x) * ((up : ℤ) - un) := by
  cases neg
  · refine ⟨p + x * up, n + x * un, fun k => by unfold faddmul; simp only [force_eq]; rfl, ?_⟩
    push_cast
    (try simp only [Bool.false_eq_true, if_false])
    ring
  · refine ⟨p + x * un, n + x * up, fun k => by unfold faddmul; simp only [force_eq]; rfl, ?_⟩
    push_cast
    simp only [if_true]
    ring

/-- sums over the stored components, and bounds -/
def fdotRows (B m : ℕ) (rows : List CertRow) : ℕ → ℕ → ℕ → (ℕ → ℕ → ℕ → Bool) → Bool :=
  List.rec (fun p n b k => k p n b)
    (fun r _ ih p n b k => flook r.q m fun s x => bif Nat.beq x 0 then ih p n b k else
      fpack B r.u 0 0 fun up un => faddmul s x up un p n fun p n =>
        force (Nat.add b (Nat.mul x (fnorm r.u))) fun b => ih p n b k) rows

theorem fdotRows_spec (B m w : ℕ) (rows : List CertRow) (hw : ∀ r ∈ rows, fcols r.u 0 w = true) (p n b : ℕ) :
    ∃ p' n' b' : ℕ, (∀ k, fdotRows B m rows p n b k = k p' n' b') ∧
      (p' : ℤ) - n' = p - n + (rows.map fun r => look r.q m * ∑ j ∈ range w, look r.u j * B ^ j).sum ∧
      (b' : ℤ) = b + (rows.map fun r => |look r.q m| * fnorm r.u).sum := by
  induction rows generalizing p n b with
  | nil => exact ⟨p, n, b, fun _ => rfl, by simp, by simp⟩
  | cons r rows ih =>
    obtain ⟨s, x, h1, h2⟩ := flook_spec r.q m
    obtain ⟨up, un, h3, h4⟩ := fpack_spec B (hw r (by simp)) 0 0
    have hw' : ∀ r ∈ rows, fcols r.u 0 w = true := fun r hr => hw r (by simp [hr])
    have e0 : ∀ k, fdotRows B m (r :: rows) p n b k = flook r.q m fun s x =>
      bif Nat.beq x 0 then fdotRows B m rows p n b k else
        fpack B r.u 0 0 fun up un => faddmul s x up un p n fun p n =>
          force (Nat.add b (Nat.mul x (fnorm r.u))) fun b => fdotRows B m rows p n b k := fun _ => rfl
    by_cases hx : x = 0
    · subst hx
      obtain ⟨p', n', b', h5, h6, h7⟩ := ih hw' p n b
      refine ⟨p', n', b', fun k => by rw [e0, h1, ← h5 k]; rfl, ?_, ?_⟩
      · rw [h6, List.map_cons, List.sum_cons, h2]
        simp
      · rw [h7, List.map_cons, List.sum_cons, h2]
        simp
    · have hb : Nat.beq x 0 = false := by rw [← Bool.not_eq_true, Nat.beq_eq]; exact hx
      obtain ⟨p1, n1, h5, h6⟩ := faddmul_spec s x up un p n
      obtain ⟨p', n', b', h7, h8, h9⟩ := ih hw' p1 n1 (b + x * fnorm r.u)
      refine ⟨p', n', b', fun k => by rw [e0, h1, hb, cond_false, h3, h5, force_eq, ← h7 k]; rfl, ?_, ?_⟩
      · rw [h8, h6, h4, List.map_cons, List.sum_cons, h2]
        push_cast
        ring
      · have : |look r.q m| = x := by
          rw [h2]
          split_ifs <;> simp
        rw [h9, List.map_cons, List.sum_cons, this]
        push_cast
        ring

/-- sums over the rows of `V`, and bounds -/
def fdotInv (B : ℕ) (q : List CertEntry) (rows : List (List CertEntry)) :
    ℕ → ℕ → ℕ → ℕ → (ℕ → ℕ → ℕ → Bool) → Bool :=
  List.rec (fun _ p n b k => k p n b)
    (fun r _ ih i p n b k => flook q i fun s x => bif Nat.beq x 0 then force (Nat.add i 1) fun i => ih i p n b k else
      fpack B r 0 0 fun up un => faddmul s x up un p n fun p n =>
        force (Nat.add b (Nat.mul x (fnorm r))) fun b => force (Nat.add i 1) fun i => ih i p n b k) rows

theorem fdotInv_spec (B w : ℕ) (q : List CertEntry) (rows : List (List CertEntry)) (hw : ∀ r ∈ rows, fcols r 0 w = true)
    (i p n b : ℕ) : ∃ p' n' b' : ℕ, (∀ k, fdotInv B q rows i p n b k = k p' n' b') ∧
      (p' : ℤ) - n' = p - n + ∑ t ∈ range rows.length,
        look q (i + t) * ∑ j ∈ range w, look (rows.getD t []) j * B ^ j ∧
      (b' : ℤ) = b + ∑ t ∈ range rows.length, |look q (i + t)| * fnorm (rows.getD t []) := by
  induction rows generalizing i p n b with
  | nil => exact ⟨p, n, b, fun _ => rfl, by simp, by simp⟩
  | cons r rows ih =>
    obtain ⟨s, x, h1, h2⟩ := flook_spec q i
    obtain ⟨up, un, h3, h4⟩ := fpack_spec B (hw r (by simp)) 0 0
    have hw' : ∀ r ∈ rows, fcols r 0 w = true := fun r hr => hw r (by simp [hr])
    have e0 : ∀ k, fdotInv B q (r :: rows) i p n b k = flook q i fun s x =>
      bif Nat.beq x 0 then force (Nat.add i 1) fun i => fdotInv B q rows i p n b k else
        fpack B r 0 0 fun up un => faddmul s x up un p n fun p n =>
          force (Nat.add b (Nat.mul x (fnorm r))) fun b => force (Nat.add i 1) fun i => fdotInv B q rows i p n b k :=
      fun _ => rfl
    have hs : ∀ f : List CertEntry → ℤ → ℤ, ∑ t ∈ range (r :: rows).length, f ((r :: rows).getD t []) (look q (i + t)) =
        ∑ t ∈ range rows.length, f (rows.getD t []) (look q (i + 1 + t)) + f r (look q i) := by
      intro f
      rw [List.length_cons, sum_range_succ']
      simp only [List.getD_cons_succ, List.getD_cons_zero, add_zero]
      congr 1
      refine sum_congr rfl fun t _ => ?_
      rw [Nat.add_assoc, Nat.add_comm 1 t]
    have hs1 := hs fun r y => y * ∑ j ∈ range w, look r j * B ^ j
    have hs2 := hs fun r y => |y| * fnorm r
    rw [hs1, hs2]
    have hi : Nat.add i 1 = i + 1 := rfl
    by_cases hx : x = 0
    · subst hx
      obtain ⟨p', n', b', h5, h6, h7⟩ := ih hw' (i + 1) p n b
      refine ⟨p', n', b', fun k => by rw [e0, h1, ← h5 k, force_eq]; rfl, ?_, ?_⟩
      · rw [h6, h2]
        simp
      · rw [h7, h2]
        simp
    · have hb : Nat.beq x 0 = false := by rw [← Bool.not_eq_true, Nat.beq_eq]; exact hx
      obtain ⟨p1, n1, h5, h6⟩ := faddmul_spec s x up un p n
      obtain ⟨p', n', b', h7, h8, h9⟩ := ih hw' (i + 1) p1 n1 (b + x * fnorm r)
      refine ⟨p', n', b', fun k => by rw [e0, h1, hb, cond_false, h3, h5, force_eq, force_eq, ← h7 k]; rfl, ?_, ?_⟩
      · rw [h8, h6, h4, h2]
        push_cast
        ring
      · have : |look q i| = x := by
          rw [h2]
          split_ifs <;> simp
        rw [h9, this]
        push_cast
        ring

/-- digits smaller than the base -/
theorem digits_zero (B : ℕ) (e : ℕ → ℤ) (n : ℕ) (he : ∀ j < n, |e j| < B) (h : ∑ j ∈ range n, e j * (B : ℤ) ^ j = 0) :
    ∀ j < n, e j = 0 := by
  induction n generalizing e with
  | zero => intro j hj; omega
  | succ n ih =>
    rw [sum_range_succ'] at h
    have h1 : ∑ j ∈ range n, e (j + 1) * (B : ℤ) ^ (j + 1) = B * ∑ j ∈ range n, e (j + 1) * (B : ℤ) ^ j := by
      rw [mul_sum]
      refine sum_congr rfl fun j _ => ?_
      ring
    rw [h1, pow_zero, mul_one] at h
    have h0 : e 0 = 0 := by
      refine Int.eq_zero_of_abs_lt_dvd (m := B) ?_ (he 0 (by omega))
      exact ⟨-∑ j ∈ range n, e (j + 1) * (B : ℤ) ^ j, by linarith⟩
    have hB : (B : ℤ) ≠ 0 := by
      have := (abs_nonneg _).trans_lt (he 0 (by omega))
      omega
    rw [h0, add_zero] at h
    have h2 := (mul_eq_zero.1 h).resolve_left hB
    have := ih (fun j => e (j + 1)) (fun j hj => he (j + 1) (by omega)) h2
    intro j hj
    cases j with
    | zero => exact h0
    | succ j => exact this j (by omega)

/-- `f k` for all `k < n` -/
def fall (f : ℕ → Bool) (n : ℕ) : Bool := Nat.rec true (fun k ih => f k && ih) n

theorem fall_spec {f : ℕ → Bool} {n : ℕ} (h : fall f n = true) : ∀ k < n, f k = true := by
  induction n with
  | zero => intro k hk; omega
  | succ n ih =>
    have h' : (f n && fall f n) = true := h
    rw [Bool.and_eq_true] at h'
    intro k hk
    rcases Nat.lt_succ_iff_lt_or_eq.1 hk with h1 | h1
    · exact ih h'.2 k h1
    · rw [h1]; exact h'.1

/-- `f r` for all rows -/
def fallRows (f : CertRow → Bool) (rows : List CertRow) : Bool := List.rec true (fun r _ ih => f r && ih) rows

theorem fallRows_spec {f : CertRow → Bool} {rows : List CertRow} (h : fallRows f rows = true) : ∀ r ∈ rows, f r = true := by
  induction rows with
  | nil => simp
  | cons r rows ih =>
    have h' : (f r && fallRows f rows) = true := h
    rw [Bool.and_eq_true] at h'
    intro s hs
    rcases List.mem_cons.1 hs with rfl | hs
    · exact h'.1
    · exact ih h'.2 s hs

/-- `f i r` for all rows `r` with their numbers, counted from `i` -/
def fallNumbered (f : ℕ → CertRow → Bool) (rows : List CertRow) : ℕ → Bool :=
  List.rec (fun _ => true) (fun r _ ih i => f i r && force (Nat.add i 1) ih) rows

theorem fallNumbered_spec {f : ℕ → CertRow → Bool} {rows : List CertRow} {i : ℕ} (h : fallNumbered f rows i = true) :
    ∀ t r, rows[t]? = some r → f (i + t) r = true := by
  induction rows generalizing i with
  | nil => simp
  | cons r rows ih =>
    have h' : (f i r && force (Nat.add i 1) (fallNumbered f rows)) = true := h
    rw [Bool.and_eq_true, force_eq] at h'
    intro t s hs
    cases t with
    | zero =>
      simp only [List.getElem?_cons_zero, Option.some.injEq] at hs
      rw [← hs]
      exact h'.1
    | succ t =>
      rw [List.getElem?_cons_succ] at hs
      have := ih h'.2 t s hs
      rw [show i + (t + 1) = Nat.add i 1 + t by show _ = i + 1 + t; omega]
      exact this

/-- `f` for the pairs of elements at the same positions of two lists of the same length -/
def fzip (f : CertRow → List ShippedEntry → Bool) (rows : List CertRow) : List (List ShippedEntry) → Bool :=
  List.rec (motive := fun _ => List (List ShippedEntry) → Bool) (fun t => List.rec true (fun _ _ _ => false) t)
    (fun r _ ih t => List.rec false (fun e t' _ => f r e && ih t') t) rows

theorem fzip_spec {f : CertRow → List ShippedEntry → Bool} {rows : List CertRow} {t : List (List ShippedEntry)}
    (h : fzip f rows t = true) : t.length = rows.length ∧ ∀ i r, rows[i]? = some r → f r (t.getD i []) = true := by
  induction rows generalizing t with
  | nil =>
    cases t with
    | nil => simp
    | cons e t => exact absurd h (by show ¬ (false = true); decide)
  | cons r rows ih =>
    cases t with
    | nil => exact absurd h (by show ¬ (false = true); decide)
    | cons e t =>
      have h' : (f r e && fzip f rows t) = true := h
      rw [Bool.and_eq_true] at h'
      obtain ⟨h1, h2⟩ := ih h'.2
      refine ⟨by simp [h1], fun i s hs => ?_⟩
      cases i with
      | zero =>
        simp only [List.getElem?_cons_zero, Option.some.injEq] at hs
        rw [← hs]
        exact h'.1
      | succ i =>
        rw [List.getElem?_cons_succ] at hs
        exact h2 i s hs

/-- the element of a list of rows, passed on -/
def fget (rows : List (List ShippedEntry)) : ℕ → (List ShippedEntry → Bool) → Bool :=
  List.rec (motive := fun _ => ℕ → (List ShippedEntry → Bool) → Bool) (fun _ k => k [])
    (fun r _ ih i k => Nat.rec (k r) (fun i _ => ih i k) i) rows

theorem fget_eq (rows : List (List ShippedEntry)) (i : ℕ) (k : List ShippedEntry → Bool) : fget rows i k = k (rows.getD i []) := by
  induction rows generalizing i with
  | nil => rfl
  | cons r rows ih =>
    cases i with
    | zero => rfl
    | succ i => exact ih i

/-! ## The checks for one degree -/

/-- the factorials of the exponents -/
def ffact (a b c : ℕ) : ℕ := Nat.mul (Nat.mul (fdesc a a) (fdesc b b)) (fdesc c c)

/-- the entry of `Q` for the order `k - l` -/
def fharm (l a b c k : ℕ) (neg : Bool) (size : ℕ) : Bool :=
  force (fdist k l) fun m =>
  force (Nat.div (Nat.sub (Nat.add a b) m) 2) fun s =>
  force (ftrig m a b s (bif Nat.ble l k then 0 else 1)) fun t0 =>
  force (ftrig m a b s (bif Nat.ble l k then 2 else 3)) fun t1 =>
  bif Nat.beq t0 t1 then Nat.beq size 0 else
  force (fpi l m s 0) fun p0 => force (fpi l m s 1) fun p1 =>
    Nat.beq size (Nat.mul (Nat.mul (fdist p0 p1) (fdist t0 t1)) (ffact a b c)) &&
      (neg == xor (Nat.blt p0 p1) (Nat.blt t0 t1) || Nat.beq size 0)

/-- `Q` -/
def checkQ (l : ℕ) (rows : List CertRow) : Bool :=
  fallRows (fun r => fall (fun k => flook r.q k fun neg size => fharm l r.a r.b r.c k neg size) (2 * l + 1)) rows

/-- the base in which rows are compared -/
def fbase : ℕ := 2 ^ 384

/-- `U = Qᵀ V` -/
def checkU (l : ℕ) (rows : List CertRow) (inv : List (List CertEntry)) : Bool :=
  Nat.beq inv.length (2 * l + 1) && (List.rec true (fun r _ ih => fcols r 0 (2 * l + 1) && ih) inv &&
    fallRows (fun r => fcols r.u 0 (2 * l + 1) && fdotInv fbase r.q inv 0 0 0 0 fun p n b =>
      fpack fbase r.u 0 0 fun up un => Nat.beq (Nat.add p un) (Nat.add n up) &&
        Nat.blt (Nat.add b (fnorm r.u)) fbase) rows)

/-- `Q U = den` -/
def checkG (l : ℕ) (rows : List CertRow) (den : ℕ) : Bool :=
  Nat.blt 0 den && fall (fun m => fdotRows fbase m rows 0 0 0 fun p n b =>
    Nat.beq p (Nat.add n (Nat.mul den (Nat.pow fbase m))) && Nat.blt (Nat.add b den) fbase) (2 * l + 1)

/-- a shipped entry and the number `± √(num / den) size / 2ˡ` -/
noncomputable def fnear (num den l : ℕ) (neg : Bool) (size : ℕ) (e : ShippedEntry) : Bool :=
  ShippedEntry.rec (fun _ neg' M E => (Nat.beq M 0 || (neg == neg')) && fclose 4503599627370496 num den l size M E) e

/-- the numerator of `R` for the order `k - l` -/
def fnum (l k : ℕ) : ℕ := bif Nat.beq k l then fdesc l l else Nat.mul 2 (fdesc (l - fdist k l) (l - fdist k l))

/-- the denominator of `R` for the order `k - l` -/
def fden (l k : ℕ) : ℕ := fdesc (l + fdist k l) (l + fdist k l)

/-- the double factorial of `2 l - 1` -/
def fodd (l : ℕ) : ℕ := Nat.rec 1 (fun k ih => Nat.mul (Nat.add (Nat.mul 2 k) 1) ih) l

/-- the shipped `s2t` -/
noncomputable def checkS (l : ℕ) (rows : List CertRow) (s2t : List (List ShippedEntry)) : Bool :=
  Nat.beq s2t.length (2 * l + 1) && fall (fun m => fget s2t m fun row =>
    fcolumns row 0 rows.length && force (fnum l m) fun num =>
      force (Nat.mul (fden l m) (Nat.mul (fodd l) (fodd l))) fun den =>
        fallNumbered (fun i r => flook r.q m fun neg size => fnear num den l neg size (rowEntry row i)) rows 0) (2 * l + 1)

/-- the shipped `t2s` -/
noncomputable def checkT (l : ℕ) (rows : List CertRow) (den : ℕ) (t2s : List (List ShippedEntry)) : Bool :=
  fzip (fun _ row => fcolumns row 0 (2 * l + 1)) rows t2s && force (Nat.mul (Nat.pow 2 l) (fodd l)) fun N =>
    fall (fun j => force (Nat.mul (fden l j) (Nat.mul N N)) fun num =>
      force (Nat.mul (fnum l j) (Nat.mul den den)) fun den' =>
        fzip (fun r row => flook r.u j fun neg size => fnear num den' 0 neg size (rowEntry row j)) rows t2s) (2 * l + 1)

/-- the exponents of the stored components -/
def exponents (α : List (Fin 3)) : ℕ × ℕ × ℕ := (α.count 0, α.count 1, α.count 2)

/-- everything -/
noncomputable def checkDegree (l : ℕ) (rows : List CertRow) (inv : List (List CertEntry)) (den : ℕ)
    (s2t t2s : List (List ShippedEntry)) : Bool :=
  decide (rows.map (fun r => (r.a, r.b, r.c)) = (storedIndices l).map exponents) &&
    (checkQ l rows && (checkU l rows inv && (checkG l rows den && (checkS l rows s2t && checkT l rows den t2s))))

end E3x.Coefficients
