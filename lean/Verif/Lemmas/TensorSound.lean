import Verif.Lemmas.ShippedTensorCheck
import Verif.Lemmas.TensorIndices
import Verif.Lemmas.ShippedHarmonics2
import Verif.Model.ShippedTensors
import Mathlib.Algebra.Order.Antidiag.Pi
import Mathlib.Data.Nat.Choose.Multinomial

/-!
# What the checks of the shipped tensor-conversion matrices prove
-/

namespace E3x.Coefficients

open Finset MvPolynomial
open scoped Nat

/-! ## The entries of `s2t` -/

/-- the number of index tuples with given exponents -/
theorem card_expo (n : ℕ) (d : Fin 3 →₀ ℕ) (hd : d 0 + d 1 + d 2 = n) :
    (univ.filter fun β : Fin n → Fin 3 => E3x.expo β = d).card * ((d 0)! * (d 1)! * (d 2)!) = n ! := by
  classical
  have h1 : (∑ i : Fin 3, (X i : MvPolynomial (Fin 3) ℕ)) ^ n = ∑ β : Fin n → Fin 3, monomial (E3x.expo β) 1 := by
    have : (∑ i : Fin 3, (X i : MvPolynomial (Fin 3) ℕ)) ^ n = ∏ _k : Fin n, ∑ i : Fin 3, X i := by simp
    rw [this, prod_univ_sum]
    rw [Fintype.piFinset_univ]
    refine sum_congr rfl fun β _ => ?_
    unfold E3x.expo
    rw [monomial_sum_one]
    rfl
  have h2 := congrArg (coeff d) h1
  rw [sum_pow_eq_sum_piAntidiag, coeff_sum, coeff_sum] at h2
  simp only [coeff_monomial] at h2
  rw [sum_boole] at h2
  have h3 : ∀ k ∈ piAntidiag (univ : Finset (Fin 3)) n, coeff d ((Nat.multinomial univ k : MvPolynomial (Fin 3) ℕ) *
      ∏ i, X i ^ k i) = if k = d then Nat.multinomial univ k else 0 := by
    intro k _
    have e : (∏ i, X i ^ k i : MvPolynomial (Fin 3) ℕ) = monomial (Finsupp.equivFunOnFinite.symm k) 1 := by
      rw [monomial_eq, Finsupp.prod_fintype _ _ (by simp)]
      simp
    have e2 : ((Nat.multinomial univ k : ℕ) : MvPolynomial (Fin 3) ℕ) = C (Nat.multinomial univ k) := by simp
    rw [e, e2, coeff_C_mul, coeff_monomial]
    have : (Finsupp.equivFunOnFinite.symm k = d) ↔ k = d := by
      constructor
      · rintro rfl; rfl
      · intro h; ext i; exact congrFun h i
    simp only [this]
    split_ifs <;> simp
  rw [sum_congr rfl h3, sum_ite_eq', if_pos (by rw [mem_piAntidiag]; exact ⟨by rw [Fin.sum_univ_three]; exact hd, by simp⟩)] at h2
  have h4 := Nat.multinomial_spec (univ : Finset (Fin 3)) d
  rw [Fin.prod_univ_three, Fin.sum_univ_three, hd] at h4
  rw [← h4, h2]
  simp only [Nat.cast_id]
  ring

theorem fodd_eq (l : ℕ) : fodd l = (2 * l - 1)‼ := by
  induction l with
  | zero => rfl
  | succ l ih =>
    have h : fodd (l + 1) = (2 * l + 1) * fodd l := rfl
    rw [h, ih]
    cases l with
    | zero => rfl
    | succ l =>
      rw [show 2 * (l + 1 + 1) - 1 = (2 * (l + 1) - 1) + 2 by omega, Nat.doubleFactorial_add_two]
      congr 1

/-- `R` for the order `k - l` -/
noncomputable def ratio (l k : ℕ) : ℝ := fnum l k / fden l k

theorem fnum_pos (l k : ℕ) : 0 < fnum l k := by
  unfold fnum
  cases Nat.beq k l
  · rw [cond_false, fdesc_eq, Nat.descFactorial_self]
    exact Nat.mul_pos (by norm_num) (Nat.factorial_pos _)
  · rw [cond_true, fdesc_eq, Nat.descFactorial_self]
    exact Nat.factorial_pos _

theorem fden_pos (l k : ℕ) : 0 < fden l k := by
  unfold fden
  rw [fdesc_eq, Nat.descFactorial_self]
  exact Nat.factorial_pos _

theorem ratio_pos (l k : ℕ) : 0 < ratio l k :=
  div_pos (by exact_mod_cast fnum_pos l k) (by exact_mod_cast fden_pos l k)

theorem fdist_natAbs (k l : ℕ) : fdist k l = ((k : ℤ) - l).natAbs := by
  have : fdist k l = (k - l) + (l - k) := rfl
  omega

theorem ratio_eq (l k : ℕ) : ratio l k = (if (k : ℤ) - l = 0 then 1 else 2) *
    (((l - ((k : ℤ) - l).natAbs)! : ℝ) / ((l + ((k : ℤ) - l).natAbs)! : ℝ)) := by
  unfold ratio fnum fden
  simp only [fdesc_eq, Nat.descFactorial_self, fdist_natAbs]
  by_cases h : k = l
  · subst h
    rw [show Nat.beq k k = true from Nat.beq_refl k, cond_true]
    simp
  · rw [show Nat.beq k l = false by rw [← Bool.not_eq_true, Nat.beq_eq]; exact h, cond_false, if_neg (by omega)]
    have : ∀ a, Nat.mul 2 a = 2 * a := fun _ => rfl
    rw [this]
    push_cast
    ring

/-- the entries of `s2t` by integers -/
theorem s2t_entry (l : ℕ) (m : Fin (numSphericalHarmonics l)) (i : Fin (numCartMonomials l)) {a b c : ℕ}
    (h : exponents ((storedIndices l).getD i []) = (a, b, c)) :
    s2tMatrix l m i = Real.sqrt (ratio l m) * ((harmonicInt l ((m : ℕ) - l) a b * (a ! * b ! * c !)) /
      (2 ^ l * (2 * l - 1)‼)) := by
  obtain ⟨hi, h1, h2⟩ := stored_get l i i.2
  rw [s2tMatrix_apply]
  rw [h1] at h ⊢
  generalize (storedIndices l)[(i : ℕ)] = α at h h2
  have hm : |((m : ℕ) : ℤ) - l| ≤ l := by
    have : (m : ℕ) < 2 * l + 1 := m.2
    rw [abs_le]
    omega
  obtain ⟨ha, hb, hc⟩ : α.count 0 = a ∧ α.count 1 = b ∧ α.count 2 = c := by
    simpa [exponents] using h
  have hsum : a + b + c = l := by
    have : α.length = α.count 0 + α.count 1 + α.count 2 := by
      clear h ha hb hc h2
      induction α with
      | nil => rfl
      | cons x α ih =>
        rw [List.length_cons, ih]
        fin_cases x <;> simp [List.count_cons] <;> omega
    omega
  have hd : (Finsupp.equivFunOnFinite.symm fun i => α.count i) = expo a b c := by
    ext j
    fin_cases j
    · simpa [expo] using ha
    · simpa [expo] using hb
    · simpa [expo] using hc
  have hcard := card_expo l (expo a b c) (by simpa [expo] using hsum)
  have e0 : (expo a b c) 0 = a ∧ (expo a b c) 1 = b ∧ (expo a b c) 2 = c := by simp [expo]
  rw [e0.1, e0.2.1, e0.2.2] at hcard
  unfold shTensor coeffTensor
  dsimp only
  rw [hd, coeff_harmonic hm hsum, ← ratio_eq, detraceConst]
  have hcard' : ((univ.filter fun β : Fin l → Fin 3 => E3x.expo β = expo a b c).card : ℝ) * (a ! * b ! * c !) = l ! := by
    exact_mod_cast hcard
  generalize ((univ.filter fun β : Fin l → Fin 3 => E3x.expo β = expo a b c).card : ℝ) = C at hcard' ⊢
  have hl : (0 : ℝ) < l ! := by exact_mod_cast Nat.factorial_pos l
  have hC : C ≠ 0 := by
    rintro rfl
    rw [zero_mul] at hcard'
    exact absurd hcard' hl.ne
  have hdf : ((2 * l - 1)‼ : ℝ) ≠ 0 := by exact_mod_cast (Nat.doubleFactorial_pos _).ne'
  rw [← hcard']
  field_simp

/-! ## The checks -/

theorem rowEntry_value (rows : List (List ShippedEntry)) (i j : ℕ) :
    sparseArray rows i j = (rowEntry (rows.getD i []) j).value := by
  unfold sparseArray
  generalize rows.getD i [] = row
  induction row with
  | nil => simp [rowEntry, ShippedEntry.value]
  | cons e row ih =>
    have hc : rowEntry (e :: row) j = bif Nat.beq e.column j then e else rowEntry row j := rfl
    rw [hc, List.find?_cons]
    by_cases h : e.column = j
    · rw [show (e.column == j) = true by simpa using h, show Nat.beq e.column j = true by rw [Nat.beq_eq]; exact h]
      rfl
    · rw [show (e.column == j) = false by simpa using h,
        show Nat.beq e.column j = false by rw [← Bool.not_eq_true, Nat.beq_eq]; exact h, cond_false]
      exact ih

theorem fharm_sound {l a b c k : ℕ} {neg : Bool} {size : ℕ} (h : fharm l a b c k neg size = true) :
    (if neg then -(size : ℤ) else size) = harmonicInt l ((k : ℤ) - l) a b * (a ! * b ! * c ! : ℕ) := by
  unfold fharm at h
  simp only [force_eq] at h
  rw [fdist_natAbs] at h
  set m : ℤ := (k : ℤ) - l with hm
  set s := Nat.div (Nat.sub (Nat.add a b) m.natAbs) 2 with hs
  have hs' : (a + b - m.natAbs) / 2 = s := rfl
  have hble : Nat.ble l k = decide (0 ≤ m) := by
    rw [Bool.eq_iff_iff, Nat.ble_eq, decide_eq_true_eq]
    omega
  set q : ℕ := if 0 ≤ m then 0 else 1 with hq
  have hq0 : (bif Nat.ble l k then 0 else 1) = q := by
    rw [hble, hq]
    by_cases h0 : 0 ≤ m <;> simp [h0]
  have hq2 : (bif Nat.ble l k then 2 else 3) = q + 2 := by
    rw [hble, hq]
    by_cases h0 : 0 ≤ m <;> simp [h0]
  rw [hq0, hq2] at h
  have hpi := fpi_eq l m.natAbs s
  have htrig : trigCoeff (if 0 ≤ m then cosQuarter else sinQuarter) m.natAbs a b s =
      (ftrig m.natAbs a b s q : ℤ) - ftrig m.natAbs a b s (q + 2) := by
    apply ftrig_eq
    · rw [hq]; split_ifs <;> norm_num
    · intro e
      rw [hq]
      split_ifs with h0
      all_goals simp_all [cosQuarter, sinQuarter]
  generalize fpi l m.natAbs s 0 = p0 at h hpi
  generalize fpi l m.natAbs s 1 = p1 at h hpi
  generalize ftrig m.natAbs a b s q = t0 at h htrig
  generalize ftrig m.natAbs a b s (q + 2) = t1 at h htrig
  have hz : harmonicInt l m a b = ((p0 : ℤ) - p1) * ((t0 : ℤ) - t1) := by
    unfold harmonicInt
    rw [hs', hpi, htrig]
  rw [hz]
  by_cases ht : t0 = t1
  · subst ht
    rw [show Nat.beq t0 t0 = true from Nat.beq_refl t0, cond_true, Nat.beq_eq] at h
    rw [h]
    simp
  · rw [show Nat.beq t0 t1 = false by rw [← Bool.not_eq_true, Nat.beq_eq]; exact ht, cond_false, Bool.and_eq_true,
      Nat.beq_eq, Bool.or_eq_true, Nat.beq_eq, beq_iff_eq] at h
    obtain ⟨h1, h2⟩ := h
    have hf : ffact a b c = a ! * b ! * c ! := by
      unfold ffact
      simp only [fdesc_eq, Nat.descFactorial_self]
      rfl
    have h1' : size = fdist p0 p1 * fdist t0 t1 * (a ! * b ! * c !) := by rw [h1, hf]; rfl
    have hfd : ∀ x y : ℕ, (fdist x y : ℤ) = |(x : ℤ) - y| := by
      intro x y
      rw [fdist_natAbs, Int.natCast_natAbs]
    have hlt : ∀ x y : ℕ, Nat.blt x y = decide (x < y) := by
      intro x y
      rw [Bool.eq_iff_iff, decide_eq_true_eq, Nat.blt_eq]
    have hsz : (size : ℤ) = |(p0 : ℤ) - p1| * |(t0 : ℤ) - t1| * (a ! * b ! * c ! : ℕ) := by
      rw [h1']
      push_cast
      rw [hfd, hfd]
    rcases h2 with h2 | h2
    · rw [h2, hlt, hlt, hsz]
      by_cases hp : p0 < p1
      · have e1 : |(p0 : ℤ) - p1| = -((p0 : ℤ) - p1) := abs_of_neg (by omega)
        by_cases ht : t0 < t1
        · have e2 : |(t0 : ℤ) - t1| = -((t0 : ℤ) - t1) := abs_of_neg (by omega)
          simp only [hp, ht, decide_true, Bool.xor_self, Bool.false_eq_true, if_false]
          rw [e1, e2]
          ring
        · have e2 : |(t0 : ℤ) - t1| = (t0 : ℤ) - t1 := abs_of_nonneg (by omega)
          simp only [hp, ht, decide_true, decide_false, Bool.xor_false, if_true]
          rw [e1, e2]
          ring
      · have e1 : |(p0 : ℤ) - p1| = (p0 : ℤ) - p1 := abs_of_nonneg (by omega)
        by_cases ht : t0 < t1
        · have e2 : |(t0 : ℤ) - t1| = -((t0 : ℤ) - t1) := abs_of_neg (by omega)
          simp only [hp, ht, decide_true, decide_false, Bool.false_xor, if_true]
          rw [e1, e2]
          ring
        · have e2 : |(t0 : ℤ) - t1| = (t0 : ℤ) - t1 := abs_of_nonneg (by omega)
          simp only [hp, ht, decide_false, Bool.xor_self, Bool.false_eq_true, if_false]
          rw [e1, e2]
    · have h0 : ((p0 : ℤ) - p1) * ((t0 : ℤ) - t1) * (a ! * b ! * c ! : ℕ) = 0 := by
        have : |((p0 : ℤ) - p1) * ((t0 : ℤ) - t1) * (a ! * b ! * c ! : ℕ)| = 0 := by
          rw [abs_mul, abs_mul, Nat.abs_cast, ← hsz, h2]
          rfl
        exact abs_eq_zero.1 this
      rw [h0, h2]
      simp

theorem fnear_sound {num den l : ℕ} {neg : Bool} {size : ℕ} {e : ShippedEntry} (hden : 0 < den)
    (h : fnear num den l neg size e = true) :
    |e.value - Real.sqrt (num / den) * (((if neg then -(size : ℤ) else size : ℤ) : ℝ) / 2 ^ l)| ≤
      2⁻¹ ^ 52 * |Real.sqrt (num / den) * (((if neg then -(size : ℤ) else size : ℤ) : ℝ) / 2 ^ l)| := by
  obtain ⟨j, neg', M, E⟩ := e
  have h' : ((Nat.beq M 0 || (neg == neg')) && fclose 4503599627370496 num den l size M E) = true := h
  rw [Bool.and_eq_true, Bool.or_eq_true, Nat.beq_eq, beq_iff_eq] at h'
  obtain ⟨h1, h2⟩ := h'
  have hcl := fclose_sound (by norm_num) hden h2
  rw [show (((4503599627370496 : ℕ) : ℝ)⁻¹) = 2⁻¹ ^ 52 by norm_num] at hcl
  refine sign_close (s := Real.sqrt (num / den) / 2 ^ l) (X := M / 2 ^ E) (Z := size)
    (p := ((if neg then -(size : ℤ) else size : ℤ) : ℝ)) (t := 1) (by positivity) ?_ ?_ (by ring) (by norm_num) ?_ ?_
  · rw [abs_one, mul_one]
    cases neg <;> simp
  · unfold ShippedEntry.value
    dsimp only
    rw [abs_div, abs_mul, abs_of_nonneg (by positivity : (0 : ℝ) ≤ M), abs_of_nonneg (by positivity : (0 : ℝ) ≤ 2 ^ E)]
    cases neg' <;> simp
  · have e2 : Real.sqrt (num / den) / 2 ^ l * size = Real.sqrt (num / den) * (size / 2 ^ l) := by ring
    rw [e2]
    exact hcl
  · rcases h1 with h1 | h1
    · left
      rw [h1]
      simp
    · right
      rw [h1]
      have hM : 0 ≤ (M : ℝ) / 2 ^ E := by positivity
      unfold ShippedEntry.value
      dsimp only
      cases neg'
      · have : 0 ≤ ((M : ℝ) / 2 ^ E) * size := by positivity
        simp only [Bool.false_eq_true, if_false, one_mul, mul_one, Int.cast_natCast]
        exact this
      · have : 0 ≤ ((M : ℝ) / 2 ^ E) * size := by positivity
        simp only [if_true, mul_one, Int.cast_neg, Int.cast_natCast]
        have e : -1 * (M : ℝ) / 2 ^ E * -(size : ℝ) = (M : ℝ) / 2 ^ E * size := by ring
        rw [e]
        exact this

/-! ## One degree -/

/-- the entry of `Q` -/
def certQ (rows : List CertRow) (m i : ℕ) : ℤ := ((rows[i]?).map fun r => look r.q m).getD 0

/-- the entry of `U` -/
def certU (rows : List CertRow) (i j : ℕ) : ℤ := ((rows[i]?).map fun r => look r.u j).getD 0

theorem sum_rows (rows : List CertRow) (f : CertRow → ℤ) :
    (rows.map f).sum = ∑ i : Fin rows.length, ((rows[(i : ℕ)]?).map f).getD 0 := by
  rw [Fin.sum_univ_eq_sum_range (fun i => ((rows[i]?).map f).getD 0)]
  induction rows with
  | nil => simp
  | cons r rows ih =>
    rw [List.map_cons, List.sum_cons, ih, List.length_cons, sum_range_succ']
    simp only [List.getElem?_cons_succ, List.getElem?_cons_zero, Option.map_some, Option.getD_some]
    ring

theorem checkU_sound {l : ℕ} {rows : List CertRow} {inv : List (List CertEntry)} (h : checkU l rows inv = true) :
    (∀ r ∈ rows, fcols r.u 0 (2 * l + 1) = true) ∧ ∀ r ∈ rows, ∀ j < 2 * l + 1,
      look r.u j = ∑ k ∈ range (2 * l + 1), look r.q k * look (inv.getD k []) j := by
  unfold checkU at h
  rw [Bool.and_eq_true, Bool.and_eq_true, Nat.beq_eq] at h
  obtain ⟨hlen, hinv, hrows⟩ := h
  have hw : ∀ v ∈ inv, fcols v 0 (2 * l + 1) = true := by
    clear hlen hrows
    induction inv with
    | nil => simp
    | cons v inv ih =>
      have h' : (fcols v 0 (2 * l + 1) && List.rec true (fun r _ ih => fcols r 0 (2 * l + 1) && ih) inv) = true := hinv
      rw [Bool.and_eq_true] at h'
      intro x hx
      rcases List.mem_cons.1 hx with rfl | hx
      · exact h'.1
      · exact ih h'.2 x hx
  have hr := fallRows_spec hrows
  refine ⟨fun r hr' => ((Bool.and_eq_true _ _).mp (hr r hr')).1, fun r hrm => ?_⟩
  have h1 := hr r hrm
  rw [Bool.and_eq_true] at h1
  obtain ⟨hu, h2⟩ := h1
  obtain ⟨p, n, b, e1, e2, e3⟩ := fdotInv_spec fbase (2 * l + 1) r.q inv hw 0 0 0 0
  obtain ⟨up, un, e4, e5⟩ := fpack_spec fbase hu 0 0
  rw [e1, e4, Bool.and_eq_true, Nat.beq_eq] at h2
  obtain ⟨h3, h4⟩ := h2
  have h3' : (p : ℤ) + un = n + up := by
    have : p + un = n + up := h3
    exact_mod_cast this
  have h4' : b + fnorm r.u < fbase := Nat.blt_eq ▸ h4
  rw [hlen] at e2 e3
  simp only [zero_add, Nat.cast_zero, sub_zero] at e2 e3 e5
  have key := digits_zero fbase (fun j => (∑ k ∈ range (2 * l + 1), look r.q k * look (inv.getD k []) j) - look r.u j)
    (2 * l + 1) ?_ ?_
  · intro j hj
    have := key j hj
    linarith
  · intro j _
    have hb : |∑ k ∈ range (2 * l + 1), look r.q k * look (inv.getD k []) j| ≤ b := by
      rw [e3]
      refine (abs_sum_le_sum_abs _ _).trans (sum_le_sum fun k _ => ?_)
      rw [abs_mul]
      exact mul_le_mul_of_nonneg_left (look_norm _ _) (abs_nonneg _)
    have hn := look_norm r.u j
    have h5 : (b : ℤ) + fnorm r.u < fbase := by exact_mod_cast h4'
    exact lt_of_le_of_lt (abs_sub _ _) (by linarith)
  · have : ∀ j, ((∑ k ∈ range (2 * l + 1), look r.q k * look (inv.getD k []) j) - look r.u j) * (fbase : ℤ) ^ j =
        (∑ k ∈ range (2 * l + 1), look r.q k * (look (inv.getD k []) j * (fbase : ℤ) ^ j)) -
          look r.u j * (fbase : ℤ) ^ j := by
      intro j
      rw [sub_mul, sum_mul]
      congr 1
      exact sum_congr rfl fun k _ => by ring
    simp only [this]
    rw [sum_sub_distrib, sum_comm, ← e5]
    simp only [← mul_sum]
    rw [← e2]
    linarith

theorem checkG_sound {l : ℕ} {rows : List CertRow} {den : ℕ} (hu : ∀ r ∈ rows, fcols r.u 0 (2 * l + 1) = true)
    (h : checkG l rows den = true) : 0 < den ∧ ∀ m < 2 * l + 1, ∀ j < 2 * l + 1,
      (rows.map fun r => look r.q m * look r.u j).sum = if m = j then (den : ℤ) else 0 := by
  unfold checkG at h
  rw [Bool.and_eq_true] at h
  refine ⟨Nat.blt_eq ▸ h.1, fun m hm => ?_⟩
  have h1 := fall_spec h.2 m hm
  obtain ⟨p, n, b, e1, e2, e3⟩ := fdotRows_spec fbase m (2 * l + 1) rows hu 0 0 0
  rw [e1, Bool.and_eq_true, Nat.beq_eq] at h1
  obtain ⟨h3, h4⟩ := h1
  have h3' : (p : ℤ) = n + den * (fbase : ℤ) ^ m := by
    have : p = n + den * fbase ^ m := h3
    exact_mod_cast this
  have h4' : b + den < fbase := Nat.blt_eq ▸ h4
  simp only [zero_add, Nat.cast_zero, sub_zero] at e2 e3
  have key := digits_zero fbase (fun j => (rows.map fun r => look r.q m * look r.u j).sum - if m = j then (den : ℤ) else 0)
    (2 * l + 1) ?_ ?_
  · intro j hj
    have := key j hj
    linarith
  · intro j _
    have hb : |(rows.map fun r => look r.q m * look r.u j).sum| ≤ b := by
      rw [e3]
      clear e1 e2 e3 h h3 h3' h4 h4' hu
      induction rows with
      | nil => simp
      | cons r rows ih =>
        simp only [List.map_cons, List.sum_cons]
        refine (abs_add_le _ _).trans (add_le_add ?_ ih)
        rw [abs_mul]
        exact mul_le_mul_of_nonneg_left (look_norm _ _) (abs_nonneg _)
    have hd : |(if m = j then (den : ℤ) else 0)| ≤ den := by
      split_ifs
      · exact le_of_eq (Nat.abs_cast _)
      · simp
    have h5 : (b : ℤ) + den < fbase := by exact_mod_cast h4'
    exact lt_of_le_of_lt (abs_sub _ _) (by linarith)
  · have hs : (∑ j ∈ range (2 * l + 1), (rows.map fun r => look r.q m * look r.u j).sum * (fbase : ℤ) ^ j) =
        (rows.map fun r => look r.q m * ∑ j ∈ range (2 * l + 1), look r.u j * (fbase : ℤ) ^ j).sum := by
      clear e1 e2 e3 h h3 h3' h4 h4' hu
      induction rows with
      | nil => simp
      | cons r rows ih =>
        simp only [List.map_cons, List.sum_cons, add_mul, sum_add_distrib, ih, mul_sum]
        congr 1
        exact sum_congr rfl fun j _ => by ring
    simp only [sub_mul]
    rw [sum_sub_distrib, hs, ← e2]
    have : ∑ j ∈ range (2 * l + 1), (if m = j then (den : ℤ) else 0) * (fbase : ℤ) ^ j = den * (fbase : ℤ) ^ m := by
      simp only [ite_mul, zero_mul]
      rw [sum_ite_eq, if_pos (mem_range.2 hm)]
    rw [this]
    linarith

/-- the integers of one degree and the exact matrices -/
structure CertSound (l : ℕ) (rows : List CertRow) (den : ℕ) : Prop where
  length : rows.length = numCartMonomials l
  den_pos : 0 < den
  cols : ∀ r ∈ rows, fcols r.u 0 (2 * l + 1) = true
  s2t : ∀ (m : Fin (numSphericalHarmonics l)) (i : Fin (numCartMonomials l)),
    s2tMatrix l m i = Real.sqrt (ratio l m) * ((certQ rows m i : ℝ) / (2 ^ l * (2 * l - 1)‼))
  t2s : ∀ (i : Fin (numCartMonomials l)) (j : Fin (numSphericalHarmonics l)),
    t2sMatrix l i j = (2 ^ l * (2 * l - 1)‼) * (certU rows i j : ℝ) / (den * Real.sqrt (ratio l j))

theorem cert_sound {l : ℕ} {rows : List CertRow} {inv : List (List CertEntry)} {den : ℕ}
    (h0 : rows.map (fun r => (r.a, r.b, r.c)) = (storedIndices l).map exponents) (hQ : checkQ l rows = true)
    (hU : checkU l rows inv = true) (hG : checkG l rows den = true) : CertSound l rows den := by
  have hlen : rows.length = numCartMonomials l := by
    have := congrArg List.length h0
    rw [List.length_map, List.length_map, storedIndices_length] at this
    exact this
  obtain ⟨hcols, hU'⟩ := checkU_sound hU
  obtain ⟨hden, hG'⟩ := checkG_sound hcols hG
  have hs2t : ∀ (m : Fin (numSphericalHarmonics l)) (i : Fin (numCartMonomials l)),
      s2tMatrix l m i = Real.sqrt (ratio l m) * ((certQ rows m i : ℝ) / (2 ^ l * (2 * l - 1)‼)) := by
    intro m i
    have hi : (i : ℕ) < rows.length := by rw [hlen]; exact i.2
    have hi' : (i : ℕ) < (storedIndices l).length := by rw [storedIndices_length]; exact i.2
    have hr := List.getElem?_eq_getElem hi
    have he : exponents ((storedIndices l).getD i []) = ((rows[(i : ℕ)]).a, (rows[(i : ℕ)]).b, (rows[(i : ℕ)]).c) := by
      have := congrArg (fun x => x[(i : ℕ)]?) h0
      simp only [List.getElem?_map, hr, List.getElem?_eq_getElem hi', Option.map_some, Option.some.injEq] at this
      rw [List.getD_eq_getElem?_getD, List.getElem?_eq_getElem hi', Option.getD_some, ← this]
    rw [s2t_entry l m i he]
    congr 2
    have hk := fall_spec (fallRows_spec hQ _ (List.getElem_mem hi)) m m.2
    obtain ⟨neg, size, e1, e2⟩ := flook_spec (rows[(i : ℕ)]).q m
    rw [e1] at hk
    have := fharm_sound hk
    rw [← e2] at this
    unfold certQ
    rw [hr, Option.map_some, Option.getD_some, this]
    push_cast
    ring
  refine ⟨hlen, hden, hcols, hs2t, ?_⟩
  -- the integer matrices
  have hcU : ∀ i < rows.length, ∀ j < 2 * l + 1,
      certU rows i j = ∑ k ∈ range (2 * l + 1), certQ rows k i * look (inv.getD k []) j := by
    intro i hi j hj
    unfold certU certQ
    rw [List.getElem?_eq_getElem hi]
    exact hU' _ (List.getElem_mem hi) j hj
  have hcG : ∀ m < 2 * l + 1, ∀ j < 2 * l + 1,
      ∑ i : Fin (numCartMonomials l), certQ rows m i * certU rows i j = if m = j then (den : ℤ) else 0 := by
    intro m hm j hj
    rw [← hG' m hm j hj, sum_rows]
    have e : ∀ i : ℕ, i < rows.length → certQ rows m i * certU rows i j =
        ((rows[i]?).map fun r => look r.q m * look r.u j).getD 0 := by
      intro i hi
      unfold certU certQ
      rw [List.getElem?_eq_getElem hi]
      rfl
    rw [Fin.sum_univ_eq_sum_range (fun i => certQ rows m i * certU rows i j),
      Fin.sum_univ_eq_sum_range (fun i => ((rows[i]?).map fun r => look r.q m * look r.u j).getD 0), hlen]
    exact sum_congr rfl fun i hi => e i (by rw [hlen]; exact mem_range.1 hi)
  -- the inverse
  set N : ℝ := 2 ^ l * (2 * l - 1)‼ with hN
  have hN0 : N ≠ 0 := by
    have : ((2 * l - 1)‼ : ℝ) ≠ 0 := by exact_mod_cast (Nat.doubleFactorial_pos _).ne'
    positivity
  have hden0 : (den : ℝ) ≠ 0 := by exact_mod_cast hden.ne'
  have hR : ∀ k, Real.sqrt (ratio l k) ≠ 0 := fun k => (Real.sqrt_pos.2 (ratio_pos l k)).ne'
  let W : Matrix (Fin (numSphericalHarmonics l)) (Fin (numSphericalHarmonics l)) ℝ := Matrix.of fun k j =>
    N ^ 2 * (look (inv.getD k []) j : ℝ) / (den * Real.sqrt (ratio l k) * Real.sqrt (ratio l j))
  have hT : ∀ (i : Fin (numCartMonomials l)) (j : Fin (numSphericalHarmonics l)),
      ((s2tMatrix l).transpose * W) i j = N * (certU rows i j : ℝ) / (den * Real.sqrt (ratio l j)) := by
    intro i j
    rw [hcU i (by rw [hlen]; exact i.2) j j.2, Matrix.mul_apply]
    have e : ∀ k : Fin (numSphericalHarmonics l), (s2tMatrix l).transpose i k * W k j =
        N / (den * Real.sqrt (ratio l j)) * ((certQ rows k i : ℝ) * (look (inv.getD k []) j : ℝ)) := by
      intro k
      rw [Matrix.transpose_apply, hs2t]
      show Real.sqrt (ratio l k) * ((certQ rows k i : ℝ) / N) *
        (N ^ 2 * (look (inv.getD k []) j : ℝ) / (den * Real.sqrt (ratio l k) * Real.sqrt (ratio l j))) = _
      have := hR k
      have := hR j
      field_simp
    rw [sum_congr rfl fun k _ => e k, ← mul_sum, Fin.sum_univ_eq_sum_range (fun k =>
      (certQ rows k i : ℝ) * (look (inv.getD k []) j : ℝ))]
    push_cast
    show _ * ∑ k ∈ range (2 * l + 1), _ = _
    ring
  have hinv : (s2tMatrix l * (s2tMatrix l).transpose)⁻¹ = W := by
    apply Matrix.inv_eq_right_inv
    rw [Matrix.mul_assoc]
    ext m j
    rw [Matrix.mul_apply]
    have e : ∀ i : Fin (numCartMonomials l), s2tMatrix l m i * ((s2tMatrix l).transpose * W) i j =
        Real.sqrt (ratio l m) / (den * Real.sqrt (ratio l j)) * ((certQ rows m i * certU rows i j : ℤ) : ℝ) := by
      intro i
      rw [hT, hs2t]
      have := hR j
      push_cast
      field_simp
    rw [sum_congr rfl fun i _ => e i, ← mul_sum, ← Int.cast_sum, hcG m m.2 j j.2, Matrix.one_apply]
    by_cases hmj : m = j
    · subst hmj
      rw [if_pos rfl, if_pos rfl]
      have := hR m
      push_cast
      field_simp
    · rw [if_neg hmj, if_neg (fun h => hmj (Fin.ext h))]
      simp
  intro i j
  rw [t2sMatrix, hinv, hT]

/-- a number and a close number -/
def Near (x y : ℝ) : Prop := |x - y| ≤ 2⁻¹ ^ 52 * |y|

theorem sparseArray_absent {rows : List (List ShippedEntry)} {i j hi : ℕ} (h : fcolumns (rows.getD i []) 0 hi = true)
    (hj : hi ≤ j) : sparseArray rows i j = 0 := by
  rw [rowEntry_value, rowEntry_absent, value_zero]
  intro e he hej
  have := (fcolumns_spec h).2.1 e he
  omega

theorem degree_sound {l : ℕ} {rows : List CertRow} {inv : List (List CertEntry)} {den : ℕ}
    {s2t t2s : List (List ShippedEntry)} (h : checkDegree l rows inv den s2t t2s = true) (i j : ℕ) :
    Near (sparseArray s2t i j) (matrixArray (s2tMatrix l) i j) ∧
      Near (sparseArray t2s i j) (matrixArray (t2sMatrix l) i j) := by
  unfold checkDegree at h
  simp only [Bool.and_eq_true, decide_eq_true_eq] at h
  obtain ⟨h0, hQ, hU, hG, hS, hT⟩ := h
  have hs := cert_sound h0 hQ hU hG
  have hodd : (fodd l : ℝ) = ((2 * l - 1)‼ : ℝ) := by rw [fodd_eq]
  have hodd0 : 0 < fodd l := by rw [fodd_eq]; exact Nat.doubleFactorial_pos _
  have near0 : Near 0 0 := by simp [Near]
  constructor
  · unfold checkS at hS
    rw [Bool.and_eq_true, Nat.beq_eq] at hS
    obtain ⟨hl, hS⟩ := hS
    unfold matrixArray
    by_cases hi : i < 2 * l + 1
    · have h1 := fall_spec hS i hi
      rw [fget_eq, Bool.and_eq_true, force_eq, force_eq] at h1
      obtain ⟨hc, h1⟩ := h1
      split_ifs with hij
      · have hj : j < rows.length := by rw [hs.length]; exact hij.2
        have hr := List.getElem?_eq_getElem hj
        have h2 := fallNumbered_spec h1 j _ hr
        rw [zero_add] at h2
        obtain ⟨neg, size, e1, e2⟩ := flook_spec (rows[j]).q i
        rw [e1] at h2
        have h3 := fnear_sound (Nat.mul_pos (fden_pos l i) (Nat.mul_pos hodd0 hodd0)) h2
        rw [← e2, ← rowEntry_value] at h3
        have e3 : s2tMatrix l ⟨i, hij.1⟩ ⟨j, hij.2⟩ =
            Real.sqrt ((fnum l i : ℝ) / ((Nat.mul (fden l i) (Nat.mul (fodd l) (fodd l)) : ℕ) : ℝ)) *
              ((look (rows[j]).q i : ℝ) / 2 ^ l) := by
          rw [hs.s2t]
          have e4 : certQ rows i j = look (rows[j]).q i := by
            unfold certQ
            rw [hr]
            rfl
          dsimp only
          rw [e4]
          have e5 : ((Nat.mul (fden l i) (Nat.mul (fodd l) (fodd l)) : ℕ) : ℝ) = fden l i * (fodd l : ℝ) ^ 2 := by
            have : Nat.mul (fden l i) (Nat.mul (fodd l) (fodd l)) = fden l i * (fodd l * fodd l) := rfl
            rw [this]
            push_cast
            ring
          have e6 : (fnum l i : ℝ) / (fden l i * (fodd l : ℝ) ^ 2) = ratio l i / (fodd l : ℝ) ^ 2 := by rw [ratio, div_div]
          rw [e5, e6, Real.sqrt_div (le_of_lt (ratio_pos l i)), Real.sqrt_sq (Nat.cast_nonneg _), hodd]
          have : ((2 * l - 1)‼ : ℝ) ≠ 0 := by exact_mod_cast (Nat.doubleFactorial_pos _).ne'
          field_simp
        unfold Near
        rw [e3]
        exact h3
      · have hj : numCartMonomials l ≤ j := by
          by_contra hc'
          exact hij ⟨hi, not_le.1 hc'⟩
        rw [sparseArray_absent hc (by rw [hs.length]; exact hj)]
        exact near0
    · rw [dif_neg (fun hij => hi hij.1)]
      have : s2t.getD i [] = [] := by
        rw [List.getD_eq_getElem?_getD, List.getElem?_eq_none (by omega), Option.getD_none]
      rw [rowEntry_value, this, rowEntry_absent (by simp), value_zero]
      exact near0
  · unfold checkT at hT
    rw [Bool.and_eq_true, force_eq] at hT
    obtain ⟨hz, hT⟩ := hT
    obtain ⟨hl, hz⟩ := fzip_spec hz
    unfold matrixArray
    by_cases hi : i < rows.length
    · have hr := List.getElem?_eq_getElem hi
      have hc := hz i _ hr
      split_ifs with hij
      · have h1 := fall_spec hT j hij.2
        rw [force_eq, force_eq] at h1
        have h2 := (fzip_spec h1).2 i _ hr
        obtain ⟨neg, size, e1, e2⟩ := flook_spec (rows[i]).u j
        rw [e1] at h2
        have h3 := fnear_sound (Nat.mul_pos (fnum_pos l j) (Nat.mul_pos hs.den_pos hs.den_pos)) h2
        rw [← e2, ← rowEntry_value] at h3
        have e3 : t2sMatrix l ⟨i, hij.1⟩ ⟨j, hij.2⟩ =
            Real.sqrt (((Nat.mul (fden l j) (Nat.mul (Nat.mul (Nat.pow 2 l) (fodd l)) (Nat.mul (Nat.pow 2 l) (fodd l))) : ℕ) : ℝ) /
              ((Nat.mul (fnum l j) (Nat.mul den den) : ℕ) : ℝ)) * ((look (rows[i]).u j : ℝ) / 2 ^ 0) := by
          rw [hs.t2s]
          have e4 : certU rows i j = look (rows[i]).u j := by
            unfold certU
            rw [hr]
            rfl
          dsimp only
          rw [e4]
          have e5 : (((Nat.mul (fden l j) (Nat.mul (Nat.mul (Nat.pow 2 l) (fodd l)) (Nat.mul (Nat.pow 2 l) (fodd l))) : ℕ) : ℝ) /
              ((Nat.mul (fnum l j) (Nat.mul den den) : ℕ) : ℝ)) = ((2 ^ l * (fodd l : ℝ)) / den) ^ 2 / ratio l j := by
            have h6 : Nat.mul (fden l j) (Nat.mul (Nat.mul (Nat.pow 2 l) (fodd l)) (Nat.mul (Nat.pow 2 l) (fodd l))) =
              fden l j * (2 ^ l * fodd l * (2 ^ l * fodd l)) := rfl
            have h7 : Nat.mul (fnum l j) (Nat.mul den den) = fnum l j * (den * den) := rfl
            rw [h6, h7, ratio]
            have a1 : (fnum l j : ℝ) ≠ 0 := by exact_mod_cast (fnum_pos l j).ne'
            have a2 : (fden l j : ℝ) ≠ 0 := by exact_mod_cast (fden_pos l j).ne'
            have a3 : (den : ℝ) ≠ 0 := by exact_mod_cast hs.den_pos.ne'
            push_cast
            field_simp
          rw [e5, Real.sqrt_div (by positivity), Real.sqrt_sq (by positivity), hodd, pow_zero, div_one]
          have a3 : (den : ℝ) ≠ 0 := by exact_mod_cast hs.den_pos.ne'
          have := (Real.sqrt_pos.2 (ratio_pos l j)).ne'
          field_simp
        unfold Near
        rw [e3]
        exact h3
      · have hj : 2 * l + 1 ≤ j := by
          by_contra hc'
          exact hij ⟨by rw [← hs.length]; exact hi, not_le.1 hc'⟩
        rw [sparseArray_absent hc hj]
        exact near0
    · rw [dif_neg (fun hij => hi (by rw [hs.length]; exact hij.1))]
      have : t2s.getD i [] = [] := by
        rw [List.getD_eq_getElem?_getD, List.getElem?_eq_none (by omega), Option.getD_none]
      rw [rowEntry_value, this, rowEntry_absent (by simp), value_zero]
      exact near0

end E3x.Coefficients
