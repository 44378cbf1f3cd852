import Verif.Lemmas.ShippedHarmonics1
import Verif.Lemmas.Polynomials
import Verif.Lemmas.LutKinds2
import Verif.Lemmas.TensorConversion

/-!
# What the shipped table of spherical harmonics contains
-/

namespace E3x.Coefficients

open Spec MvPolynomial

/-! ## Rows -/

theorem fcolumns_spec {row : List ShippedEntry} {lo hi : ℕ} (h : fcolumns row lo hi = true) :
    lo ≤ hi ∧ (∀ e ∈ row, lo ≤ e.column ∧ e.column < hi) ∧ ∀ e ∈ row, rowEntry row e.column = e := by
  induction row generalizing lo with
  | nil =>
    have : Nat.ble lo hi = true := h
    rw [Nat.ble_eq] at this
    exact ⟨this, by simp, by simp⟩
  | cons e row ih =>
    have h' : (Nat.ble lo e.column && fcolumns row (e.column + 1) hi) = true := h
    rw [Bool.and_eq_true, Nat.ble_eq] at h'
    obtain ⟨h1, h2⟩ := h'
    obtain ⟨i1, i2, i3⟩ := ih h2
    have hc : ∀ j, rowEntry (e :: row) j = bif Nat.beq e.column j then e else rowEntry row j := fun _ => rfl
    refine ⟨by omega, ?_, ?_⟩
    · intro x hx
      rcases List.mem_cons.1 hx with rfl | hx
      · exact ⟨h1, by omega⟩
      · have := i2 x hx
        exact ⟨by omega, this.2⟩
    · intro x hx
      rw [hc]
      rcases List.mem_cons.1 hx with rfl | hx
      · rw [Nat.beq_refl]
        rfl
      · have : Nat.beq e.column x.column = false := by
          rw [← Bool.not_eq_true, Nat.beq_eq]
          have := i2 x hx
          omega
        rw [this]
        exact i3 x hx

theorem rowEntry_absent {row : List ShippedEntry} {j : ℕ} (h : ∀ e ∈ row, e.column ≠ j) :
    rowEntry row j = ⟨j, false, 0, 0⟩ := by
  induction row with
  | nil => rfl
  | cons e row ih =>
    have hc : rowEntry (e :: row) j = bif Nat.beq e.column j then e else rowEntry row j := rfl
    have : Nat.beq e.column j = false := by
      rw [← Bool.not_eq_true, Nat.beq_eq]
      exact h e (by simp)
    rw [hc, this]
    exact ih fun x hx => h x (by simp [hx])

theorem value_zero (j : ℕ) : (ShippedEntry.mk j false 0 0).value = 0 := by simp [ShippedEntry.value]

theorem fcolumnsClose_spec {l a b c : ℕ} {row : List ShippedEntry} {n : ℕ} (habc : a + b + c = l)
    (h : fcolumnsClose l a b row n = true) (k : ℕ) (hk : k < n) (hkl : k ≤ 2 * l) :
    |(rowEntry row (l * l + k)).value - coeff (expo a b c) (symSphericalHarmonics l ((k : ℤ) - l))| ≤
      2⁻¹ ^ 52 * |coeff (expo a b c) (symSphericalHarmonics l ((k : ℤ) - l))| := by
  induction n with
  | zero => omega
  | succ n ih =>
    have h' : ((ShippedEntry.rec (motive := fun _ => Bool) (fun _ neg M E =>
        fentry l (fdist n l) (bif Nat.ble l n then 0 else 1) a b neg M E) (rowEntry row (l * l + n))) &&
      fcolumnsClose l a b row n) = true := h
    rw [Bool.and_eq_true] at h'
    obtain ⟨h1, h2⟩ := h'
    rcases Nat.lt_succ_iff_lt_or_eq.1 hk with hk' | rfl
    · exact ih h2 hk'
    · generalize rowEntry row (l * l + k) = e at h1 ⊢
      obtain ⟨j, neg, M, E⟩ := e
      refine fentry_sound (m := (k : ℤ) - l) (by rw [abs_le]; omega) habc j ?_
      have e1 : ((k : ℤ) - l).natAbs = fdist k l := by
        have : fdist k l = (k - l) + (l - k) := rfl
        omega
      have e2 : (if 0 ≤ (k : ℤ) - l then 0 else 1) = (bif Nat.ble l k then 0 else 1 : ℕ) := by
        by_cases hc : l ≤ k
        · rw [if_pos (by omega), show Nat.ble l k = true by rw [Nat.ble_eq]; exact hc]
          rfl
        · rw [if_neg (by omega), show Nat.ble l k = false by
            rw [← Bool.not_eq_true, Nat.ble_eq]; exact hc]
          rfl
      rw [e1, e2]
      exact h1

theorem frows_spec {l : ℕ} {rows : List (List ℕ × List ShippedEntry)} (h : frows l rows = true) :
    ∀ r ∈ rows, frow l r.1 r.2 = true := by
  induction rows with
  | nil => simp
  | cons r rows ih =>
    have h' : (frow l r.1 r.2 && frows l rows) = true := h
    rw [Bool.and_eq_true] at h'
    intro x hx
    rcases List.mem_cons.1 hx with rfl | hx
    · exact h'.1
    · exact ih h'.2 x hx

theorem frow_spec {l : ℕ} {p : List ℕ} {row : List ShippedEntry} (h : frow l p row = true) :
    ∃ a b c, p = [a, b, c] ∧ a + b + c = l ∧ fcolumns row (l * l) ((l + 1) * (l + 1)) = true ∧
      fcolumnsClose l a b row (2 * l + 1) = true := by
  unfold frow at h
  split at h
  · rename_i a b c
    rw [Bool.and_eq_true, Bool.and_eq_true, Nat.beq_eq] at h
    exact ⟨a, b, c, rfl, h.1, h.2.1, h.2.2⟩
  · simp at h

theorem shippedRows_spec : ∀ r ∈ shippedRows, ∃ l ≤ 15, frow l r.1 r.2 = true := by
  intro r hr
  unfold shippedRows at hr
  simp only [List.mem_append] at hr
  rcases hr with ((((((((((((((h | h) | h) | h) | h) | h) | h) | h) | h) | h) | h) | h) | h) | h) | h) | h
  · exact ⟨0, by omega, frows_spec frows0 r h⟩
  · exact ⟨1, by omega, frows_spec frows1 r h⟩
  · exact ⟨2, by omega, frows_spec frows2 r h⟩
  · exact ⟨3, by omega, frows_spec frows3 r h⟩
  · exact ⟨4, by omega, frows_spec frows4 r h⟩
  · exact ⟨5, by omega, frows_spec frows5 r h⟩
  · exact ⟨6, by omega, frows_spec frows6 r h⟩
  · exact ⟨7, by omega, frows_spec frows7 r h⟩
  · exact ⟨8, by omega, frows_spec frows8 r h⟩
  · exact ⟨9, by omega, frows_spec frows9 r h⟩
  · exact ⟨10, by omega, frows_spec frows10 r h⟩
  · exact ⟨11, by omega, frows_spec frows11 r h⟩
  · exact ⟨12, by omega, frows_spec frows12 r h⟩
  · exact ⟨13, by omega, frows_spec frows13 r h⟩
  · exact ⟨14, by omega, frows_spec frows14 r h⟩
  · exact ⟨15, by omega, frows_spec frows15 r h⟩

/-! ## The order of the monomials -/

/-- the distinct permutations of `a ≤ b ≤ c` in lexicographic order -/
def perms3 : List ℕ → List (List ℕ)
  | [a, b, c] => bif Nat.beq a b then (bif Nat.beq b c then [[a, a, a]] else [[a, a, c], [a, c, a], [c, a, a]])
    else bif Nat.beq b c then [[a, b, b], [b, a, b], [b, b, a]]
    else [[a, b, c], [a, c, b], [b, a, c], [b, c, a], [c, a, b], [c, b, a]]
  | _ => []

theorem perms3_eq (a b c : ℕ) (hab : a ≤ b) (hbc : b ≤ c) : distinctPermutations [a, b, c] = perms3 [a, b, c] := by
  have hlt : ∀ x y z x' y' z' : ℕ, (x < x' ∨ x = x' ∧ (y < y' ∨ y = y' ∧ z < z')) → [x, y, z] < [x', y', z'] := by
    intro x y z x' y' z' h
    simp only [List.cons_lt_cons_iff]
    simpa using h
  unfold perms3
  dsimp only
  by_cases h1 : a = b
  · subst h1
    rw [Nat.beq_refl, cond_true]
    by_cases h2 : a = c
    · subst h2
      rw [Nat.beq_refl, cond_true]
      exact distinctPermutations_triple (by simp) (by intro q; simp)
    · rw [show Nat.beq a c = false by rw [← Bool.not_eq_true, Nat.beq_eq]; exact h2, cond_false]
      refine distinctPermutations_triple ?_ (by intro q; simp; tauto)
      simp only [List.pairwise_cons, List.mem_cons, List.not_mem_nil, or_false, forall_eq_or_imp, forall_eq,
        List.Pairwise.nil, and_true, false_imp_iff, implies_true]
      exact ⟨⟨hlt _ _ _ _ _ _ (by omega), hlt _ _ _ _ _ _ (by omega)⟩, hlt _ _ _ _ _ _ (by omega)⟩
  · rw [show Nat.beq a b = false by rw [← Bool.not_eq_true, Nat.beq_eq]; exact h1, cond_false]
    by_cases h2 : b = c
    · subst h2
      rw [Nat.beq_refl, cond_true]
      refine distinctPermutations_triple ?_ (by intro q; simp; tauto)
      simp only [List.pairwise_cons, List.mem_cons, List.not_mem_nil, or_false, forall_eq_or_imp, forall_eq,
        List.Pairwise.nil, and_true, false_imp_iff, implies_true]
      exact ⟨⟨hlt _ _ _ _ _ _ (by omega), hlt _ _ _ _ _ _ (by omega)⟩, hlt _ _ _ _ _ _ (by omega)⟩
    · rw [show Nat.beq b c = false by rw [← Bool.not_eq_true, Nat.beq_eq]; exact h2, cond_false]
      refine distinctPermutations_triple ?_ (by intro q; simp)
      simp only [List.pairwise_cons, List.mem_cons, List.not_mem_nil, or_false, forall_eq_or_imp, forall_eq,
        List.Pairwise.nil, and_true, false_imp_iff, implies_true]
      refine ⟨⟨hlt _ _ _ _ _ _ ?_, hlt _ _ _ _ _ _ ?_, hlt _ _ _ _ _ _ ?_, hlt _ _ _ _ _ _ ?_, hlt _ _ _ _ _ _ ?_⟩,
        ⟨hlt _ _ _ _ _ _ ?_, hlt _ _ _ _ _ _ ?_, hlt _ _ _ _ _ _ ?_, hlt _ _ _ _ _ _ ?_⟩,
        ⟨hlt _ _ _ _ _ _ ?_, hlt _ _ _ _ _ _ ?_, hlt _ _ _ _ _ _ ?_⟩, ⟨hlt _ _ _ _ _ _ ?_, hlt _ _ _ _ _ _ ?_⟩,
        hlt _ _ _ _ _ _ ?_⟩ <;> omega

theorem monomialPowers_perms3 (d : ℕ) : monomialPowers d = (partitions 3 d 0).flatMap perms3 := by
  unfold monomialPowers multicombinations
  refine List.flatMap_congr fun p hp => ?_
  obtain ⟨_, h1, h2, _, h4⟩ := (mem_partitions _ _ _ _).1 hp
  match p, h1 with
  | [a, b, c], _ =>
    simp only [List.pairwise_cons, List.mem_cons, List.not_mem_nil, or_false, forall_eq_or_imp, forall_eq] at h4
    exact perms3_eq a b c h4.1.1 h4.2.1

theorem shippedRows_ls : shippedRows.map (·.1) = monomials monomialPowers 15 := by
  have h : monomialPowers = fun d => (partitions 3 d 0).flatMap perms3 := funext monomialPowers_perms3
  rw [h]
  decide +kernel

end E3x.Coefficients
