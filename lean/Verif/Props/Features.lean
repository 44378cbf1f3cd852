import Verif.Model.Features
import Verif.Spec.Features
import Verif.Lemmas.Degrees
import Mathlib.Tactic.FieldSimp
import Mathlib.Algebra.BigOperators.Ring.Finset
import Mathlib.Algebra.BigOperators.Group.Finset.Sigma

/-!
# C07–C11: feature arrays
-/

namespace E3x

open Spec

/-! ## C07 -/

/-- **C07.** A shape is accepted iff it has at least three axes, the third-last has size 1 or 2 and the
second-last has size `(L+1)²`; the result is that `L ≥ -1`. -/
theorem C07_shape_check (shape : List ℕ) (L : ℤ) :
    extractMaxDegree shape = .ok L ↔
      ∃ (batch : List ℕ) (s n f : ℕ), shape = batch ++ [s, n, f] ∧ (s = 1 ∨ s = 2) ∧
        -1 ≤ L ∧ (n : ℤ) = (L + 1) ^ 2 := by
  have hround : ∀ (n : ℕ) (L : ℤ), -1 ≤ L → (n : ℤ) = (L + 1) ^ 2 → round (Real.sqrt n - 1) = L := by
    intro n L hL hn
    have h1 : (n : ℝ) = ((L + 1 : ℤ) : ℝ) ^ 2 := by
      rw [← Int.cast_natCast, hn]; push_cast; ring
    rw [h1, Real.sqrt_sq (by exact_mod_cast (by omega : (0 : ℤ) ≤ L + 1))]
    push_cast
    rw [add_sub_cancel_right]
    exact round_intCast L
  have hge : ∀ n : ℕ, -1 ≤ round (Real.sqrt n - 1) := by
    intro n
    have h0 : (0 : ℝ) ≤ Real.sqrt n := Real.sqrt_nonneg _
    rw [round_eq, Int.le_floor]
    push_cast; linarith
  rcases hs : shape.reverse with _ | ⟨f, _ | ⟨n, _ | ⟨s, b⟩⟩⟩
  all_goals
    have hshape := congrArg List.reverse hs
    rw [List.reverse_reverse] at hshape
  · simp only [extractMaxDegree, hs]
    constructor
    · intro h; simp at h
    · rintro ⟨b, s, n, f, h, _⟩; have := congrArg List.length (h.symm.trans hshape); simp at this
  · simp only [extractMaxDegree, hs]
    constructor
    · intro h; simp at h
    · rintro ⟨b, s, n, f, h, _⟩; have := congrArg List.length (h.symm.trans hshape); simp at this
  · simp only [extractMaxDegree, hs]
    constructor
    · intro h; simp at h
    · rintro ⟨b, s, n, f, h, _⟩; have := congrArg List.length (h.symm.trans hshape); simp at this
  · have hsh : shape = b.reverse ++ [s, n, f] := by rw [hshape]; simp
    have uniq : ∀ (b' : List ℕ) (s' n' f' : ℕ), shape = b' ++ [s', n', f'] → s' = s ∧ n' = n := by
      intro b' s' n' f' h
      have := congrArg List.reverse (h.symm.trans hsh)
      simp at this
      exact ⟨this.2.2.1, this.2.1⟩
    simp only [extractMaxDegree, hs]
    by_cases hs12 : s = 1 ∨ s = 2
    · have hb : (!(s == 1 || s == 2)) = false := by rcases hs12 with rfl | rfl <;> rfl
      simp only [hb]
      by_cases hn : (n : ℤ) = (round (Real.sqrt n - 1) + 1) ^ 2
      · rw [if_neg (by simp), if_neg (not_not.2 hn)]
        constructor
        · intro h
          injection h with h
          subst h
          exact ⟨_, s, n, f, hsh, hs12, hge n, hn⟩
        · rintro ⟨b', s', n', f', h, _, h1, h2⟩
          obtain ⟨rfl, rfl⟩ := uniq _ _ _ _ h
          rw [hround _ _ h1 h2]
      · rw [if_neg (by simp), if_pos hn]
        constructor
        · intro h; simp at h
        · rintro ⟨b', s', n', f', h, _, h1, h2⟩
          obtain ⟨rfl, rfl⟩ := uniq _ _ _ _ h
          exact absurd (by rw [hround _ _ h1 h2]; exact h2) hn
    · have hb : (!(s == 1 || s == 2)) = true := by
        simp only [Bool.not_eq_true', Bool.or_eq_false_iff, beq_eq_false_iff_ne]
        exact ⟨fun h => hs12 (Or.inl h), fun h => hs12 (Or.inr h)⟩
      rw [if_pos hb]
      constructor
      · intro h; simp at h
      · rintro ⟨b', s', n', f', h, h12, _⟩
        obtain ⟨rfl, rfl⟩ := uniq _ _ _ _ h
        exact absurd h12 hs12

/-- **C07.** Every shape which is not accepted raises `ValueError`. -/
theorem C07_error (shape : List ℕ) (e : Err) (h : extractMaxDegree shape = .error e) : e = .valueError := by
  unfold extractMaxDegree at h
  split at h
  · split at h
    · injection h with h; exact h.symm
    · simp only at h
      split at h
      · injection h with h; exact h.symm
      · simp at h
  · injection h with h; exact h.symm

/-- **C07 (documented precondition not enforced).** A degree axis of size zero is accepted, with `L = -1`,
although the documentation requires `max_degree` to be positive or zero. -/
theorem C07_zero_size_accepted (f : ℕ) : extractMaxDegree [1, 0, f] = .ok (-1) :=
  (C07_shape_check _ _).2 ⟨[], 1, 0, f, rfl, Or.inl rfl, le_refl _, by norm_num⟩

example : extractMaxDegree [7, 2, 16, 5] = .ok 3 :=
  (C07_shape_check _ _).2 ⟨[7], 2, 16, 5, rfl, Or.inr rfl, by norm_num, by norm_num⟩

/-- **C07 (rounding errors).** The result does not depend on rounding errors: if the computed square roots of the sizes
have errors below one half, and are rounded to a nearest integer, then the same shapes are accepted with the same result. -/
theorem C07_rounding (rd : ℕ → ℤ) (shape : List ℕ)
    (h : ∀ n ∈ shape, ∃ s : ℝ, |s - Real.sqrt n| < 1 / 2 ∧ |(rd n : ℝ) - (s - 1)| ≤ 1 / 2) :
    extractMaxDegreeRounded rd shape = extractMaxDegree shape := by
  unfold extractMaxDegreeRounded extractMaxDegree
  have hmem : ∀ n, n ∈ shape.reverse → n ∈ shape := fun n => List.mem_reverse.1
  generalize shape.reverse = l at hmem
  rcases l with _ | ⟨f, _ | ⟨n, _ | ⟨s, b⟩⟩⟩
  · rfl
  · rfl
  · rfl
  · dsimp only
    obtain ⟨x, hx, hr⟩ := h n (hmem n (by simp))
    have hsq : ∀ m : ℤ, |(m : ℝ) - (Real.sqrt n - 1)| < 1 → ((n : ℤ) = (m + 1) ^ 2 → (m : ℝ) = Real.sqrt n - 1) := by
      intro m hm hn
      have h1 : (n : ℝ) = ((m + 1 : ℤ) : ℝ) ^ 2 := by
        rw [← Int.cast_natCast, hn]; push_cast; ring
      have h2 : Real.sqrt n = |((m + 1 : ℤ) : ℝ)| := by rw [h1, Real.sqrt_sq_eq_abs]
      have h3 : -1 ≤ m := by
        have h0 := Real.sqrt_nonneg (n : ℝ)
        have h4 := (abs_lt.1 hm).1
        have : (-2 : ℝ) < m := by linarith
        have : (-2 : ℤ) < m := by exact_mod_cast this
        omega
      rw [h2, abs_of_nonneg (by exact_mod_cast (by omega : (0 : ℤ) ≤ m + 1))]
      push_cast
      ring
    have e1 : |(rd n : ℝ) - (Real.sqrt n - 1)| < 1 := by
      rw [abs_lt] at hx ⊢
      rw [abs_le] at hr
      constructor <;> linarith
    have e2 : |(round (Real.sqrt n - 1) : ℝ) - (Real.sqrt n - 1)| < 1 := by
      rw [abs_sub_comm]
      exact lt_of_le_of_lt (abs_sub_round _) (by norm_num)
    have key : ∀ m m' : ℤ, |(m : ℝ) - (Real.sqrt n - 1)| < 1 → |(m' : ℝ) - (Real.sqrt n - 1)| < 1 →
        (n : ℤ) = (m + 1) ^ 2 → m = m' := by
      intro m m' h1 h2 hn
      have := hsq m h1 hn
      rw [← this, abs_lt] at h2
      have a1 : (-1 : ℤ) < m' - m := by exact_mod_cast h2.1
      have a2 : m' - m < (1 : ℤ) := by exact_mod_cast h2.2
      omega
    by_cases hn : (n : ℤ) = (rd n + 1) ^ 2
    · rw [key _ _ e1 e2 hn]
    · by_cases hn' : (n : ℤ) = (round (Real.sqrt n - 1) + 1) ^ 2
      · exact absurd (by rw [← key _ _ e2 e1 hn']; exact hn') hn
      · rw [if_pos hn, if_pos hn']

/-- Square roots which are too large by a quarter. -/
example : extractMaxDegreeRounded (fun n => round (Real.sqrt n + 1 / 4 - 1)) [7, 2, 16, 5] = .ok 3 := by
  rw [C07_rounding _ _ fun n _ => ⟨Real.sqrt n + 1 / 4, by norm_num [abs_of_pos], by
    rw [abs_sub_comm]
    exact abs_sub_round _⟩]
  exact (C07_shape_check _ _).2 ⟨[7], 2, 16, 5, rfl, Or.inr rfl, by norm_num, by norm_num⟩

/-! ## C11 -/

theorem evenDegreeMask_eq (L : ℕ) :
    evenDegreeMask L = (List.range ((L + 1) ^ 2)).map fun i => deg i % 2 == 0 := by
  rw [← concat_blocks (fun l _ => l % 2 == 0) L]
  unfold evenDegreeMask
  congr 1
  funext l
  rw [show (l + 1) ^ 2 - l ^ 2 = 2 * l + 1 by rw [show (l + 1) ^ 2 = l ^ 2 + (2 * l + 1) by ring]; omega]
  rw [List.map_const']
  simp

/-- **C11.** The masks have one entry per component, `even` is true exactly at even degrees and `odd` is its
complement. -/
theorem C11_masks (L : ℕ) :
    (evenDegreeMask L).length = (L + 1) ^ 2 ∧ (oddDegreeMask L).length = (L + 1) ^ 2 ∧
    ∀ i < (L + 1) ^ 2,
      (evenDegreeMask L)[i]? = some (decide (Even (deg i))) ∧
      (oddDegreeMask L)[i]? = some (decide (Odd (deg i))) := by
  rw [oddDegreeMask, evenDegreeMask_eq]
  refine ⟨by simp, by simp, ?_⟩
  intro i hi
  simp only [List.getElem?_map, List.getElem?_range hi, Option.map_some, Option.some.injEq]
  constructor
  · rw [Bool.eq_iff_iff]
    simp only [beq_iff_eq, decide_eq_true_eq, Nat.even_iff]
  · rw [Bool.eq_iff_iff]
    simp only [decide_eq_true_eq, Bool.not_eq_true', beq_eq_false_iff_ne, Nat.odd_iff]
    omega

example : evenDegreeMask 2 = [true, false, false, false, true, true, true, true, true] := by decide

/-! ## Basic facts about meaning -/

/-- Arrays of equal extents with equal components are the same. -/
theorem same_of_comp (x y : Feat) (hp : x.pseudo = y.pseudo) (hL : x.L = y.L) (hF : x.F = y.F)
    (h : ∀ p i f, f < x.F → comp x p i f = comp y p i f) : x.Same y := by
  refine ⟨hp, hL, hF, ?_⟩
  intro p i f hpc hi hf
  by_cases hps : x.pseudo
  · have h' := h p i f hf
    have hp2 : p < 2 := by simpa [chan, hps] using hpc
    have hps' : y.pseudo = true := by rw [← hp]; exact hps
    unfold comp at h'
    rw [if_neg (by omega), if_pos hps, if_neg (by rw [← hL]; omega), if_pos hps'] at h'
    exact h'
  · have hpf : x.pseudo = false := by simpa using hps
    have h' := h (deg i % 2) i f hf
    have hp0 : p = 0 := by simp [chan, hpf] at hpc; exact hpc
    have hps' : y.pseudo = false := by rw [← hp]; exact hpf
    have hlt : deg i % 2 < 2 := Nat.mod_lt _ (by norm_num)
    unfold comp at h'
    rw [if_neg (by omega), if_neg hps, if_pos rfl, if_neg (by rw [← hL]; omega), if_neg (by simp [hps']),
      if_pos rfl] at h'
    rw [hp0]; exact h'

/-- The same arrays have the same meaning. -/
theorem comp_of_same {x y : Feat} (h : x.Same y) {p i f : ℕ} (hf : f < x.F) : comp x p i f = comp y p i f := by
  obtain ⟨h1, h2, h3, h4⟩ := h
  unfold comp
  rw [← h1, ← h2]
  split
  · rfl
  · rename_i hc
    split
    · rename_i hps
      exact h4 p i f (by simp [chan, hps]; omega) (by omega) hf
    · split
      · exact h4 0 i f (by unfold chan; split <;> omega) (by omega) hf
      · rfl

theorem Feat.Same.refl (x : Feat) : x.Same x := ⟨rfl, rfl, rfl, fun _ _ _ _ _ _ => rfl⟩

theorem Feat.Same.symm {x y : Feat} (h : x.Same y) : y.Same x := by
  obtain ⟨h1, h2, h3, h4⟩ := h
  refine ⟨h1.symm, h2.symm, h3.symm, ?_⟩
  intro p i f hp hi hf
  exact (h4 p i f (by rw [h1]; exact hp) (by rw [h2]; exact hi) (by rw [h3]; exact hf)).symm

theorem Feat.Same.trans {x y z : Feat} (h : x.Same y) (h' : y.Same z) : x.Same z := by
  obtain ⟨h1, h2, h3, h4⟩ := h
  obtain ⟨h1', h2', h3', h4'⟩ := h'
  refine ⟨h1.trans h1', h2.trans h2', h3.trans h3', ?_⟩
  intro p i f hp hi hf
  exact (h4 p i f hp hi hf).trans
    (h4' p i f (by rw [← h1]; exact hp) (by rw [← h2]; exact hi) (by rw [← h3]; exact hf))

/-! ## C10: rotate and reflect -/

theorem foldl_negateDegree (ls : List ℕ) (hnd : ls.Nodup) (v : ℕ → ℕ → ℕ → ℝ) (p i f : ℕ) :
    (ls.foldl negateDegree v) p i f = if deg i ∈ ls then -v p i f else v p i f := by
  induction ls generalizing v with
  | nil => simp
  | cons l ls ih =>
    rw [List.foldl_cons, ih (List.nodup_cons.1 hnd).2]
    have hl : deg i = l ↔ l ^ 2 ≤ i ∧ i < (l + 1) ^ 2 := deg_eq_iff i l
    unfold negateDegree
    by_cases h1 : deg i = l
    · rw [if_pos (hl.1 h1)]
      have : deg i ∉ ls := by rw [h1]; exact (List.nodup_cons.1 hnd).1
      simp [h1]
      rw [← h1]; simp [this]
    · rw [if_neg (fun h => h1 (hl.2 h))]
      simp [h1]

theorem mem_oddDegrees (L l : ℕ) : l ∈ oddDegrees L ↔ l % 2 = 1 ∧ l ≤ L := by
  simp only [oddDegrees, List.mem_map, List.mem_range]
  constructor
  · rintro ⟨k, hk, rfl⟩; omega
  · rintro ⟨h1, h2⟩; exact ⟨l / 2, by omega, by omega⟩

theorem nodup_oddDegrees (L : ℕ) : (oddDegrees L).Nodup :=
  List.nodup_range.map (fun a b h => by simpa using h)

/-- **C10 (reflect).** Reflection multiplies every component by its parity, `(-1)^p`, in both types of
arrays, and keeps the shape. -/
theorem C10_reflect (x : Feat) (p i f : ℕ) :
    comp (reflect x) p i f = (-1) ^ p * comp x p i f ∧
    (reflect x).pseudo = x.pseudo ∧ (reflect x).L = x.L ∧ (reflect x).F = x.F := by
  unfold reflect
  by_cases hp : x.pseudo
  · refine ⟨?_, by simp [hp], by simp [hp], by simp [hp]⟩
    simp only [hp, if_true, comp]
    split
    · simp
    · rename_i hc
      have hp2 : p = 0 ∨ p = 1 := by omega
      rcases hp2 with rfl | rfl <;> simp
  · refine ⟨?_, by simp [hp], by simp [hp], by simp [hp]⟩
    simp only [hp, comp, Bool.false_eq_true, if_false]
    split
    · simp
    · rename_i hc
      have hi : deg i ≤ x.L := (deg_le_iff _ _).2 (by omega)
      split
      · rename_i hpd
        rw [foldl_negateDegree _ (nodup_oddDegrees _)]
        simp only [mem_oddDegrees, hi, and_true]
        rcases Nat.mod_two_eq_zero_or_one (deg i) with h | h <;> simp [h, hpd]
      · simp

/-- **C10 (involution).** -/
theorem C10_reflect_involutive (x : Feat) : (reflect (reflect x)).Same x := by
  apply same_of_comp
  · rw [(C10_reflect _ 0 0 0).2.1, (C10_reflect _ 0 0 0).2.1]
  · rw [(C10_reflect _ 0 0 0).2.2.1, (C10_reflect _ 0 0 0).2.2.1]
  · rw [(C10_reflect _ 0 0 0).2.2.2, (C10_reflect _ 0 0 0).2.2.2]
  · intro p i f _
    rw [(C10_reflect _ _ _ _).1, (C10_reflect _ _ _ _).1, ← mul_assoc, ← mul_pow]
    norm_num

/-- **C10 (rotate).** A rotation with a block-diagonal matrix acts on the components of each parity and feature
separately (nothing mixes parities or features). -/
theorem C10_rotate (x : Feat) (D : ℕ → ℕ → ℝ) (hD : BlockDiag D) (p i f : ℕ) (hi : i < (x.L + 1) ^ 2) :
    comp (rotate x D) p i f = ∑ j ∈ Finset.range ((x.L + 1) ^ 2), comp x p j f * D j i := by
  by_cases hp2 : 2 ≤ p
  · unfold comp; simp [hp2]
  by_cases hp : x.pseudo
  · unfold comp rotate
    rw [if_neg (by simp; omega)]
    simp only [hp, if_true]
    apply Finset.sum_congr rfl
    intro j hj
    have := Finset.mem_range.1 hj
    rw [if_neg (by omega)]
  · unfold comp rotate
    rw [if_neg (by simp; omega)]
    simp only [hp, Bool.false_eq_true, if_false]
    split
    · rename_i hpd
      apply Finset.sum_congr rfl
      intro j hj
      have := Finset.mem_range.1 hj
      rw [if_neg (by omega)]
      by_cases hji : deg j = deg i
      · rw [if_pos (by rw [hpd, hji])]
      · rw [hD j i hji]; simp
    · rename_i hpd
      symm
      apply Finset.sum_eq_zero
      intro j hj
      have := Finset.mem_range.1 hj
      rw [if_neg (by omega)]
      by_cases hji : deg j = deg i
      · rw [if_neg (by rw [hji]; exact hpd)]; simp
      · rw [hD j i hji]; simp

/-- **C10 (composition).** Rotating with `D₁` and then with `D₂` is rotating with `D₁ D₂`. -/
theorem C10_rotate_rotate (x : Feat) (D₁ D₂ : ℕ → ℕ → ℝ) :
    (rotate (rotate x D₁) D₂).Same (rotate x (Spec.mul ((x.L + 1) ^ 2) D₁ D₂)) := by
  refine ⟨rfl, rfl, rfl, ?_⟩
  intro p i f _ _ _
  simp only [rotate, Spec.mul, Finset.sum_mul, Finset.mul_sum]
  rw [Finset.sum_comm]
  apply Finset.sum_congr rfl
  intro j _
  apply Finset.sum_congr rfl
  intro k _
  ring

/-- **C10 (identity).** -/
theorem C10_rotate_one (x : Feat) : (rotate x Spec.one).Same x := by
  refine ⟨rfl, rfl, rfl, ?_⟩
  intro p i f _ hi _
  simp only [rotate] at hi ⊢
  rw [Finset.sum_eq_single i]
  · simp [Spec.one]
  · intro j _ hj; simp [Spec.one, hj]
  · intro h; exact absurd (Finset.mem_range.2 hi) h

/-- **C10 (linearity).** -/
theorem C10_rotate_linear (x y : Feat) (a b : ℝ) (D : ℕ → ℕ → ℝ) (hL : x.L = y.L) (p i f : ℕ) :
    (rotate { x with val := fun p i f => a * x.val p i f + b * y.val p i f } D).val p i f =
      a * (rotate x D).val p i f + b * (rotate y D).val p i f := by
  simp only [rotate, ← hL, Finset.mul_sum, ← Finset.sum_add_distrib]
  apply Finset.sum_congr rfl
  intro j _
  ring

theorem rotate_same {x y : Feat} (h : x.Same y) (D : ℕ → ℕ → ℝ) : (rotate x D).Same (rotate y D) := by
  obtain ⟨h1, h2, h3, h4⟩ := h
  refine ⟨h1, h2, h3, ?_⟩
  intro p i f hp hi hf
  simp only [rotate, ← h2] at hp hf ⊢
  apply Finset.sum_congr rfl
  intro j hj
  rw [h4 p j f hp (Finset.mem_range.1 hj) hf]

theorem reflect_same {x y : Feat} (h : x.Same y) : (reflect x).Same (reflect y) := by
  apply same_of_comp
  · rw [(C10_reflect _ 0 0 0).2.1, (C10_reflect _ 0 0 0).2.1, h.1]
  · rw [(C10_reflect _ 0 0 0).2.2.1, (C10_reflect _ 0 0 0).2.2.1, h.2.1]
  · rw [(C10_reflect _ 0 0 0).2.2.2, (C10_reflect _ 0 0 0).2.2.2, h.2.2.1]
  · intro p i f hf
    rw [(C10_reflect _ _ _ _).1, (C10_reflect _ _ _ _).1, comp_of_same h]
    rw [(C10_reflect _ 0 0 0).2.2.2] at hf; exact hf

theorem comp_out (x : Feat) (p i f : ℕ) (hi : (x.L + 1) ^ 2 ≤ i) : comp x p i f = 0 := by
  unfold comp; rw [if_pos (Or.inl hi)]

/-- **C10 (rotations commute with reflections).** -/
theorem C10_rotate_reflect (x : Feat) (D : ℕ → ℕ → ℝ) (hD : BlockDiag D) :
    (reflect (rotate x D)).Same (rotate (reflect x) D) := by
  have hr := fun y => (C10_reflect y 0 0 0).2
  apply same_of_comp
  · rw [(hr _).1]; exact (hr x).1.symm
  · rw [(hr _).2.1]; exact (hr x).2.1.symm
  · rw [(hr _).2.2]; exact (hr x).2.2.symm
  · intro p i f _
    have hL : (reflect x).L = x.L := (hr x).2.1
    by_cases hi : i < (x.L + 1) ^ 2
    · rw [(C10_reflect _ _ _ _).1, C10_rotate x D hD p i f hi,
        C10_rotate (reflect x) D hD p i f (by rw [hL]; exact hi), hL, Finset.mul_sum]
      apply Finset.sum_congr rfl
      intro j _
      rw [(C10_reflect _ _ _ _).1]; ring
    · rw [comp_out _ p i f (by rw [(hr _).2.1]; change (x.L + 1) ^ 2 ≤ i; omega),
        comp_out _ p i f (by change ((reflect x).L + 1) ^ 2 ≤ i; rw [hL]; omega)]

/-! ## C08: change of degree and type -/

/-- **C08.** The result has the requested degree and type; each component which the requested type has is the
component of the input (zero if the input does not have it). -/
theorem C08_change (x : Feat) (L : Option ℕ) (incl : Option Bool) :
    let y := changeMaxDegreeOrType x L incl
    y.L = L.getD x.L ∧ y.pseudo = incl.getD x.pseudo ∧ y.F = x.F ∧
    ∀ p i f, comp y p i f =
      if i < (L.getD x.L + 1) ^ 2 ∧ (incl.getD x.pseudo = true ∨ p = deg i % 2) then comp x p i f else 0 := by
  intro y
  generalize hL' : L.getD x.L = L' at *
  generalize hincl : incl.getD x.pseudo = b at *
  have hy : y = changeMaxDegreeOrType x L incl := rfl
  unfold changeMaxDegreeOrType at hy
  simp only [hL', hincl] at hy
  set v : ℕ → ℕ → ℕ → ℝ := if L' < x.L then x.val
    else if x.L < L' then fun p i f => if i < (x.L + 1) ^ 2 then x.val p i f else 0
    else x.val with hv
  have hvin : ∀ p i f, i < (L' + 1) ^ 2 → i < (x.L + 1) ^ 2 → v p i f = x.val p i f := by
    intro p i f _ h2
    simp only [hv]
    split
    · rfl
    · split
      · simp [h2]
      · rfl
  have hvout : ∀ p i f, i < (L' + 1) ^ 2 → (x.L + 1) ^ 2 ≤ i → v p i f = 0 := by
    intro p i f h1 h2
    have : x.L < L' := by
      by_contra h
      have : (L' + 1) ^ 2 ≤ (x.L + 1) ^ 2 := Nat.pow_le_pow_left (by omega) 2
      omega
    simp only [hv]
    rw [if_neg (by omega), if_pos this, if_neg (by omega)]
  rcases hxp : x.pseudo with _ | _ <;> rcases b with _ | _ <;> simp only [hxp, Bool.and_true, Bool.and_false,
    Bool.not_true, Bool.not_false, Bool.false_eq_true, if_true, if_false] at hy
  all_goals
    rw [hy]
    refine ⟨rfl, rfl, rfl, ?_⟩
    intro p i f
    by_cases hi : i < (L' + 1) ^ 2
    · by_cases hp : 2 ≤ p
      · have : p ≠ deg i % 2 := by omega
        simp [comp, hp]
      · by_cases hix : i < (x.L + 1) ^ 2
        · have hp2 : p = 0 ∨ p = 1 := by omega
          have hd2 : deg i % 2 = 0 ∨ deg i % 2 = 1 := by omega
          have e1 : ¬ ((L' + 1) ^ 2 ≤ i ∨ 2 ≤ p) := by omega
          have e2 : ¬ ((x.L + 1) ^ 2 ≤ i ∨ 2 ≤ p) := by omega
          simp only [comp, concatDegrees, e1, e2, hxp, hi, hvin _ i f hi hix, if_false, if_true, true_and]
          rcases hp2 with rfl | rfl <;> rcases hd2 with h | h <;> simp [h]
        · have e1 : ¬ ((L' + 1) ^ 2 ≤ i ∨ 2 ≤ p) := by omega
          have e2 : ((x.L + 1) ^ 2 ≤ i ∨ 2 ≤ p) := by omega
          simp only [comp, concatDegrees, e1, e2, hi, hvout _ i f hi (by omega), if_false, if_true]
          split <;> simp
    · simp only [comp, hi, false_and, if_false]
      rw [if_pos (Or.inl (by omega))]

/-- A feature array without pseudotensors has no component of the wrong parity. -/
theorem comp_wrong_parity (x : Feat) (h : x.pseudo = false) (p i f : ℕ) (hp : p ≠ deg i % 2) :
    comp x p i f = 0 := by
  unfold comp; split
  · rfl
  · simp [h]

/-- **C08 (up and back).** Enlarging degree and/or type and converting back is the identity. -/
theorem C08_round_trip (x : Feat) (L : ℕ) (incl : Bool) (hL : x.L ≤ L) (hincl : x.pseudo = true → incl = true) :
    (changeMaxDegreeOrType (changeMaxDegreeOrType x (some L) (some incl)) (some x.L) (some x.pseudo)).Same x := by
  have h1 := C08_change x (some L) (some incl)
  simp only [Option.getD_some] at h1
  obtain ⟨a1, a2, a3, a4⟩ := h1
  have h2 := C08_change (changeMaxDegreeOrType x (some L) (some incl)) (some x.L) (some x.pseudo)
  simp only [Option.getD_some] at h2
  obtain ⟨b1, b2, b3, b4⟩ := h2
  apply same_of_comp _ _ b2 b1 (by rw [b3, a3])
  intro p i f _
  rw [b4, a4]
  by_cases hi : i < (x.L + 1) ^ 2
  · have : (x.L + 1) ^ 2 ≤ (L + 1) ^ 2 := Nat.pow_le_pow_left (by omega) 2
    have hi' : i < (L + 1) ^ 2 := by omega
    rcases hx : x.pseudo with _ | _
    · by_cases hp : p = deg i % 2
      · simp [hi, hi', hp]
      · simp [hi, hp, comp_wrong_parity x hx p i f hp]
    · simp [hi, hi', hincl hx]
  · simp [hi, comp_out x p i f (by omega)]

/-- **C08 (idempotence).** -/
theorem C08_idempotent (x : Feat) (L : ℕ) (incl : Bool) :
    (changeMaxDegreeOrType (changeMaxDegreeOrType x (some L) (some incl)) (some L) (some incl)).Same
      (changeMaxDegreeOrType x (some L) (some incl)) := by
  have h1 := C08_change x (some L) (some incl)
  simp only [Option.getD_some] at h1
  obtain ⟨a1, a2, a3, a4⟩ := h1
  have h2 := C08_change (changeMaxDegreeOrType x (some L) (some incl)) (some L) (some incl)
  simp only [Option.getD_some] at h2
  obtain ⟨b1, b2, b3, b4⟩ := h2
  apply same_of_comp _ _ (by rw [b2, a2]) (by rw [b1, a1]) b3
  intro p i f _
  rw [b4, a4]
  split <;> simp_all

/-- **C08 (no arguments).** Without arguments the array is returned unchanged. -/
theorem C08_default (x : Feat) : (changeMaxDegreeOrType x none none).Same x := by
  have h := C08_change x none none
  simp only [Option.getD_none] at h
  obtain ⟨a1, a2, a3, a4⟩ := h
  apply same_of_comp _ _ a2 a1 a3
  intro p i f _
  rw [a4]
  split
  · rfl
  · rename_i hc
    by_cases hi : i < (x.L + 1) ^ 2
    · rcases hx : x.pseudo with _ | _
      · exact (comp_wrong_parity x hx p i f (by intro hp; exact hc ⟨hi, Or.inr hp⟩)).symm
      · exact absurd ⟨hi, Or.inl hx⟩ hc
    · exact (comp_out x p i f (by omega)).symm

/-- **C08 (reflections).** -/
theorem C08_reflect (x : Feat) (L : Option ℕ) (incl : Option Bool) :
    (changeMaxDegreeOrType (reflect x) L incl).Same (reflect (changeMaxDegreeOrType x L incl)) := by
  have hr := fun y => (C10_reflect y 0 0 0).2
  obtain ⟨a1, a2, a3, a4⟩ := C08_change (reflect x) L incl
  obtain ⟨b1, b2, b3, b4⟩ := C08_change x L incl
  rw [(hr x).2.1] at a1 a4
  rw [(hr x).1] at a2 a4
  rw [(hr x).2.2] at a3
  apply same_of_comp _ _ (by rw [a2, (hr _).1, b2]) (by rw [a1, (hr _).2.1, b1]) (by rw [a3, (hr _).2.2, b3])
  intro p i f _
  rw [(C10_reflect _ _ _ _).1, a4, b4, (C10_reflect _ _ _ _).1]
  split <;> simp

/-- Block-diagonal sums can be extended to any larger number of components. -/
theorem sum_blockDiag_extend (D : ℕ → ℕ → ℝ) (hD : BlockDiag D) (g : ℕ → ℝ) (i L L' : ℕ)
    (hi : i < (L + 1) ^ 2) (hi' : i < (L' + 1) ^ 2) :
    ∑ j ∈ Finset.range ((L + 1) ^ 2), g j * D j i = ∑ j ∈ Finset.range ((L' + 1) ^ 2), g j * D j i := by
  have aux : ∀ L L', i < (L + 1) ^ 2 → L ≤ L' →
      ∑ j ∈ Finset.range ((L + 1) ^ 2), g j * D j i = ∑ j ∈ Finset.range ((L' + 1) ^ 2), g j * D j i := by
    intro L L' hi hLL
    apply Finset.sum_subset
    · intro j hj
      have := Finset.mem_range.1 hj
      have : (L + 1) ^ 2 ≤ (L' + 1) ^ 2 := Nat.pow_le_pow_left (by omega) 2
      exact Finset.mem_range.2 (by omega)
    · intro j _ hj
      have hj' : ¬ j < (L + 1) ^ 2 := fun h => hj (Finset.mem_range.2 h)
      rw [hD j i, mul_zero]
      intro h
      exact hj' ((deg_le_iff _ _).1 (by rw [h]; exact deg_le_of_lt hi))
  rcases Nat.le_total L L' with h | h
  · exact aux L L' hi h
  · exact (aux L' L hi' h).symm

/-- **C08 (rotations).** -/
theorem C08_rotate (x : Feat) (L : Option ℕ) (incl : Option Bool) (D : ℕ → ℕ → ℝ) (hD : BlockDiag D) :
    (changeMaxDegreeOrType (rotate x D) L incl).Same (rotate (changeMaxDegreeOrType x L incl) D) := by
  obtain ⟨a1, a2, a3, a4⟩ := C08_change (rotate x D) L incl
  obtain ⟨b1, b2, b3, b4⟩ := C08_change x L incl
  have e1 : (rotate x D).L = x.L := rfl
  have e2 : (rotate x D).pseudo = x.pseudo := rfl
  rw [e1] at a1 a4
  rw [e2] at a2 a4
  refine same_of_comp _ (rotate _ D) (a2.trans b2.symm) (a1.trans b1.symm) (a3.trans b3.symm) ?_
  intro p i f _
  by_cases hi : i < (L.getD x.L + 1) ^ 2
  · rw [a4, C10_rotate (changeMaxDegreeOrType x L incl) D hD p i f (by rw [b1]; exact hi), b1]
    have hrhs : ∑ j ∈ Finset.range ((L.getD x.L + 1) ^ 2), comp (changeMaxDegreeOrType x L incl) p j f * D j i =
        if incl.getD x.pseudo = true ∨ p = deg i % 2 then
          ∑ j ∈ Finset.range ((L.getD x.L + 1) ^ 2), comp x p j f * D j i else 0 := by
      split
      · rename_i hc
        apply Finset.sum_congr rfl
        intro j hj
        by_cases hji : deg j = deg i
        · rw [b4, if_pos ⟨Finset.mem_range.1 hj, by rw [hji]; exact hc⟩]
        · rw [hD j i hji]; simp
      · rename_i hc
        apply Finset.sum_eq_zero
        intro j hj
        by_cases hji : deg j = deg i
        · rw [b4, if_neg (by rw [hji]; exact fun h => hc h.2)]; simp
        · rw [hD j i hji]; simp
    rw [hrhs]
    simp only [hi, true_and]
    split
    · by_cases hix : i < (x.L + 1) ^ 2
      · rw [C10_rotate x D hD p i f hix]
        exact sum_blockDiag_extend D hD _ i _ _ hix hi
      · rw [comp_out _ _ _ _ (by change (x.L + 1) ^ 2 ≤ i; omega)]
        symm
        apply Finset.sum_eq_zero
        intro j hj
        by_cases hji : deg j = deg i
        · rw [comp_out x p j f, zero_mul]
          by_contra h
          exact hix ((deg_le_iff _ _).1 (by rw [← hji]; exact deg_le_of_lt (by omega)))
        · rw [hD j i hji]; simp
    · rfl
  · rw [comp_out _ _ _ _ (by rw [a1]; omega), comp_out _ _ _ _ (by
      change ((changeMaxDegreeOrType x L incl).L + 1) ^ 2 ≤ i; rw [b1]; omega)]

/-! ## C09: add -/

theorem foldl_max_ge (xs : List Feat) (m : ℕ) :
    m ≤ xs.foldl (fun m x => max m x.L) m ∧ ∀ x ∈ xs, x.L ≤ xs.foldl (fun m x => max m x.L) m := by
  induction xs generalizing m with
  | nil => simp
  | cons x xs ih =>
    obtain ⟨h1, h2⟩ := ih (max m x.L)
    rw [List.foldl_cons]
    refine ⟨by omega, ?_⟩
    intro y hy
    rcases List.mem_cons.1 hy with rfl | hy
    · omega
    · exact h2 y hy

theorem foldl_max_attained (xs : List Feat) (m : ℕ) :
    xs.foldl (fun m x => max m x.L) m = m ∨ ∃ x ∈ xs, x.L = xs.foldl (fun m x => max m x.L) m := by
  induction xs generalizing m with
  | nil => simp
  | cons x xs ih =>
    rw [List.foldl_cons]
    rcases ih (max m x.L) with h | ⟨y, hy, h⟩
    · rw [h]
      rcases max_choice m x.L with h' | h'
      · left; exact h'
      · right; exact ⟨x, by simp, h'.symm⟩
    · right; exact ⟨y, by simp [hy], h⟩

theorem foldl_or (xs : List Feat) (b : Bool) :
    xs.foldl (fun b x => b || x.pseudo) b = true ↔ b = true ∨ ∃ x ∈ xs, x.pseudo = true := by
  induction xs generalizing b with
  | nil => simp
  | cons x xs ih =>
    rw [List.foldl_cons, ih]
    simp only [Bool.or_eq_true, List.mem_cons, exists_eq_or_imp, or_assoc]

/-- **C09.** `add` accepts its inputs iff there is at least one and all have the same number of features. The
result has the largest of the maximum degrees, contains pseudotensors iff some input does, and every component is
the sum of the components of the inputs (missing components count as zero). -/
theorem C09_add (xs : List Feat) (hne : xs ≠ []) (hF : ∀ x ∈ xs, ∀ y ∈ xs, x.F = y.F) :
    ∃ r, add xs = .ok r ∧
      (∀ x ∈ xs, x.L ≤ r.L) ∧ (∃ x ∈ xs, x.L = r.L) ∧ (r.pseudo = true ↔ ∃ x ∈ xs, x.pseudo = true) ∧
      (∀ x ∈ xs, r.F = x.F) ∧
      ∀ p i f, comp r p i f = (xs.map fun x => comp x p i f).sum := by
  obtain ⟨x0, rest, rfl⟩ := List.exists_cons_of_ne_nil hne
  unfold add
  have hany : ((x0 :: rest).any fun x => x.F != x0.F) = false := by
    rw [List.any_eq_false]
    intro x hx
    simp [hF x hx x0 (by simp)]
  simp only [hany, Bool.false_eq_true, if_false]
  set m := (x0 :: rest).foldl (fun m x => max m x.L) 0 with hm
  set b := (x0 :: rest).foldl (fun b x => b || x.pseudo) false with hb
  have hmle := (foldl_max_ge (x0 :: rest) 0).2
  rw [← hm] at hmle
  have hbx : ∀ x ∈ x0 :: rest, x.pseudo = true → b = true := by
    intro x hx h
    exact (foldl_or _ _).2 (Or.inr ⟨x, hx, h⟩)
  have gen : ∀ (xs : List Feat) (y : Feat), (∀ x ∈ xs, x.L ≤ m) → (∀ x ∈ xs, x.pseudo = true → b = true) →
      y.L = m → y.pseudo = b →
      let r := xs.foldl (fun y x =>
        let c := changeMaxDegreeOrType x (some m) (some b)
        { y with val := fun p i f => y.val p i f + c.val p i f }) y
      r.L = m ∧ r.pseudo = b ∧ r.F = y.F ∧
        ∀ p i f, comp r p i f = comp y p i f + (xs.map fun x => comp x p i f).sum := by
    intro xs
    induction xs with
    | nil => intro y _ _ h1 h2; exact ⟨h1, h2, rfl, by simp⟩
    | cons x xs ih =>
      intro y hx1 hx2 h1 h2 r
      have := ih { y with val := fun p i f => y.val p i f +
        (changeMaxDegreeOrType x (some m) (some b)).val p i f } (fun x hx => hx1 x (by simp [hx]))
        (fun x hx => hx2 x (by simp [hx])) h1 h2
      obtain ⟨c1, c2, c3, c4⟩ := this
      refine ⟨c1, c2, c3, ?_⟩
      intro p i f
      have c4' := c4 p i f
      change comp r p i f = _ at c4'
      rw [c4', List.map_cons, List.sum_cons, ← add_assoc]
      congr 1
      have hc := C08_change x (some m) (some b)
      simp only [Option.getD_some] at hc
      obtain ⟨d1, d2, d3, d4⟩ := hc
      have hxe : comp x p i f = comp (changeMaxDegreeOrType x (some m) (some b)) p i f := by
        rw [d4]
        split
        · rfl
        · rename_i hc
          by_cases hi : i < (m + 1) ^ 2
          · have hbf : b ≠ true := fun h => hc ⟨hi, Or.inl h⟩
            have hpf : x.pseudo = false := by
              by_contra h
              exact hbf (hx2 x (by simp) (by simpa using h))
            exact comp_wrong_parity x hpf p i f (fun h => hc ⟨hi, Or.inr h⟩)
          · have := hx1 x (by simp)
            have : (x.L + 1) ^ 2 ≤ (m + 1) ^ 2 := Nat.pow_le_pow_left (by omega) 2
            exact comp_out x p i f (by omega)
      rw [hxe]
      unfold comp
      rw [d1, d2, h1, h2]
      simp only
      split
      · simp
      · split
        · rfl
        · split <;> simp
  have := gen (x0 :: rest) { pseudo := b, L := m, F := x0.F, val := fun _ _ _ => 0 } hmle hbx rfl rfl
  obtain ⟨c1, c2, c3, c4⟩ := this
  refine ⟨_, rfl, ?_, ?_, ?_, ?_, ?_⟩
  · intro x hx; rw [c1]; exact hmle x hx
  · rw [c1]
    rcases foldl_max_attained (x0 :: rest) 0 with h | ⟨x, hx, h⟩
    · refine ⟨x0, by simp, ?_⟩
      have := hmle x0 (by simp)
      rw [← hm] at h; omega
    · exact ⟨x, hx, by rw [h]⟩
  · rw [c2, hb, foldl_or]; simp
  · intro x hx; rw [c3]; exact hF x0 (by simp) x hx
  · intro p i f
    rw [c4]
    have : comp { pseudo := b, L := m, F := x0.F, val := fun _ _ _ => 0 } p i f = 0 := by
      unfold comp; simp
    rw [this, zero_add]

/-- **C09 (errors).** Different numbers of features raise `ValueError`. -/
theorem C09_add_error (xs : List Feat) (x y : Feat) (hx : x ∈ xs) (hy : y ∈ xs) (h : x.F ≠ y.F) :
    add xs = .error .valueError := by
  cases xs with
  | nil => simp at hx
  | cons x0 rest =>
    unfold add
    have : ((x0 :: rest).any fun x => x.F != x0.F) = true := by
      rw [List.any_eq_true]
      by_cases h0 : x.F = x0.F
      · exact ⟨y, hy, by simp; omega⟩
      · exact ⟨x, hx, by simp [h0]⟩
    simp [this]

/-- **C09 (order).** The sum does not depend on the order of the inputs. -/
theorem C09_add_comm (xs ys : List Feat) (hne : xs ≠ []) (hF : ∀ x ∈ xs, ∀ y ∈ xs, x.F = y.F)
    (hperm : xs.Perm ys) : ∃ r r', add xs = .ok r ∧ add ys = .ok r' ∧ r.Same r' := by
  have hne' : ys ≠ [] := fun h => hne (List.Perm.nil_eq (h ▸ hperm.symm)).symm
  obtain ⟨r, h1, h2, h3, h4, h5, h6⟩ := C09_add xs hne hF
  obtain ⟨r', h1', h2', h3', h4', h5', h6'⟩ := C09_add ys hne'
    (fun x hx y hy => hF x (hperm.mem_iff.2 hx) y (hperm.mem_iff.2 hy))
  refine ⟨r, r', h1, h1', same_of_comp _ _ ?_ ?_ ?_ ?_⟩
  · rw [Bool.eq_iff_iff, h4, h4']; simp [hperm.mem_iff]
  · obtain ⟨a, ha, ha'⟩ := h3
    obtain ⟨b, hb, hb'⟩ := h3'
    have := h2 b (hperm.mem_iff.2 hb)
    have := h2' a (hperm.mem_iff.1 ha)
    omega
  · obtain ⟨a, ha, _⟩ := h3
    rw [h5 a ha, h5' a (hperm.mem_iff.1 ha)]
  · intro p i f _
    rw [h6, h6', (hperm.map _).sum_eq]

/-- **C09 (associativity).** Adding in two steps is adding at once. -/
theorem C09_add_assoc (xs ys : List Feat) (hne : xs ≠ [])
    (hF : ∀ x ∈ xs ++ ys, ∀ y ∈ xs ++ ys, x.F = y.F) :
    ∃ r s t, add xs = .ok r ∧ add (r :: ys) = .ok s ∧ add (xs ++ ys) = .ok t ∧ s.Same t := by
  obtain ⟨r, h1, h2, h3, h4, h5, h6⟩ := C09_add xs hne
    (fun x hx y hy => hF x (by simp [hx]) y (by simp [hy]))
  obtain ⟨x0, hx0, hx0L⟩ := h3
  have hrF : ∀ y ∈ xs ++ ys, r.F = y.F := fun y hy => by rw [h5 x0 hx0]; exact hF x0 (by simp [hx0]) y hy
  obtain ⟨s, s1, s2, s3, s4, s5, s6⟩ := C09_add (r :: ys) (by simp) (by
    intro x hx y hy
    have aux : ∀ z ∈ r :: ys, z.F = r.F := by
      intro z hz
      rcases List.mem_cons.1 hz with h | h
      · rw [h]
      · exact (hrF z (by simp [h])).symm
    rw [aux x hx, aux y hy])
  obtain ⟨t, t1, t2, t3, t4, t5, t6⟩ := C09_add (xs ++ ys) (by simp [hne]) hF
  refine ⟨r, s, t, h1, s1, t1, same_of_comp _ _ ?_ ?_ ?_ ?_⟩
  · rw [Bool.eq_iff_iff, s4, t4]
    simp only [List.mem_cons, exists_eq_or_imp, h4, List.mem_append]
    constructor
    · rintro (⟨x, hx, h⟩ | ⟨x, hx, h⟩)
      · exact ⟨x, Or.inl hx, h⟩
      · exact ⟨x, Or.inr hx, h⟩
    · rintro ⟨x, hx | hx, h⟩
      · exact Or.inl ⟨x, hx, h⟩
      · exact Or.inr ⟨x, hx, h⟩
  · obtain ⟨a, ha, ha'⟩ := s3
    obtain ⟨b, hb, hb'⟩ := t3
    have h7 : s.L ≤ t.L := by
      rcases List.mem_cons.1 ha with rfl | ha
      · rw [← ha', ← hx0L]; exact t2 x0 (by simp [hx0])
      · rw [← ha']; exact t2 a (by simp [ha])
    have h8 : t.L ≤ s.L := by
      rcases List.mem_append.1 hb with hb | hb
      · rw [← hb']; exact le_trans (h2 b hb) (s2 r (by simp))
      · rw [← hb']; exact s2 b (by simp [hb])
    omega
  · rw [s5 r (by simp), h5 x0 hx0, t5 x0 (by simp [hx0])]
  · intro p i f _
    rw [s6, t6, List.map_cons, List.sum_cons, h6, List.map_append, List.sum_append]

/-- **C09 (reflections).** -/
theorem C09_add_reflect (xs : List Feat) (hne : xs ≠ []) (hF : ∀ x ∈ xs, ∀ y ∈ xs, x.F = y.F) :
    ∃ r r', add xs = .ok r ∧ add (xs.map reflect) = .ok r' ∧ r'.Same (reflect r) := by
  have hr := fun y => (C10_reflect y 0 0 0).2
  obtain ⟨r, h1, h2, h3, h4, h5, h6⟩ := C09_add xs hne hF
  obtain ⟨r', h1', h2', h3', h4', h5', h6'⟩ := C09_add (xs.map reflect) (by simpa using hne) (by
    intro x hx y hy
    obtain ⟨a, ha, rfl⟩ := List.mem_map.1 hx
    obtain ⟨b, hb, rfl⟩ := List.mem_map.1 hy
    rw [(hr a).2.2, (hr b).2.2]; exact hF a ha b hb)
  obtain ⟨x0, hx0, hx0L⟩ := h3
  refine ⟨r, r', h1, h1', same_of_comp _ _ ?_ ?_ ?_ ?_⟩
  · rw [(hr r).1, Bool.eq_iff_iff, h4, h4']
    simp [(hr _).1]
  · rw [(hr r).2.1]
    obtain ⟨b, hb, hb'⟩ := h3'
    obtain ⟨a, ha, rfl⟩ := List.mem_map.1 hb
    have e1 := h2 a ha
    have e2 := h2' (reflect x0) (List.mem_map.2 ⟨x0, hx0, rfl⟩)
    rw [(hr a).2.1] at hb'
    rw [(hr x0).2.1] at e2
    omega
  · rw [(hr r).2.2, h5' (reflect x0) (List.mem_map.2 ⟨x0, hx0, rfl⟩), (hr x0).2.2, h5 x0 hx0]
  · intro p i f _
    rw [h6', (C10_reflect r p i f).1, h6, List.map_map, ← List.sum_map_mul_left]
    congr 1
    apply List.map_congr_left
    intro x _
    exact (C10_reflect x p i f).1

theorem sum_list_comp_comm (xs : List Feat) (p f i n : ℕ) (D : ℕ → ℕ → ℝ) :
    (xs.map fun x => ∑ j ∈ Finset.range n, comp x p j f * D j i).sum =
      ∑ j ∈ Finset.range n, (xs.map fun x => comp x p j f).sum * D j i := by
  induction xs with
  | nil => simp
  | cons x xs ih =>
    simp only [List.map_cons, List.sum_cons, ih, add_mul, Finset.sum_add_distrib]

/-- The component sum of a rotated array, over any sufficiently large range. -/
theorem comp_rotate_extend (x : Feat) (D : ℕ → ℕ → ℝ) (hD : BlockDiag D) (p i f L : ℕ)
    (hi : i < (L + 1) ^ 2) :
    comp (rotate x D) p i f = ∑ j ∈ Finset.range ((L + 1) ^ 2), comp x p j f * D j i := by
  by_cases hix : i < (x.L + 1) ^ 2
  · rw [C10_rotate x D hD p i f hix]
    exact sum_blockDiag_extend D hD _ i _ _ hix hi
  · rw [comp_out _ _ _ _ (by change (x.L + 1) ^ 2 ≤ i; omega)]
    symm
    apply Finset.sum_eq_zero
    intro j hj
    by_cases hji : deg j = deg i
    · rw [comp_out x p j f, zero_mul]
      by_contra h
      exact hix ((deg_le_iff _ _).1 (by rw [← hji]; exact deg_le_of_lt (by omega)))
    · rw [hD j i hji]; simp

/-- **C09 (rotations).** -/
theorem C09_add_rotate (xs : List Feat) (hne : xs ≠ []) (hF : ∀ x ∈ xs, ∀ y ∈ xs, x.F = y.F)
    (D : ℕ → ℕ → ℝ) (hD : BlockDiag D) :
    ∃ r r', add xs = .ok r ∧ add (xs.map (rotate · D)) = .ok r' ∧ r'.Same (rotate r D) := by
  obtain ⟨r, h1, h2, h3, h4, h5, h6⟩ := C09_add xs hne hF
  obtain ⟨r', h1', h2', h3', h4', h5', h6'⟩ := C09_add (xs.map (rotate · D)) (by simpa using hne) (by
    intro x hx y hy
    obtain ⟨a, ha, rfl⟩ := List.mem_map.1 hx
    obtain ⟨b, hb, rfl⟩ := List.mem_map.1 hy
    exact hF a ha b hb)
  obtain ⟨x0, hx0, hx0L⟩ := h3
  have hrL : r'.L = r.L := by
    obtain ⟨b, hb, hb'⟩ := h3'
    obtain ⟨a, ha, rfl⟩ := List.mem_map.1 hb
    have e1 := h2 a ha
    have e2 := h2' (rotate x0 D) (List.mem_map.2 ⟨x0, hx0, rfl⟩)
    change a.L = r'.L at hb'
    change x0.L ≤ r'.L at e2
    omega
  refine ⟨r, r', h1, h1', same_of_comp _ _ ?_ hrL ?_ ?_⟩
  · change r'.pseudo = r.pseudo
    rw [Bool.eq_iff_iff, h4, h4']
    constructor
    · rintro ⟨x, hx, h⟩
      obtain ⟨a, ha, rfl⟩ := List.mem_map.1 hx
      exact ⟨a, ha, h⟩
    · rintro ⟨x, hx, h⟩
      exact ⟨rotate x D, List.mem_map.2 ⟨x, hx, rfl⟩, h⟩
  · change r'.F = r.F
    rw [h5' (rotate x0 D) (List.mem_map.2 ⟨x0, hx0, rfl⟩), h5 x0 hx0]; rfl
  · intro p i f _
    by_cases hi : i < (r.L + 1) ^ 2
    · rw [h6', C10_rotate r D hD p i f hi, List.map_map]
      simp only [h6]
      rw [← sum_list_comp_comm]
      congr 1
      apply List.map_congr_left
      intro x hx
      exact comp_rotate_extend x D hD p i f r.L hi
    · rw [comp_out _ _ _ _ (by rw [hrL]; omega), comp_out _ _ _ _ (by change (r.L + 1) ^ 2 ≤ i; omega)]

/-! Non-vacuity: a proper-tensor array of degree 2 and an array of degree 1 with both parities. -/

noncomputable example : Feat := { pseudo := false, L := 2, F := 3, val := fun _ i f => i + 10 * f }

example : ∃ r, add [{ pseudo := false, L := 2, F := 1, val := fun _ i _ => i },
      { pseudo := true, L := 1, F := 1, val := fun p _ _ => p + 1 }] = .ok r ∧ r.L = 2 ∧ r.pseudo = true ∧
      comp r 1 2 0 = 4 ∧ comp r 1 5 0 = 0 ∧ comp r 0 5 0 = 5 := by
  obtain ⟨r, h1, h2, h3, h4, h5, h6⟩ := C09_add [{ pseudo := false, L := 2, F := 1, val := fun _ i _ => i },
      { pseudo := true, L := 1, F := 1, val := fun p _ _ => p + 1 }] (by simp) (by simp)
  have d2 : deg 2 = 1 := by rw [deg_eq_iff]; norm_num
  have d5 : deg 5 = 2 := by rw [deg_eq_iff]; norm_num
  refine ⟨r, h1, ?_, ?_, ?_, ?_, ?_⟩
  · have := h2 _ (List.mem_cons_self)
    simp at h3; simp at this; omega
  · rw [h4]; simp
  · rw [h6]; norm_num [comp, d2]
  · rw [h6]; norm_num [comp, d5]
  · rw [h6]; norm_num [comp, d5]

end E3x
