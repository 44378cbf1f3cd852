import Verif.Lemmas.CGOrthogonality

/-!
# C55: coupling irreps loses no information

The function is `clebschGordan` (`e3x.so3.clebsch_gordan`) of Verif/Model/Irreps.lean. The states of the caches range over
all valid states (`Spec.ValidDisk`: see C33). Components are addressed by flat indices; `Spec.degreeOf` is the degree.
-/

namespace E3x

open Finset Spec

/-- **C55 (orthonormal).** For any two degrees `l1`, `l2` in the table, the coefficients of different output components
allowed by the triangle rule are orthogonal, and those of one component have norm one. -/
theorem C55_orthonormal (disk : Disk CGCompressed)
    (hd : ValidDisk (cgKind symClebschGordan) (cgTable symClebschGordan) disk) (outcome : SaveOutcome) (L1 L2 L3 : ℕ)
    (cart : Bool) :
    ∃ CG, clebschGordan disk outcome L1 L2 L3 cart = .ok CG ∧
      ∀ l1 ≤ L1, ∀ l2 ≤ L2, ∀ k < (L3 + 1) ^ 2, ∀ k' < (L3 + 1) ^ 2,
        Triangle l1 l2 (degreeOf k) → Triangle l1 l2 (degreeOf k') →
        ∑ i ∈ range ((L1 + 1) ^ 2) with degreeOf i = l1, ∑ j ∈ range ((L2 + 1) ^ 2) with degreeOf j = l2,
          CG i j k * CG i j k' = if k = k' then 1 else 0 := by
  refine ⟨_, clebschGordan_eq disk hd outcome L1 L2 L3 cart, fun l1 h1 l2 h2 k hk k' hk' t t' => ?_⟩
  rw [← cgTensor_orthonormal cart l1 l2 k k' t t', ofDegree_eq h1, ofDegree_eq h2]
  refine sum_congr rfl fun i hi => sum_congr rfl fun j hj => ?_
  rw [if_pos ⟨lt_of_Ico h1 hi, lt_of_Ico h2 hj, hk⟩, if_pos ⟨lt_of_Ico h1 hi, lt_of_Ico h2 hj, hk'⟩]

/-- **C55 (complete).** If the table contains all degrees up to `l1 + l2`, the coefficients of two input components of
degrees `l1` and `l2`, read as vectors over the output components, are orthonormal too. -/
theorem C55_complete (disk : Disk CGCompressed)
    (hd : ValidDisk (cgKind symClebschGordan) (cgTable symClebschGordan) disk) (outcome : SaveOutcome) (L1 L2 L3 : ℕ)
    (cart : Bool) :
    ∃ CG, clebschGordan disk outcome L1 L2 L3 cart = .ok CG ∧
      ∀ i < (L1 + 1) ^ 2, ∀ i' < (L1 + 1) ^ 2, ∀ j < (L2 + 1) ^ 2, ∀ j' < (L2 + 1) ^ 2,
        degreeOf i = degreeOf i' → degreeOf j = degreeOf j' → degreeOf i + degreeOf j ≤ L3 →
        ∑ k ∈ range ((L3 + 1) ^ 2), CG i j k * CG i' j' k = if i = i' ∧ j = j' then 1 else 0 := by
  refine ⟨_, clebschGordan_eq disk hd outcome L1 L2 L3 cart, fun i hi i' hi' j hj j' hj' ei ej h => ?_⟩
  rw [← cgTensor_complete cart L3 i i' j j' ei ej h]
  refine sum_congr rfl fun k hk => ?_
  rw [mem_range] at hk
  rw [if_pos ⟨hi, hj, hk⟩, if_pos ⟨hi', hj', hk⟩]

/-- **C55 (nothing is lost).** The coupled features of two irreps determine every product of components (`t a b` is
`x a * y b`, or more generally a sum of such products over several pairs of features), and their sum of squares is that
of the products. -/
theorem C55_recover (disk : Disk CGCompressed)
    (hd : ValidDisk (cgKind symClebschGordan) (cgTable symClebschGordan) disk) (outcome : SaveOutcome) (L1 L2 L3 : ℕ)
    (cart : Bool) :
    ∃ CG, clebschGordan disk outcome L1 L2 L3 cart = .ok CG ∧
      ∀ l1 ≤ L1, ∀ l2 ≤ L2, l1 + l2 ≤ L3 → ∀ t : ℕ → ℕ → ℝ, ∀ z : ℕ → ℝ,
        (∀ k, z k = ∑ i ∈ range ((L1 + 1) ^ 2) with degreeOf i = l1, ∑ j ∈ range ((L2 + 1) ^ 2) with degreeOf j = l2,
          CG i j k * t i j) →
        (∀ a b, degreeOf a = l1 → degreeOf b = l2 → ∑ k ∈ range ((L3 + 1) ^ 2), CG a b k * z k = t a b) ∧
        ∑ k ∈ range ((L3 + 1) ^ 2), z k ^ 2 =
          ∑ i ∈ range ((L1 + 1) ^ 2) with degreeOf i = l1, ∑ j ∈ range ((L2 + 1) ^ 2) with degreeOf j = l2, t i j ^ 2 := by
  obtain ⟨CG, h, hc⟩ := C55_complete disk hd outcome L1 L2 L3 cart
  refine ⟨CG, h, fun l1 h1 l2 h2 h12 t z hz => ?_⟩
  have hrec : ∀ a b, degreeOf a = l1 → degreeOf b = l2 → ∑ k ∈ range ((L3 + 1) ^ 2), CG a b k * z k = t a b := by
    intro a b ha hb
    have ha' := lt_of_Ico h1 (degreeOf_Ico.mpr ha)
    have hb' := lt_of_Ico h2 (degreeOf_Ico.mpr hb)
    have e : ∑ k ∈ range ((L3 + 1) ^ 2), CG a b k * z k =
        ∑ i ∈ range ((L1 + 1) ^ 2) with degreeOf i = l1, ∑ j ∈ range ((L2 + 1) ^ 2) with degreeOf j = l2,
          (∑ k ∈ range ((L3 + 1) ^ 2), CG a b k * CG i j k) * t i j := by
      simp only [hz, mul_sum, sum_mul]
      rw [sum_comm]
      refine sum_congr rfl fun i _ => ?_
      rw [sum_comm]
      exact sum_congr rfl fun j _ => sum_congr rfl fun k _ => by ring
    rw [e, sum_eq_single a, sum_eq_single b]
    · rw [hc a ha' a ha' b hb' b hb' rfl rfl (by omega), if_pos ⟨rfl, rfl⟩, one_mul]
    · intro j hj hne
      obtain ⟨hj1, hj2⟩ := mem_filter.mp hj
      rw [hc a ha' a ha' b hb' j (mem_range.mp hj1) rfl (by omega) (by omega), if_neg (fun h => hne h.2.symm), zero_mul]
    · exact fun h => absurd (mem_filter.mpr ⟨mem_range.mpr hb', hb⟩) h
    · intro i hi hne
      obtain ⟨hi1, hi2⟩ := mem_filter.mp hi
      refine sum_eq_zero fun j hj => ?_
      obtain ⟨hj1, hj2⟩ := mem_filter.mp hj
      rw [hc a ha' i (mem_range.mp hi1) b hb' j (mem_range.mp hj1) (by omega) (by omega) (by omega),
        if_neg (fun h => hne h.1.symm), zero_mul]
    · exact fun h => absurd (mem_filter.mpr ⟨mem_range.mpr ha', ha⟩) h
  refine ⟨hrec, ?_⟩
  have e : ∑ k ∈ range ((L3 + 1) ^ 2), z k ^ 2 =
      ∑ i ∈ range ((L1 + 1) ^ 2) with degreeOf i = l1, ∑ j ∈ range ((L2 + 1) ^ 2) with degreeOf j = l2,
        (∑ k ∈ range ((L3 + 1) ^ 2), CG i j k * z k) * t i j := by
    have e1 : ∀ k, z k ^ 2 = ∑ i ∈ range ((L1 + 1) ^ 2) with degreeOf i = l1,
        ∑ j ∈ range ((L2 + 1) ^ 2) with degreeOf j = l2, CG i j k * z k * t i j := by
      intro k
      rw [pow_two]
      nth_rewrite 2 [hz k]
      rw [mul_sum]
      refine sum_congr rfl fun i _ => ?_
      rw [mul_sum]
      exact sum_congr rfl fun j _ => by ring
    simp only [e1, sum_mul]
    rw [sum_comm]
    refine sum_congr rfl fun i _ => ?_
    rw [sum_comm]
  rw [e]
  refine sum_congr rfl fun i hi => sum_congr rfl fun j hj => ?_
  rw [hrec i j (mem_filter.mp hi).2 (mem_filter.mp hj).2]
  ring

/-- **C55 (the bound is sharp).** With a lower maximum degree, non-zero products are mapped to zero. -/
theorem C55_truncation_loses (disk : Disk CGCompressed)
    (hd : ValidDisk (cgKind symClebschGordan) (cgTable symClebschGordan) disk) (outcome : SaveOutcome) (L1 L2 L3 : ℕ)
    (cart : Bool) :
    ∃ CG, clebschGordan disk outcome L1 L2 L3 cart = .ok CG ∧
      ∀ l1 ≤ L1, ∀ l2 ≤ L2, L3 < l1 + l2 → ∃ t : ℕ → ℕ → ℝ, (∃ a b, degreeOf a = l1 ∧ degreeOf b = l2 ∧ t a b ≠ 0) ∧
        ∀ k, ∑ i ∈ range ((L1 + 1) ^ 2) with degreeOf i = l1, ∑ j ∈ range ((L2 + 1) ^ 2) with degreeOf j = l2,
          CG i j k * t i j = 0 := by
  refine ⟨_, clebschGordan_eq disk hd outcome L1 L2 L3 cart, fun l1 h1 l2 h2 h12 => ?_⟩
  have hk0 : degreeOf ((l1 + l2) ^ 2) = l1 + l2 := degreeOf_Ico.mp (mem_Ico.mpr ⟨le_refl _, by nlinarith⟩)
  have ht0 : Triangle l1 l2 (degreeOf ((l1 + l2) ^ 2)) := by rw [hk0]; exact ⟨by rw [abs_le]; omega, le_refl _⟩
  refine ⟨fun i j => cgTensor cart i j ((l1 + l2) ^ 2), ?_, fun k => ?_⟩
  · by_contra hne
    push Not at hne
    have := cgTensor_orthonormal cart l1 l2 _ _ ht0 ht0
    rw [if_pos rfl, sum_eq_zero] at this
    · exact one_ne_zero this.symm
    · intro i hi
      refine sum_eq_zero fun j hj => ?_
      rw [hne i j (degreeOf_Ico.mp hi) (degreeOf_Ico.mp hj), mul_zero]
  · rw [ofDegree_eq h1, ofDegree_eq h2]
    by_cases hk : k < (L3 + 1) ^ 2 ∧ Triangle l1 l2 (degreeOf k)
    · have hne : k ≠ (l1 + l2) ^ 2 := by
        intro e
        have := deg_le_of_lt hk.1
        rw [← degreeOf_eq_deg, e, hk0] at this
        omega
      have := cgTensor_orthonormal cart l1 l2 _ _ hk.2 ht0
      rw [if_neg hne] at this
      rw [← this]
      refine sum_congr rfl fun i hi => sum_congr rfl fun j hj => ?_
      rw [if_pos ⟨lt_of_Ico h1 hi, lt_of_Ico h2 hj, hk.1⟩]
    · refine sum_eq_zero fun i hi => sum_eq_zero fun j hj => ?_
      by_cases hk' : k < (L3 + 1) ^ 2
      · have hnt : ¬ Triangle l1 l2 (degreeOf k) := fun h => hk ⟨hk', h⟩
        rw [if_pos ⟨lt_of_Ico h1 hi, lt_of_Ico h2 hj, hk'⟩, cgTensor, degreeOf_Ico.mp hi, degreeOf_Ico.mp hj,
          symCG_of_not_tri _ _ _ _ _ _ (fun h' => hnt ⟨by rw [abs_le]; omega, by omega⟩), zero_mul]
      · rw [if_neg (fun h => hk' h.2.2), zero_mul]

/-- the hypotheses can be met: no cache files, and the nine products of two vectors, coupled up to degree two -/
example : ValidDisk (cgKind symClebschGordan) (cgTable symClebschGordan) (noFiles _) ∧ Triangle 1 1 (degreeOf 8) ∧
    degreeOf 2 + degreeOf 3 ≤ 2 ∧ ¬ degreeOf 2 + degreeOf 3 ≤ 1 := by
  refine ⟨noFiles_valid _ _, by decide +kernel, by decide +kernel, by decide +kernel⟩

end E3x
