import Verif.Model.Irreps
import Verif.Lemmas.Orders
import Verif.Lemmas.Addition
import Verif.Lemmas.Coupling
import Verif.Props.LookupTables

/-!
# What the functions of Verif/Model/Irreps.lean compute
-/

namespace E3x

noncomputable section

open Finset Spec

/-! ## normalisation -/

theorem normalizationConstant_eq (s : String) (l : ℕ) :
    normalizationConstant s l = if s ∈ normNames then .ok (normConstant s l) else .error .valueError := by
  unfold normalizationConstant checkNormalizationIsValid
  have e : validNormalizations = normNames := rfl
  rw [e]
  by_cases h : s ∈ normNames
  · rw [if_neg (by simpa using h), if_pos h]
    dsimp only
    simp only [normNames, List.mem_cons, List.not_mem_nil, or_false] at h
    rcases h with rfl | rfl | rfl | rfl
    · rw [if_pos rfl]; rfl
    · rw [if_neg (by decide), if_pos rfl]; rfl
    · rw [if_neg (by decide), if_neg (by decide)]; rfl
    · rw [if_neg (by decide), if_neg (by decide)]; rfl
  · rw [if_pos (by simpa using h), if_neg h]

theorem multiplyColumns_apply (cm : ℕ × ℕ → ℝ) (l i j : ℕ) (c : ℝ) :
    multiplyColumns cm (l ^ 2) ((l + 1) ^ 2) c (i, j) = if degreeOf j = l then cm (i, j) * c else cm (i, j) := by
  unfold multiplyColumns
  dsimp only
  simp only [← deg_eq_iff]
  rfl

theorem applyNormalization_ok (s : String) (hs : s ∈ normNames) (ls : List ℕ) (hn : ls.Nodup) (cm : ℕ × ℕ → ℝ) :
    ∃ cm', applyNormalization s ls cm = .ok cm' ∧
      ∀ i j, cm' (i, j) = if degreeOf j ∈ ls then cm (i, j) * normConstant s (degreeOf j) else cm (i, j) := by
  induction ls generalizing cm with
  | nil => exact ⟨cm, rfl, fun i j => by simp⟩
  | cons l ls ih =>
    rw [List.nodup_cons] at hn
    obtain ⟨cm', h1, h2⟩ := ih hn.2 (multiplyColumns cm (l ^ 2) ((l + 1) ^ 2) (normConstant s l))
    refine ⟨cm', ?_, fun i j => ?_⟩
    · unfold applyNormalization
      rw [normalizationConstant_eq, if_pos hs]
      exact h1
    · rw [h2, multiplyColumns_apply]
      by_cases h : degreeOf j = l
      · rw [if_neg (by rw [h]; exact hn.1), if_pos h, if_pos (by rw [h]; exact List.mem_cons_self), h]
      · rw [if_neg h]
        simp only [List.mem_cons, h, false_or]

theorem applyNormalization_error (s : String) (hs : s ∉ normNames) (L : ℕ) (cm : ℕ × ℕ → ℝ) :
    applyNormalization s (List.range (L + 1)) cm = .error .valueError := by
  rw [List.range_succ_eq_map]
  unfold applyNormalization
  rw [normalizationConstant_eq, if_neg hs]

/-! ## spherical harmonics -/

/-- the polynomial of degree `l` and order `m` at `r` -/
def harmonic (l : ℕ) (m : ℤ) (r : Fin 3 → ℝ) : ℝ := MvPolynomial.eval r (symSphericalHarmonics l m)

theorem gatherPower_eq (x : ℝ) (L p : ℕ) (h : p ≤ L) : gatherPower x L p = x ^ p := by
  unfold gatherPower
  rw [min_eq_left h, List.getD, C21_integer_powers x L p h, Option.getD_some]

theorem getD_le_sum (p : List ℕ) (k : ℕ) : p.getD k 0 ≤ p.sum := by
  rw [List.getD]
  cases h : p[k]? with
  | none => simp
  | some a => exact List.le_sum_of_mem (List.mem_of_getElem? h)

theorem powers_mem_monomials {n L : ℕ} (hn : 1 ≤ n) {p : List ℕ} (h : p ∈ monomials (fun d => multicombinations d n) L) :
    p.length = n ∧ p.sum ≤ L := by
  unfold monomials at h
  obtain ⟨d, hd, hp⟩ := List.mem_flatMap.1 h
  obtain ⟨h1, h2⟩ := ((C21_multicombinations d n hn).1 p).1 hp
  rw [List.mem_range] at hd
  exact ⟨h1, by omega⟩

theorem cartesianMonomial_eq {L : ℕ} (r : Fin 3 → ℝ) {p : List ℕ} (h : p.sum ≤ L) :
    cartesianMonomial L r p = monomialValue r p := by
  unfold cartesianMonomial monomialValue
  have hk := fun k => (getD_le_sum p k).trans h
  rw [gatherPower_eq _ _ _ (hk 0), gatherPower_eq _ _ _ (hk 1), gatherPower_eq _ _ _ (hk 2), Fin.prod_univ_three]
  rfl

theorem rowCoefficient_getD {mons : List (List ℕ)} (p : Terms) {i : ℕ} (hi : i < mons.length) :
    rowCoefficient mons p i = coefficient p (mons.getD i []) := by
  unfold rowCoefficient
  rw [List.getElem?_eq_getElem hi, List.getD, List.getElem?_eq_getElem hi, Option.getD_some]

/-- the harmonics as linear combinations of monomials -/
theorem sum_sh_row (L l : ℕ) (m : ℤ) (hl : l ≤ L) (hm : |m| ≤ l) (r : Fin 3 → ℝ) :
    ∑ i ∈ range (totalCartMonomials L), cartesianMonomial L r ((monomials monomialPowers L).getD i []) *
      rowCoefficient (monomials monomialPowers L) (sphTerms l m) i = harmonic l m r := by
  have h := sum_monomials (n := 3) (by omega) (symSphericalHarmonics l m) l L hl (symSH_homog l m hm) r
    (monomials monomialPowers L) rfl
  rw [harmonic, ← h, monomials_length_cart]
  refine sum_congr rfl fun i hi => ?_
  rw [mem_range, ← monomials_length_cart] at hi
  rw [rowCoefficient_getD _ hi]
  have hmem : (monomials monomialPowers L).getD i [] ∈ monomials (fun d => multicombinations d 3) L := by
    rw [List.getD, List.getElem?_eq_getElem hi, Option.getD_some]
    exact List.getElem_mem hi
  rw [cartesianMonomial_eq r (powers_mem_monomials (by omega) hmem).2]
  rfl

/-- a valid state of the cache of spherical harmonics -/
abbrev ShDisk (disk : Disk SHCompressed) : Prop := ValidDisk (shKind sphTerms) (shTable sphTerms) disk

/-- all harmonics -/
def harmonics (L : ℕ) (cart : Bool) (s : String) (u : Fin 3 → ℝ) (j : ℕ) : ℝ :=
  if j < (L + 1) ^ 2 then normConstant s (degreeOf j) * harmonic (degreeOf j) (componentOrder cart j) u else 0

theorem sh_value (L : ℕ) (cart : Bool) (s : String) (cm : ℕ × ℕ → ℝ)
    (hcm : ∀ i j, cm (i, j) = if degreeOf j ∈ List.range (L + 1) then
      (shTable sphTerms L).cm (i, j) * normConstant s (degreeOf j) else (shTable sphTerms L).cm (i, j))
    (u : Fin 3 → ℝ) (j : ℕ) :
    ∑ i ∈ range (totalCartMonomials L), cartesianMonomial L u ((shTable sphTerms L).ls i) *
      (if cart then gatherColumns (cartPerm L) cm else cm) (i, j) = harmonics L cart s u j := by
  have std : ∀ j, ∑ i ∈ range (totalCartMonomials L), cartesianMonomial L u ((shTable sphTerms L).ls i) * cm (i, j) =
      if j < (L + 1) ^ 2 then normConstant s (degreeOf j) * harmonic (degreeOf j) (Spec.orderOf j) u else 0 := by
    intro j
    have hd : degreeOf j ≤ L ↔ j < (L + 1) ^ 2 := deg_le_iff j L
    split_ifs with hj
    · rw [← sum_sh_row L (degreeOf j) (Spec.orderOf j) (hd.mpr hj) (orderOf_abs j) u, mul_sum]
      refine sum_congr rfl fun i _ => ?_
      rw [hcm, if_pos (List.mem_range.mpr (by have := hd.mpr hj; omega)), shTable_cm, if_pos (hd.mpr hj)]
      change cartesianMonomial L u ((monomials monomialPowers L).getD i []) * _ = _
      ring
    · refine sum_eq_zero fun i _ => ?_
      rw [hcm, shTable_cm, if_neg (fun h => hj (hd.mp h))]
      simp
  unfold harmonics componentOrder
  cases cart
  · simpa using std j
  · simp only [if_true]
    by_cases hj : j < (L + 1) ^ 2
    · have hb := cartesianOrderOf_bounds j
      have e : ∀ i, gatherColumns (cartPerm L) cm (i, j) = cm (i, lmIndex (degreeOf j) (cartesianOrderOf j)) := by
        intro i
        unfold gatherColumns
        dsimp only
        rw [cartPerm_get L j hj]
      simp only [e]
      rw [std, lmIndex_degree _ _ hb, lmIndex_order _ _ hb, if_pos hj, if_pos]
      rw [← deg_le_iff]
      rw [← deg_le_iff] at hj
      rw [← degreeOf_eq_deg, lmIndex_degree _ _ hb]
      exact hj
    · rw [if_neg hj]
      refine sum_eq_zero fun i _ => ?_
      unfold gatherColumns
      dsimp only
      rw [List.getElem?_eq_none (by rw [cartPerm_length]; omega), mul_zero]

/-- What `spherical_harmonics` returns. -/
theorem sphericalHarmonics_eq (tiny : ℝ) (disk : Disk SHCompressed) (hd : ShDisk disk) (outcome : SaveOutcome)
    {ι : Type} [Fintype ι] (r : ι → Fin 3 → ℝ) (L : ℕ) (isNorm cart : Bool) (s : String) :
    sphericalHarmonics tiny disk outcome r L isNorm cart s =
      if s ∈ normNames then
        match (if isNorm then .ok r else normalize tiny r) with
        | .error e => .error e
        | .ok u => .ok fun b => harmonics L cart s (u b)
      else .error .valueError := by
  unfold sphericalHarmonics
  rw [if_neg (by simp), if_neg (by omega)]
  dsimp only
  rw [generate_result (sh_correct _ sphTerms_wellFormed) hd, if_neg (by omega)]
  dsimp only
  rw [Int.toNat_natCast]
  by_cases hs : s ∈ normNames
  · obtain ⟨cm, h1, h2⟩ := applyNormalization_ok s hs (List.range (L + 1)) List.nodup_range (shTable sphTerms L).cm
    rw [h1, if_pos hs]
    dsimp only
    cases (if isNorm = true then Except.ok r else normalize tiny r) with
    | error e => rfl
    | ok u =>
      dsimp only
      congr 1
      funext b j
      exact sh_value L cart s cm h2 (u b) j
  · rw [applyNormalization_error s hs, if_neg hs]

theorem sphericalHarmonics_shape (tiny : ℝ) (disk : Disk SHCompressed) (outcome : SaveOutcome)
    {ι : Type} [Fintype ι] {n : ℕ} (r : ι → Fin n → ℝ) (L : ℤ) (isNorm cart : Bool) (s : String) (h : n ≠ 3 ∨ L < 0) :
    sphericalHarmonics tiny disk outcome r L isNorm cart s = .error .valueError := by
  unfold sphericalHarmonics
  rcases h with h | h
  · rw [if_pos h]
  · rw [if_pos h]
    split_ifs <;> rfl

/-! ## Clebsch-Gordan coefficients -/

abbrev CgDisk (disk : Disk CGCompressed) : Prop :=
  ValidDisk (cgKind symClebschGordan) (cgTable symClebschGordan) disk

/-- the coefficients of all degrees -/
def cgTensor (cart : Bool) (i j k : ℕ) : ℝ :=
  symClebschGordan (degreeOf i) (componentOrder cart i) (degreeOf j) (componentOrder cart j) (degreeOf k)
    (componentOrder cart k)

theorem cgTable_cg (L i j k : ℕ) (hi : degreeOf i ≤ L) (hj : degreeOf j ≤ L) (hk : degreeOf k ≤ L) :
    (cgTable symClebschGordan L).cg (i, j, k) = cgTensor false i j k := by
  unfold cgTable cgTensor componentOrder
  dsimp only
  split_ifs with h h'
  · contradiction
  · rfl
  · contradiction
  · simp only [hi, hj, hk, true_and, not_and_or] at h
    symm
    rcases h with h | h
    · exact symCG_of_not_tri _ _ _ _ _ _ (by omega)
    · exact symCG_of_ne _ _ _ _ _ _ h

theorem cgTensor_cart (i j k : ℕ) : cgTensor false (lmIndex (degreeOf i) (cartesianOrderOf i))
    (lmIndex (degreeOf j) (cartesianOrderOf j)) (lmIndex (degreeOf k) (cartesianOrderOf k)) = cgTensor true i j k := by
  unfold cgTensor
  have hi := cartesianOrderOf_bounds i
  have hj := cartesianOrderOf_bounds j
  have hk := cartesianOrderOf_bounds k
  simp only [lmIndex_degree _ _ hi, lmIndex_degree _ _ hj, lmIndex_degree _ _ hk, componentOrder, if_true,
    Bool.false_eq_true, if_false, lmIndex_order _ _ hi, lmIndex_order _ _ hj, lmIndex_order _ _ hk]

theorem lmIndex_lt (L i : ℕ) (h : i < (L + 1) ^ 2) : lmIndex (degreeOf i) (cartesianOrderOf i) < (L + 1) ^ 2 := by
  rw [← deg_le_iff] at h ⊢
  rw [← degreeOf_eq_deg, lmIndex_degree _ _ (cartesianOrderOf_bounds i)]
  exact h

theorem clebschGordan_eq (disk : Disk CGCompressed) (hd : CgDisk disk) (outcome : SaveOutcome) (l1 l2 l3 : ℕ)
    (cart : Bool) : clebschGordan disk outcome l1 l2 l3 cart = .ok fun i j k =>
      if i < (l1 + 1) ^ 2 ∧ j < (l2 + 1) ^ 2 ∧ k < (l3 + 1) ^ 2 then cgTensor cart i j k else 0 := by
  unfold clebschGordan
  rw [if_neg (by omega), if_neg (by omega), if_neg (by omega)]
  dsimp only
  rw [generate_result (cg_correct _) hd, if_neg (by omega)]
  dsimp only
  rw [show (max (max (l1 : ℤ) l2) l3).toNat = max (max l1 l2) l3 by omega]
  simp only [Int.toNat_natCast]
  congr 1
  have std : ∀ i j k, sliceCube 0 ((l1 + 1) ^ 2) 0 ((l2 + 1) ^ 2) 0 ((l3 + 1) ^ 2)
      (cgTable symClebschGordan (max (max l1 l2) l3)).cg i j k =
      if i < (l1 + 1) ^ 2 ∧ j < (l2 + 1) ^ 2 ∧ k < (l3 + 1) ^ 2 then cgTensor false i j k else 0 := by
    intro i j k
    unfold sliceCube
    simp only [zero_add]
    split_ifs with h
    · refine cgTable_cg _ _ _ _ ?_ ?_ ?_
      · have : degreeOf i ≤ l1 := deg_le_of_lt h.1
        omega
      · have : degreeOf j ≤ l2 := deg_le_of_lt h.2.1
        omega
      · have : degreeOf k ≤ l3 := deg_le_of_lt h.2.2
        omega
    · rfl
  cases cart
  · funext i j k
    exact std i j k
  · funext i j k
    simp only [if_true]
    unfold gatherCube
    by_cases h : i < (l1 + 1) ^ 2 ∧ j < (l2 + 1) ^ 2 ∧ k < (l3 + 1) ^ 2
    · rw [cartPerm_get _ _ h.1, cartPerm_get _ _ h.2.1, cartPerm_get _ _ h.2.2, if_pos h]
      dsimp only
      rw [std, if_pos ⟨lmIndex_lt _ _ h.1, lmIndex_lt _ _ h.2.1, lmIndex_lt _ _ h.2.2⟩, cgTensor_cart]
    · rw [if_neg h]
      split
      · rename_i h1 h2 h3
        exact absurd ⟨by rw [← cartPerm_length]; exact (List.getElem?_eq_some_iff.1 h1).1,
          by rw [← cartPerm_length]; exact (List.getElem?_eq_some_iff.1 h2).1,
          by rw [← cartPerm_length]; exact (List.getElem?_eq_some_iff.1 h3).1⟩ h
      · rfl

theorem clebschGordan_error (disk : Disk CGCompressed) (outcome : SaveOutcome) (l1 l2 l3 : ℤ) (cart : Bool)
    (h : l1 < 0 ∨ l2 < 0 ∨ l3 < 0) : clebschGordan disk outcome l1 l2 l3 cart = .error .valueError ∧
      clebschGordanForDegrees disk outcome l1 l2 l3 cart = .error .valueError := by
  unfold clebschGordan clebschGordanForDegrees
  split_ifs <;> first | exact ⟨rfl, rfl⟩ | omega

theorem cartPermDeg_lm (l a : ℕ) (ha : a < 2 * l + 1) :
    ∃ p, (cartPermDeg l)[a]? = some p ∧ p < 2 * l + 1 ∧
      l ^ 2 + p = lmIndex (degreeOf (l ^ 2 + a)) (cartesianOrderOf (l ^ 2 + a)) := by
  have hd : degreeOf (l ^ 2 + a) = l := deg_sq_add ha
  have h := cartPermDeg_get l a ha
  have hb := cartesianOrderOf_bounds (l ^ 2 + a)
  rw [hd, abs_le] at hb
  refine ⟨_, h, by omega, ?_⟩
  rw [hd]
  unfold lmIndex
  push_cast
  have : (l : ℤ) ^ 2 = l * l := by ring
  zify
  rw [Int.toNat_of_nonneg (by omega), Int.toNat_of_nonneg (by nlinarith [hb.1])]
  ring

theorem clebschGordanForDegrees_eq (disk : Disk CGCompressed) (hd : CgDisk disk) (outcome : SaveOutcome) (l1 l2 l3 : ℕ)
    (cart : Bool) : clebschGordanForDegrees disk outcome l1 l2 l3 cart = .ok fun i j k =>
      if i < 2 * l1 + 1 ∧ j < 2 * l2 + 1 ∧ k < 2 * l3 + 1 then cgTensor cart (l1 ^ 2 + i) (l2 ^ 2 + j) (l3 ^ 2 + k)
      else 0 := by
  unfold clebschGordanForDegrees
  rw [if_neg (by omega), if_neg (by omega), if_neg (by omega)]
  dsimp only
  rw [generate_result (cg_correct _) hd, if_neg (by omega)]
  dsimp only
  rw [show (max (max (l1 : ℤ) l2) l3).toNat = max (max l1 l2) l3 by omega]
  simp only [Int.toNat_natCast]
  congr 1
  have sq : ∀ l a : ℕ, l ^ 2 + a < (l + 1) ^ 2 ↔ a < 2 * l + 1 := fun l a => by
    rw [show (l + 1) ^ 2 = l ^ 2 + (2 * l + 1) by ring]; omega
  have std : ∀ i j k, sliceCube (l1 ^ 2) ((l1 + 1) ^ 2) (l2 ^ 2) ((l2 + 1) ^ 2) (l3 ^ 2) ((l3 + 1) ^ 2)
      (cgTable symClebschGordan (max (max l1 l2) l3)).cg i j k =
      if i < 2 * l1 + 1 ∧ j < 2 * l2 + 1 ∧ k < 2 * l3 + 1 then cgTensor false (l1 ^ 2 + i) (l2 ^ 2 + j) (l3 ^ 2 + k)
      else 0 := by
    intro i j k
    unfold sliceCube
    simp only [sq]
    split_ifs with h
    · refine cgTable_cg _ _ _ _ ?_ ?_ ?_
      · have : degreeOf (l1 ^ 2 + i) = l1 := deg_sq_add h.1
        omega
      · have : degreeOf (l2 ^ 2 + j) = l2 := deg_sq_add h.2.1
        omega
      · have : degreeOf (l3 ^ 2 + k) = l3 := deg_sq_add h.2.2
        omega
    · rfl
  cases cart
  · funext i j k
    exact std i j k
  · funext i j k
    simp only [if_true]
    unfold gatherCube
    by_cases h : i < 2 * l1 + 1 ∧ j < 2 * l2 + 1 ∧ k < 2 * l3 + 1
    · obtain ⟨p1, e1, b1, f1⟩ := cartPermDeg_lm l1 i h.1
      obtain ⟨p2, e2, b2, f2⟩ := cartPermDeg_lm l2 j h.2.1
      obtain ⟨p3, e3, b3, f3⟩ := cartPermDeg_lm l3 k h.2.2
      rw [e1, e2, e3, if_pos h]
      dsimp only
      rw [std, if_pos ⟨b1, b2, b3⟩, f1, f2, f3, cgTensor_cart]
    · rw [if_neg h]
      split
      · rename_i h1 h2 h3
        exact absurd ⟨by rw [← cartPermDeg_length]; exact (List.getElem?_eq_some_iff.1 h1).1,
          by rw [← cartPermDeg_length]; exact (List.getElem?_eq_some_iff.1 h2).1,
          by rw [← cartPermDeg_length]; exact (List.getElem?_eq_some_iff.1 h3).1⟩ h
      · rfl

/-! ## Wigner-D matrices -/

abbrev WdDisk (disk : Disk WDCompressed) : Prop := ValidDisk (wdKind wigTerms) (wdTable wigTerms) disk

/-- the Wigner-D matrix of all degrees -/
def dMatrix (cart : Bool) (R : Fin 3 → Fin 3 → ℝ) (i j : ℕ) : ℝ :=
  if degreeOf i = degreeOf j then wigR (degreeOf i) R (componentOrder cart i) (componentOrder cart j) else 0

theorem rotationMonomial_eq {L : ℕ} (R : Fin 3 → Fin 3 → ℝ) {p : List ℕ} (h : p.sum ≤ L) :
    rotationMonomial L R p = monomialValue (rotEntries R) p := by
  unfold rotationMonomial monomialValue
  refine prod_congr rfl fun k _ => ?_
  rw [gatherPower_eq _ _ _ ((getD_le_sum p k).trans h)]
  congr 1
  have hk : (k : ℕ) / 3 < 3 := by have := k.2; omega
  dsimp only
  rw [dif_pos hk, coordinate, dif_pos (by omega)]
  rfl

theorem sum_wd_row (L l : ℕ) (a b : ℤ) (hl : l ≤ L) (ha : |a| ≤ l) (R : Fin 3 → Fin 3 → ℝ) :
    ∑ i ∈ range (totalRotMonomials L), rotationMonomial L R ((monomials rotationPowers L).getD i []) *
      rowCoefficient (monomials rotationPowers L) (wigTerms l a b) i = wigR l R a b := by
  have h := sum_monomials (n := 9) (by omega) (symWignerD l a b) l L hl (symWignerD_homog l a b ha) (rotEntries R)
    (monomials rotationPowers L) rfl
  rw [wigR, ← h, monomials_length_rot]
  refine sum_congr rfl fun i hi => ?_
  rw [mem_range, ← monomials_length_rot] at hi
  rw [rowCoefficient_getD _ hi]
  have hmem : (monomials rotationPowers L).getD i [] ∈ monomials (fun d => multicombinations d 9) L := by
    rw [List.getD, List.getElem?_eq_getElem hi, Option.getD_some]
    exact List.getElem_mem hi
  rw [rotationMonomial_eq R (powers_mem_monomials (by omega) hmem).2]
  rfl

theorem flatMap_map_get {α β γ : Type} (xs : List α) (ys : List β) (f : α → β → γ) (n a b : ℕ) (x : α) (y : β)
    (hn : ys.length = n) (hx : xs[a]? = some x) (hy : ys[b]? = some y) :
    (xs.flatMap fun a => ys.map fun b => f a b)[a * n + b]? = some (f x y) := by
  induction xs generalizing a with
  | nil => simp at hx
  | cons x' xs ih =>
    have hbn : b < n := by rw [← hn]; exact (List.getElem?_eq_some_iff.1 hy).1
    rw [List.flatMap_cons]
    cases a with
    | zero =>
      simp only [List.getElem?_cons_zero, Option.some.injEq] at hx
      subst hx
      rw [List.getElem?_append_left (by simp; omega), List.getElem?_map]
      simp [hy]
    | succ a =>
      rw [List.getElem?_append_right (by rw [List.length_map, hn]; nlinarith)]
      rw [List.length_map, hn, show (a + 1) * n + b - n = a * n + b by rw [Nat.succ_mul]; omega]
      exact ih a (by simpa using hx)

theorem wignerEntries_at (L l a b : ℕ) (hl : l ≤ L) (ha : a < 2 * l + 1) (hb : b < 2 * l + 1) :
    (wignerEntries L)[wigOffset l + (a * (2 * l + 1) + b)]? = some (l, (a : ℤ) - l, (b : ℤ) - l) := by
  have hk : a * (2 * l + 1) + b < (wignerDegree l).length := by
    rw [wignerDegree_length]; unfold numWignerD; nlinarith
  have := flatMap_range_get wignerDegree (L + 1) l (a * (2 * l + 1) + b) (by omega) hk
  rw [show ((List.range l).map fun d => (wignerDegree d).length).sum = wigOffset l from by
    unfold wigOffset; rw [List.map_congr_left (fun d _ => wignerDegree_length d)]] at this
  rw [wignerEntries_eq, this]
  unfold wignerDegree
  have ho : ∀ c, c < 2 * l + 1 → (orders l)[c]? = some ((c : ℤ) - l) := by
    intro c hc
    unfold orders
    rw [List.getElem?_map, List.getElem?_range hc, Option.map_some]
  exact flatMap_map_get (orders l) (orders l) (fun a b => (l, a, b)) _ a b _ _ (orders_length l) (ho a ha) (ho b hb)

theorem wigStart (l : ℕ) : ((l + 1) * (2 * l + 1) * (2 * l + 3)) / 3 - (2 * l + 1) ^ 2 = wigOffset l := by
  have h1 : wigOffset (l + 1) = ((l + 1) * (2 * l + 1) * (2 * l + 3)) / 3 := wigOffset_total l
  rw [← h1, wigOffset_succ, numWignerD, Nat.pow_two]
  omega

theorem assembleBlocks_eq (entries : ℕ → ℝ) (ls : List ℕ) (hn : ls.Nodup) (d : ℕ → ℕ → ℝ) (p q : ℕ) :
    assembleBlocks entries ls d p q = if degreeOf p = degreeOf q ∧ degreeOf p ∈ ls then
      entries (wigOffset (degreeOf p) + ((p - degreeOf p ^ 2) * (2 * degreeOf p + 1) + (q - degreeOf p ^ 2)))
      else d p q := by
  induction ls generalizing d with
  | nil => simp [assembleBlocks]
  | cons l ls ih =>
    rw [List.nodup_cons] at hn
    unfold assembleBlocks
    dsimp only
    rw [ih hn.2]
    simp only [← deg_eq_iff, ← degreeOf_eq_deg, wigStart]
    by_cases h : degreeOf p = l
    · rw [if_neg (fun hh => hn.1 (h ▸ hh.2))]
      by_cases h' : degreeOf q = l
      · rw [if_pos ⟨h, h'⟩, if_pos ⟨h.trans h'.symm, by rw [h]; exact List.mem_cons_self⟩, h]
      · rw [if_neg (fun hh => h' hh.2), if_neg (fun (hh : degreeOf p = degreeOf q ∧ _) => h' (hh.1 ▸ h))]
    · rw [if_neg (fun (hh : degreeOf p = l ∧ degreeOf q = l) => h hh.1)]
      simp only [List.mem_cons, h, false_or]

/-- What `wigner_d` returns. -/
theorem wignerD_eq (disk : Disk WDCompressed) (hd : WdDisk disk) (outcome : SaveOutcome) (R : Fin 3 → Fin 3 → ℝ) (L : ℕ)
    (cart : Bool) : wignerD disk outcome R L cart = .ok fun i j =>
      if i < (L + 1) ^ 2 ∧ j < (L + 1) ^ 2 then dMatrix cart R i j else 0 := by
  unfold wignerD
  rw [if_neg (by simp), generate_result (wd_correct _ wigTerms_wellFormed) hd, if_neg (by omega)]
  dsimp only
  rw [Int.toNat_natCast]
  congr 1
  funext p q
  rw [assembleBlocks_eq _ _ List.nodup_range]
  have hdeg : ∀ i, degreeOf i < L + 1 ↔ i < (L + 1) ^ 2 := fun i => by
    rw [← deg_le_iff, degreeOf_eq_deg]; omega
  by_cases hpq : degreeOf p = degreeOf q
  · by_cases hp : p < (L + 1) ^ 2
    · have hq : q < (L + 1) ^ 2 := by rw [← hdeg, ← hpq, hdeg]; exact hp
      rw [if_pos (show degreeOf p = degreeOf q ∧ degreeOf p ∈ List.range (L + 1) from
        ⟨hpq, List.mem_range.mpr ((hdeg p).mpr hp)⟩), if_pos (show _ ∧ _ from ⟨hp, hq⟩), dMatrix, if_pos hpq]
      have hl : degreeOf p ≤ L := by have := (hdeg p).mpr hp; omega
      have hpb := (deg_eq_iff p (degreeOf p)).mp rfl
      have hqb := (deg_eq_iff q (degreeOf p)).mp hpq.symm
      set l := degreeOf p with hl'
      have h3 : (l + 1) ^ 2 = l ^ 2 + 2 * l + 1 := by ring
      have ha : p - l ^ 2 < 2 * l + 1 := by omega
      have hb : q - l ^ 2 < 2 * l + 1 := by omega
      have std : ∀ a b : ℕ, a < 2 * l + 1 → b < 2 * l + 1 →
          ∑ i ∈ range (totalRotMonomials L), rotationMonomial L R ((wdTable wigTerms L).ls i) *
            (wdTable wigTerms L).cm (i, wigOffset l + (a * (2 * l + 1) + b)) = wigR l R ((a : ℤ) - l) ((b : ℤ) - l) := by
        intro a b ha hb
        rw [← sum_wd_row L l _ _ hl (by rw [abs_le]; omega)]
        refine sum_congr rfl fun i _ => ?_
        rw [wdTable_cm, wignerEntries_at L l a b hl ha hb]
        rfl
      have ord : ∀ i : ℕ, degreeOf i = l → l ^ 2 ≤ i → ((i - l ^ 2 : ℕ) : ℤ) - l = Spec.orderOf i := by
        intro i hi hb
        unfold Spec.orderOf
        rw [hi, Nat.cast_sub hb]
        push_cast
        ring
      cases cart
      · simp only [Bool.false_eq_true, if_false]
        rw [std _ _ ha hb, ord p rfl hpb.1, ord q hpq.symm hqb.1]
        rfl
      · simp only [if_true]
        obtain ⟨a', ea, ba, fa⟩ := cartPermDeg_lm l (p - l ^ 2) ha
        obtain ⟨b', eb, bb, fb⟩ := cartPermDeg_lm l (q - l ^ 2) hb
        have hperm := C20_wigner_d_entries L l _ _ a' b' hl ea eb
        have e : ∀ i, gatherColumns (cartPermWignerD L) (wdTable wigTerms L).cm
            (i, wigOffset l + ((p - l ^ 2) * (2 * l + 1) + (q - l ^ 2))) =
            (wdTable wigTerms L).cm (i, wigOffset l + (a' * (2 * l + 1) + b')) := by
          intro i
          unfold gatherColumns
          dsimp only
          unfold wigOffset
          rw [hperm]
        simp only [e]
        rw [std _ _ ba bb]
        rw [Nat.add_sub_cancel' hpb.1] at fa
        rw [Nat.add_sub_cancel' hqb.1] at fb
        have oa : ((a' : ℕ) : ℤ) - l = cartesianOrderOf p := by
          have := congrArg (fun x : ℕ => (x : ℤ)) fa
          rw [lmIndex_cast _ _ (cartesianOrderOf_bounds p), ← hl'] at this
          push_cast at this
          linarith
        have ob : ((b' : ℕ) : ℤ) - l = cartesianOrderOf q := by
          have := congrArg (fun x : ℕ => (x : ℤ)) fb
          rw [lmIndex_cast _ _ (cartesianOrderOf_bounds q), ← hpq] at this
          push_cast at this
          linarith
        rw [oa, ob]
        rfl
    · rw [if_neg (fun h : degreeOf p = degreeOf q ∧ degreeOf p ∈ List.range (L + 1) =>
        hp ((hdeg p).mp (List.mem_range.mp h.2))), if_neg (fun h => hp h.1)]
  · rw [if_neg (fun h : degreeOf p = degreeOf q ∧ degreeOf p ∈ List.range (L + 1) => hpq h.1), dMatrix, if_neg hpq]
    simp

theorem wignerD_error (disk : Disk WDCompressed) (outcome : SaveOutcome) {n m : ℕ} (R : Fin n → Fin m → ℝ) (L : ℤ)
    (cart : Bool) (h : ¬ (n = 3 ∧ m = 3) ∨ L < 0) : wignerD disk outcome R L cart = .error .valueError := by
  unfold wignerD
  by_cases hn : n = 3 ∧ m = 3
  · rw [if_neg (not_not.mpr hn), generate_negative _ _ (by tauto)]
  · rw [if_pos hn]

end

end E3x
