import Verif.Lemmas.ShippedError
import Verif.Props.LookupTables

/-!
# C80: the table of spherical harmonics shipped with the package

`shippedSphericalHarmonics` (Model/ShippedHarmonics.lean) is the content of so3/_spherical_harmonics_lut.npz. The
exact tables are `Spec.shTable sphTerms L`, where `sphTerms` lists the terms of the polynomials defined in
so3/_symbolic.py.
-/

namespace E3x

open Spec Finset Coefficients

/-- **C80 (coefficients).** There is a table for each degree, with the monomials in the documented order, in which
every coefficient agrees with the exact one up to a relative error of `2⁻⁵²` (in particular the zeros are the same),
such that every history of requests, failing saves, crashes, configured paths and removed files that starts from a
new installation gets exactly these tables. -/
theorem C80_coefficients : ∃ table : ℕ → SHTable,
    (∀ L, (table L).maxDegree = L ∧ (table L).ls = (shTable sphTerms L).ls ∧
      ∀ i j, |(table L).cm (i, j) - (shTable sphTerms L).cm (i, j)| ≤ 2⁻¹ ^ 52 * |(shTable sphTerms L).cm (i, j)|) ∧
    ∀ ops : List LutOp, (∀ op ∈ ops, Clean op) →
      (runLut (shKind sphTerms) ops freshInstall).2 = ops.map (expected table) := by
  refine ⟨shTable shippedTerms, fun L => ⟨rfl, rfl, fun i j => ?_⟩, fun ops hops => ?_⟩
  · rw [shTable_cm, shTable_cm]
    split_ifs
    · unfold rowCoefficient
      split
      · exact shippedTerms_close _ _ (orderOf_abs j) _
      · simp
    · simp
  · rw [(run_shipped ops freshInstall_shipped hops).1]
    exact (C33_spherical_harmonics _ shippedTerms_wellFormed _ freshInstall_shipped.2.1 ops hops).1

/-- A history that is covered: the table of degree 15, then one of degree 17, with a cache, killed while saving. -/
example : ∀ op ∈ [LutOp.request 15 .success, .setCache (some 0), .crash 17 .openFails, .request 3 .openFails], Clean op := by
  simp [Clean]

/-- The bound says something: there are coefficients that are not zero. -/
example : (shTable sphTerms 0).cm (0, 0) = 1 := by
  have h : coefficient (sphTerms 0 0) [0, 0, 0] = 1 := by
    have := coeff_harmonic (l := 0) (a := 0) (b := 0) (c := 0) (m := 0) (by simp) rfl
    have h0 : [0, 0, 0] ∈ monomialPowers 0 := ((C21_monomial_powers 0).1 _).2 ⟨0, 0, 0, rfl, rfl⟩
    unfold sphTerms
    rw [coefficient_power 0 _ _ h0]
    have e : (Finsupp.equivFunOnFinite.symm fun i : Fin 3 => [0, 0, 0].getD (i : ℕ) 0) = Coefficients.expo 0 0 0 := by
      ext i
      fin_cases i <;> simp [Coefficients.expo]
    rw [e, this]
    simp [harmonicInt, piCoeff, trigCoeff, cosQuarter]
  have h1 : monomials monomialPowers 0 = [[0, 0, 0]] := by
    have : monomialPowers = fun d => (partitions 3 d 0).flatMap perms3 := funext monomialPowers_perms3
    rw [this]
    decide
  rw [shTable_cm, if_pos (by decide)]
  unfold rowCoefficient
  rw [h1]
  exact h

/-- **C80 (values).** After every such history, `spherical_harmonics` differs from what it returns with an exact table
at most by the rounding of the coefficients: for the component of degree `l`, by `2⁻⁵²` times the constant of the
normalisation times `√(binomial(2l, l) / 2ˡ)` times the `l`-th power of the length of the vector (`1` if the vectors are
normalised first). All other operations are exact here. -/
theorem C80_values (ops : List LutOp) (hops : ∀ op ∈ ops, Clean op) (disk : Disk SHCompressed)
    (hd : ValidDisk (shKind sphTerms) (shTable sphTerms) disk) (outcome outcome' : SaveOutcome) (tiny : ℝ) (ht : 0 < tiny)
    (ht1 : tiny ≤ 1) {ι : Type} [Fintype ι] [Nonempty ι] (r : ι → Fin 3 → ℝ) (L : ℕ) (isNorm cart : Bool) (s : String)
    (hs : s ∈ normNames) :
    ∃ Y Y', sphericalHarmonics tiny (runLut (shKind sphTerms) ops freshInstall).1 outcome r L isNorm cart s = .ok Y ∧
      sphericalHarmonics tiny disk outcome' r L isNorm cart s = .ok Y' ∧
      ∀ b j, |Y b j - Y' b j| ≤ 2⁻¹ ^ 52 * (normConstant s (degreeOf j) *
        (Real.sqrt (((2 * degreeOf j).choose (degreeOf j) : ℝ) / 2 ^ degreeOf j) *
          (if isNorm then Spec.length (r b) else 1) ^ degreeOf j)) := by
  obtain ⟨-, hsd⟩ := run_shipped ops freshInstall_shipped hops
  generalize (runLut (shKind sphTerms) ops freshInstall).1 = disk' at hsd
  obtain ⟨u, hu, hlen⟩ : ∃ u, (if isNorm then .ok r else normalize tiny r) = Except.ok u ∧
      ∀ b, Spec.length (u b) ≤ if isNorm then Spec.length (r b) else 1 := by
    cases isNorm
    · obtain ⟨y, -, h2, h3⟩ := C41_normalize tiny ht r inferInstance
      refine ⟨y, h2, fun b => ?_⟩
      simp only [Bool.false_eq_true, if_false]
      by_cases hc : Spec.length (r b) ^ 2 > tiny
      · exact le_of_eq ((h3 b).1 hc).1
      · rw [(h3 b).2 hc]
        have h0 : 0 ≤ Spec.length (r b) := Real.sqrt_nonneg _
        nlinarith [not_lt.1 hc]
    · exact ⟨r, rfl, fun b => le_rfl⟩
  obtain ⟨cm, h1, h2⟩ := applyNormalization_ok s hs (List.range (L + 1)) List.nodup_range (shTable shippedTerms L).cm
  obtain ⟨cm', h1', h2'⟩ := applyNormalization_ok s hs (List.range (L + 1)) List.nodup_range (shTable sphTerms L).cm
  refine ⟨fun b j => ∑ i ∈ range (totalCartMonomials L), cartesianMonomial L (u b) ((shTable shippedTerms L).ls i) *
      (if cart then gatherColumns (cartPerm L) cm else cm) (i, j),
    fun b j => ∑ i ∈ range (totalCartMonomials L), cartesianMonomial L (u b) ((shTable sphTerms L).ls i) *
      (if cart then gatherColumns (cartPerm L) cm' else cm') (i, j), ?_, ?_, ?_⟩
  · unfold sphericalHarmonics
    rw [if_neg (by simp), if_neg (by omega)]
    dsimp only
    rw [generate_shipped hsd, generate_result (sh_correct _ shippedTerms_wellFormed) hsd.2.1, if_neg (by omega)]
    dsimp only
    rw [Int.toNat_natCast, h1]
    dsimp only
    rw [hu]
  · unfold sphericalHarmonics
    rw [if_neg (by simp), if_neg (by omega)]
    dsimp only
    rw [generate_result (sh_correct _ sphTerms_wellFormed) hd, if_neg (by omega)]
    dsimp only
    rw [Int.toNat_natCast, h1']
    dsimp only
    rw [hu]
  · intro b j
    have hn : ∀ l, 0 ≤ normConstant s l := fun l => (normConstant_pos s l).le
    have hlen0 : 0 ≤ Spec.length (u b) := Real.sqrt_nonneg _
    have std : ∀ j, |∑ i ∈ range (totalCartMonomials L), cartesianMonomial L (u b) ((shTable shippedTerms L).ls i) * cm (i, j) -
        ∑ i ∈ range (totalCartMonomials L), cartesianMonomial L (u b) ((shTable sphTerms L).ls i) * cm' (i, j)| ≤
        2⁻¹ ^ 52 * (normConstant s (degreeOf j) *
        (Real.sqrt (((2 * degreeOf j).choose (degreeOf j) : ℝ) / 2 ^ degreeOf j) *
          (if isNorm then Spec.length (r b) else 1) ^ degreeOf j)) := by
      intro j
      have hB : 0 ≤ 2⁻¹ ^ 52 * (normConstant s (degreeOf j) *
          (Real.sqrt (((2 * degreeOf j).choose (degreeOf j) : ℝ) / 2 ^ degreeOf j) *
            (if isNorm then Spec.length (r b) else 1) ^ degreeOf j)) := by
        have := hlen0.trans (hlen b)
        have := hn (degreeOf j)
        positivity
      by_cases hj : degreeOf j ≤ L
      · have hmem : degreeOf j ∈ List.range (L + 1) := List.mem_range.2 (by omega)
        have key := column_error L (degreeOf j) (Spec.orderOf j) hj (orderOf_abs j) (u b)
        have e1 : ∑ i ∈ range (totalCartMonomials L), cartesianMonomial L (u b) ((shTable shippedTerms L).ls i) * cm (i, j) =
            normConstant s (degreeOf j) * ∑ i ∈ range (totalCartMonomials L),
              cartesianMonomial L (u b) ((monomials monomialPowers L).getD i []) *
                rowCoefficient (monomials monomialPowers L) (shippedTerms (degreeOf j) (Spec.orderOf j)) i := by
          rw [mul_sum]
          refine sum_congr rfl fun i _ => ?_
          rw [h2, if_pos hmem, shTable_cm, if_pos hj, shTable_ls]
          ring
        have e2 : ∑ i ∈ range (totalCartMonomials L), cartesianMonomial L (u b) ((shTable sphTerms L).ls i) * cm' (i, j) =
            normConstant s (degreeOf j) * ∑ i ∈ range (totalCartMonomials L),
              cartesianMonomial L (u b) ((monomials monomialPowers L).getD i []) *
                rowCoefficient (monomials monomialPowers L) (sphTerms (degreeOf j) (Spec.orderOf j)) i := by
          rw [mul_sum]
          refine sum_congr rfl fun i _ => ?_
          rw [h2', if_pos hmem, shTable_cm, if_pos hj, shTable_ls]
          ring
        rw [e1, e2, ← mul_sub, abs_mul, abs_of_nonneg (hn _)]
        have hpow : Spec.length (u b) ^ degreeOf j ≤ (if isNorm then Spec.length (r b) else 1) ^ degreeOf j :=
          pow_le_pow_left₀ hlen0 (hlen b) _
        calc _ ≤ normConstant s (degreeOf j) * (2⁻¹ ^ 52 *
              (Real.sqrt (((2 * degreeOf j).choose (degreeOf j) : ℝ) / 2 ^ degreeOf j) * Spec.length (u b) ^ degreeOf j)) :=
              mul_le_mul_of_nonneg_left key (hn _)
          _ ≤ normConstant s (degreeOf j) * (2⁻¹ ^ 52 *
              (Real.sqrt (((2 * degreeOf j).choose (degreeOf j) : ℝ) / 2 ^ degreeOf j) *
                (if isNorm then Spec.length (r b) else 1) ^ degreeOf j)) := by
              refine mul_le_mul_of_nonneg_left (mul_le_mul_of_nonneg_left ?_ (by positivity)) (hn _)
              exact mul_le_mul_of_nonneg_left hpow (Real.sqrt_nonneg _)
          _ = _ := by ring
      · have hmem : degreeOf j ∉ List.range (L + 1) := fun h => hj (by have := List.mem_range.1 h; omega)
        have z1 : ∀ i, cm (i, j) = 0 := fun i => by rw [h2, if_neg hmem, shTable_cm, if_neg hj]
        have z2 : ∀ i, cm' (i, j) = 0 := fun i => by rw [h2', if_neg hmem, shTable_cm, if_neg hj]
        simp only [z1, z2, mul_zero, sum_const_zero, sub_zero, abs_zero]
        exact hB
    cases cart
    · simpa using std j
    · simp only [if_true]
      by_cases hj : j < (L + 1) ^ 2
      · have hb := cartesianOrderOf_bounds j
        have e : ∀ (c : ℕ × ℕ → ℝ) i, gatherColumns (cartPerm L) c (i, j) = c (i, lmIndex (degreeOf j) (cartesianOrderOf j)) := by
          intro c i
          unfold gatherColumns
          dsimp only
          rw [cartPerm_get L j hj]
        simp only [e]
        have := std (lmIndex (degreeOf j) (cartesianOrderOf j))
        rw [lmIndex_degree _ _ hb] at this
        exact this
      · have e : ∀ (c : ℕ × ℕ → ℝ) i, gatherColumns (cartPerm L) c (i, j) = 0 := by
          intro c i
          unfold gatherColumns
          dsimp only
          rw [List.getElem?_eq_none (by rw [cartPerm_length]; omega)]
        simp only [e, mul_zero, sum_const_zero, sub_zero, abs_zero]
        have := hlen0.trans (hlen b)
        have := hn (degreeOf j)
        positivity

/-- A case: two vectors, a new installation compared with a computation from scratch. -/
example : ∃ disk : Disk SHCompressed, ValidDisk (shKind sphTerms) (shTable sphTerms) disk ∧ "orthonormal" ∈ normNames :=
  ⟨⟨.absent, fun _ => .absent, none⟩, ⟨fun _ h => by simp at h, fun _ => trivial⟩, by simp [normNames]⟩

/-- The bound for the largest degree in the archive: less than `2⁻⁴⁵` for unit vectors. -/
theorem C80_bound (l : ℕ) (hl : l ≤ 15) :
    (2⁻¹ : ℝ) ^ 52 * Real.sqrt (((2 * l).choose l : ℝ) / 2 ^ l) < 2⁻¹ ^ 45 := by
  have h : (((2 * l).choose l : ℝ) / 2 ^ l) < (2 ^ 7) ^ 2 := by
    rw [div_lt_iff₀ (by positivity)]
    have : (2 * l).choose l < (2 ^ 7) ^ 2 * 2 ^ l := by
      interval_cases l <;> decide
    exact_mod_cast this
  have h2 := Real.sqrt_lt_sqrt (by positivity) h
  rw [Real.sqrt_sq (by positivity)] at h2
  calc (2⁻¹ : ℝ) ^ 52 * Real.sqrt (((2 * l).choose l : ℝ) / 2 ^ l) < 2⁻¹ ^ 52 * 2 ^ 7 :=
        mul_lt_mul_of_pos_left h2 (by positivity)
    _ = _ := by norm_num

end E3x
