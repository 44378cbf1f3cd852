import Verif.Lemmas.SphericalHarmonics

/-!
# C28: Wigner-D matrices

The function is `wignerD` of Verif/Model/Irreps.lean. The states of the caches range over all valid states
(`Spec.ValidDisk`: see C33), including states without any file. Rows and columns are addressed by flat indices;
`Spec.degreeOf` is the degree of a flat index.
-/

namespace E3x

open Finset Spec

/-- **C28 (identity).** -/
theorem C28_identity (disk : Disk WDCompressed) (hd : ValidDisk (wdKind wigTerms) (wdTable wigTerms) disk)
    (outcome : SaveOutcome) (L : ℕ) (cart : Bool) :
    ∃ D, wignerD disk outcome identity3 L cart = .ok D ∧
      ∀ i < (L + 1) ^ 2, ∀ j < (L + 1) ^ 2, D i j = if i = j then 1 else 0 := by
  refine ⟨_, wignerD_eq disk hd outcome _ L cart, fun i hi j hj => ?_⟩
  rw [if_pos ⟨hi, hj⟩, dMatrix_one]

/-- **C28 (products).** `wigner_d(R1 @ R2) = wigner_d(R1) @ wigner_d(R2)`; each of the three calls may find the cache in
another state. -/
theorem C28_product (disk disk1 disk2 : Disk WDCompressed) (hd : ValidDisk (wdKind wigTerms) (wdTable wigTerms) disk)
    (hd1 : ValidDisk (wdKind wigTerms) (wdTable wigTerms) disk1)
    (hd2 : ValidDisk (wdKind wigTerms) (wdTable wigTerms) disk2) (o o1 o2 : SaveOutcome) (R1 R2 : Fin 3 → Fin 3 → ℝ)
    (h1 : IsOrthogonal R1) (L : ℕ) (cart : Bool) :
    ∃ D D1 D2, wignerD disk o (matMul R1 R2) L cart = .ok D ∧ wignerD disk1 o1 R1 L cart = .ok D1 ∧
      wignerD disk2 o2 R2 L cart = .ok D2 ∧
      ∀ i j, D i j = ∑ k ∈ range ((L + 1) ^ 2), D1 i k * D2 k j := by
  refine ⟨_, _, _, wignerD_eq disk hd o _ L cart, wignerD_eq disk1 hd1 o1 _ L cart, wignerD_eq disk2 hd2 o2 _ L cart,
    fun i j => ?_⟩
  by_cases hi : i < (L + 1) ^ 2
  · by_cases hj : j < (L + 1) ^ 2
    · rw [if_pos ⟨hi, hj⟩, ← dMatrix_mul cart h1 R2 (L := L) (deg_le_of_lt hi)]
      refine sum_congr rfl fun k hk => ?_
      rw [mem_range] at hk
      rw [if_pos ⟨hi, hk⟩, if_pos ⟨hk, hj⟩]
    · rw [if_neg (fun h => hj h.2), sum_eq_zero]
      intro k _
      rw [if_neg (fun h : k < (L + 1) ^ 2 ∧ j < (L + 1) ^ 2 => hj h.2), mul_zero]
  · rw [if_neg (fun h => hi h.1), sum_eq_zero]
    intro k _
    rw [if_neg (fun h : i < (L + 1) ^ 2 ∧ k < (L + 1) ^ 2 => hi h.1), zero_mul]

/-- **C28 (inverse).** The transposed matrix is the matrix of the transposed (inverse) rotation, and it is the
two-sided inverse. -/
theorem C28_inverse (disk disk' : Disk WDCompressed) (hd : ValidDisk (wdKind wigTerms) (wdTable wigTerms) disk)
    (hd' : ValidDisk (wdKind wigTerms) (wdTable wigTerms) disk') (o o' : SaveOutcome) (R : Fin 3 → Fin 3 → ℝ)
    (hR : IsOrthogonal R) (L : ℕ) (cart : Bool) :
    ∃ D D', wignerD disk o R L cart = .ok D ∧ wignerD disk' o' (transpose3 R) L cart = .ok D' ∧
      (∀ i j, D' i j = D j i) ∧
      ∀ i < (L + 1) ^ 2, ∀ j < (L + 1) ^ 2,
        ∑ k ∈ range ((L + 1) ^ 2), D k i * D k j = (if i = j then 1 else 0) ∧
        ∑ k ∈ range ((L + 1) ^ 2), D i k * D j k = (if i = j then 1 else 0) := by
  refine ⟨_, _, wignerD_eq disk hd o R L cart, wignerD_eq disk' hd' o' _ L cart, fun i j => ?_, fun i hi j hj => ⟨?_, ?_⟩⟩
  · simp only [dMatrix_transpose cart hR, and_comm]
  · rw [← dMatrix_orth cart hR.transpose (L := L) (deg_le_of_lt hi)]
    refine sum_congr rfl fun k hk => ?_
    rw [mem_range] at hk
    rw [if_pos ⟨hk, hi⟩, if_pos ⟨hk, hj⟩, dMatrix_transpose cart hR, dMatrix_transpose cart hR]
  · rw [← dMatrix_orth cart hR (L := L) (deg_le_of_lt hi)]
    refine sum_congr rfl fun k hk => ?_
    rw [mem_range] at hk
    rw [if_pos ⟨hi, hk⟩, if_pos ⟨hj, hk⟩]

/-- **C28 (blocks).** Entries that connect different degrees vanish, for every matrix. -/
theorem C28_block_diagonal (disk : Disk WDCompressed) (hd : ValidDisk (wdKind wigTerms) (wdTable wigTerms) disk)
    (outcome : SaveOutcome) (R : Fin 3 → Fin 3 → ℝ) (L : ℕ) (cart : Bool) :
    ∃ D, wignerD disk outcome R L cart = .ok D ∧ ∀ i j, degreeOf i ≠ degreeOf j → D i j = 0 := by
  refine ⟨_, wignerD_eq disk hd outcome R L cart, fun i j h => ?_⟩
  unfold dMatrix
  rw [if_neg h, ite_self]

theorem dMatrix_degree_one {R : Fin 3 → Fin 3 → ℝ} (hR : IsOrthogonal R) (a b : Fin 3) :
    dMatrix true R (1 + a) (1 + b) = R a b := by
  have d0 : degreeOf 0 = 0 := by decide +kernel
  have d1 : degreeOf 1 = 1 := by decide +kernel
  have d2 : degreeOf 2 = 1 := by decide +kernel
  have d3 : degreeOf 3 = 1 := by decide +kernel
  have o1 : componentOrder true 1 = 1 := by decide +kernel
  have o2 : componentOrder true 2 = -1 := by decide +kernel
  have o3 : componentOrder true 3 = 0 := by decide +kernel
  have val : ∀ u : Fin 3 → ℝ, ∀ c : Fin 3, harmonics 1 true "racah" u (1 + c) = u c := by
    intro u c
    unfold harmonics
    rw [if_pos (by omega)]
    fin_cases c
    · show normConstant "racah" (degreeOf 1) * harmonic (degreeOf 1) (componentOrder true 1) u = _
      rw [d1, o1, harmonic_one_pos, show normConstant "racah" 1 = 1 from rfl, one_mul]; rfl
    · show normConstant "racah" (degreeOf 2) * harmonic (degreeOf 2) (componentOrder true 2) u = _
      rw [d2, o2, harmonic_one_neg, show normConstant "racah" 1 = 1 from rfl, one_mul]; rfl
    · show normConstant "racah" (degreeOf 3) * harmonic (degreeOf 3) (componentOrder true 3) u = _
      rw [d3, o3, harmonic_one_zero, show normConstant "racah" 1 = 1 from rfl, one_mul]; rfl
  have h := harmonics_vecMul 1 true "racah" hR (fun c => if c = a then 1 else 0) (1 + b)
  rw [val] at h
  have hz : dMatrix true R 0 (1 + b) = 0 := by
    unfold dMatrix
    rw [if_neg]
    rw [d0]
    fin_cases b
    · rw [show (1 + ((⟨0, by omega⟩ : Fin 3) : ℕ)) = 1 from rfl, d1]; omega
    · rw [show (1 + ((⟨1, by omega⟩ : Fin 3) : ℕ)) = 2 from rfl, d2]; omega
    · rw [show (1 + ((⟨2, by omega⟩ : Fin 3) : ℕ)) = 3 from rfl, d3]; omega
  have hb4 : 1 + (b : ℕ) < (1 + 1) ^ 2 := by have := b.2; omega
  rw [show (1 + 1) ^ 2 = 4 from rfl, sum_range_succ, sum_range_succ, sum_range_succ, sum_range_one] at h
  have v0 := val (fun c => if c = a then 1 else 0) 0
  have v1 := val (fun c => if c = a then 1 else 0) 1
  have v2 := val (fun c => if c = a then 1 else 0) 2
  rw [show 1 + ((0 : Fin 3) : ℕ) = 1 from rfl] at v0
  rw [show 1 + ((1 : Fin 3) : ℕ) = 2 from rfl] at v1
  rw [show 1 + ((2 : Fin 3) : ℕ) = 3 from rfl] at v2
  rw [show (1 + 1) ^ 2 = 4 from rfl] at hb4
  have t : ∀ k, k < 4 → (if k < 4 ∧ 1 + (b : ℕ) < 4 then dMatrix true R k (1 + b) else 0) = dMatrix true R k (1 + b) :=
    fun k hk => if_pos ⟨hk, hb4⟩
  rw [v0, v1, v2, t 0 (by omega), t 1 (by omega), t 2 (by omega), t 3 (by omega), hz, mul_zero, zero_add] at h
  have e : vecMul (fun c => if c = a then 1 else 0) R b = R a b := by
    unfold vecMul
    simp
  rw [e] at h
  rw [h]
  fin_cases a <;> simp

/-- **C28 (degree one).** In Cartesian order, the block of degree one is the rotation matrix. -/
theorem C28_degree_one (disk : Disk WDCompressed) (hd : ValidDisk (wdKind wigTerms) (wdTable wigTerms) disk)
    (outcome : SaveOutcome) (R : Fin 3 → Fin 3 → ℝ) (hR : IsOrthogonal R) (L : ℕ) (hL : 1 ≤ L) :
    ∃ D, wignerD disk outcome R L true = .ok D ∧ ∀ a b : Fin 3, D (1 + a) (1 + b) = R a b := by
  refine ⟨_, wignerD_eq disk hd outcome R L true, fun a b => ?_⟩
  have h4 : 4 ≤ (L + 1) ^ 2 := by nlinarith
  rw [if_pos (by omega), dMatrix_degree_one hR]

/-- **C28 (validation).** Matrices of another shape and negative degrees raise `ValueError`. -/
theorem C28_validation (disk : Disk WDCompressed) (outcome : SaveOutcome) {n m : ℕ} (R : Fin n → Fin m → ℝ) (L : ℤ)
    (cart : Bool) (h : ¬ (n = 3 ∧ m = 3) ∨ L < 0) : wignerD disk outcome R L cart = .error .valueError :=
  wignerD_error disk outcome R L cart h

/-- **C28 (the symmetry used for the layers).** The theorems about layers (C01 to C21) quantify over pairs of
coefficients and matrices with `Spec.IsRotation cg D`. For every proper rotation the matrices returned by `wigner_d` and
the coefficients returned by `clebsch_gordan` (for all maximum degrees at once) are such a pair. -/
theorem C28_isRotation (R : Fin 3 → Fin 3 → ℝ) (hR : IsOrthogonal R) (hdet : det3x3 R = 1) (cart : Bool) :
    ∃ cg D, IsRotation cg D ∧
      (∀ wdisk, ValidDisk (wdKind wigTerms) (wdTable wigTerms) wdisk → ∀ (outcome : SaveOutcome) (L : ℕ),
        wignerD wdisk outcome R L cart = .ok fun i j => if i < (L + 1) ^ 2 ∧ j < (L + 1) ^ 2 then D i j else 0) ∧
      ∀ cdisk, ValidDisk (cgKind symClebschGordan) (cgTable symClebschGordan) cdisk →
        ∀ (outcome : SaveOutcome) (l1 l2 l3 : ℕ), clebschGordan cdisk outcome l1 l2 l3 cart = .ok fun i j k =>
          if i < (l1 + 1) ^ 2 ∧ j < (l2 + 1) ^ 2 ∧ k < (l3 + 1) ^ 2 then cg i j k else 0 :=
  ⟨_, _, dMatrix_isRotation cart hR hdet, fun wdisk hw outcome L => wignerD_eq wdisk hw outcome R L cart,
    fun cdisk hc outcome l1 l2 l3 => clebschGordan_eq cdisk hc outcome l1 l2 l3 cart⟩

/-- a rotation with rational entries meets the hypotheses; the matrix returned for it is not the identity -/
example : let R : Fin 3 → Fin 3 → ℝ := ![![3 / 5, 4 / 5, 0], ![-4 / 5, 3 / 5, 0], ![0, 0, 1]]
    IsOrthogonal R ∧ det3x3 R = 1 ∧
      ∃ D, wignerD (noFiles _) .success R 3 true = .ok D ∧ D 1 1 = 3 / 5 ∧ D 1 2 = 4 / 5 ∧ D 2 1 = -4 / 5 := by
  intro R
  have h : IsOrthogonal R := by
    intro i j
    fin_cases i <;> fin_cases j <;> simp [R, Fin.sum_univ_succ] <;> norm_num
  refine ⟨h, ?_, ?_⟩
  · simp only [R, det3x3, show ∀ a b c : ℝ, ![a, b, c] 2 = c from fun _ _ _ => rfl,
      show ∀ a b c : Fin 3 → ℝ, ![a, b, c] 2 = c from fun _ _ _ => rfl]
    simp
    norm_num
  · obtain ⟨D, h1, h2⟩ := C28_degree_one (noFiles _) (noFiles_valid _ _) .success R h 3 (by norm_num)
    exact ⟨D, h1, h2 0 0, h2 0 1, h2 1 0⟩

end E3x
