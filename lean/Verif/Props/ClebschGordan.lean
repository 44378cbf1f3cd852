import Verif.Lemmas.Representation

/-!
# C29, C30: Clebsch-Gordan coefficients

The functions are `clebschGordan`, `clebschGordanForDegrees` and `wignerD` of Verif/Model/Irreps.lean and the symbolic
coefficients `symClebschGordanC` (`_clebsch_gordan`) of Verif/Model/Symbolic.lean. The states of the caches range over
all valid states (`Spec.ValidDisk`: see C33). Components are addressed by flat indices; `Spec.degreeOf` is the degree
and `Spec.componentOrder cart` the order.
-/

namespace E3x

open Finset Spec

/-- **C29 (triangle rule).** -/
theorem C29_triangle (disk : Disk CGCompressed)
    (hd : ValidDisk (cgKind symClebschGordan) (cgTable symClebschGordan) disk) (outcome : SaveOutcome) (l1 l2 l3 : ℕ)
    (cart : Bool) :
    ∃ CG, clebschGordan disk outcome l1 l2 l3 cart = .ok CG ∧
      ∀ i j k, ¬ Triangle (degreeOf i) (degreeOf j) (degreeOf k) → CG i j k = 0 := by
  refine ⟨_, clebschGordan_eq disk hd outcome l1 l2 l3 cart, fun i j k h => ?_⟩
  unfold cgTensor
  rw [symCG_of_not_tri _ _ _ _ _ _ (fun h' => h ⟨by rw [abs_le]; omega, by omega⟩), ite_self]

/-- **C29 (orders).** -/
theorem C29_orders (disk : Disk CGCompressed)
    (hd : ValidDisk (cgKind symClebschGordan) (cgTable symClebschGordan) disk) (outcome : SaveOutcome) (l1 l2 l3 : ℕ)
    (cart : Bool) :
    ∃ CG, clebschGordan disk outcome l1 l2 l3 cart = .ok CG ∧ ∀ i j k,
      componentOrder cart k ∉ [componentOrder cart i + componentOrder cart j, componentOrder cart i - componentOrder cart j,
        componentOrder cart j - componentOrder cart i, -componentOrder cart i - componentOrder cart j] → CG i j k = 0 := by
  refine ⟨_, clebschGordan_eq disk hd outcome l1 l2 l3 cart, fun i j k h => ?_⟩
  unfold cgTensor
  rw [symCG_of_ne _ _ _ _ _ _ (fun h' => h (by simpa using h')), ite_self]

/-- **C29 (nothing is lost).** The generator only visits degrees and orders allowed by the two rules. Nevertheless every
entry of the table, visited or not, is the value of the symbolic coefficient, which is a real number. -/
theorem C29_complete (disk : Disk CGCompressed)
    (hd : ValidDisk (cgKind symClebschGordan) (cgTable symClebschGordan) disk) (outcome : SaveOutcome) (l1 l2 l3 : ℕ)
    (cart : Bool) :
    ∃ CG, clebschGordan disk outcome l1 l2 l3 cart = .ok CG ∧
      ∀ i < (l1 + 1) ^ 2, ∀ j < (l2 + 1) ^ 2, ∀ k < (l3 + 1) ^ 2,
        (CG i j k : ℂ) = symClebschGordanC (degreeOf i) (componentOrder cart i) (degreeOf j) (componentOrder cart j)
          (degreeOf k) (componentOrder cart k) := by
  refine ⟨_, clebschGordan_eq disk hd outcome l1 l2 l3 cart, fun i hi j hj k hk => ?_⟩
  rw [if_pos ⟨hi, hj, hk⟩]
  exact (symCGC_ofReal _ _ _ (componentOrder cart i, componentOrder cart j, componentOrder cart k) (mem_I3.mpr
    ⟨componentOrder_bounds cart i, componentOrder_bounds cart j, componentOrder_bounds cart k⟩)).symm

/-- **C29 (real).** The symbolic coefficient, computed with complex numbers, is real, so that the conversion to a
floating point number succeeds. -/
theorem C29_real (l1 l2 l3 : ℕ) (m1 m2 m3 : ℤ) (h1 : |m1| ≤ l1) (h2 : |m2| ≤ l2) (h3 : |m3| ≤ l3) :
    (symClebschGordanC l1 m1 l2 m2 l3 m3).im = 0 := by
  rw [symCGC_ofReal l1 l2 l3 (m1, m2, m3) (mem_I3.mpr ⟨h1, h2, h3⟩), Complex.ofReal_im]

/-- **C29 (single blocks).** `clebsch_gordan_for_degrees` returns the corresponding block of the table. -/
theorem C29_for_degrees (disk disk' : Disk CGCompressed)
    (hd : ValidDisk (cgKind symClebschGordan) (cgTable symClebschGordan) disk)
    (hd' : ValidDisk (cgKind symClebschGordan) (cgTable symClebschGordan) disk') (outcome outcome' : SaveOutcome)
    (l1 l2 l3 : ℕ) (cart : Bool) :
    ∃ CG B, clebschGordan disk outcome l1 l2 l3 cart = .ok CG ∧
      clebschGordanForDegrees disk' outcome' l1 l2 l3 cart = .ok B ∧
      ∀ i < 2 * l1 + 1, ∀ j < 2 * l2 + 1, ∀ k < 2 * l3 + 1, B i j k = CG (l1 ^ 2 + i) (l2 ^ 2 + j) (l3 ^ 2 + k) := by
  refine ⟨_, _, clebschGordan_eq disk hd outcome l1 l2 l3 cart,
    clebschGordanForDegrees_eq disk' hd' outcome' l1 l2 l3 cart, fun i hi j hj k hk => ?_⟩
  have e : ∀ l a : ℕ, a < 2 * l + 1 → l ^ 2 + a < (l + 1) ^ 2 := fun l a h => by nlinarith
  rw [if_pos ⟨hi, hj, hk⟩, if_pos ⟨e _ _ hi, e _ _ hj, e _ _ hk⟩]

/-- **C29 (validation).** Negative degrees raise `ValueError`. -/
theorem C29_validation (disk : Disk CGCompressed) (outcome : SaveOutcome) (l1 l2 l3 : ℤ) (cart : Bool)
    (h : l1 < 0 ∨ l2 < 0 ∨ l3 < 0) : clebschGordan disk outcome l1 l2 l3 cart = .error .valueError ∧
      clebschGordanForDegrees disk outcome l1 l2 l3 cart = .error .valueError :=
  clebschGordan_error disk outcome l1 l2 l3 cart h

/-- The general form of C30: for improper rotations there is a sign for triples of degrees with an odd sum. -/
theorem C30_improper (cdisk : Disk CGCompressed)
    (hc : ValidDisk (cgKind symClebschGordan) (cgTable symClebschGordan) cdisk) (wdisk : Disk WDCompressed)
    (hw : ValidDisk (wdKind wigTerms) (wdTable wigTerms) wdisk) (outcome : SaveOutcome) (R : Fin 3 → Fin 3 → ℝ)
    (hR : IsOrthogonal R) (l1 l2 l3 : ℕ) (cart : Bool) :
    ∃ CG D1 D2 D3, clebschGordan cdisk outcome l1 l2 l3 cart = .ok CG ∧ wignerD wdisk outcome R l1 cart = .ok D1 ∧
      wignerD wdisk outcome R l2 cart = .ok D2 ∧ wignerD wdisk outcome R l3 cart = .ok D3 ∧
      ∀ i' < (l1 + 1) ^ 2, ∀ j' < (l2 + 1) ^ 2, ∀ k < (l3 + 1) ^ 2,
        ∑ i ∈ range ((l1 + 1) ^ 2), ∑ j ∈ range ((l2 + 1) ^ 2), CG i j k * D1 i i' * D2 j j' =
          det3x3 R ^ (degreeOf i' + degreeOf j' + degreeOf k) *
            ∑ k' ∈ range ((l3 + 1) ^ 2), CG i' j' k' * D3 k k' := by
  refine ⟨_, _, _, _, clebschGordan_eq cdisk hc outcome l1 l2 l3 cart, wignerD_eq wdisk hw outcome R l1 cart,
    wignerD_eq wdisk hw outcome R l2 cart, wignerD_eq wdisk hw outcome R l3 cart, fun i' hi j' hj k hk => ?_⟩
  have h := dMatrix_couples cart hR (L1 := l1) (L2 := l2) (L3 := l3) (i := i') (j := j') (k := k) (deg_le_of_lt hi)
    (deg_le_of_lt hj) (deg_le_of_lt hk)
  rw [det3x3_eq]
  convert h using 1
  · refine sum_congr rfl fun i h1 => sum_congr rfl fun j h2 => ?_
    rw [mem_range] at h1 h2
    rw [if_pos ⟨h1, h2, hk⟩, if_pos ⟨h1, hi⟩, if_pos ⟨h2, hj⟩]
  · congr 1
    refine sum_congr rfl fun k' h3 => ?_
    rw [mem_range] at h3
    rw [if_pos ⟨hi, hj, h3⟩, if_pos ⟨hk, h3⟩]

/-- **C30.** For every rotation and all degrees, coupling rotated irreps gives the rotated coupling. -/
theorem C30_coupling (cdisk : Disk CGCompressed)
    (hc : ValidDisk (cgKind symClebschGordan) (cgTable symClebschGordan) cdisk) (wdisk : Disk WDCompressed)
    (hw : ValidDisk (wdKind wigTerms) (wdTable wigTerms) wdisk) (outcome : SaveOutcome) (R : Fin 3 → Fin 3 → ℝ)
    (hR : IsOrthogonal R) (hdet : det3x3 R = 1) (l1 l2 l3 : ℕ) (cart : Bool) :
    ∃ CG D1 D2 D3, clebschGordan cdisk outcome l1 l2 l3 cart = .ok CG ∧ wignerD wdisk outcome R l1 cart = .ok D1 ∧
      wignerD wdisk outcome R l2 cart = .ok D2 ∧ wignerD wdisk outcome R l3 cart = .ok D3 ∧
      ∀ i' < (l1 + 1) ^ 2, ∀ j' < (l2 + 1) ^ 2, ∀ k < (l3 + 1) ^ 2,
        ∑ i ∈ range ((l1 + 1) ^ 2), ∑ j ∈ range ((l2 + 1) ^ 2), CG i j k * D1 i i' * D2 j j' =
          ∑ k' ∈ range ((l3 + 1) ^ 2), CG i' j' k' * D3 k k' := by
  obtain ⟨CG, D1, D2, D3, h1, h2, h3, h4, h5⟩ := C30_improper cdisk hc wdisk hw outcome R hR l1 l2 l3 cart
  refine ⟨CG, D1, D2, D3, h1, h2, h3, h4, fun i hi j hj k hk => ?_⟩
  rw [h5 i hi j hj k hk, hdet, one_pow, one_mul]

/-- the hypotheses can be met: no cache files, and a rotation by 90 degrees about the z-axis -/
example : ValidDisk (cgKind symClebschGordan) (cgTable symClebschGordan) (noFiles _) ∧
    IsOrthogonal ![![0, 1, 0], ![-1, 0, 0], ![0, 0, 1]] ∧ ¬ Triangle 1 2 4 ∧ Triangle 1 2 3 := by
  refine ⟨noFiles_valid _ _, ?_, by simp [Triangle], by simp [Triangle]⟩
  intro i j
  fin_cases i <;> fin_cases j <;> simp [Fin.sum_univ_succ]

end E3x
