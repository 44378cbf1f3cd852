import Verif.Lemmas.SphericalHarmonics

/-!
# C26, C27, C49, C50: spherical harmonics

The functions are `sphericalHarmonics`, `solidHarmonics` and `wignerD` of Verif/Model/Irreps.lean. The states of the
caches range over all valid states (`Spec.ValidDisk`: see C33), including states without any file. Components are
addressed by flat indices `j`; `Spec.degreeOf j` is the degree and `Spec.componentOrder cart j` the order.
-/

namespace E3x

open Finset Spec MvPolynomial

variable {ι : Type} [Fintype ι]

/-! ## Entries of literal vectors -/

theorem vec3_zero {α : Type} (a b c : α) : ![a, b, c] 0 = a := rfl

theorem vec3_one {α : Type} (a b c : α) : ![a, b, c] 1 = b := rfl

theorem vec3_two {α : Type} (a b c : α) : ![a, b, c] 2 = c := rfl

/-! ## C26 -/

theorem racah_mem : "racah" ∈ normNames := by decide

theorem solidHarmonics_eq (tiny : ℝ) (disk : Disk SHCompressed) (hd : ShDisk disk) (outcome : SaveOutcome)
    (r : ι → Fin 3 → ℝ) (L : ℕ) (cart : Bool) : solidHarmonics tiny disk outcome r L cart =
      .ok fun b j => if j < (L + 1) ^ 2 then harmonic (degreeOf j) (componentOrder cart j) (r b) else 0 := by
  unfold solidHarmonics
  rw [sphericalHarmonics_eq tiny disk hd, if_pos racah_mem]
  simp only [if_true]
  congr 1
  funext b j
  unfold harmonics
  split_ifs
  · rw [show normConstant "racah" (degreeOf j) = 1 from rfl, one_mul]
  · rfl

/-- **C26 (harmonic polynomials).** In both orderings there are polynomials `p j`, homogeneous of degree `l` for the
components `j` of degree `l` and solutions of Laplace's equation, such that for all valid caches, batches, vectors and
maximum degrees `solid_harmonics` returns the values of the first `(L + 1)²` of them. -/
theorem C26_harmonic_polynomials (cart : Bool) : ∃ p : ℕ → MvPolynomial (Fin 3) ℝ,
    (∀ j, (p j).IsHomogeneous (degreeOf j) ∧ ∑ i, pderiv i (pderiv i (p j)) = 0) ∧
    ∀ (tiny : ℝ) (disk : Disk SHCompressed), ValidDisk (shKind sphTerms) (shTable sphTerms) disk →
      ∀ (outcome : SaveOutcome) (ι : Type) [Fintype ι] (r : ι → Fin 3 → ℝ) (L : ℕ),
        solidHarmonics tiny disk outcome r L cart =
          .ok fun b j => if j < (L + 1) ^ 2 then eval (r b) (p j) else 0 := by
  refine ⟨fun j => symSphericalHarmonics (degreeOf j) (componentOrder cart j), fun j => ⟨?_, ?_⟩, ?_⟩
  · exact symSH_homog _ _ (componentOrder_bounds cart j)
  · exact symSH_harmonic _ _ (componentOrder_bounds cart j)
  · intro tiny disk hd outcome ι _ r L
    exact solidHarmonics_eq tiny disk hd outcome r L cart

/-- **C26 (parity).** Inverting the vectors multiplies components of degree `l` by `(-1)^l`. -/
theorem C26_parity (tiny : ℝ) (disk : Disk SHCompressed) (hd : ValidDisk (shKind sphTerms) (shTable sphTerms) disk)
    (outcome : SaveOutcome) (r : ι → Fin 3 → ℝ) (L : ℕ) (cart : Bool) :
    ∃ y y', solidHarmonics tiny disk outcome r L cart = .ok y ∧
      solidHarmonics tiny disk outcome (fun b k => -r b k) L cart = .ok y' ∧
      ∀ b j, y' b j = (-1) ^ degreeOf j * y b j := by
  refine ⟨_, _, solidHarmonics_eq tiny disk hd outcome r L cart, solidHarmonics_eq tiny disk hd outcome _ L cart,
    fun b j => ?_⟩
  split_ifs
  · rw [← harmonic_smul _ _ (componentOrder_bounds cart j)]
    congr 1
    funext k
    ring
  · rw [mul_zero]

/-- **C26 (Racah normalisation).** For every degree `l`, the squares of the components of degree `l` add up to
`|r|^(2l)`. -/
theorem C26_sum_of_squares (tiny : ℝ) (disk : Disk SHCompressed)
    (hd : ValidDisk (shKind sphTerms) (shTable sphTerms) disk) (outcome : SaveOutcome) (r : ι → Fin 3 → ℝ) (L : ℕ)
    (cart : Bool) :
    ∃ y, solidHarmonics tiny disk outcome r L cart = .ok y ∧
      ∀ b, ∀ l ≤ L, ∑ j ∈ range ((L + 1) ^ 2) with degreeOf j = l, y b j ^ 2 = normSq (r b) ^ l := by
  refine ⟨_, solidHarmonics_eq tiny disk hd outcome r L cart, fun b l hl => ?_⟩
  have h := sum_components cart hl (fun j => if degreeOf j = l then harmonic l (componentOrder cart j) (r b) ^ 2 else 0)
    (fun m => harmonic l m (r b) ^ 2) (fun i hi => by rw [if_pos hi]) (fun i hi => by rw [if_neg hi])
  rw [sum_filter]
  have e := sum_sq l (r b)
  unfold harmonic at h
  rw [e] at h
  rw [normSq, ← h]
  refine sum_congr rfl fun j hj => ?_
  rw [mem_range] at hj
  by_cases hd : degreeOf j = l
  · rw [if_pos hd, if_pos hd, if_pos hj, harmonic, hd]
  · rw [if_neg hd, if_neg hd]

/-- **C26 (degrees zero and one).** The component of degree zero is the constant one; the components of degree one are
the coordinates: `x, y, z` in Cartesian order, `y, z, x` otherwise. -/
theorem C26_coordinates (tiny : ℝ) (disk : Disk SHCompressed)
    (hd : ValidDisk (shKind sphTerms) (shTable sphTerms) disk) (outcome : SaveOutcome) (r : ι → Fin 3 → ℝ) (L : ℕ)
    (hL : 1 ≤ L) :
    (∃ y, solidHarmonics tiny disk outcome r L true = .ok y ∧
      ∀ b, y b 0 = 1 ∧ y b 1 = r b 0 ∧ y b 2 = r b 1 ∧ y b 3 = r b 2) ∧
    ∃ y, solidHarmonics tiny disk outcome r L false = .ok y ∧
      ∀ b, y b 0 = 1 ∧ y b 1 = r b 1 ∧ y b 2 = r b 2 ∧ y b 3 = r b 0 := by
  have h4 : 4 ≤ (L + 1) ^ 2 := by nlinarith
  have d0 : degreeOf 0 = 0 := by decide +kernel
  have d1 : degreeOf 1 = 1 := by decide +kernel
  have d2 : degreeOf 2 = 1 := by decide +kernel
  have d3 : degreeOf 3 = 1 := by decide +kernel
  refine ⟨⟨_, solidHarmonics_eq tiny disk hd outcome r L true, fun b => ?_⟩,
    ⟨_, solidHarmonics_eq tiny disk hd outcome r L false, fun b => ?_⟩⟩
  · have o0 : componentOrder true 0 = 0 := by decide +kernel
    have o1 : componentOrder true 1 = 1 := by decide +kernel
    have o2 : componentOrder true 2 = -1 := by decide +kernel
    have o3 : componentOrder true 3 = 0 := by decide +kernel
    rw [if_pos (by omega), if_pos (by omega), if_pos (by omega), if_pos (by omega), d0, d1, d2, d3, o0, o1, o2, o3]
    exact ⟨harmonic_zero _, harmonic_one_pos _, harmonic_one_neg _, harmonic_one_zero _⟩
  · have o0 : componentOrder false 0 = 0 := by decide +kernel
    have o1 : componentOrder false 1 = -1 := by decide +kernel
    have o2 : componentOrder false 2 = 0 := by decide +kernel
    have o3 : componentOrder false 3 = 1 := by decide +kernel
    rw [if_pos (by omega), if_pos (by omega), if_pos (by omega), if_pos (by omega), d0, d1, d2, d3, o0, o1, o2, o3]
    exact ⟨harmonic_zero _, harmonic_one_neg _, harmonic_one_zero _, harmonic_one_pos _⟩

/-- The hypotheses can be met (no cache files), and the functions return arrays. For the vector `(1, 2, 2)` the
components of degree two have squares that add up to `81`. -/
example : ∃ y, solidHarmonics (2⁻¹ ^ 126) (noFiles _) .success (fun (_ : Unit) => ![1, 2, 2]) 2 true = .ok y ∧
    y () 1 = 1 ∧ y () 2 = 2 ∧ ∑ j ∈ range ((2 + 1) ^ 2) with degreeOf j = 2, y () j ^ 2 = 81 := by
  obtain ⟨y, h1, h2⟩ := C26_sum_of_squares (2⁻¹ ^ 126) (noFiles _) (noFiles_valid _ _) .success
    (fun (_ : Unit) => ![1, 2, 2]) 2 true
  obtain ⟨⟨y', h1', h2'⟩, -⟩ := C26_coordinates (2⁻¹ ^ 126) (noFiles _) (noFiles_valid _ _) .success
    (fun (_ : Unit) => ![1, 2, 2]) 2 (by norm_num)
  have e : y = y' := by
    have := h1.symm.trans h1'
    exact Except.ok.inj this
  subst e
  refine ⟨y, h1, (h2' ()).2.1, (h2' ()).2.2.1, ?_⟩
  rw [h2 () 2 (le_refl _)]
  simp only [normSq, Fin.sum_univ_three, vec3_zero, vec3_one, vec3_two]
  norm_num

/-- **C26 (validation).** Inputs that are not vectors with three entries, and negative degrees, raise `ValueError`. -/
theorem C26_validation (tiny : ℝ) (disk : Disk SHCompressed) (outcome : SaveOutcome) {n : ℕ} (r : ι → Fin n → ℝ) (L : ℤ)
    (isNorm cart : Bool) (s : String) (h : n ≠ 3 ∨ L < 0) :
    sphericalHarmonics tiny disk outcome r L isNorm cart s = .error .valueError ∧
      solidHarmonics tiny disk outcome r L cart = .error .valueError :=
  ⟨sphericalHarmonics_shape tiny disk outcome r L isNorm cart s h, sphericalHarmonics_shape tiny disk outcome r L _ cart _ h⟩

/-! ## C27 -/

/-- **C27.** For every matrix `R` with `Rᵀ R = 1` (proper or improper), every maximum degree, both orderings, every
normalisation and every batch of vectors: evaluating at the vectors `r @ R` gives the values at `r` multiplied with the
matrix returned by `wigner_d(R)`. The second part says that values are returned (not an error) whenever the name of the
normalisation is valid and the batch is not empty. -/
theorem C27_rotation (tiny : ℝ) (ht : 0 < tiny) (disk : Disk SHCompressed)
    (hd : ValidDisk (shKind sphTerms) (shTable sphTerms) disk) (wdisk : Disk WDCompressed)
    (hw : ValidDisk (wdKind wigTerms) (wdTable wigTerms) wdisk) (o1 o2 o3 : SaveOutcome) (r : ι → Fin 3 → ℝ)
    (R : Fin 3 → Fin 3 → ℝ) (hR : IsOrthogonal R) (L : ℕ) (isNorm cart : Bool) (s : String) :
    (∃ D, wignerD wdisk o1 R L cart = .ok D ∧
      sphericalHarmonics tiny disk o2 (fun b => vecMul (r b) R) L isNorm cart s =
        (sphericalHarmonics tiny disk o3 r L isNorm cart s).map fun y b j =>
          ∑ i ∈ range ((L + 1) ^ 2), y b i * D i j) ∧
    (s ∈ normNames → Nonempty ι → ∃ y, sphericalHarmonics tiny disk o3 r L isNorm cart s = .ok y) := by
  constructor
  · refine ⟨_, wignerD_eq wdisk hw o1 R L cart, ?_⟩
    rw [sphericalHarmonics_eq tiny disk hd, sphericalHarmonics_eq tiny disk hd]
    by_cases hs : s ∈ normNames
    · rw [if_pos hs, if_pos hs]
      cases isNorm
      · simp only [Bool.false_eq_true, if_false]
        cases isEmpty_or_nonempty ι with
        | inl he => rw [normalize_empty _ he, normalize_empty _ he]; rfl
        | inr hne =>
          rw [normalize_eq tiny ht, normalize_eq tiny ht]
          simp only [Except.map]
          congr 1
          funext b j
          rw [← harmonics_vecMul L cart s hR]
          congr 1
          simp only [normSq_vecMul hR]
          split_ifs
          · rw [vecMul_smul]
          · rfl
      · simp only [if_true, Except.map]
        congr 1
        funext b j
        rw [← harmonics_vecMul L cart s hR]
    · rw [if_neg hs, if_neg hs]; rfl
  · intro hs hne
    rw [sphericalHarmonics_eq tiny disk hd, if_pos hs]
    cases isNorm
    · simp only [Bool.false_eq_true, if_false]
      rw [normalize_eq tiny ht]
      exact ⟨_, rfl⟩
    · exact ⟨_, rfl⟩

/-- a rotation and an improper rotation with rational entries meet the hypothesis -/
example : IsOrthogonal ![![3 / 5, 4 / 5, 0], ![-4 / 5, 3 / 5, 0], ![0, 0, 1]] ∧
    IsOrthogonal ![![1 / 3, 2 / 3, 2 / 3], ![2 / 3, 1 / 3, -2 / 3], ![2 / 3, -2 / 3, 1 / 3]] ∧
    det3x3 ![![3 / 5, 4 / 5, 0], ![-4 / 5, 3 / 5, 0], ![0, 0, 1]] = 1 ∧
    det3x3 ![![1 / 3, 2 / 3, 2 / 3], ![2 / 3, 1 / 3, -2 / 3], ![2 / 3, -2 / 3, 1 / 3]] = -1 := by
  refine ⟨?_, ?_, ?_, ?_⟩
  · intro i j
    fin_cases i <;> fin_cases j <;> simp only [Fin.sum_univ_three, Fin.mk_zero, Fin.mk_one, Fin.reduceFinMk, vec3_zero, vec3_one, vec3_two] <;>
      norm_num [Fin.ext_iff]
  · intro i j
    fin_cases i <;> fin_cases j <;> simp only [Fin.sum_univ_three, Fin.mk_zero, Fin.mk_one, Fin.reduceFinMk, vec3_zero, vec3_one, vec3_two] <;>
      norm_num [Fin.ext_iff]
  · simp only [det3x3, vec3_zero, vec3_one, vec3_two]; norm_num
  · simp only [det3x3, vec3_zero, vec3_one, vec3_two]; norm_num

/-! ## C49 -/

/-- **C49 (constants).** Relative to Racah's normalisation, the four normalisations multiply components of degree `l` by
`√(2l+1)`, `√((2l+1)/4π)`, `1` and `1`. (Errors, e.g. for an empty batch, are the same for all.) -/
theorem C49_constants (tiny : ℝ) (disk : Disk SHCompressed) (hd : ValidDisk (shKind sphTerms) (shTable sphTerms) disk)
    (outcome : SaveOutcome) (r : ι → Fin 3 → ℝ) (L : ℕ) (isNorm cart : Bool) (s : String) (c : ℕ → ℝ)
    (hs : (s = "4pi" ∧ ∀ l : ℕ, c l = Real.sqrt (2 * l + 1)) ∨
      (s = "orthonormal" ∧ ∀ l : ℕ, c l = Real.sqrt ((2 * l + 1) / (4 * Real.pi))) ∨
      (s = "racah" ∧ ∀ l, c l = 1) ∨ (s = "schmidt" ∧ ∀ l, c l = 1)) :
    sphericalHarmonics tiny disk outcome r L isNorm cart s =
      (sphericalHarmonics tiny disk outcome r L isNorm cart "racah").map fun y b j => c (degreeOf j) * y b j := by
  have hmem : s ∈ normNames ∧ ∀ l, normConstant s l = c l := by
    rcases hs with ⟨rfl, h⟩ | ⟨rfl, h⟩ | ⟨rfl, h⟩ | ⟨rfl, h⟩ <;>
      exact ⟨by decide, fun l => by rw [h l]; rfl⟩
  rw [sphericalHarmonics_eq tiny disk hd, sphericalHarmonics_eq tiny disk hd, if_pos hmem.1, if_pos racah_mem]
  cases (if isNorm = true then Except.ok r else normalize tiny r) with
  | error e => rfl
  | ok u =>
    simp only [Except.map]
    congr 1
    funext b j
    unfold harmonics
    split_ifs
    · rw [hmem.2, show normConstant "racah" (degreeOf j) = 1 from rfl, one_mul]
    · rw [mul_zero]

/-- **C49 (other names).** Every other name raises `ValueError`. -/
theorem C49_invalid_name (tiny : ℝ) (disk : Disk SHCompressed)
    (hd : ValidDisk (shKind sphTerms) (shTable sphTerms) disk) (outcome : SaveOutcome) {n : ℕ} (r : ι → Fin n → ℝ)
    (L : ℤ) (isNorm cart : Bool) (s : String) (hs : s ∉ ["4pi", "orthonormal", "racah", "schmidt"]) :
    sphericalHarmonics tiny disk outcome r L isNorm cart s = .error .valueError := by
  by_cases h : n ≠ 3 ∨ L < 0
  · exact sphericalHarmonics_shape tiny disk outcome r L isNorm cart s h
  · push Not at h
    obtain ⟨rfl, hL⟩ := h
    lift L to ℕ using hL
    rw [sphericalHarmonics_eq tiny disk hd, if_neg (show s ∉ normNames from hs)]

/-- **C49 (equivariance).** For each of the four normalisations, the values at rotated vectors are the values times the
Wigner-D matrix. -/
theorem C49_equivariance (tiny : ℝ) (ht : 0 < tiny) (disk : Disk SHCompressed)
    (hd : ValidDisk (shKind sphTerms) (shTable sphTerms) disk) (wdisk : Disk WDCompressed)
    (hw : ValidDisk (wdKind wigTerms) (wdTable wigTerms) wdisk) (outcome : SaveOutcome) [Nonempty ι] (r : ι → Fin 3 → ℝ)
    (R : Fin 3 → Fin 3 → ℝ) (hR : IsOrthogonal R) (L : ℕ) (cart : Bool) (s : String)
    (hs : s ∈ ["4pi", "orthonormal", "racah", "schmidt"]) :
    ∃ y y' D, sphericalHarmonics tiny disk outcome r L false cart s = .ok y ∧
      sphericalHarmonics tiny disk outcome (fun b => vecMul (r b) R) L false cart s = .ok y' ∧
      wignerD wdisk outcome R L cart = .ok D ∧ ∀ b j, y' b j = ∑ i ∈ range ((L + 1) ^ 2), y b i * D i j := by
  obtain ⟨⟨D, h1, h2⟩, h3⟩ := C27_rotation tiny ht disk hd wdisk hw outcome outcome outcome r R hR L false cart s
  obtain ⟨y, hy⟩ := h3 hs inferInstance
  rw [hy] at h2
  exact ⟨y, _, D, hy, h2, h1, fun b j => rfl⟩

example : ("4pi" = "4pi" ∧ ∀ l : ℕ, (fun l : ℕ => Real.sqrt (2 * l + 1)) l = Real.sqrt (2 * l + 1)) ∧
    "norm" ∉ ["4pi", "orthonormal", "racah", "schmidt"] := ⟨⟨rfl, fun _ => rfl⟩, by decide⟩

/-! ## C50 -/

/-- **C50 (direction).** If the squares of the lengths of all vectors, before and after scaling, exceed `tiny` (the
smallest normal number of the float type), `spherical_harmonics(a r) = spherical_harmonics(r)`. For shorter
non-zero vectors this is false (`C50_short_vectors`). -/
theorem C50_direction (tiny : ℝ) (ht : 0 < tiny) (disk : Disk SHCompressed)
    (hd : ValidDisk (shKind sphTerms) (shTable sphTerms) disk) (outcome : SaveOutcome) (r : ι → Fin 3 → ℝ) (L : ℕ)
    (cart : Bool) (s : String) (a : ι → ℝ) (ha : ∀ b, 0 < a b) (h1 : ∀ b, normSq (r b) > tiny)
    (h2 : ∀ b, normSq (fun k => a b * r b k) > tiny) :
    sphericalHarmonics tiny disk outcome (fun b k => a b * r b k) L false cart s =
      sphericalHarmonics tiny disk outcome r L false cart s := by
  rw [sphericalHarmonics_eq tiny disk hd, sphericalHarmonics_eq tiny disk hd]
  simp only [Bool.false_eq_true, if_false]
  cases isEmpty_or_nonempty ι with
  | inl he => rw [normalize_empty _ he, normalize_empty _ he]
  | inr hne =>
    rw [normalize_eq tiny ht, normalize_eq tiny ht]
    simp only [h1, h2, if_true]
    congr 3
    funext b
    congr 1
    funext k
    have hp : 0 < Real.sqrt (normSq (r b)) := Real.sqrt_pos.mpr (ht.trans (h1 b))
    rw [normSq_smul, Real.sqrt_mul (by positivity), Real.sqrt_sq (ha b).le]
    have := (ha b).ne'
    field_simp

/-- **C50 (short vectors).** The statement is false for non-zero vectors whose squared length is at most `tiny`: they
are not normalised. Already for degree one the result depends on the scale. -/
theorem C50_short_vectors (tiny : ℝ) (ht : 0 < tiny) (ht1 : tiny < 1) (disk : Disk SHCompressed)
    (hd : ValidDisk (shKind sphTerms) (shTable sphTerms) disk) (outcome : SaveOutcome) :
    ∃ r : Unit → Fin 3 → ℝ, (∀ b, r b ≠ 0) ∧ ∃ a : ℝ, 0 < a ∧
      sphericalHarmonics tiny disk outcome (fun b k => a * r b k) 1 false true "racah" ≠
        sphericalHarmonics tiny disk outcome r 1 false true "racah" := by
  have hq : 0 < Real.sqrt tiny := Real.sqrt_pos.mpr ht
  have hq1 : Real.sqrt tiny < 1 := by rw [Real.sqrt_lt' one_pos]; simpa using ht1
  have hsq : Real.sqrt tiny ^ 2 = tiny := Real.sq_sqrt ht.le
  refine ⟨fun _ => ![Real.sqrt tiny, 0, 0], ?_, 2, by norm_num, ?_⟩
  · intro _ h
    have := congrFun h 0
    simp only [Matrix.cons_val_zero, Pi.zero_apply] at this
    exact hq.ne' this
  · intro h
    have e := fun r : Unit → Fin 3 → ℝ => sphericalHarmonics_eq tiny disk hd outcome r 1 false true "racah"
    rw [Nat.cast_one] at e
    rw [e, e, if_pos racah_mem, if_pos racah_mem] at h
    simp only [Bool.false_eq_true, if_false] at h
    rw [normalize_eq tiny ht, normalize_eq tiny ht] at h
    have h' := congrFun (congrFun (Except.ok.inj h) ()) 1
    have d1 : degreeOf 1 = 1 := by decide +kernel
    have o1 : componentOrder true 1 = 1 := by decide +kernel
    unfold harmonics at h'
    rw [if_pos (by norm_num), if_pos (by norm_num), d1, o1, harmonic_one_pos, harmonic_one_pos,
      show normConstant "racah" 1 = 1 from rfl, one_mul, one_mul] at h'
    have n1 : normSq ![Real.sqrt tiny, 0, 0] = tiny := by
      simp [normSq, Fin.sum_univ_three, hsq]
    have n2 : normSq (fun k => 2 * ![Real.sqrt tiny, 0, 0] k) = 4 * tiny := by
      rw [normSq_smul, n1]; norm_num
    rw [n1, n2] at h'
    beta_reduce at h'
    rw [if_pos (by linarith), if_neg (lt_irrefl _), Real.sqrt_mul (by norm_num),
      show Real.sqrt 4 = 2 by rw [show (4 : ℝ) = 2 ^ 2 by norm_num, Real.sqrt_sq (by norm_num)]] at h'
    simp only [Matrix.cons_val_zero] at h'
    rw [inv_mul_cancel₀ (by positivity)] at h'
    exact hq1.ne h'.symm

/-- **C50 (solid harmonics).** `solid_harmonics(a r)` is `a^l solid_harmonics(r)` for components of degree `l`. -/
theorem C50_solid_harmonics (tiny : ℝ) (disk : Disk SHCompressed)
    (hd : ValidDisk (shKind sphTerms) (shTable sphTerms) disk) (outcome : SaveOutcome) (r : ι → Fin 3 → ℝ) (L : ℕ)
    (cart : Bool) (a : ι → ℝ) :
    ∃ y y', solidHarmonics tiny disk outcome r L cart = .ok y ∧
      solidHarmonics tiny disk outcome (fun b k => a b * r b k) L cart = .ok y' ∧
      ∀ b j, y' b j = a b ^ degreeOf j * y b j := by
  refine ⟨_, _, solidHarmonics_eq tiny disk hd outcome r L cart, solidHarmonics_eq tiny disk hd outcome _ L cart,
    fun b j => ?_⟩
  split_ifs
  · exact harmonic_smul _ _ (componentOrder_bounds cart j) _ _
  · rw [mul_zero]

/-- **C50 (zero vector).** At `r = 0` the components of degree `l ≥ 1` of both functions vanish; the component of
degree zero is the constant of the normalisation (`1` for solid harmonics). Other vectors of the batch are arbitrary. -/
theorem C50_zero_vector (tiny : ℝ) (ht : 0 < tiny) (disk : Disk SHCompressed)
    (hd : ValidDisk (shKind sphTerms) (shTable sphTerms) disk) (outcome : SaveOutcome) [Nonempty ι] (r : ι → Fin 3 → ℝ)
    (b : ι) (hb : r b = 0) (L : ℕ) (isNorm cart : Bool) (s : String) (hs : s ∈ normNames) :
    (∃ y, sphericalHarmonics tiny disk outcome r L isNorm cart s = .ok y ∧
      y b 0 = normConstant s 0 ∧ ∀ j, 1 ≤ degreeOf j → y b j = 0) ∧
    ∃ y, solidHarmonics tiny disk outcome r L cart = .ok y ∧ y b 0 = 1 ∧ ∀ j, 1 ≤ degreeOf j → y b j = 0 := by
  have hz : ∀ j, 1 ≤ degreeOf j → harmonic (degreeOf j) (componentOrder cart j) 0 = 0 := by
    intro j hj
    have := harmonic_smul (degreeOf j) (componentOrder cart j) (componentOrder_bounds cart j) 0 0
    rw [zero_pow (by omega), zero_mul] at this
    rw [← this]
    congr 1
    funext k
    simp
  have d0 : degreeOf 0 = 0 := by decide +kernel
  have o0 : componentOrder cart 0 = 0 := by cases cart <;> decide +kernel
  have hpos : 0 < (L + 1) ^ 2 := by positivity
  have key : ∀ s, harmonics L cart s 0 0 = normConstant s 0 ∧ ∀ j, 1 ≤ degreeOf j → harmonics L cart s 0 j = 0 := by
    intro s
    constructor
    · unfold harmonics
      rw [if_pos hpos, d0, o0, harmonic_zero, mul_one]
    · intro j hj
      unfold harmonics
      rw [hz j hj, mul_zero, ite_self]
  constructor
  · rw [sphericalHarmonics_eq tiny disk hd, if_pos hs]
    cases isNorm
    · simp only [Bool.false_eq_true, if_false]
      rw [normalize_eq tiny ht]
      refine ⟨_, rfl, ?_⟩
      beta_reduce
      have e : (fun k => if normSq (r b) > tiny then (Real.sqrt (normSq (r b)))⁻¹ * r b k else r b k) = 0 := by
        funext k
        rw [hb]
        simp
      rw [e]
      exact key s
    · refine ⟨_, rfl, ?_⟩
      rw [hb]
      exact key s
  · refine ⟨_, solidHarmonics_eq tiny disk hd outcome r L cart, ?_, fun j hj => ?_⟩
    · rw [if_pos hpos, d0, o0, harmonic_zero]
    · rw [hb, hz j hj, ite_self]

/-- vectors that meet the hypotheses: `(3, 0, 4)` and `2 (3, 0, 4)` -/
example : normSq ![3, 0, 4] > (2⁻¹ : ℝ) ^ 126 ∧ normSq (fun k => 2 * ![3, 0, 4] k) > (2⁻¹ : ℝ) ^ 126 := by
  simp only [normSq, Fin.sum_univ_three, vec3_zero, vec3_one, vec3_two]
  norm_num

end E3x
