import Verif.Props.QuadratureGrids
import Verif.Props.Sphere
import Verif.Lemmas.ShippedError

/-!
# C83: spherical harmonics on the quadrature grids

C56 is about integrals over the sphere, C75 about the sums over the grid points which replace them in a program.  Here both are
combined: values of `spherical_harmonics` on the grid points are orthogonal with respect to the weights, so that the coefficients
of a function can be computed from its values on the grid.
-/

namespace E3x

noncomputable section

open Spec Finset Coefficients
open MvPolynomial hiding degreeOf

theorem gridDegree_le {L i : ℕ} (h : i < (L + 1) ^ 2) : degreeOf i ≤ L := by
  have : Nat.sqrt i < L + 1 := Nat.sqrt_lt'.mpr h
  unfold degreeOf
  omega

theorem coeffSum_eq (P : MvPolynomial (Fin 3) ℝ) : coeffSum P = eval 1 (absPoly P) := by
  rw [eval_eq', absPoly_support]
  simp [coeff_absPoly, coeffSum]

theorem coeff_absPoly_mul (P Q : MvPolynomial (Fin 3) ℝ) (k : Fin 3 →₀ ℕ) :
    |coeff k (P * Q)| ≤ coeff k (absPoly P * absPoly Q) := by
  rw [coeff_mul, coeff_mul]
  refine (abs_sum_le_sum_abs _ _).trans (le_of_eq (sum_congr rfl fun x _ => ?_))
  rw [abs_mul, coeff_absPoly, coeff_absPoly]

theorem coeffSum_mul_le (P Q : MvPolynomial (Fin 3) ℝ) : coeffSum (P * Q) ≤ coeffSum P * coeffSum Q := by
  rw [coeffSum_eq P, coeffSum_eq Q, ← map_mul, eval_eq']
  simp only [Pi.one_apply, one_pow, prod_const_one, mul_one]
  have hsub : (P * Q).support ⊆ (absPoly P * absPoly Q).support := by
    intro k hk
    rw [mem_support_iff] at hk ⊢
    have := coeff_absPoly_mul P Q k
    have h0 := abs_pos.mpr hk
    exact (lt_of_lt_of_le h0 this).ne'
  exact (sum_le_sum fun k _ => coeff_absPoly_mul P Q k).trans
    (sum_le_sum_of_subset_of_nonneg hsub fun k _ _ => (abs_nonneg _).trans (coeff_absPoly_mul P Q k))

theorem coeffSum_smul (a : ℝ) (P : MvPolynomial (Fin 3) ℝ) : coeffSum (a • P) ≤ |a| * coeffSum P := by
  unfold coeffSum
  rw [mul_sum]
  refine (sum_le_sum_of_subset_of_nonneg (support_smul (a := a) (f := P)) fun k _ _ => abs_nonneg _).trans
    (le_of_eq (sum_congr rfl fun k _ => ?_))
  rw [coeff_smul, smul_eq_mul, abs_mul]

/-- the coefficients of a harmonic -/
theorem coeffSum_harmonic (l : ℕ) (m : ℤ) (hm : |m| ≤ l) : coeffSum (symSphericalHarmonics l m) ≤ Real.sqrt 6 ^ l := by
  have h := sum_abs_le l m hm 1
  have e : (fun i : Fin 3 => |(1 : Fin 3 → ℝ) i|) = 1 := by funext i; simp
  have e3 : Spec.length (1 : Fin 3 → ℝ) = Real.sqrt 3 := by
    unfold Spec.length
    congr 1
    simp [Spec.normSq, Fin.sum_univ_three]
  rw [e, ← coeffSum_eq, e3] at h
  refine h.trans ?_
  have h1 : ((2 * l).choose l : ℝ) / 2 ^ l ≤ 2 ^ l := by
    rw [div_le_iff₀ (by positivity), ← mul_pow]
    have : (2 * l).choose l ≤ 4 ^ l := by
      have := Nat.choose_le_two_pow (2 * l) l
      rw [pow_mul] at this
      exact this
    have h2 : ((2 * l).choose l : ℝ) ≤ (4 : ℝ) ^ l := by exact_mod_cast this
    norm_num
    exact h2
  have h2 : Real.sqrt (((2 * l).choose l : ℝ) / 2 ^ l) ≤ Real.sqrt 2 ^ l := by
    refine (Real.sqrt_le_sqrt h1).trans (le_of_eq ?_)
    rw [Real.sqrt_eq_iff_mul_self_eq (by positivity) (by positivity), ← mul_pow, Real.mul_self_sqrt (by norm_num)]
  have h3 : Real.sqrt 6 = Real.sqrt 2 * Real.sqrt 3 := by
    rw [← Real.sqrt_mul (by norm_num)]
    norm_num
  rw [h3, mul_pow]
  exact mul_le_mul_of_nonneg_right h2 (by positivity)

/-- The bound for the coefficients of a component of `spherical_harmonics`: the constant of the normalisation times `√6ˡ`. -/
def Spec.componentBound (s : String) (j : ℕ) : ℝ := normConstant s (degreeOf j) * Real.sqrt 6 ^ degreeOf j

/-- the values on the points of a grid -/
theorem harmonics_on_grid {ε : ℝ} (hε : 0 ≤ ε) {grid : List ((Fin 3 → ℝ) × ℝ)} {p : ℤ} (hg : Integrates ε grid p) (L : ℕ)
    (hL : 2 * (L : ℤ) ≤ p) (cart : Bool) (s : String) {i j : ℕ} (hi : i < (L + 1) ^ 2) (hj : j < (L + 1) ^ 2) :
    |quadrature grid (fun u => harmonics L cart s u i * harmonics L cart s u j) -
      sphereIntegral (fun u => harmonics L cart s u i * harmonics L cart s u j)| ≤
      4 * Real.pi * ε * (componentBound s i * componentBound s j) := by
  have h1 : (fun u => harmonics L cart s u i * harmonics L cart s u j) = fun u =>
      eval u ((normConstant s (degreeOf i) * normConstant s (degreeOf j)) •
        (symSphericalHarmonics (degreeOf i) (componentOrder cart i) *
          symSphericalHarmonics (degreeOf j) (componentOrder cart j))) := by
    funext u
    unfold harmonics harmonic
    rw [if_pos hi, if_pos hj, smul_eval, map_mul]
    ring
  have bi := componentOrder_bounds cart i
  have bj := componentOrder_bounds cart j
  have di : degreeOf i ≤ L := gridDegree_le hi
  have dj : degreeOf j ≤ L := gridDegree_le hj
  rw [h1]
  refine (hg _ ?_).trans ?_
  · have t1 := (symSH_homog _ _ bi).totalDegree_le
    have t2 := (symSH_homog _ _ bj).totalDegree_le
    have t3 := totalDegree_mul (symSphericalHarmonics (degreeOf i) (componentOrder cart i))
      (symSphericalHarmonics (degreeOf j) (componentOrder cart j))
    have t4 := totalDegree_smul_le (normConstant s (degreeOf i) * normConstant s (degreeOf j))
      (symSphericalHarmonics (degreeOf i) (componentOrder cart i) * symSphericalHarmonics (degreeOf j) (componentOrder cart j))
    omega
  · have hp := Real.pi_pos
    refine mul_le_mul_of_nonneg_left ?_ (by positivity)
    have n1 := (normConstant_pos s (degreeOf i)).le
    have n2 := (normConstant_pos s (degreeOf j)).le
    have c1 := coeffSum_harmonic _ _ bi
    have c2 := coeffSum_harmonic _ _ bj
    have c0 : 0 ≤ coeffSum (symSphericalHarmonics (degreeOf j) (componentOrder cart j)) := sum_nonneg fun _ _ => abs_nonneg _
    calc _ ≤ |normConstant s (degreeOf i) * normConstant s (degreeOf j)| * _ := coeffSum_smul _ _
      _ ≤ (normConstant s (degreeOf i) * normConstant s (degreeOf j)) * (Real.sqrt 6 ^ degreeOf i * Real.sqrt 6 ^ degreeOf j) := by
          rw [abs_of_nonneg (mul_nonneg n1 n2)]
          refine mul_le_mul_of_nonneg_left ?_ (mul_nonneg n1 n2)
          exact (coeffSum_mul_le _ _).trans (mul_le_mul c1 c2 c0 (by positivity))
      _ = _ := by unfold componentBound; ring

theorem quadrature_fin (grid : List ((Fin 3 → ℝ) × ℝ)) (f : (Fin 3 → ℝ) → ℝ) :
    4 * Real.pi * ∑ n : Fin grid.length, (grid.get n).2 * f (grid.get n).1 = quadrature grid f := by
  unfold quadrature
  congr 1
  rw [← List.sum_ofFn, ← List.ofFn_get grid |> fun h => congrArg (fun l => (List.map (fun p => p.2 * f p.1) l).sum) h,
    List.map_ofFn]
  rfl

/-- **C83 (orthogonality on grids).** Let `r, w` be a grid which integrates polynomials of degree at most `p ≥ 2L` with error
`ε` (C75), and `Y = spherical_harmonics(r, L, r_is_normalized=True)`. Then `4π ∑ₙ wₙ Y[n, i] Y[n, j]` is zero for `i ≠ j` and
the documented constant for `i = j`, up to `4π ε` times the bounds of the two components. -/
theorem C83_orthogonality (L : ℕ) (cart : Bool) (s : String) (c : ℕ → ℝ)
    (hs : (s = "4pi" ∧ ∀ l : ℕ, c l = 4 * Real.pi) ∨ (s = "orthonormal" ∧ ∀ l : ℕ, c l = 1) ∨
      ((s = "racah" ∨ s = "schmidt") ∧ ∀ l : ℕ, c l = 4 * Real.pi / (2 * l + 1))) {ε : ℝ} (hε : 0 ≤ ε)
    {grid : List ((Fin 3 → ℝ) × ℝ)} {p : ℤ} (hg : Integrates ε grid p) (hL : 2 * (L : ℤ) ≤ p) (tiny : ℝ) (ht : 0 < tiny)
    (disk : Disk SHCompressed) (hd : ValidDisk (shKind sphTerms) (shTable sphTerms) disk) (outcome : SaveOutcome) :
    ∃ Y, sphericalHarmonics tiny disk outcome (fun n : Fin grid.length => (grid.get n).1) L true cart s = .ok Y ∧
      ∀ i < (L + 1) ^ 2, ∀ j < (L + 1) ^ 2,
        |4 * Real.pi * ∑ n, (grid.get n).2 * (Y n i * Y n j) - (if i = j then c (degreeOf j) else 0)| ≤
          4 * Real.pi * ε * (componentBound s i * componentBound s j) := by
  have hmem : s ∈ normNames := by
    rcases hs with ⟨rfl, -⟩ | ⟨rfl, -⟩ | ⟨rfl | rfl, -⟩ <;> decide
  obtain ⟨Y, hY, hint⟩ := C56_orthogonality L cart s c hs
  have hY' : ∀ u : Fin 3 → ℝ, normSq u = 1 → ∀ j, Y j u = harmonics L cart s u j := by
    intro u hu j
    have h1 := hY tiny ht disk hd outcome (Fin 1) (fun _ => u) (fun _ => hu) true
    rw [sphericalHarmonics_eq tiny disk hd, if_pos hmem] at h1
    exact (congrFun (congrFun (Except.ok.inj h1) 0) j).symm
  have e := sphericalHarmonics_eq tiny disk hd outcome (fun n : Fin grid.length => (grid.get n).1) L true cart s
  rw [if_pos hmem] at e
  refine ⟨_, e, fun i hi j hj => ?_⟩
  have hs1 : ∀ θ φ, normSq (spherePoint θ φ) = 1 := by
    intro θ φ
    simp only [spherePoint, normSq, Fin.sum_univ_three, Matrix.cons_val_zero, Matrix.cons_val_one, Matrix.cons_val_two,
      Matrix.head_cons, Matrix.tail_cons, Matrix.cons_val]
    have h1 := Real.sin_sq_add_cos_sq θ
    have h2 := Real.sin_sq_add_cos_sq φ
    nlinarith
  have e2 : sphereIntegral (fun u => harmonics L cart s u i * harmonics L cart s u j) = if i = j then c (degreeOf j) else 0 := by
    rw [← hint i hi j hj]
    unfold sphereIntegral
    simp only [hY' _ (hs1 _ _)]
  rw [← e2]
  have := harmonics_on_grid hε hg L hL cart s hi hj
  rw [← quadrature_fin] at this
  exact this

/-- The documented square norms of the components for each normalisation. -/
def Spec.squareNorm (s : String) (l : ℕ) : ℝ :=
  if s = "4pi" then 4 * Real.pi else if s = "orthonormal" then 1 else 4 * Real.pi / (2 * l + 1)

theorem squareNorm_spec {s : String} (hs : s ∈ normNames) :
    (s = "4pi" ∧ ∀ l : ℕ, squareNorm s l = 4 * Real.pi) ∨ (s = "orthonormal" ∧ ∀ l : ℕ, squareNorm s l = 1) ∨
      ((s = "racah" ∨ s = "schmidt") ∧ ∀ l : ℕ, squareNorm s l = 4 * Real.pi / (2 * l + 1)) := by
  fin_cases hs <;> simp [squareNorm]

/-- **C83 (coefficients).** The coefficients `a` of a function `f = ∑ⱼ aⱼ Yⱼ` can be computed from its values on the grid:
`4π ∑ₙ wₙ f(rₙ) Y[n, i]` is `aᵢ` times the square norm of `Yᵢ`, up to `4π ε` times the bounds of the components. -/
theorem C83_coefficients (L : ℕ) (cart : Bool) (s : String) (hs : s ∈ normNames) {ε : ℝ} (hε : 0 ≤ ε)
    {grid : List ((Fin 3 → ℝ) × ℝ)} {p : ℤ} (hg : Integrates ε grid p) (hL : 2 * (L : ℤ) ≤ p) (tiny : ℝ) (ht : 0 < tiny)
    (disk : Disk SHCompressed) (hd : ValidDisk (shKind sphTerms) (shTable sphTerms) disk) (outcome : SaveOutcome) (a : ℕ → ℝ) :
    ∃ Y, sphericalHarmonics tiny disk outcome (fun n : Fin grid.length => (grid.get n).1) L true cart s = .ok Y ∧
      ∀ i < (L + 1) ^ 2,
        |4 * Real.pi * ∑ n, (grid.get n).2 * ((∑ j ∈ range ((L + 1) ^ 2), a j * Y n j) * Y n i) - a i * squareNorm s (degreeOf i)| ≤
          4 * Real.pi * ε * ((∑ j ∈ range ((L + 1) ^ 2), |a j| * componentBound s j) * componentBound s i) := by
  obtain ⟨Y, hY, h⟩ := C83_orthogonality L cart s _ (squareNorm_spec hs) hε hg hL tiny ht disk hd outcome
  refine ⟨Y, hY, fun i hi => ?_⟩
  have e1 : 4 * Real.pi * ∑ n, (grid.get n).2 * ((∑ j ∈ range ((L + 1) ^ 2), a j * Y n j) * Y n i) =
      ∑ j ∈ range ((L + 1) ^ 2), a j * (4 * Real.pi * ∑ n, (grid.get n).2 * (Y n j * Y n i)) := by
    simp only [mul_sum, sum_mul]
    rw [sum_comm]
    exact sum_congr rfl fun _ _ => sum_congr rfl fun _ _ => by ring
  have e2 : a i * squareNorm s (degreeOf i) =
      ∑ j ∈ range ((L + 1) ^ 2), a j * (if j = i then squareNorm s (degreeOf i) else 0) := by
    rw [sum_eq_single i (fun j _ hj => by rw [if_neg hj, mul_zero]) fun h => absurd (mem_range.mpr hi) h, if_pos rfl]
  rw [e1, e2, ← sum_sub_distrib, sum_mul, mul_sum]
  refine (abs_sum_le_sum_abs _ _).trans (sum_le_sum fun j hj => ?_)
  rw [← mul_sub, abs_mul]
  calc _ ≤ |a j| * _ := mul_le_mul_of_nonneg_left (h j (mem_range.mp hj) i hi) (abs_nonneg _)
    _ = _ := by ring

/-- **C83 (Lebedev grids).** For every degree `L ≤ 65`, the points and weights of `lebedev_quadrature(precision=2*L)` recover the
coefficients of every combination of the harmonics of degrees `0 … L` from its values. -/
theorem C83_lebedev (files : String → GridFile (List ((Fin 3 → ℝ) × ℝ))) (δ : ℝ) (hδ : 0 ≤ δ)
    (hfile : Shipped δ (files "Lebedev") lebedevPrecisions lebedevNums lebedevRules) (L : ℕ) (hL : L ≤ 65) (cart : Bool) (s : String)
    (hs : s ∈ normNames) (tiny : ℝ) (ht : 0 < tiny) (disk : Disk SHCompressed)
    (hd : ValidDisk (shKind sphTerms) (shTable sphTerms) disk) (outcome : SaveOutcome) (a : ℕ → ℝ) :
    ∃ grid Y, lebedevQuadrature files (some (2 * L)) none = .ok grid ∧
      sphericalHarmonics tiny disk outcome (fun n : Fin grid.length => (grid.get n).1) L true cart s = .ok Y ∧
      ∀ i < (L + 1) ^ 2,
        |4 * Real.pi * ∑ n, (grid.get n).2 * ((∑ j ∈ range ((L + 1) ^ 2), a j * Y n j) * Y n i) - a i * squareNorm s (degreeOf i)| ≤
          4 * Real.pi * (3 * 10⁻¹ ^ 14 + 2 * ((1 + δ) ^ 132 - 1)) *
            ((∑ j ∈ range ((L + 1) ^ 2), |a j| * componentBound s j) * componentBound s i) := by
  obtain ⟨grid, hgrid, hint⟩ := C75_lebedev files δ hδ hfile (2 * L) (by omega)
  have h1 : 1 ≤ (1 + δ) ^ 132 := one_le_pow₀ (by linarith)
  obtain ⟨Y, hY, h⟩ := C83_coefficients L cart s hs (add_nonneg (by norm_num) (by linarith)) hint le_rfl tiny ht disk hd outcome a
  exact ⟨grid, Y, hgrid, hY, h⟩

/-- **C83 (Delley grids).** The same for `delley_quadrature(precision=2*L)` and every degree `L ≤ 50`, with a smaller error. -/
theorem C83_delley (files : String → GridFile (List ((Fin 3 → ℝ) × ℝ))) (δ : ℝ) (hδ : 0 ≤ δ)
    (hfile : Shipped δ (files "Delley") delleyPrecisions delleyNums delleyRules) (L : ℕ) (hL : L ≤ 50) (cart : Bool) (s : String)
    (hs : s ∈ normNames) (tiny : ℝ) (ht : 0 < tiny) (disk : Disk SHCompressed)
    (hd : ValidDisk (shKind sphTerms) (shTable sphTerms) disk) (outcome : SaveOutcome) (a : ℕ → ℝ) :
    ∃ grid Y, delleyQuadrature files (some (2 * L)) none = .ok grid ∧
      sphericalHarmonics tiny disk outcome (fun n : Fin grid.length => (grid.get n).1) L true cart s = .ok Y ∧
      ∀ i < (L + 1) ^ 2,
        |4 * Real.pi * ∑ n, (grid.get n).2 * ((∑ j ∈ range ((L + 1) ^ 2), a j * Y n j) * Y n i) - a i * squareNorm s (degreeOf i)| ≤
          4 * Real.pi * (2 * 10⁻¹ ^ 16 + 2 * ((1 + δ) ^ 132 - 1)) *
            ((∑ j ∈ range ((L + 1) ^ 2), |a j| * componentBound s j) * componentBound s i) := by
  obtain ⟨grid, hgrid, hint⟩ := C75_delley files δ hδ hfile (2 * L) (by omega)
  have h1 : 1 ≤ (1 + δ) ^ 132 := one_le_pow₀ (by linarith)
  obtain ⟨Y, hY, h⟩ := C83_coefficients L cart s hs (add_nonneg (by norm_num) (by linarith)) hint le_rfl tiny ht disk hd outcome a
  exact ⟨grid, Y, hgrid, hY, h⟩

theorem exampleFiles_lebedev : Shipped 0 (exampleFiles "Lebedev") lebedevPrecisions lebedevNums lebedevRules := by
  refine ⟨rfl, rfl, fun i h => ?_⟩
  have : (exampleFiles "Lebedev").grid i = lebedevRules[i].grid := by simp [exampleFiles, h]
  rw [this]
  exact sameUpTo_refl le_rfl _

/-- the hypotheses can be met: files with the tabulated grids, no cache files -/
example (a : ℕ → ℝ) : ∃ grid Y, lebedevQuadrature exampleFiles (some (2 * (3 : ℕ))) none = .ok grid ∧
    sphericalHarmonics 1 (noFiles _) .success (fun n : Fin grid.length => (grid.get n).1) 3 true true "orthonormal" = .ok Y ∧
    ∀ i < 16, |4 * Real.pi * ∑ n, (grid.get n).2 * ((∑ j ∈ range 16, a j * Y n j) * Y n i) - a i * squareNorm "orthonormal" (degreeOf i)| ≤
      4 * Real.pi * (3 * 10⁻¹ ^ 14 + 2 * ((1 + 0) ^ 132 - 1)) *
        ((∑ j ∈ range 16, |a j| * componentBound "orthonormal" j) * componentBound "orthonormal" i) :=
  C83_lebedev exampleFiles 0 le_rfl exampleFiles_lebedev 3 (by norm_num) true "orthonormal" (by decide) 1 one_pos _
    (noFiles_valid _ _) .success a

end

end E3x
