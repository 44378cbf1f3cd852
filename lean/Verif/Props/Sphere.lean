import Verif.Lemmas.SphereIntegral
import Verif.Props.SphericalHarmonics

/-!
# C56: spherical harmonics as functions on the unit sphere

`Spec.sphereIntegral` is the surface integral over the unit sphere in spherical coordinates and `Spec.legendre` the
Legendre polynomials (Verif/Spec/Sphere.lean).
-/

namespace E3x

noncomputable section

open Finset Spec MvPolynomial

/-- On unit vectors, `spherical_harmonics` returns the same values whether or not it normalises its input. -/
theorem sphericalHarmonics_unit (tiny : ℝ) (ht : 0 < tiny) (disk : Disk SHCompressed)
    (hd : ValidDisk (shKind sphTerms) (shTable sphTerms) disk) (outcome : SaveOutcome) {ι : Type} [Fintype ι] [Nonempty ι]
    (u : ι → Fin 3 → ℝ) (hu : ∀ b, normSq (u b) = 1) (L : ℕ) (isNorm cart : Bool) (s : String) (hs : s ∈ normNames) :
    sphericalHarmonics tiny disk outcome u L isNorm cart s = .ok fun b => harmonics L cart s (u b) := by
  rw [sphericalHarmonics_eq tiny disk hd, if_pos hs]
  have h : (if isNorm = true then Except.ok u else normalize tiny u) = .ok u := by
    cases isNorm
    · rw [if_neg (by simp), normalize_eq tiny ht]
      congr 1
      funext b k
      rw [hu b, Real.sqrt_one, inv_one, one_mul, ite_self]
    · rfl
  rw [h]

/-- **C56 (orthogonality).** For every maximum degree, ordering and normalisation there are functions `Y i` on the unit
sphere such that every call of `spherical_harmonics` with unit vectors returns their values, and the integral of
`Y i * Y j` over the unit sphere is zero for `i ≠ j`, and for `i = j` of degree `l` it is the documented constant:
`4π / (2l + 1)` for `racah` and `schmidt`, `4π` for `4pi` and `1` for `orthonormal`. -/
theorem C56_orthogonality (L : ℕ) (cart : Bool) (s : String) (c : ℕ → ℝ)
    (hs : (s = "4pi" ∧ ∀ l : ℕ, c l = 4 * Real.pi) ∨ (s = "orthonormal" ∧ ∀ l : ℕ, c l = 1) ∨
      ((s = "racah" ∨ s = "schmidt") ∧ ∀ l : ℕ, c l = 4 * Real.pi / (2 * l + 1))) :
    ∃ Y : ℕ → (Fin 3 → ℝ) → ℝ,
      (∀ (tiny : ℝ) (_ : 0 < tiny) (disk : Disk SHCompressed) (_ : ValidDisk (shKind sphTerms) (shTable sphTerms) disk)
        (outcome : SaveOutcome) (ι : Type) [Fintype ι] [Nonempty ι] (u : ι → Fin 3 → ℝ) (_ : ∀ b, normSq (u b) = 1)
        (isNorm : Bool), sphericalHarmonics tiny disk outcome u L isNorm cart s = .ok fun b j => Y j (u b)) ∧
      ∀ i < (L + 1) ^ 2, ∀ j < (L + 1) ^ 2,
        sphereIntegral (fun u => Y i u * Y j u) = if i = j then c (degreeOf j) else 0 := by
  have hmem : s ∈ normNames := by
    rcases hs with ⟨rfl, -⟩ | ⟨rfl, -⟩ | ⟨rfl | rfl, -⟩ <;> decide
  refine ⟨fun j u => harmonics L cart s u j, fun tiny ht disk hd outcome ι _ _ u hu isNorm =>
    sphericalHarmonics_unit tiny ht disk hd outcome u hu L isNorm cart s hmem, fun i hi j hj => ?_⟩
  have h1 : (fun u => harmonics L cart s u i * harmonics L cart s u j) = fun u =>
      eval u ((normConstant s (degreeOf i) * normConstant s (degreeOf j)) •
        (symSphericalHarmonics (degreeOf i) (componentOrder cart i) *
          symSphericalHarmonics (degreeOf j) (componentOrder cart j))) := by
    funext u
    unfold harmonics harmonic
    rw [if_pos hi, if_pos hj, smul_eval, map_mul]
    ring
  rw [h1, sphereIntegral_poly, map_smul,
    polyInt_harmonics _ _ _ _ (componentOrder_bounds cart i) (componentOrder_bounds cart j), smul_eq_mul]
  by_cases hij : i = j
  · subst hij
    rw [if_pos ⟨rfl, rfl⟩, if_pos rfl]
    have hp := Real.pi_pos
    have h2 : (0 : ℝ) < 2 * (degreeOf i : ℝ) + 1 := by positivity
    rcases hs with ⟨rfl, h⟩ | ⟨rfl, h⟩ | ⟨rfl | rfl, h⟩ <;> rw [h]
    · rw [show normConstant "4pi" (degreeOf i) = Real.sqrt (2 * (degreeOf i : ℝ) + 1) from rfl,
        Real.mul_self_sqrt h2.le]
      field_simp
    · rw [show normConstant "orthonormal" (degreeOf i) = Real.sqrt ((2 * (degreeOf i : ℝ) + 1) / (4 * Real.pi)) from rfl,
        Real.mul_self_sqrt (by positivity)]
      field_simp
    · rw [show normConstant "racah" (degreeOf i) = 1 from rfl]; ring
    · rw [show normConstant "schmidt" (degreeOf i) = 1 from rfl]; ring
  · rw [if_neg hij, if_neg (fun h => hij (component_inj cart h.1 h.2)), mul_zero]

/-- **C56 (addition theorem).** The components of degree `l` of the solid harmonics of two vectors, multiplied and
summed, are `|r|^l |s|^l P_l(cos γ)` with the Legendre polynomial `P_l` and the angle `γ` between the vectors: an
invariant that does not depend on the ordering or on the coordinate system. -/
theorem C56_addition (tiny : ℝ) (disk : Disk SHCompressed)
    (hd : ValidDisk (shKind sphTerms) (shTable sphTerms) disk) (outcome : SaveOutcome) {ι : Type} [Fintype ι]
    (r : ι → Fin 3 → ℝ) (L : ℕ) (cart : Bool) :
    ∃ y, solidHarmonics tiny disk outcome r L cart = .ok y ∧
      ∀ a b, ∀ l ≤ L, ∑ j ∈ range ((L + 1) ^ 2) with degreeOf j = l, y a j * y b j =
        (Real.sqrt (normSq (r a)) * Real.sqrt (normSq (r b))) ^ l *
          legendre l ((∑ i, r a i * r b i) / (Real.sqrt (normSq (r a)) * Real.sqrt (normSq (r b)))) := by
  refine ⟨_, solidHarmonics_eq tiny disk hd outcome r L cart, fun a b l hl => ?_⟩
  have h := sum_components cart hl (fun j => if degreeOf j = l then harmonic l (componentOrder cart j) (r a) *
      harmonic l (componentOrder cart j) (r b) else 0)
    (fun m => harmonic l m (r a) * harmonic l m (r b)) (fun i hi => by rw [if_pos hi]) (fun i hi => by rw [if_neg hi])
  rw [sum_filter]
  have e := addition_legendre l (r a) (r b)
  unfold harmonic at h
  rw [e] at h
  rw [normSq, normSq, ← h]
  refine sum_congr rfl fun j hj => ?_
  rw [mem_range] at hj
  by_cases hd : degreeOf j = l
  · rw [if_pos hd, if_pos hd, if_pos hj, if_pos hj, harmonic, harmonic, hd]
  · rw [if_neg hd, if_neg hd]

/-- The Legendre polynomials of the specification: `P_0 = 1`, `P_1 = t`, `P_2 = (3 t² - 1) / 2`, and the hypotheses of
the theorems above are met: the diagonal unit vector, `orthonormal`, no files. -/
example : (∀ t, legendre 0 t = 1 ∧ legendre 1 t = t ∧ legendre 2 t = (3 * t ^ 2 - 1) / 2) ∧
    normSq ![3 / 5, 0, 4 / 5] = 1 ∧ ValidDisk (shKind sphTerms) (shTable sphTerms) (noFiles _) := by
  refine ⟨fun t => ⟨?_, ?_, ?_⟩, ?_, noFiles_valid _ _⟩
  · simp [legendre]
  · simp [legendre]
  · simp [legendre, sum_range_succ, Nat.choose]; ring
  · simp only [normSq, Fin.sum_univ_three, vec3_zero, vec3_one, vec3_two]; norm_num

/-- the integral of the constant one is the area of the unit sphere -/
example : sphereIntegral (fun _ => 1) = 4 * Real.pi := by
  have := sphereIntegral_poly 1
  simp only [map_one] at this
  rw [this, ← C_1, ← monomial_zero', polyInt_monomial]
  simp [monoInt_zero]

end

end E3x
