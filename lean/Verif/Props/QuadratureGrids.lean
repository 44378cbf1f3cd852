import Verif.Props.Quadrature
import Verif.Lemmas.QuadratureGrid
import Verif.Lemmas.QuadratureLebedev2

/-!
# C75: the quadrature rules integrate polynomials over the sphere
-/

namespace E3x

noncomputable section

open MvPolynomial

namespace Spec

/-- The content of a data file: its two tables, and grids which have the tabulated points and weights in some order,
up to rounding errors `δ`. -/
def Shipped (δ : ℝ) (file : GridFile (List ((Fin 3 → ℝ) × ℝ))) (precisions nums : List ℤ) (rules : List QuadratureRule) :
    Prop :=
  file.precision = precisions ∧ file.num = nums ∧
    ∀ (i : ℕ) (h : i < rules.length), SameUpTo δ (file.grid i) rules[i].grid

/-- `4π ∑ⱼ wⱼ P(rⱼ)` is the integral of `P` over the unit sphere, up to an error which is at most `4π ε` times the sum of
the absolute values of the coefficients of `P`, for every polynomial `P` of degree at most `p`. -/
def Integrates (ε : ℝ) (grid : List ((Fin 3 → ℝ) × ℝ)) (p : ℤ) : Prop :=
  ∀ P : MvPolynomial (Fin 3) ℝ, (P.totalDegree : ℤ) ≤ p →
    |quadrature grid (fun r => eval r P) - sphereIntegral (fun r => eval r P)| ≤ 4 * Real.pi * ε * coeffSum P

end Spec

theorem lebedev_checked : List.Forall₂ (fun (p : ℤ) R => QuadratureCheck.check 40000000000000 (p.toNat / 2) R = true)
    lebedevPrecisions lebedevRules :=
  .cons QuadratureCheck.lebedev3 <| .cons QuadratureCheck.lebedev5 <| .cons QuadratureCheck.lebedev7 <| .cons
  QuadratureCheck.lebedev9 <| .cons QuadratureCheck.lebedev11 <| .cons QuadratureCheck.lebedev13 <| .cons
  QuadratureCheck.lebedev15 <| .cons QuadratureCheck.lebedev17 <| .cons QuadratureCheck.lebedev19 <| .cons
  QuadratureCheck.lebedev21 <| .cons QuadratureCheck.lebedev23 <| .cons QuadratureCheck.lebedev25 <| .cons
  QuadratureCheck.lebedev27 <| .cons QuadratureCheck.lebedev29 <| .cons QuadratureCheck.lebedev31 <| .cons
  QuadratureCheck.lebedev35 <| .cons QuadratureCheck.lebedev41 <| .cons QuadratureCheck.lebedev47 <| .cons
  QuadratureCheck.lebedev53 <| .cons QuadratureCheck.lebedev59 <| .cons QuadratureCheck.lebedev65 <| .cons
  QuadratureCheck.lebedev71 <| .cons QuadratureCheck.lebedev77 <| .cons QuadratureCheck.lebedev83 <| .cons
  QuadratureCheck.lebedev89 <| .cons QuadratureCheck.lebedev95 <| .cons QuadratureCheck.lebedev101 <| .cons
  QuadratureCheck.lebedev107 <| .cons QuadratureCheck.lebedev113 <| .cons QuadratureCheck.lebedev119 <| .cons
  QuadratureCheck.lebedev125 <| .cons QuadratureCheck.lebedev131 <| .nil

theorem delley_checked : List.Forall₂ (fun (p : ℤ) R => QuadratureCheck.check 6000000000000000 (p.toNat / 2) R = true)
    delleyPrecisions delleyRules :=
  .cons QuadratureCheck.delley5 <| .cons QuadratureCheck.delley7 <| .cons QuadratureCheck.delley11 <| .cons
  QuadratureCheck.delley17 <| .cons QuadratureCheck.delley23 <| .cons QuadratureCheck.delley29 <| .cons
  QuadratureCheck.delley35 <| .cons QuadratureCheck.delley41 <| .cons QuadratureCheck.delley47 <| .cons
  QuadratureCheck.delley53 <| .cons QuadratureCheck.delley59 <| .cons QuadratureCheck.delley65 <| .cons
  QuadratureCheck.delley71 <| .cons QuadratureCheck.delley77 <| .cons QuadratureCheck.delley83 <| .cons
  QuadratureCheck.delley89 <| .cons QuadratureCheck.delley95 <| .cons QuadratureCheck.delley101 <| .nil

theorem rule_integrates {e : ℕ} (he : 0 < e) {precisions : List ℤ} {rules : List QuadratureRule}
    (hc : List.Forall₂ (fun (p : ℤ) R => QuadratureCheck.check e (p.toNat / 2) R = true) precisions rules)
    {δ ε : ℝ} (hδ : 0 ≤ δ) (hε : 1 / (e : ℝ) + 6 / 2 ^ 64 + 2 * ((1 + δ) ^ 132 - 1) ≤ ε) {i : ℕ} (hi : i < precisions.length)
    (hle : precisions[i] ≤ 131) {grid : List ((Fin 3 → ℝ) × ℝ)}
    (hg : ∀ h : i < rules.length, Spec.SameUpTo δ grid rules[i].grid) : Spec.Integrates ε grid precisions[i] := by
  intro P hP
  have hi' : i < rules.length := hc.length_eq ▸ hi
  have h := hc.get hi hi'
  have h1 := QuadratureCheck.check_spec he h hδ (hg hi') (p := P.totalDegree) (by
    simp only [List.get_eq_getElem]
    omega) P le_rfl
  refine h1.trans ?_
  have h2 : (1 + δ) ^ (P.totalDegree + 1) ≤ (1 + δ) ^ 132 := pow_le_pow_right₀ (by linarith) (by omega)
  have h3 : 0 ≤ Spec.coeffSum P := Finset.sum_nonneg fun _ _ => abs_nonneg _
  have hpi := Real.pi_pos
  gcongr
  linarith

theorem select_precision {G : Type} {files : String → GridFile G} {kind : String} (hk : kind ∈ ["Lebedev", "Delley"])
    {table : List ℤ} (hf : (files kind).precision = table) (hne : table ≠ []) (hs : table.Pairwise (· < ·))
    (hpos : ∀ a ∈ table, 0 ≤ a) (p : ℤ) (hp : ∃ a ∈ table, p ≤ a) :
    ∃ (i : ℕ) (h : i < table.length), p ≤ table[i] ∧ loadGrid files kind (some p) none = .ok ((files kind).grid i) := by
  obtain ⟨i, hi, h, h1, -⟩ := C37_precision table hne hs hpos p
  refine ⟨i, h, (h1 hp).1, (C37_load files kind (some p) none).2.2.1 p i hk rfl rfl ?_⟩
  rw [hf]; exact hi

theorem select_num {G : Type} {files : String → GridFile G} {kind : String} (hk : kind ∈ ["Lebedev", "Delley"])
    {table : List ℤ} (hf : (files kind).num = table) (hne : table ≠ []) (hs : table.Pairwise (· < ·))
    (hpos : ∀ a ∈ table, 0 ≤ a) (n : ℤ) (hn : ∃ a ∈ table, a ≤ n) :
    ∃ (i : ℕ) (h : i < table.length), table[i] ≤ n ∧ (∀ a ∈ table, a ≤ n → a ≤ table[i]) ∧
      loadGrid files kind none (some n) = .ok ((files kind).grid i) := by
  obtain ⟨i, hi, h, h1, -⟩ := C37_num table hne hs hpos n
  refine ⟨i, h, (h1 hn).1, (h1 hn).2, (C37_load files kind none (some n)).2.2.2.1 n i hk rfl rfl ?_⟩
  rw [hf]; exact hi

theorem lebedev_tables_length : lebedevPrecisions.length = 32 ∧ lebedevNums.length = 32 ∧ lebedevRules.length = 32 ∧
    delleyPrecisions.length = 18 ∧ delleyNums.length = 18 ∧ delleyRules.length = 18 := by decide

theorem lebedev_sizes : List.Forall₂ (fun (n : ℤ) R => ((QuadratureCheck.size R.pos + QuadratureCheck.size R.neg : ℕ) : ℤ) = n)
    lebedevNums lebedevRules := by
  repeat' constructor

theorem delley_sizes : List.Forall₂ (fun (n : ℤ) R => ((QuadratureCheck.size R.pos + QuadratureCheck.size R.neg : ℕ) : ℤ) = n)
    delleyNums delleyRules := by
  repeat' constructor

theorem sameUpTo_length {δ : ℝ} {grid table : List ((Fin 3 → ℝ) × ℝ)} (h : Spec.SameUpTo δ grid table) :
    grid.length = table.length := by
  obtain ⟨l, hp, hf⟩ := h
  rw [hf.length_eq, hp.length_eq]

theorem mem_le {l : List ℤ} {m : ℤ} (h : ∀ a ∈ l, a ≤ m) {i : ℕ} (hi : i < l.length) : l[i] ≤ m := h _ (List.getElem_mem hi)

theorem grid_length {nums : List ℤ} {rules : List QuadratureRule}
    (hs : List.Forall₂ (fun (n : ℤ) R => ((QuadratureCheck.size R.pos + QuadratureCheck.size R.neg : ℕ) : ℤ) = n) nums rules)
    {δ : ℝ} {grid : List ((Fin 3 → ℝ) × ℝ)} {i : ℕ} (hi : i < nums.length)
    (hg : ∀ h : i < rules.length, Spec.SameUpTo δ grid rules[i].grid) : (grid.length : ℤ) = nums[i] := by
  have hi' : i < rules.length := hs.length_eq ▸ hi
  rw [sameUpTo_length (hg hi'), QuadratureCheck.length_grid]
  exact hs.get hi hi'

/-- **C75.** `lebedev_quadrature(precision=p)` integrates every polynomial of degree at most `p` over the unit sphere,
for every `p` up to the largest available precision 131.  The error is at most `4π (3 · 10⁻¹⁴ + 2((1+δ)¹³² - 1))` times the
sum of the absolute values of the coefficients, where `δ` bounds the rounding errors of the points and weights. -/
theorem C75_lebedev (files : String → GridFile (List ((Fin 3 → ℝ) × ℝ))) (δ : ℝ) (hδ : 0 ≤ δ)
    (hfile : Spec.Shipped δ (files "Lebedev") lebedevPrecisions lebedevNums lebedevRules) (p : ℤ) (hp : p ≤ 131) :
    ∃ grid, lebedevQuadrature files (some p) none = .ok grid ∧
      Spec.Integrates (3 * 10⁻¹ ^ 14 + 2 * ((1 + δ) ^ 132 - 1)) grid p := by
  obtain ⟨h1, h2, h3⟩ := C37_shipped_tables lebedevPrecisions (by simp)
  obtain ⟨i, hi, hpi, hl⟩ := select_precision (kind := "Lebedev") (by simp) hfile.1 h1 h2 h3 p
    ⟨131, by decide, hp⟩
  refine ⟨_, hl, fun P hP => ?_⟩
  exact rule_integrates (by norm_num) lebedev_checked hδ (by norm_num) hi (mem_le (by decide) hi)
    (fun h => hfile.2.2 i h) P (hP.trans hpi)

/-- **C75.** `delley_quadrature(precision=p)` integrates every polynomial of degree at most `p` over the unit sphere,
for every `p` up to the largest available precision 101, with the smaller error
`4π (2 · 10⁻¹⁶ + 2((1+δ)¹³² - 1))` times the sum of the absolute values of the coefficients. -/
theorem C75_delley (files : String → GridFile (List ((Fin 3 → ℝ) × ℝ))) (δ : ℝ) (hδ : 0 ≤ δ)
    (hfile : Spec.Shipped δ (files "Delley") delleyPrecisions delleyNums delleyRules) (p : ℤ) (hp : p ≤ 101) :
    ∃ grid, delleyQuadrature files (some p) none = .ok grid ∧
      Spec.Integrates (2 * 10⁻¹ ^ 16 + 2 * ((1 + δ) ^ 132 - 1)) grid p := by
  obtain ⟨h1, h2, h3⟩ := C37_shipped_tables delleyPrecisions (by simp)
  obtain ⟨i, hi, hpi, hl⟩ := select_precision (kind := "Delley") (by simp) hfile.1 h1 h2 h3 p
    ⟨101, by decide, hp⟩
  refine ⟨_, hl, fun P hP => ?_⟩
  exact rule_integrates (by norm_num) delley_checked hδ (by norm_num) hi (mem_le (by decide) hi)
    (fun h => hfile.2.2 i h) P (hP.trans hpi)

/-- **C75.** `lebedev_quadrature(num=n)` with `n ≥ 6` returns at most `n` points, no available grid with at most `n` points
has more, and the grid integrates all polynomials up to the precision which the file lists for it. -/
theorem C75_lebedev_num (files : String → GridFile (List ((Fin 3 → ℝ) × ℝ))) (δ : ℝ) (hδ : 0 ≤ δ)
    (hfile : Spec.Shipped δ (files "Lebedev") lebedevPrecisions lebedevNums lebedevRules) (n : ℤ) (hn : 6 ≤ n) :
    ∃ grid p, lebedevQuadrature files none (some n) = .ok grid ∧ (grid.length : ℤ) ≤ n ∧
      (∀ m ∈ lebedevNums, m ≤ n → m ≤ grid.length) ∧ (p, (grid.length : ℤ)) ∈ lebedevPrecisions.zip lebedevNums ∧
      Spec.Integrates (3 * 10⁻¹ ^ 14 + 2 * ((1 + δ) ^ 132 - 1)) grid p := by
  obtain ⟨h1, h2, h3⟩ := C37_shipped_tables lebedevNums (by simp)
  obtain ⟨i, hi, hni, hmax, hl⟩ := select_num (kind := "Lebedev") (by simp) hfile.2.1 h1 h2 h3 n ⟨6, by decide, hn⟩
  have hi' : i < lebedevPrecisions.length := hi
  have hlen := grid_length lebedev_sizes hi (fun h => hfile.2.2 i h)
  refine ⟨_, lebedevPrecisions[i], hl, by rw [hlen]; exact hni, fun m hm hmn => by rw [hlen]; exact hmax m hm hmn, ?_, ?_⟩
  · rw [hlen]
    exact List.mem_iff_getElem.mpr ⟨i, by simpa using ⟨hi', hi⟩, by simp⟩
  · exact rule_integrates (by norm_num) lebedev_checked hδ (by norm_num) hi' (mem_le (by decide) hi')
      (fun h => hfile.2.2 i h)

/-- **C75.** The same for `delley_quadrature(num=n)` with `n ≥ 14`. -/
theorem C75_delley_num (files : String → GridFile (List ((Fin 3 → ℝ) × ℝ))) (δ : ℝ) (hδ : 0 ≤ δ)
    (hfile : Spec.Shipped δ (files "Delley") delleyPrecisions delleyNums delleyRules) (n : ℤ) (hn : 14 ≤ n) :
    ∃ grid p, delleyQuadrature files none (some n) = .ok grid ∧ (grid.length : ℤ) ≤ n ∧
      (∀ m ∈ delleyNums, m ≤ n → m ≤ grid.length) ∧ (p, (grid.length : ℤ)) ∈ delleyPrecisions.zip delleyNums ∧
      Spec.Integrates (2 * 10⁻¹ ^ 16 + 2 * ((1 + δ) ^ 132 - 1)) grid p := by
  obtain ⟨h1, h2, h3⟩ := C37_shipped_tables delleyNums (by simp)
  obtain ⟨i, hi, hni, hmax, hl⟩ := select_num (kind := "Delley") (by simp) hfile.2.1 h1 h2 h3 n ⟨14, by decide, hn⟩
  have hi' : i < delleyPrecisions.length := hi
  have hlen := grid_length delley_sizes hi (fun h => hfile.2.2 i h)
  refine ⟨_, delleyPrecisions[i], hl, by rw [hlen]; exact hni, fun m hm hmn => by rw [hlen]; exact hmax m hm hmn, ?_, ?_⟩
  · rw [hlen]
    exact List.mem_iff_getElem.mpr ⟨i, by simpa using ⟨hi', hi⟩, by simp⟩
  · exact rule_integrates (by norm_num) delley_checked hδ (by norm_num) hi' (mem_le (by decide) hi')
      (fun h => hfile.2.2 i h)

theorem Spec.Integrates.mono {ε ε' : ℝ} {grid : List ((Fin 3 → ℝ) × ℝ)} {p : ℤ} (h : Spec.Integrates ε grid p)
    (hε : ε ≤ ε') : Spec.Integrates ε' grid p := by
  intro P hP
  refine (h P hP).trans ?_
  have h3 : 0 ≤ Spec.coeffSum P := Finset.sum_nonneg fun _ _ => abs_nonneg _
  have hpi := Real.pi_pos
  gcongr

/-- **C75.** The bounds in numbers.  The coordinates stored in the Lebedev file are within `5 · 10⁻¹⁵` of the table, which
makes the error at most `4π · 2 · 10⁻¹²`; after conversion to `float32` (coordinates within `2⁻²⁵ + 5 · 10⁻¹⁵`, weights within
the fraction `2⁻²⁴`), as JAX does by default, it is at most `4π · 2 · 10⁻⁵`, times the sum of the absolute values of the
coefficients. -/
theorem C75_rounding (files : String → GridFile (List ((Fin 3 → ℝ) × ℝ))) (p : ℤ) (hp : p ≤ 131) :
    (Spec.Shipped (5 * 10⁻¹ ^ 15) (files "Lebedev") lebedevPrecisions lebedevNums lebedevRules →
      ∃ grid, lebedevQuadrature files (some p) none = .ok grid ∧ Spec.Integrates (2 * 10⁻¹ ^ 12) grid p) ∧
    (Spec.Shipped (2⁻¹ ^ 24) (files "Lebedev") lebedevPrecisions lebedevNums lebedevRules →
      ∃ grid, lebedevQuadrature files (some p) none = .ok grid ∧ Spec.Integrates (2 * 10⁻¹ ^ 5) grid p) ∧
    (p ≤ 101 → Spec.Shipped 0 (files "Delley") delleyPrecisions delleyNums delleyRules →
      ∃ grid, delleyQuadrature files (some p) none = .ok grid ∧ Spec.Integrates (2 * 10⁻¹ ^ 16) grid p) ∧
    (p ≤ 101 → Spec.Shipped (2⁻¹ ^ 24) (files "Delley") delleyPrecisions delleyNums delleyRules →
      ∃ grid, delleyQuadrature files (some p) none = .ok grid ∧ Spec.Integrates (2 * 10⁻¹ ^ 5) grid p) := by
  refine ⟨fun h => ?_, fun h => ?_, fun hp' h => ?_, fun hp' h => ?_⟩
  · obtain ⟨g, h1, h2⟩ := C75_lebedev files _ (by positivity) h p hp
    exact ⟨g, h1, h2.mono (by norm_num)⟩
  · obtain ⟨g, h1, h2⟩ := C75_lebedev files _ (by positivity) h p hp
    exact ⟨g, h1, h2.mono (by norm_num)⟩
  · obtain ⟨g, h1, h2⟩ := C75_delley files _ le_rfl h p hp'
    exact ⟨g, h1, h2.mono (by norm_num)⟩
  · obtain ⟨g, h1, h2⟩ := C75_delley files _ (by positivity) h p hp'
    exact ⟨g, h1, h2.mono (by norm_num)⟩

/-- Files with exactly the tabulated grids. -/
def exampleFiles (kind : String) : GridFile (List ((Fin 3 → ℝ) × ℝ)) :=
  if kind = "Lebedev" then ⟨lebedevPrecisions, lebedevNums, fun i => (lebedevRules.getD i ⟨[], []⟩).grid⟩
  else ⟨delleyPrecisions, delleyNums, fun i => (delleyRules.getD i ⟨[], []⟩).grid⟩

theorem sameUpTo_refl {δ : ℝ} (hδ : 0 ≤ δ) (l : List ((Fin 3 → ℝ) × ℝ)) : Spec.SameUpTo δ l l := by
  refine ⟨l, List.Perm.refl _, List.forall₂_same.mpr fun p _ => ⟨fun i => ?_, ?_⟩⟩
  · rw [sub_self, abs_zero]; exact hδ
  · rw [sub_self, abs_zero]; positivity

/-- The hypotheses of the theorems hold for the tabulated grids, for every `δ ≥ 0`. -/
example (δ : ℝ) (hδ : 0 ≤ δ) :
    Spec.Shipped δ (exampleFiles "Lebedev") lebedevPrecisions lebedevNums lebedevRules ∧
    Spec.Shipped δ (exampleFiles "Delley") delleyPrecisions delleyNums delleyRules := by
  refine ⟨⟨rfl, rfl, fun i h => ?_⟩, ⟨rfl, rfl, fun i h => ?_⟩⟩
  · have : (exampleFiles "Lebedev").grid i = lebedevRules[i].grid := by simp [exampleFiles, h]
    rw [this]; exact sameUpTo_refl hδ _
  · have : (exampleFiles "Delley").grid i = delleyRules[i].grid := by simp [exampleFiles, h]
    rw [this]; exact sameUpTo_refl hδ _

/-- **C75.** The listed precision matters: the smallest Lebedev rule (six points, precision 3) is wrong about `x⁴`; its
error exceeds one tenth of `4π`. -/
theorem C75_sharp : ¬ Spec.Integrates 10⁻¹ lebedevRule3.grid 4 := by
  intro h
  have h1 := h (X 0 ^ 4) (by rw [totalDegree_X_pow]; norm_num)
  have hs : Spec.sphereIntegral (fun r => eval r (X 0 ^ 4 : MvPolynomial (Fin 3) ℝ)) = 4 * Real.pi / 5 := by
    rw [sphereIntegral_poly, X_pow_eq_monomial, polyInt_monomial]
    have a1 := monoInt_x 2 0 0
    have a2 := monoInt_x 0 0 0
    rw [monoInt_zero] at a2
    norm_num at a1 a2
    have e2 : (Finsupp.single (0 : Fin 3) 4) 2 = 0 := by simp
    rw [e2]
    norm_num
    linarith
  have hq : Spec.quadrature lebedevRule3.grid (fun r => eval r (X 0 ^ 4 : MvPolynomial (Fin 3) ℝ)) =
      4 * Real.pi * (2 * (196765270119568539648 / 2 ^ 70)) := by
    have h2 := QuadratureCheck.sum_grid lebedevRule3 4 0 0
    rw [Spec.quadrature]
    congr 1
    have e : (fun p : (Fin 3 → ℝ) × ℝ => p.2 * eval p.1 (X 0 ^ 4 : MvPolynomial (Fin 3) ℝ)) =
        fun p => p.2 * QuadratureCheck.mono 4 0 0 p.1 := by
      funext p; simp [QuadratureCheck.mono]
    rw [e, h2]
    have ev : Even 4 := ⟨2, rfl⟩
    norm_num [QuadratureCheck.mom, QuadratureCheck.six, QuadratureCheck.sq, lebedevRule3, QuadratureCheck.total_cast,
      QuadratureCheck.numArrangements, QuadratureCheck.numSigns, QuadratureCheck.beq_eq_decide, ev]
  have hc : Spec.coeffSum (X 0 ^ 4 : MvPolynomial (Fin 3) ℝ) = 1 := by
    rw [Spec.coeffSum, X_pow_eq_monomial, support_monomial, if_neg one_ne_zero, Finset.sum_singleton, coeff_monomial,
      if_pos rfl, abs_one]
  rw [hs, hq, hc] at h1
  have hpi := Real.pi_pos
  have h3 := (abs_le.mp h1).2
  nlinarith

end

end E3x
