import Verif.Spec.Wrappers
import Verif.Lemmas.SphericalHarmonics
import Verif.Props.Cutoff
import Verif.Props.SphericalHarmonics
import Mathlib.Analysis.Calculus.IteratedDeriv.Defs

/-!
# C42: radial-angular basis functions; C53: evaluate_derivatives
-/

namespace E3x

noncomputable section

open Finset Spec

variable {ι : Type} [Fintype ι]

/-- the steps of `basis` after the norms have been computed -/
theorem basis_eq (tiny : ℝ) (ht : 0 < tiny) [Nonempty ι] (r : ι → Fin 3 → ℝ) (L : ℤ) (num : ℕ)
    (radialFn : (ι → ℝ) → ℕ → Except Err (ι → ℕ → ℝ))
    (angularFn : (ι → Fin 3 → ℝ) → ℤ → Bool → Except Err (ι → ℕ → ℝ))
    (cutoffFn : Option ((ι → ℝ) → Except Err (ι → ℝ))) (rc rn : Bool)
    (dampingFn : Option ((ι → ℝ) → Except Err (ι → ℝ))) (cart : Bool) :
    basis tiny r L num radialFn angularFn cutoffFn rc rn dampingFn cart =
      if rc ∧ cutoffFn.isNone then .error .valueError else
      (radialFn (fun b => Spec.length (r b)) num).bind fun g =>
      (match cutoffFn with
        | some cf => cf fun b => Spec.length (r b)
        | none => .ok fun _ => 1).bind fun c =>
      (angularFn (unitVectors r fun b => Spec.length (r b)) L cart).bind fun y =>
      (match dampingFn with
        | some df => df fun b => Spec.length (r b)
        | none => .ok fun _ => 1).bind fun d =>
      .ok ⟨fun b => ⟨false, L.toNat, num, fun _ i f => y b i * (g b f * c b) * (if 1 ≤ i then d b else 1)⟩,
        basisExtra rc rn c fun b => Spec.length (r b)⟩ := by
  have hn := (C41_norm tiny ht r).2.1 inferInstance
  unfold basis
  rw [if_neg (by simp)]
  by_cases hrc : rc = true ∧ cutoffFn.isNone = true
  · rw [if_pos hrc, if_pos hrc]
  rw [if_neg hrc, if_neg hrc, hn]
  simp only [bind, pure, Except.bind, Except.pure]
  cases radialFn (fun b => Spec.length (r b)) num with
  | error e => rfl
  | ok g =>
    dsimp only
    cases cutoffFn with
    | none =>
      have hf : rc = false := by simpa using hrc
      subst hf
      dsimp only
      cases angularFn (unitVectors r fun b => Spec.length (r b)) L cart with
      | error e => rfl
      | ok y =>
        dsimp only
        cases dampingFn with
        | none => cases rn <;> simp [basisExtra]
        | some df =>
          dsimp only
          cases df fun b => Spec.length (r b) with
          | error e => rfl
          | ok d => cases rn <;> simp [basisExtra, applyDamping]
    | some cf =>
      dsimp only
      cases cf fun b => Spec.length (r b) with
      | error e => rfl
      | ok c =>
        dsimp only
        cases angularFn (unitVectors r fun b => Spec.length (r b)) L cart with
        | error e => rfl
        | ok y =>
          dsimp only
          cases dampingFn with
          | none => cases rn <;> cases rc <;> simp [basisExtra]
          | some df =>
            dsimp only
            cases df fun b => Spec.length (r b) with
            | error e => rfl
            | ok d => cases rn <;> cases rc <;> simp [basisExtra, applyDamping]

theorem unitVectors_zero (r : ι → Fin 3 → ℝ) (b : ι) (h : r b = 0) :
    unitVectors r (fun b => Spec.length (r b)) b = 0 := by
  funext k
  simp [unitVectors, h]

theorem length_sq3 (v : Fin 3 → ℝ) : Spec.length v ^ 2 = normSq v := by
  unfold Spec.length normSq
  rw [Real.sq_sqrt]
  exact sum_nonneg fun _ _ => by positivity

theorem length_pos3 (v : Fin 3 → ℝ) (h : v ≠ 0) : 0 < Spec.length v := by
  unfold Spec.length
  rw [Real.sqrt_pos]
  obtain ⟨k, hk⟩ := Function.ne_iff.mp h
  have : 0 < v k ^ 2 := by
    have : v k ≠ 0 := hk
    positivity
  exact lt_of_lt_of_le this (single_le_sum (f := fun k => v k ^ 2) (fun _ _ => by positivity) (mem_univ k))

theorem length_zero3 : Spec.length (0 : Fin 3 → ℝ) = 0 := by simp [Spec.length]

theorem unitVectors_mul (r : ι → Fin 3 → ℝ) (b : ι) (k : Fin 3) :
    Spec.length (r b) * unitVectors r (fun b => Spec.length (r b)) b k = r b k := by
  by_cases h : r b = 0
  · rw [unitVectors_zero r b h, h]; simp
  · have := length_pos3 _ h
    unfold unitVectors
    rw [if_pos this]
    field_simp

theorem unitVectors_length (r : ι → Fin 3 → ℝ) (b : ι) (h : r b ≠ 0) :
    Spec.length (unitVectors r (fun b => Spec.length (r b)) b) = 1 := by
  have hp := length_pos3 _ h
  have e : normSq (r b) = Spec.length (r b) ^ 2 * normSq (unitVectors r (fun b => Spec.length (r b)) b) := by
    rw [← normSq_smul]
    congr 1
    funext k
    exact (unitVectors_mul r b k).symm
  rw [length_sq3] at e
  have h2 : normSq (r b) ≠ 0 := by rw [← length_sq3]; positivity
  have h3 : normSq (unitVectors r (fun b => Spec.length (r b)) b) = 1 := by
    exact mul_left_cancel₀ h2 (e.symm.trans (mul_one _).symm)
  show Real.sqrt (normSq _) = 1
  rw [h3, Real.sqrt_one]

theorem one_le_degreeOf (i : ℕ) : 1 ≤ degreeOf i ↔ 1 ≤ i := by
  unfold degreeOf
  rw [Nat.le_sqrt]

/-- **C42 (meaning).** For every non-empty batch of vectors and all functions passed to `basis` (`g`, `c`, `d` and `y` are
the values returned by the radial function, by the cutoff function, by the damping function and by the angular function;
an omitted cutoff or damping function counts as one): the component of degree `l`, order `m` and feature `k` is
`g_k(|r|) · c(|r|) · d(|r|)` (the last factor only for `l ≥ 1`) times the angular function at `r/|r|`, and it is
stored as a proper tensor: its parity is that of its degree. The other returned values are those asked for, in the documented
order. The vectors passed to the angular function are unit vectors in the direction of `r`, and zero for `r = 0`. -/
theorem C42_meaning (tiny : ℝ) (ht : 0 < tiny) [Nonempty ι] (r : ι → Fin 3 → ℝ) (L num : ℕ)
    (radialFn : (ι → ℝ) → ℕ → Except Err (ι → ℕ → ℝ))
    (angularFn : (ι → Fin 3 → ℝ) → ℤ → Bool → Except Err (ι → ℕ → ℝ))
    (cutoffFn : Option ((ι → ℝ) → Except Err (ι → ℝ))) (returnCutoff returnNorm : Bool)
    (dampingFn : Option ((ι → ℝ) → Except Err (ι → ℝ))) (cart : Bool) (u : ι → Fin 3 → ℝ)
    (hu : ∀ b, (r b = 0 → u b = 0) ∧ (r b ≠ 0 → ∀ k, u b k = r b k / Spec.length (r b)))
    (g : ι → ℕ → ℝ) (hg : radialFn (fun b => Spec.length (r b)) num = .ok g)
    (c : ι → ℝ) (hc : match cutoffFn with
      | some cutoff => cutoff (fun b => Spec.length (r b)) = .ok c
      | none => (∀ b, c b = 1) ∧ returnCutoff = false)
    (d : ι → ℝ) (hd : match dampingFn with
      | some damping => damping (fun b => Spec.length (r b)) = .ok d
      | none => ∀ b, d b = 1)
    (y : ι → ℕ → ℝ) (hy : angularFn u L cart = .ok y) :
    (∀ b, r b ≠ 0 → Spec.length (u b) = 1) ∧
    ∃ res, basis tiny r L num radialFn angularFn cutoffFn returnCutoff returnNorm dampingFn cart = .ok res ∧
      (∀ b, (res.out b).pseudo = false ∧ (res.out b).L = L ∧ (res.out b).F = num ∧
        ∀ p i f, comp (res.out b) p i f = if i < (L + 1) ^ 2 ∧ p = degreeOf i % 2 then
          g b f * c b * (if 1 ≤ degreeOf i then d b else 1) * y b i else 0) ∧
      res.extra = basisExtra returnCutoff returnNorm c fun b => Spec.length (r b) := by
  have hu' : u = unitVectors r fun b => Spec.length (r b) := by
    funext b k
    by_cases h : r b = 0
    · rw [(hu b).1 h, unitVectors_zero r b h]
    · rw [(hu b).2 h k]
      unfold unitVectors
      rw [if_pos (length_pos3 _ h)]
  refine ⟨fun b h => by rw [hu']; exact unitVectors_length r b h, ?_⟩
  have hrc : ¬ (returnCutoff = true ∧ cutoffFn.isNone = true) := by
    cases cutoffFn with
    | none => simp [hc.2]
    | some cf => simp
  have hc' : (match cutoffFn with
        | some cf => cf fun b => Spec.length (r b)
        | none => (.ok fun _ => 1 : Except Err (ι → ℝ))) = .ok c := by
    cases cutoffFn with
    | none => exact congrArg _ (funext fun b => (hc.1 b).symm)
    | some cf => exact hc
  have hd' : (match dampingFn with
        | some df => df fun b => Spec.length (r b)
        | none => (.ok fun _ => 1 : Except Err (ι → ℝ))) = .ok d := by
    cases dampingFn with
    | none => exact congrArg _ (funext fun b => (hd b).symm)
    | some df => exact hd
  rw [basis_eq tiny ht, if_neg hrc, hg, hc', ← hu', hy, hd']
  refine ⟨_, rfl, fun b => ⟨rfl, rfl, rfl, fun p i f => ?_⟩, rfl⟩
  unfold comp
  simp only [Int.toNat_natCast, Bool.false_eq_true, if_false, one_le_degreeOf]
  have hdeg : deg i = degreeOf i := rfl
  rw [hdeg]
  have h2 : degreeOf i % 2 < 2 := Nat.mod_lt _ (by norm_num)
  by_cases hi : i < (L + 1) ^ 2
  · by_cases hp : p = degreeOf i % 2
    · rw [if_neg (show ¬ ((L + 1) ^ 2 ≤ i ∨ 2 ≤ p) by omega), if_pos hp,
        if_pos (show i < (L + 1) ^ 2 ∧ p = degreeOf i % 2 from ⟨hi, hp⟩)]
      ring
    · rw [if_neg (show ¬ (i < (L + 1) ^ 2 ∧ p = degreeOf i % 2) from fun h => hp h.2), if_neg hp, ite_self]
  · rw [if_pos (Or.inl (by omega)), if_neg (fun h => hi h.1)]

/-- **C42 (default angular function).** The values of the default angular function at `u = r/|r|` are the solid harmonics
at `r` divided by `|r|^l` (in the chosen order of components); at `r = 0` they are one for degree zero and zero otherwise. -/
theorem C42_default_angular (tiny : ℝ) (disk : Disk SHCompressed)
    (hd : ValidDisk (shKind sphTerms) (shTable sphTerms) disk) (o o' : SaveOutcome) (r u : ι → Fin 3 → ℝ)
    (hu : ∀ b, (r b = 0 → u b = 0) ∧ (r b ≠ 0 → ∀ k, u b k = r b k / Spec.length (r b))) (L : ℕ) (cart : Bool) :
    ∃ y s, defaultAngularFn tiny disk o u L cart = .ok y ∧ solidHarmonics tiny disk o' r L cart = .ok s ∧
      ∀ b, (r b ≠ 0 → ∀ i, y b i = s b i / Spec.length (r b) ^ degreeOf i) ∧
        (r b = 0 → ∀ i, y b i = if i = 0 then 1 else 0) := by
  refine ⟨_, _, solidHarmonics_eq tiny disk hd o u L cart, solidHarmonics_eq tiny disk hd o' r L cart, fun b => ⟨fun h i => ?_, fun h i => ?_⟩⟩
  · have hp := length_pos3 _ h
    split_ifs with hi
    · have e : r b = fun k => Spec.length (r b) * u b k := by
        funext k
        rw [(hu b).2 h k]
        field_simp
      rw [e, harmonic_smul _ _ (componentOrder_bounds cart i), ← e]
      field_simp
    · rw [zero_div]
  · rw [(hu b).1 h]
    by_cases h0 : i = 0
    · subst h0
      obtain ⟨-, y, h1, h2, h3⟩ := C50_zero_vector (ι := Unit) 1 one_pos disk hd o (fun _ => 0) () rfl L true cart "racah" (by decide)
      rw [solidHarmonics_eq 1 disk hd o _ L cart] at h1
      injection h1 with h1
      rw [← h1] at h2
      rw [if_pos rfl]
      exact h2
    · obtain ⟨-, y, h1, h2, h3⟩ := C50_zero_vector (ι := Unit) 1 one_pos disk hd o (fun _ => 0) () rfl L true cart "racah" (by decide)
      rw [solidHarmonics_eq 1 disk hd o _ L cart] at h1
      injection h1 with h1
      have := h3 i ((one_le_degreeOf i).mpr (by omega))
      rw [← h1] at this
      rw [if_neg h0]
      exact this

/-- **C42 (equivariance).** For every `R` with `Rᵀ R = 1` (proper or improper), every batch, all radial, cutoff and damping
functions: the basis functions of the vectors `r @ R` are those of `r` multiplied with `wigner_d(R)`, the further returned
values are the same, and an exception is raised for one exactly if it is raised for the other. -/
theorem C42_equivariant (tiny : ℝ) (ht : 0 < tiny) (disk : Disk SHCompressed)
    (hd : ValidDisk (shKind sphTerms) (shTable sphTerms) disk) (wdisk : Disk WDCompressed)
    (hw : ValidDisk (wdKind wigTerms) (wdTable wigTerms) wdisk) (o1 o2 o3 : SaveOutcome) (r : ι → Fin 3 → ℝ)
    (R : Fin 3 → Fin 3 → ℝ) (hR : IsOrthogonal R) (L num : ℕ)
    (radialFn : (ι → ℝ) → ℕ → Except Err (ι → ℕ → ℝ))
    (cutoffFn : Option ((ι → ℝ) → Except Err (ι → ℝ))) (returnCutoff returnNorm : Bool)
    (dampingFn : Option ((ι → ℝ) → Except Err (ι → ℝ))) (cart : Bool) :
    ∃ D, wignerD wdisk o1 R L cart = .ok D ∧
      basis tiny (fun b => vecMul (r b) R) L num radialFn (defaultAngularFn tiny disk o2) cutoffFn returnCutoff returnNorm
          dampingFn cart =
        (basis tiny r L num radialFn (defaultAngularFn tiny disk o3) cutoffFn returnCutoff returnNorm dampingFn cart).map
          (rotateBasis ((L + 1) ^ 2) D) := by
  refine ⟨_, wignerD_eq wdisk hw o1 R L cart, ?_⟩
  cases isEmpty_or_nonempty ι with
  | inl he =>
    have hn : ∀ x : ι → Fin 3 → ℝ, norm tiny x = .error .valueError := fun x =>
      (C41_norm tiny ht x).2.2 (by rintro ⟨b, -⟩; exact he.elim b)
    unfold basis
    rw [if_neg (show ¬ (3 ≠ 3) by simp), if_neg (show ¬ (3 ≠ 3) by simp), hn, hn]
    by_cases hrc : returnCutoff = true ∧ cutoffFn.isNone = true
    · rw [if_pos hrc, if_pos hrc]; rfl
    · rw [if_neg hrc, if_neg hrc]; rfl
  | inr hne =>
    have hlen : ∀ b, Spec.length (vecMul (r b) R) = Spec.length (r b) := fun b =>
      congrArg Real.sqrt (normSq_vecMul hR (r b))
    have hunit : unitVectors (fun b => vecMul (r b) R) (fun b => Spec.length (r b)) = fun b =>
        vecMul (unitVectors r (fun b => Spec.length (r b)) b) R := by
      funext b k
      simp only [unitVectors, vecMul, sum_div]
      exact sum_congr rfl fun _ _ => by ring
    rw [basis_eq tiny ht, basis_eq tiny ht]
    simp only [hlen]
    by_cases hrc : returnCutoff = true ∧ cutoffFn.isNone = true
    · rw [if_pos hrc, if_pos hrc]; rfl
    rw [if_neg hrc, if_neg hrc]
    cases radialFn (fun b => Spec.length (r b)) num with
    | error e => rfl
    | ok g =>
      simp only [Except.bind]
      generalize (match cutoffFn with
        | some cf => cf fun b => Spec.length (r b)
        | none => (.ok fun _ => 1 : Except Err (ι → ℝ))) = cc
      generalize (match dampingFn with
        | some df => df fun b => Spec.length (r b)
        | none => (.ok fun _ => 1 : Except Err (ι → ℝ))) = dd
      cases cc with
      | error e => rfl
      | ok c =>
        dsimp only
        rw [hunit]
        unfold defaultAngularFn
        rw [sphericalHarmonics_eq tiny disk hd, sphericalHarmonics_eq tiny disk hd, if_pos (by decide), if_pos (by decide)]
        simp only [if_true]
        cases dd with
        | error e => rfl
        | ok d =>
          simp only [Except.map, rotateBasis, Int.toNat_natCast]
          congr 2
          funext b
          congr 1
          funext s j f
          rw [harmonics_vecMul L cart "racah" hR, sum_mul, sum_mul]
          refine sum_congr rfl fun i hi => ?_
          by_cases hij : degreeOf i = degreeOf j
          · have h1 : 1 ≤ i ↔ 1 ≤ j := by rw [← one_le_degreeOf i, hij, one_le_degreeOf]
            simp only [h1]
            ring
          · have h0 : (if i < (L + 1) ^ 2 ∧ j < (L + 1) ^ 2 then dMatrix cart R i j else 0) = 0 := by
              unfold dMatrix
              rw [if_neg hij, ite_self]
            rw [h0]
            ring

/-- **C42 (inversion).** The basis functions of `-r` are those of `r` multiplied by `(-1)^l`. -/
theorem C42_inversion (tiny : ℝ) (ht : 0 < tiny) (disk : Disk SHCompressed)
    (hd : ValidDisk (shKind sphTerms) (shTable sphTerms) disk) (o2 o3 : SaveOutcome) (r : ι → Fin 3 → ℝ) (L num : ℕ)
    (radialFn : (ι → ℝ) → ℕ → Except Err (ι → ℕ → ℝ))
    (cutoffFn : Option ((ι → ℝ) → Except Err (ι → ℝ))) (returnCutoff returnNorm : Bool)
    (dampingFn : Option ((ι → ℝ) → Except Err (ι → ℝ))) (cart : Bool) :
    basis tiny (fun b k => -r b k) L num radialFn (defaultAngularFn tiny disk o2) cutoffFn returnCutoff returnNorm
        dampingFn cart =
      (basis tiny r L num radialFn (defaultAngularFn tiny disk o3) cutoffFn returnCutoff returnNorm dampingFn cart).map
        invertBasis := by
  cases isEmpty_or_nonempty ι with
  | inl he =>
    have hn : ∀ x : ι → Fin 3 → ℝ, norm tiny x = .error .valueError := fun x =>
      (C41_norm tiny ht x).2.2 (by rintro ⟨b, -⟩; exact he.elim b)
    unfold basis
    rw [if_neg (show ¬ (3 ≠ 3) by simp), if_neg (show ¬ (3 ≠ 3) by simp), hn, hn]
    by_cases hrc : returnCutoff = true ∧ cutoffFn.isNone = true
    · rw [if_pos hrc, if_pos hrc]; rfl
    · rw [if_neg hrc, if_neg hrc]; rfl
  | inr hne =>
    have hlen : ∀ b, Spec.length (fun k => -r b k) = Spec.length (r b) := fun b => by
      unfold Spec.length
      simp only [neg_sq]
    have hunit : unitVectors (fun b k => -r b k) (fun b => Spec.length (r b)) = fun b k =>
        (-1) * unitVectors r (fun b => Spec.length (r b)) b k := by
      funext b k
      simp only [unitVectors]
      ring
    rw [basis_eq tiny ht, basis_eq tiny ht]
    simp only [hlen]
    by_cases hrc : returnCutoff = true ∧ cutoffFn.isNone = true
    · rw [if_pos hrc, if_pos hrc]; rfl
    rw [if_neg hrc, if_neg hrc]
    cases radialFn (fun b => Spec.length (r b)) num with
    | error e => rfl
    | ok g =>
      simp only [Except.bind]
      generalize (match cutoffFn with
        | some cf => cf fun b => Spec.length (r b)
        | none => (.ok fun _ => 1 : Except Err (ι → ℝ))) = cc
      generalize (match dampingFn with
        | some df => df fun b => Spec.length (r b)
        | none => (.ok fun _ => 1 : Except Err (ι → ℝ))) = dd
      cases cc with
      | error e => rfl
      | ok c =>
        dsimp only
        rw [hunit]
        unfold defaultAngularFn
        rw [sphericalHarmonics_eq tiny disk hd, sphericalHarmonics_eq tiny disk hd, if_pos (by decide), if_pos (by decide)]
        simp only [if_true]
        cases dd with
        | error e => rfl
        | ok d =>
          simp only [Except.map, invertBasis, Int.toNat_natCast]
          congr 2
          funext b
          congr 1
          funext s j f
          have e : harmonics L cart "racah" (fun k => -1 * unitVectors r (fun b => Spec.length (r b)) b k) j =
              (-1) ^ deg j * harmonics L cart "racah" (unitVectors r (fun b => Spec.length (r b)) b) j := by
            unfold harmonics
            split_ifs
            · rw [harmonic_smul _ _ (componentOrder_bounds cart j)]
              show _ = (-1) ^ degreeOf j * _
              ring
            · rw [mul_zero]
          rw [e]
          ring

/-- **C42 (cutoff).** With `smooth_cutoff` or `cosine_cutoff` as cutoff function (`f` is its value at each norm), whatever
the other functions are, all basis functions of a vector at or beyond the cutoff radius vanish. -/
theorem C42_cutoff (tiny : ℝ) (ht : 0 < tiny) [Nonempty ι] (r : ι → Fin 3 → ℝ) (L : ℤ) (num : ℕ)
    (radialFn : (ι → ℝ) → ℕ → Except Err (ι → ℕ → ℝ))
    (angularFn : (ι → Fin 3 → ℝ) → ℤ → Bool → Except Err (ι → ℕ → ℝ)) (radius : ℝ) (hr : 0 < radius) (f : ℝ → ℝ)
    (hf : (∀ x, smoothCutoff x radius = .ok (f x)) ∨ ∀ x, cosineCutoff x radius = .ok (f x))
    (returnCutoff returnNorm : Bool) (dampingFn : Option ((ι → ℝ) → Except Err (ι → ℝ))) (cart : Bool)
    (res : BasisResult ι)
    (h : basis tiny r L num radialFn angularFn (some fun x => .ok fun b => f (x b)) returnCutoff returnNorm dampingFn
      cart = .ok res) (b : ι) (hb : radius ≤ Spec.length (r b)) :
    ∀ p i k, comp (res.out b) p i k = 0 := by
  have hz : f (Spec.length (r b)) = 0 := by
    rcases hf with hf | hf
    · obtain ⟨f', h1, h2, -⟩ := C43_smooth_cutoff radius hr
      have := hf (Spec.length (r b))
      rw [h1] at this
      injection this with this
      rw [← this]
      exact h2.outside _ hb
    · obtain ⟨f', h1, h2, -⟩ := C43_cosine_cutoff radius hr
      have := hf (Spec.length (r b))
      rw [h1] at this
      injection this with this
      rw [← this]
      exact h2.outside _ hb
  rw [basis_eq tiny ht] at h
  rw [if_neg (by simp)] at h
  cases hg : radialFn (fun b => Spec.length (r b)) num with
  | error e => rw [hg] at h; cases h
  | ok g =>
    rw [hg] at h
    simp only [Except.bind] at h
    cases hy : angularFn (unitVectors r fun b => Spec.length (r b)) L cart with
    | error e => rw [hy] at h; cases h
    | ok y =>
      rw [hy] at h
      dsimp only at h
      cases hdd : (match dampingFn with
        | some df => df fun b => Spec.length (r b)
        | none => (.ok fun _ => 1 : Except Err (ι → ℝ))) with
      | error e => rw [hdd] at h; cases h
      | ok d =>
        rw [hdd] at h
        dsimp only at h
        injection h with h
        rw [← h]
        intro p i k
        unfold comp
        simp only [hz, mul_zero, zero_mul, ite_self]

/-- **C42 (validation).** Vectors with another number of components, a requested but missing cutoff function, and empty
batches raise `ValueError`; so does a negative maximum degree with the default angular function, unless another function
raises an exception before. -/
theorem C42_validation (tiny : ℝ) (ht : 0 < tiny) {n : ℕ} (r : ι → Fin n → ℝ) (L : ℤ) (num : ℕ)
    (radialFn : (ι → ℝ) → ℕ → Except Err (ι → ℕ → ℝ))
    (angularFn : (ι → Fin n → ℝ) → ℤ → Bool → Except Err (ι → ℕ → ℝ))
    (cutoffFn : Option ((ι → ℝ) → Except Err (ι → ℝ))) (returnCutoff returnNorm : Bool)
    (dampingFn : Option ((ι → ℝ) → Except Err (ι → ℝ))) (cart : Bool) :
    (n ≠ 3 ∨ (returnCutoff = true ∧ cutoffFn = none) ∨ IsEmpty ι →
      basis tiny r L num radialFn angularFn cutoffFn returnCutoff returnNorm dampingFn cart = .error .valueError) ∧
    ∀ (disk : Disk SHCompressed) (outcome : SaveOutcome), L < 0 → (∀ x, ∃ g, radialFn x num = .ok g) →
      (∀ cf, cutoffFn = some cf → ∀ x, ∃ c, cf x = .ok c) →
      basis tiny r L num radialFn (defaultAngularFn tiny disk outcome) cutoffFn returnCutoff returnNorm dampingFn cart =
        .error .valueError := by
  have hempty : IsEmpty ι → ∀ x : ι → Fin n → ℝ, norm tiny x = .error .valueError := fun he x =>
      (C41_norm tiny ht x).2.2 (by rintro ⟨b, -⟩; exact he.elim b)
  constructor
  · rintro (h | ⟨h1, h2⟩ | h)
    · unfold basis; rw [if_pos h]
    · unfold basis
      subst h1 h2
      simp
    · unfold basis
      rw [hempty h]
      by_cases h3 : n ≠ 3
      · rw [if_pos h3]
      · rw [if_neg h3]
        by_cases hrc : returnCutoff = true ∧ cutoffFn.isNone = true
        · rw [if_pos hrc]
        · rw [if_neg hrc]; rfl
  · intro disk outcome hL hg hc
    unfold basis
    by_cases h3 : n = 3
    · rw [if_neg (by simpa using h3)]
      by_cases hrc : returnCutoff = true ∧ cutoffFn.isNone = true
      · rw [if_pos hrc]
      rw [if_neg hrc]
      cases hn : norm tiny r with
      | error e =>
        have : e = .valueError := by
          unfold norm at hn
          split_ifs at hn with hne
          injection hn with hn
          exact hn.symm
        subst this; rfl
      | ok nn =>
        obtain ⟨g, hg⟩ := hg nn
        simp only [bind, Except.bind, hg, pure, Except.pure]
        have hy : ∀ u : ι → Fin n → ℝ, defaultAngularFn tiny disk outcome u L cart = .error .valueError := fun u =>
          sphericalHarmonics_shape tiny disk outcome u L _ cart _ (Or.inr hL)
        cases cutoffFn with
        | none => simp only [hy]
        | some cf =>
          obtain ⟨c, hc⟩ := hc cf rfl nn
          simp only [hc, hy]
    · rw [if_pos h3]

/-- **C42 (ExponentialBasis).** For every value of its parameter `ExponentialBasis` computes `basis` with a positive
`gamma` passed to the radial function; initially `gamma` is `initial_gamma`. -/
theorem C42_exponential_basis (param tiny : ℝ) {n : ℕ} (r : ι → Fin n → ℝ) (L : ℤ) (num : ℕ)
    (radialFn : ℝ → (ι → ℝ) → ℕ → Except Err (ι → ℕ → ℝ))
    (angularFn : (ι → Fin n → ℝ) → ℤ → Bool → Except Err (ι → ℕ → ℝ))
    (cutoffFn : Option ((ι → ℝ) → Except Err (ι → ℝ))) (returnCutoff returnNorm : Bool)
    (dampingFn : Option ((ι → ℝ) → Except Err (ι → ℝ))) (cart : Bool) :
    (∃ gamma > 0, gamma = Real.log (1 + Real.exp param) ∧
      exponentialBasisCall param tiny r L num radialFn angularFn cutoffFn returnCutoff returnNorm dampingFn cart =
        basis tiny r L num (radialFn gamma) angularFn cutoffFn returnCutoff returnNorm dampingFn cart) ∧
    ∀ gamma0 > 0, param = exponentialBasisInit gamma0 →
      exponentialBasisCall param tiny r L num radialFn angularFn cutoffFn returnCutoff returnNorm dampingFn cart =
        basis tiny r L num (radialFn gamma0) angularFn cutoffFn returnCutoff returnNorm dampingFn cart := by
  have hsp : ∀ p, softplus p = Real.log (1 + Real.exp p) := fun p => by
    simp only [softplus, logaddexp, Real.exp_zero, add_comm]
  refine ⟨⟨Real.log (1 + Real.exp param), Real.log_pos (by linarith [Real.exp_pos param]), rfl, ?_⟩, fun g hg h => ?_⟩
  · unfold exponentialBasisCall
    rw [hsp]
  · unfold exponentialBasisCall
    have : softplus param = g := by
      rw [hsp, h, exponentialBasisInit, inverseSoftplus, Real.exp_add, Real.exp_log]
      · rw [show 1 + Real.exp g * -(Real.exp (-g) - 1) = Real.exp g + (1 - Real.exp g * Real.exp (-g)) by ring,
          ← Real.exp_add, add_neg_cancel, Real.exp_zero, sub_self, add_zero, Real.log_exp]
      · have : Real.exp (-g) < 1 := by
          rw [← Real.exp_zero]
          exact Real.exp_lt_exp.mpr (by linarith)
        linarith
    rw [this]

/-- the hypotheses of the theorems about `basis` are met by two vectors (one of them zero), the radial function
`g_k(x) = x + k` and a cutoff function; a component of degree one is not zero -/
example (tiny : ℝ) (ht : 0 < tiny) : ∃ res, basis tiny (fun b : Fin 2 => if b = 0 then ![3, 4, 0] else 0) 1 2
      (fun x _ => .ok fun b k => x b + k) (defaultAngularFn tiny ⟨.absent, fun _ => .absent, none⟩ .success)
      (some fun x => .ok fun b => if x b < 10 then 1 else 0) true true none true = .ok res ∧
    comp (res.out 0) 1 1 1 = 18 / 5 := by
  have hdisk : ValidDisk (shKind sphTerms) (shTable sphTerms) ⟨.absent, fun _ => .absent, none⟩ :=
    ⟨fun c h => (by cases h), fun p => trivial⟩
  have hl : Spec.length ![(3 : ℝ), 4, 0] = 5 := by
    unfold Spec.length
    rw [Fin.sum_univ_three]
    show Real.sqrt (3 ^ 2 + 4 ^ 2 + 0 ^ 2) = 5
    rw [show (3 : ℝ) ^ 2 + 4 ^ 2 + 0 ^ 2 = 5 ^ 2 by norm_num]
    exact Real.sqrt_sq (by norm_num)
  have hne : ![(3 : ℝ), 4, 0] ≠ 0 := fun h => by have := congrFun h 0; norm_num at this
  have hu : ∀ b : Fin 2, ((if b = 0 then ![(3 : ℝ), 4, 0] else 0) = 0 → (if b = 0 then ![(3 / 5 : ℝ), 4 / 5, 0] else 0) = 0) ∧
      ((if b = 0 then ![(3 : ℝ), 4, 0] else 0) ≠ 0 → ∀ k, (if b = 0 then ![(3 / 5 : ℝ), 4 / 5, 0] else 0) k =
        (if b = 0 then ![(3 : ℝ), 4, 0] else 0) k / Spec.length (if b = 0 then ![(3 : ℝ), 4, 0] else 0)) := by
    intro b
    by_cases hb : b = 0
    · simp only [if_pos hb, hl]
      refine ⟨fun h => absurd h hne, fun _ k => ?_⟩
      fin_cases k
      · show (3 / 5 : ℝ) = 3 / 5; rfl
      · show (4 / 5 : ℝ) = 4 / 5; rfl
      · show (0 : ℝ) = 0 / 5; norm_num
    · simp only [if_neg hb]
      exact ⟨fun _ => trivial, fun h => absurd rfl h⟩
  obtain ⟨y, s, hy, hs, hys⟩ := C42_default_angular tiny ⟨.absent, fun _ => .absent, none⟩ hdisk .success .success
    (fun b : Fin 2 => if b = 0 then ![3, 4, 0] else 0) (fun b => if b = 0 then ![3 / 5, 4 / 5, 0] else 0) hu 1 true
  obtain ⟨-, res, h1, h2, -⟩ := C42_meaning tiny ht (fun b : Fin 2 => if b = 0 then ![3, 4, 0] else 0) 1 2
    (fun x _ => .ok fun b k => x b + k) (defaultAngularFn tiny ⟨.absent, fun _ => .absent, none⟩ .success)
    (some fun x => .ok fun b => if x b < 10 then 1 else 0) true true none true
    (fun b => if b = 0 then ![3 / 5, 4 / 5, 0] else 0) hu _ rfl _ rfl (fun _ => 1) (fun _ => rfl) y hy
  refine ⟨res, h1, ?_⟩
  have d1 : degreeOf 1 = 1 := by decide +kernel
  rw [(h2 0).2.2.2, if_pos ⟨by norm_num, by rw [d1]⟩, d1, (hys 0).1 hne, d1]
  obtain ⟨⟨s', hs', hc⟩, -⟩ := C26_coordinates tiny ⟨.absent, fun _ => .absent, none⟩ hdisk .success
    (fun b : Fin 2 => if b = 0 then ![3, 4, 0] else 0) 1 le_rfl
  have : s = s' := by rw [hs] at hs'; injection hs'
  rw [this, (hc 0).2.1]
  simp only [if_true, hl]
  show ((5 : ℝ) + (1 : ℕ)) * (if (5 : ℝ) < 10 then 1 else 0) * (if 1 ≤ 1 then 1 else 1) * (3 / 5 ^ 1) = 18 / 5
  norm_num

/-! ## C53 -/

theorem derivativesLoop_get (x : ℝ) (k : ℕ) (f : ℝ → ℝ) (i : ℕ) (h : i < k) :
    (derivativesLoop x k f)[i]? = some (iteratedDeriv (i + 1) f x) := by
  induction k generalizing f i with
  | zero => omega
  | succ k ih =>
    cases i with
    | zero => simp [derivativesLoop, iteratedDeriv_one]
    | succ i =>
      rw [derivativesLoop, List.getElem?_cons_succ, ih _ _ (by omega), iteratedDeriv_succ' (n := i + 1)]

theorem derivativesLoop_length (x : ℝ) (k : ℕ) (f : ℝ → ℝ) : (derivativesLoop x k f).length = k := by
  induction k generalizing f with
  | zero => rfl
  | succ k ih => simp [derivativesLoop, ih]

/-- **C53.** For every function, point and maximum order, `evaluate_derivatives` returns `max_order + 1` values, and the
entry `i` is the derivative of order `i`; a negative maximum order raises `ValueError`. -/
theorem C53_evaluate_derivatives (f : ℝ → ℝ) (x : ℝ) (maxOrder : ℤ) :
    (maxOrder < 0 → evaluateDerivatives f x maxOrder = .error .valueError) ∧
    (0 ≤ maxOrder → ∃ ys, evaluateDerivatives f x maxOrder = .ok ys ∧ (ys.length : ℤ) = maxOrder + 1 ∧
      ∀ i : ℕ, i ≤ maxOrder → ys[i]? = some (iteratedDeriv i f x)) := by
  unfold evaluateDerivatives
  refine ⟨fun h => by rw [if_pos h], fun h => ?_⟩
  rw [if_neg (by omega)]
  refine ⟨_, rfl, ?_, fun i hi => ?_⟩
  · rw [List.length_cons, derivativesLoop_length]
    omega
  · cases i with
    | zero => simp
    | succ i => rw [List.getElem?_cons_succ, derivativesLoop_get _ _ _ _ (by omega)]

example : ∃ ys, evaluateDerivatives Real.exp 0 3 = .ok ys ∧ ys[3]? = some 1 := by
  obtain ⟨ys, h1, -, h3⟩ := (C53_evaluate_derivatives Real.exp 0 3).2 (by norm_num)
  exact ⟨ys, h1, by rw [h3 3 (by norm_num), iteratedDeriv_eq_iterate]; simp⟩

end

end E3x
