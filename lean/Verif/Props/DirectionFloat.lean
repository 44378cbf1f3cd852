import Verif.Lemmas.DirectionFloat
import Verif.Model.DirectionFloat
import Verif.Props.SafeFloat

/-!
# C86: spherical harmonics of arbitrary vectors in floating-point arithmetic
-/

namespace E3x

open FloatFormat Spec Finset

variable {F : FloatFormat}

theorem length_le_of_abs {u v : Fin 3 → ℝ} (h : ∀ k, |u k| ≤ v k) : Spec.length u ≤ Spec.length v := by
  unfold Spec.length
  refine Real.sqrt_le_sqrt (sum_le_sum fun k _ => ?_)
  exact sq_le_sq' (by linarith [neg_abs_le (u k), h k]) ((le_abs_self _).trans (h k))

theorem length_affine {a t : ℝ} (ha : 0 ≤ a) (ht : 0 ≤ t) {u : Fin 3 → ℝ} (hu : Spec.length u = 1) :
    Spec.length (fun k => a * |u k| + t) ≤ a + 2 * t := by
  have hsum : |u 0| ^ 2 + |u 1| ^ 2 + |u 2| ^ 2 = 1 := by
    have h : Spec.length u ^ 2 = 1 := by rw [hu, one_pow]
    unfold Spec.length at h
    rw [Real.sq_sqrt (Finset.sum_nonneg fun _ _ => sq_nonneg _), Fin.sum_univ_three] at h
    rw [sq_abs, sq_abs, sq_abs]
    exact h
  have h1 : |u 0| + |u 1| + |u 2| ≤ 2 := by
    nlinarith [sq_nonneg (|u 0| - |u 1|), sq_nonneg (|u 1| - |u 2|), sq_nonneg (|u 0| - |u 2|), abs_nonneg (u 0), abs_nonneg (u 1),
      abs_nonneg (u 2)]
  unfold Spec.length
  rw [Real.sqrt_le_left (by linarith), Fin.sum_univ_three]
  nlinarith [mul_nonneg ha ht, mul_nonneg (mul_nonneg ha ht) (sub_nonneg.2 h1), sq_nonneg t]

theorem length_list (r : Fin 3 → ℝ) : √(([0, 1, 2] : List (Fin 3)).map fun k => r k ^ 2).sum = Spec.length r := by
  unfold Spec.length
  rw [Fin.sum_univ_three]
  simp [add_assoc]

theorem length_direction {r : Fin 3 → ℝ} (h : 0 < Spec.length r) : Spec.length (fun k => r k / Spec.length r) = 1 := by
  have e : Spec.length (fun k => r k / Spec.length r) = √((∑ k, r k ^ 2) / Spec.length r ^ 2) := by
    rw [Finset.sum_div]
    unfold Spec.length
    simp only [div_pow]
  rw [e, Real.sqrt_div (Finset.sum_nonneg fun _ _ => sq_nonneg _), Real.sqrt_sq h.le]
  exact div_self h.ne'

/-- the normalised vector -/
theorem direction_float (hF : F.Accurate) (hu : 56 * F.unit ≤ 1) {ι : Type} [Fintype ι] (order : SumOrder (Fin 3))
    (horder : order.entries.Perm [0, 1, 2]) (batch : List ι) (r : ι → Fin 3 → ℝ) {i : ι} (hi : i ∈ batch)
    (hrange : ∀ b ∈ batch, ∀ k, |r b k| * √F.tiny ≤ F.unit * Spec.length (r i)) (hlow : 2 * F.tiny ≤ Spec.length (r i) ^ 2)
    (hhigh : 2 * Spec.length (r i) ≤ F.maxFinite) :
    ∃ u norms, normalizeAndReturnNormFloat F order batch [0, 1, 2] (fun i k => .num (r i k)) = .ok (u, norms) ∧
      ∃ v : Fin 3 → ℝ, u i = (fun k => .num (v k)) ∧
        ∀ k, |v k - r i k / Spec.length (r i)| ≤ 18 * F.unit * |r i k / Spec.length (r i)| + F.tiny := by
  have u0 := unit_pos (F := F)
  have hl0 : 0 ≤ Spec.length (r i) := Real.sqrt_nonneg _
  have hsum : (([0, 1, 2] : List (Fin 3)).map fun k => r i k ^ 2).sum = Spec.length (r i) ^ 2 := by
    rw [← length_list, Real.sq_sqrt]
    simp only [List.map_cons, List.map_nil, List.sum_cons, List.sum_nil]
    positivity
  obtain ⟨ys, norms, h1, h2⟩ := C76_normalize hF order batch [0, 1, 2] horder r hi (by norm_num; linarith)
    (fun b hb k _ => by rw [length_list]; exact hrange b hb k) (by rw [hsum]; exact hlow) (by
      rw [length_list]
      norm_num
      nlinarith)
  have h3 : ∀ k, ∃ y, ys i k = .num y ∧ |y - r i k / Spec.length (r i)| ≤ 18 * F.unit * |r i k / Spec.length (r i)| + F.tiny := by
    intro k
    obtain ⟨y, hy, hb⟩ := h2 k (by fin_cases k <;> simp)
    refine ⟨y, hy, ?_⟩
    rw [length_list] at hb
    rw [abs_div, abs_of_nonneg hl0]
    norm_num at hb ⊢
    linarith
  choose v hv hb using h3
  exact ⟨ys, norms, h1, v, funext hv, hb⟩

theorem direction_length {r v : Fin 3 → ℝ} (hl0 : 0 < Spec.length r)
    (h3 : ∀ k, |v k - r k / Spec.length r| ≤ 18 * F.unit * |r k / Spec.length r| + F.tiny) :
    Spec.length v ≤ 1 + 18 * F.unit + 2 * F.tiny := by
  have u0 := unit_pos (F := F)
  refine (length_le_of_abs (v := fun k => (1 + 18 * F.unit) * |r k / Spec.length r| + F.tiny) fun k => ?_).trans
    (length_affine (by linarith) tiny_pos.le (length_direction hl0))
  have := abs_add_le (v k - r k / Spec.length r) (r k / Spec.length r)
  rw [sub_add_cancel] at this
  have := h3 k
  linarith

/-- **C86 (accuracy).** Let `r` be a batch of vectors, one of which is neither too small (`2 tiny ≤ ‖r‖²`), nor too large, nor much smaller than the largest
coordinate in the batch. Let the lookup table have relative errors of at most `τ` and the constant of the normalisation one of
at most `η`. In every order of evaluation in which a product undergoes at most `d` additions, component `j` (of degree `l`) of
`spherical_harmonics(r, L)` differs from the exact one at most by a multiple of the unit roundoff, relative to the constant of the
normalisation times `√(binomial(2l, l) / 2ˡ)`: it has two parts, for the harmonics of the computed direction, of length at most
`1 + 18 unit + 2 tiny`, and for the error of the computed direction. -/
theorem C86_accuracy (hF : F.Accurate) (hu : 56 * F.unit ≤ 1) (L : ℕ) (cart : Bool) (s : String) (hs : s ∈ normNames) (table : SHTable)
    (τ : ℝ) (hτ : 0 ≤ τ) (hT : AccurateTable τ L table) (constant : ℕ → ℝ) (η : ℝ) (hη : 0 ≤ η)
    (hc : ∀ l ≤ L, |constant l - normConstant s l| ≤ η * normConstant s l) (disk : Disk SHCompressed)
    (hd : ValidDisk (shKind sphTerms) (shTable sphTerms) disk) (outcome : SaveOutcome) {ι : Type} [Fintype ι] (order : SumOrder (Fin 3))
    (horder : order.entries.Perm [0, 1, 2]) (batch : List ι) (r : ι → Fin 3 → ℝ) {i : ι} (hi : i ∈ batch)
    (hrange : ∀ b ∈ batch, ∀ k, |r b k| * √F.tiny ≤ F.unit * Spec.length (r i)) (hlow : 2 * F.tiny ≤ Spec.length (r i) ^ 2)
    (hhigh : 2 * Spec.length (r i) ≤ F.maxFinite) :
    ∃ Y, sphericalHarmonics F.tiny disk outcome r L false cart s = .ok Y ∧ ∀ (j d : ℕ) (y : ℝ), j < (L + 1) ^ 2 →
      SphericalHarmonicsFloatOf F order batch table constant L cart (fun i k => .num (r i k)) i j d (.num y) →
      |y - Y i j| ≤
        (((1 + F.unit) ^ (L + 6 + d) * ((1 + τ) * (1 + η)) - 1) * (normConstant s (degreeOf j) *
            (harmonicScale (degreeOf j) * (1 + 18 * F.unit + 2 * F.tiny) ^ degreeOf j)) +
          (1 + F.unit) ^ (L + 6 + d) * ((1 + F.tiny) ^ (L + 6 + d) - 1) *
            harmonicSize τ L (degreeOf j) (1 + 18 * F.unit + 2 * F.tiny) ((1 + η) * normConstant s (degreeOf j))) +
        normConstant s (degreeOf j) * (harmonicScale (degreeOf j) * ((1 + 18 * F.unit) ^ L - 1 + F.tiny * 4 ^ degreeOf j)) := by
  have u0 := unit_pos (F := F)
  have τ0 := tiny_pos (F := F)
  have hl0 : 0 < Spec.length (r i) := by
    refine lt_of_le_of_ne (Real.sqrt_nonneg _) fun h => ?_
    rw [← h] at hlow
    norm_num at hlow
    linarith
  have : Nonempty ι := ⟨i⟩
  have e := sphericalHarmonics_eq F.tiny disk hd outcome r L false cart s
  rw [if_pos hs, normalize_eq F.tiny τ0 r] at e
  refine ⟨_, e, fun j d y hj hy => ?_⟩
  obtain ⟨u, norms, hu1, hu2⟩ := hy
  obtain ⟨u', norms', h1, v, h2, h3⟩ := direction_float hF hu order horder batch r hi hrange hlow hhigh
  rw [h1] at hu1
  injection hu1 with hu1
  injection hu1 with hu1 _
  subst hu1
  rw [h2] at hu2
  set w : Fin 3 → ℝ := fun k => r i k / Spec.length (r i) with hw
  have hw1 : Spec.length w = 1 := length_direction hl0
  have hdir : (fun k => if normSq (r i) > F.tiny then (√(normSq (r i)))⁻¹ * r i k else r i k) = w := by
    funext k
    have hn : √(normSq (r i)) = Spec.length (r i) := rfl
    have hsq : normSq (r i) = Spec.length (r i) ^ 2 := by
      rw [← hn, Real.sq_sqrt]
      exact Finset.sum_nonneg fun _ _ => by positivity
    rw [if_pos (by rw [hsq]; linarith), hn, inv_mul_eq_div]
  have t1 : F.tiny ≤ 1 := by
    have := hF.tiny_le
    nlinarith
  have hv := direction_length (F := F) hl0 h3
  have h4 := harmonics_error (ε := 18 * F.unit) (by linarith) τ0.le t1 (u := w) (u' := v) h3 L cart s hj
  have h5 : Spec.length (fun k => (1 + 18 * F.unit) * |w k| + 1) ^ degreeOf j ≤ 4 ^ degreeOf j := by
    refine pow_le_pow_left₀ (Real.sqrt_nonneg _) ((length_affine (by linarith) zero_le_one hw1).trans ?_) _
    linarith
  obtain ⟨Y', hY', h6⟩ := C84_accuracy (F := F) hF.proper.p_pos L cart s hs table τ hτ hT constant η hη hc F.tiny disk hd outcome
    (fun _ : Unit => v)
  have e' := sphericalHarmonics_eq F.tiny disk hd outcome (fun _ : Unit => v) L true cart s
  rw [if_pos hs] at e'
  rw [e'] at hY'
  injection hY' with hY'
  have h7 := h6 () j d y hj hu2
  rw [← hY'] at h7
  have hn := (normConstant_pos s (degreeOf j)).le
  have hs0 : 0 ≤ harmonicScale (degreeOf j) := Real.sqrt_nonneg _
  have hθ : 1 ≤ (1 + F.unit) ^ (L + 6 + d) := ErrBound.pow_unit _
  have hω : 1 ≤ (1 + F.tiny) ^ (L + 6 + d) := ErrBound.pow_tiny _
  have hv0 : 0 ≤ Spec.length v := Real.sqrt_nonneg _
  have hkey : 1 ≤ (1 + F.unit) ^ (L + 6 + d) * ((1 + τ) * (1 + η)) :=
    one_le_mul_of_one_le_of_one_le hθ (one_le_mul_of_one_le_of_one_le (by linarith) (by linarith))
  have h8 : harmonicSize τ L (degreeOf j) (Spec.length v) ((1 + η) * normConstant s (degreeOf j)) ≤
      harmonicSize τ L (degreeOf j) (1 + 18 * F.unit + 2 * F.tiny) ((1 + η) * normConstant s (degreeOf j)) := by
    unfold harmonicSize
    refine mul_le_mul_of_nonneg_right (pow_le_pow_left₀ (le_trans zero_le_one (le_max_left _ _)) (max_le_max le_rfl hv) _) ?_
    positivity
  rw [hw1, one_pow, mul_one] at h4
  have g1 : ∀ b, (fun b k => if normSq (r b) > F.tiny then (√(normSq (r b)))⁻¹ * r b k else r b k) b =
      fun k => if normSq (r b) > F.tiny then (√(normSq (r b)))⁻¹ * r b k else r b k := fun _ => rfl
  change |y - harmonics L cart s (fun k => if normSq (r i) > F.tiny then (√(normSq (r i)))⁻¹ * r i k else r i k) j| ≤ _
  rw [hdir]
  refine (abs_sub_le y (harmonics L cart s v j) _).trans (add_le_add (h7.trans (add_le_add ?_ ?_)) (h4.trans ?_))
  · refine mul_le_mul_of_nonneg_left (mul_le_mul_of_nonneg_left (mul_le_mul_of_nonneg_left ?_ hs0) hn) (by linarith)
    exact pow_le_pow_left₀ hv0 hv _
  · exact mul_le_mul_of_nonneg_left h8 (mul_nonneg (by linarith) (by linarith))
  · refine mul_le_mul_of_nonneg_left (mul_le_mul_of_nonneg_left ?_ hs0) hn
    have := mul_le_mul_of_nonneg_left h5 τ0.le
    linarith

/-- **C86 (no overflow).** With the same hypotheses, if the sum of the absolute values of all factors and products, enlarged by the
roundings, does not exceed the largest finite number, every result is a number. -/
theorem C86_finite (hF : F.Accurate) (hu : 56 * F.unit ≤ 1) (L : ℕ) (cart : Bool) (s : String) (table : SHTable)
    (τ : ℝ) (hτ : 0 ≤ τ) (hT : AccurateTable τ L table) (constant : ℕ → ℝ) (η : ℝ) (hη : 0 ≤ η)
    (hc : ∀ l ≤ L, |constant l - normConstant s l| ≤ η * normConstant s l) {ι : Type} [Fintype ι] (order : SumOrder (Fin 3))
    (horder : order.entries.Perm [0, 1, 2]) (batch : List ι) (r : ι → Fin 3 → ℝ) {i : ι} (hi : i ∈ batch)
    (hrange : ∀ b ∈ batch, ∀ k, |r b k| * √F.tiny ≤ F.unit * Spec.length (r i)) (hlow : 2 * F.tiny ≤ Spec.length (r i) ^ 2)
    (hhigh : 2 * Spec.length (r i) ≤ F.maxFinite) (j d : ℕ) (hj : j < (L + 1) ^ 2)
    (hmax : ((1 + F.unit) * (1 + F.tiny)) ^ (L + 6 + d) *
      harmonicSize τ L (degreeOf j) (1 + 18 * F.unit + 2 * F.tiny) ((1 + η) * normConstant s (degreeOf j)) ≤ F.maxFinite) (y : FloatVal)
    (hy : SphericalHarmonicsFloatOf F order batch table constant L cart (fun i k => .num (r i k)) i j d y) : ∃ x, y = .num x := by
  have u0 := unit_pos (F := F)
  have τ0 := tiny_pos (F := F)
  have hl0 : 0 < Spec.length (r i) := by
    refine lt_of_le_of_ne (Real.sqrt_nonneg _) fun h => ?_
    rw [← h] at hlow
    norm_num at hlow
    linarith
  obtain ⟨u, norms, hu1, hu2⟩ := hy
  obtain ⟨u', norms', h1, v, h2, h3⟩ := direction_float hF hu order horder batch r hi hrange hlow hhigh
  rw [h1] at hu1
  injection hu1 with hu1
  injection hu1 with hu1 _
  subst hu1
  rw [h2] at hu2
  have hv := direction_length (F := F) hl0 h3
  refine C84_finite hF.proper L cart s table τ hτ hT constant η hη hc v j d hj (le_trans ?_ hmax) y hu2
  have hb : 0 ≤ ((1 + F.unit) * (1 + F.tiny)) ^ (L + 6 + d) := by positivity
  refine mul_le_mul_of_nonneg_left ?_ hb
  unfold harmonicSize
  refine mul_le_mul_of_nonneg_right (pow_le_pow_left₀ (le_trans zero_le_one (le_max_left _ _)) (max_le_max le_rfl hv) _) ?_
  have hs0 : 0 ≤ harmonicScale (degreeOf j) := Real.sqrt_nonneg _
  positivity

/-- **C86 (example).** In `float32`, with the table of the package, degrees up to 4, `normalization='racah'`, and a batch of vectors of lengths
between `2⁻²⁰` and `2¹⁸`, every order of evaluation gives finite numbers which differ at most by `2 · 10⁻⁵` from the exact ones. -/
theorem C86_float32 (L : ℕ) (hL : L ≤ 4) (cart : Bool) (table : SHTable) (hT : AccurateTable (2⁻¹ ^ 52) L table)
    (disk : Disk SHCompressed) (hd : ValidDisk (shKind sphTerms) (shTable sphTerms) disk) (outcome : SaveOutcome) {ι : Type}
    [Fintype ι] (order : SumOrder (Fin 3)) (horder : order.entries.Perm [0, 1, 2]) (batch : List ι) (r : ι → Fin 3 → ℝ)
    (hr : ∀ b ∈ batch, 1 / 2 ^ 20 ≤ Spec.length (r b) ∧ Spec.length (r b) ≤ 2 ^ 18) {i : ι} (hi : i ∈ batch) :
    ∃ Y, sphericalHarmonics float32.tiny disk outcome r L false cart "racah" = .ok Y ∧ ∀ (j d : ℕ) (y : FloatVal), j < (L + 1) ^ 2 →
      d ≤ 34 → SphericalHarmonicsFloatOf float32 order batch table (fun _ => 1) L cart (fun i k => .num (r i k)) i j d y →
      ∃ x, y = .num x ∧ |x - Y i j| ≤ 2 * 10⁻¹ ^ 5 := by
  have hn : ∀ l, normConstant "racah" l = 1 := fun l => rfl
  have hc : ∀ l ≤ L, |(fun _ => (1 : ℝ)) l - normConstant "racah" l| ≤ 0 * normConstant "racah" l := fun l _ => by simp [hn]
  have hF : float32.Accurate := by
    refine ⟨?_, ?_, ?_⟩ <;> simp [float32]
  have hu : float32.unit = 1 / 2 ^ 24 := by
    unfold FloatFormat.unit float32
    norm_num
  have ht : float32.tiny = 1 / 2 ^ 126 := by
    unfold FloatFormat.tiny float32
    norm_num
  have hst : √float32.tiny = 1 / 2 ^ 63 := by
    rw [ht, Real.sqrt_eq_iff_mul_self_eq_of_pos (by positivity)]
    norm_num
  have hmf : (2 : ℝ) ^ 100 ≤ float32.maxFinite := by
    unfold FloatFormat.maxFinite float32
    norm_num
  obtain ⟨hi1, hi2⟩ := hr i hi
  have hrange : ∀ b ∈ batch, ∀ k, |r b k| * √float32.tiny ≤ float32.unit * Spec.length (r i) := by
    intro b hb k
    have h1 : |r b k| ≤ Spec.length (r b) := by
      apply Real.abs_le_sqrt
      exact Finset.single_le_sum (f := fun k => r b k ^ 2) (fun k _ => sq_nonneg _) (Finset.mem_univ k)
    have h2 := (hr b hb).2
    rw [hst, hu]
    norm_num at h2 hi1 ⊢
    linarith
  have hlow : 2 * float32.tiny ≤ Spec.length (r i) ^ 2 := by
    rw [ht]
    have := pow_le_pow_left₀ (by positivity) hi1 2
    norm_num at this ⊢
    linarith
  have hhigh : 2 * Spec.length (r i) ≤ float32.maxFinite := by
    refine le_trans ?_ hmf
    norm_num at hi2 ⊢
    linarith
  have hu' : 56 * float32.unit ≤ 1 := by rw [hu]; norm_num
  obtain ⟨Y, hY, h⟩ := C86_accuracy hF hu' L cart "racah" (by decide) table (2⁻¹ ^ 52) (by positivity) hT
    (fun _ => 1) 0 le_rfl hc disk hd outcome order horder batch r hi hrange hlow hhigh
  refine ⟨Y, hY, fun j d y hj hdle hy => ?_⟩
  have hl : degreeOf j ≤ 4 := le_trans ((deg_le_iff j L).mpr hj) hL
  have hB : 1 + 18 * float32.unit + 2 * float32.tiny ≤ 1 + 2 / 10 ^ 6 := by rw [hu, ht]; norm_num
  have hB1 : 1 ≤ 1 + 18 * float32.unit + 2 * float32.tiny := by rw [hu, ht]; norm_num
  have hBL : ∀ n ≤ 4, (1 + 18 * float32.unit + 2 * float32.tiny) ^ n ≤ 101 / 100 := by
    intro n hn4
    calc (1 + 18 * float32.unit + 2 * float32.tiny) ^ n ≤ (1 + 18 * float32.unit + 2 * float32.tiny) ^ 4 := pow_le_pow_right₀ hB1 hn4
      _ ≤ (1 + 2 / 10 ^ 6) ^ 4 := pow_le_pow_left₀ (by linarith) hB 4
      _ ≤ _ := by norm_num
  have hE : (1 + 18 * float32.unit) ^ L - 1 ≤ 44 / 10 ^ 7 := by
    have : (1 + 18 * float32.unit) ^ L ≤ (1 + 18 * float32.unit) ^ 4 := pow_le_pow_right₀ (by rw [hu]; norm_num) hL
    have h2 : (1 + 18 * float32.unit) ^ 4 ≤ 1 + 44 / 10 ^ 7 := by rw [hu]; norm_num
    linarith
  have hE0 : 0 ≤ (1 + 18 * float32.unit) ^ L - 1 := by
    have : 1 ≤ (1 + 18 * float32.unit) ^ L := one_le_pow₀ (by rw [hu]; norm_num)
    linarith
  have hsc := harmonicScale_le hl
  have hsc0 : 0 ≤ harmonicScale (degreeOf j) := Real.sqrt_nonneg _
  have h3 : Real.sqrt 3 ^ degreeOf j ≤ 9 := by
    have h1 : (1 : ℝ) ≤ Real.sqrt 3 := by
      rw [Real.one_le_sqrt]; norm_num
    calc Real.sqrt 3 ^ degreeOf j ≤ Real.sqrt 3 ^ 4 := pow_le_pow_right₀ h1 hl
      _ = (Real.sqrt 3 ^ 2) ^ 2 := by ring
      _ = 9 := by rw [Real.sq_sqrt (by norm_num)]; norm_num
  have hN : (totalCartMonomials L : ℝ) ≤ 35 := by
    have : totalCartMonomials L ≤ 35 := by
      interval_cases L <;> decide
    exact_mod_cast this
  set S := harmonicSize (2⁻¹ ^ 52) L (degreeOf j) (1 + 18 * float32.unit + 2 * float32.tiny)
    ((1 + 0) * normConstant "racah" (degreeOf j)) with hS
  have hsize : S ≤ 70 := by
    rw [hS]
    unfold harmonicSize
    rw [hn, max_eq_right hB1, add_zero, one_mul, max_self, mul_one]
    have h5 : harmonicScale (degreeOf j) * Real.sqrt 3 ^ degreeOf j ≤ 21 / 10 * 9 :=
      mul_le_mul hsc h3 (by positivity) (by norm_num)
    have h6 : (1 + (2⁻¹ : ℝ) ^ 52) * (harmonicScale (degreeOf j) * Real.sqrt 3 ^ degreeOf j) ≤ (1 + 2⁻¹ ^ 52) * (21 / 10 * 9) :=
      mul_le_mul_of_nonneg_left h5 (by positivity)
    have h7 : (1 + (2⁻¹ : ℝ) ^ 52) * (21 / 10 * 9) ≤ 25 := by norm_num
    calc _ ≤ (101 / 100) * (60 : ℝ) := mul_le_mul (hBL L hL) (by linarith) (by positivity) (by norm_num)
      _ ≤ 70 := by norm_num
  have hsize0 : 0 ≤ S := by
    rw [hS]
    unfold harmonicSize
    positivity
  have hθ : (1 + float32.unit) ^ (L + 6 + d) ≤ 1 + 27 / 10 ^ 7 := by
    calc (1 + float32.unit) ^ (L + 6 + d) ≤ (1 + float32.unit) ^ 44 :=
          pow_le_pow_right₀ (by rw [hu]; norm_num) (by omega)
      _ ≤ _ := by rw [hu]; norm_num
  have hω : (1 + float32.tiny) ^ (L + 6 + d) ≤ 1 + 1 / 2 ^ 100 := by
    calc (1 + float32.tiny) ^ (L + 6 + d) ≤ (1 + float32.tiny) ^ 44 :=
          pow_le_pow_right₀ (by rw [ht]; norm_num) (by omega)
      _ ≤ _ := by rw [ht]; norm_num
  have hθ1 : 1 ≤ (1 + float32.unit) ^ (L + 6 + d) := ErrBound.pow_unit _
  have hω1 : 1 ≤ (1 + float32.tiny) ^ (L + 6 + d) := ErrBound.pow_tiny _
  obtain ⟨x, rfl⟩ := C86_finite hF hu' L cart "racah" table (2⁻¹ ^ 52) (by positivity) hT (fun _ => 1) 0 le_rfl hc order horder batch r
    hi hrange hlow hhigh j d hj (by
      rw [mul_pow, ← hS]
      generalize (1 + float32.unit) ^ (L + 6 + d) = θ at hθ hθ1
      generalize (1 + float32.tiny) ^ (L + 6 + d) = ω at hω hω1
      calc θ * ω * S ≤ (2 * 2) * 70 := mul_le_mul (mul_le_mul (by norm_num at hθ; linarith) (by norm_num at hω; linarith)
            (by linarith) (by norm_num)) hsize hsize0 (by norm_num)
        _ ≤ 2 ^ 100 := by norm_num
        _ ≤ _ := hmf) y hy
  refine ⟨x, rfl, (h j d x hj hy).trans ?_⟩
  rw [← hS]
  have hp4 : float32.tiny * 4 ^ degreeOf j ≤ 1 / 10 ^ 9 := by
    have : (4 : ℝ) ^ degreeOf j ≤ 4 ^ 4 := pow_le_pow_right₀ (by norm_num) hl
    rw [ht]
    norm_num at this ⊢
    linarith
  have hp40 : 0 ≤ float32.tiny * 4 ^ degreeOf j := by rw [ht]; positivity
  have hBl := hBL _ hl
  have hBl0 : 0 ≤ (1 + 18 * float32.unit + 2 * float32.tiny) ^ degreeOf j := pow_nonneg (by linarith) _
  generalize (1 + float32.unit) ^ (L + 6 + d) = θ at hθ hθ1
  generalize (1 + float32.tiny) ^ (L + 6 + d) = ω at hω hω1
  generalize (1 + 18 * float32.unit + 2 * float32.tiny) ^ degreeOf j = B at hBl hBl0
  generalize (1 + 18 * float32.unit) ^ L - 1 = E at hE hE0
  generalize float32.tiny * 4 ^ degreeOf j = T at hp4 hp40
  generalize harmonicScale (degreeOf j) = H at hsc hsc0
  rw [hn, one_mul, one_mul, add_zero, mul_one]
  have hHB : H * B ≤ 21 / 10 * (101 / 100) := mul_le_mul hsc hBl hBl0 (by norm_num)
  have hHB0 : 0 ≤ H * B := mul_nonneg hsc0 hBl0
  have a1 : θ * (1 + 2⁻¹ ^ 52) - 1 ≤ 28 / 10 ^ 7 := by
    have := mul_le_mul_of_nonneg_right hθ (by positivity : (0 : ℝ) ≤ 1 + 2⁻¹ ^ 52)
    have h9 : (1 + 27 / 10 ^ 7 : ℝ) * (1 + 2⁻¹ ^ 52) - 1 ≤ 28 / 10 ^ 7 := by norm_num
    linarith
  have b1 : (θ * (1 + 2⁻¹ ^ 52) - 1) * (H * B) ≤ 28 / 10 ^ 7 * (21 / 10 * (101 / 100)) := mul_le_mul a1 hHB hHB0 (by norm_num)
  have b2 : θ * (ω - 1) * S ≤ 2 * (1 / 2 ^ 100) * 70 := by
    refine mul_le_mul (mul_le_mul ?_ ?_ (by linarith) (by norm_num)) hsize hsize0 (by positivity)
    · norm_num at hθ
      linarith
    · linarith
  have b3 : H * (E + T) ≤ 21 / 10 * (44 / 10 ^ 7 + 1 / 10 ^ 9) := mul_le_mul hsc (add_le_add hE hp4) (by linarith) (by norm_num)
  refine (add_le_add (add_le_add b1 b2) b3).trans ?_
  norm_num

/-- **C86 (vectors which are not normalised).** If another vector in the batch is larger by a factor `2ˢ` with `2 s ≥ 6 - q`, where
`2^q` is the smallest positive number of the format, a vector is not normalised: `spherical_harmonics(r, L)` returns the same as
`spherical_harmonics(r, L, r_is_normalized=True)` for it, although its length is not one. -/
theorem C86_lost (hF : F.Accurate) (order : SumOrder (Fin 3)) (horder : order.entries.Perm [0, 1, 2]) {ι : Type} (batch : List ι)
    (r : ι → Fin 3 → ℝ) {i b : ι} (hi : i ∈ batch) (hb : b ∈ batch) (k₀ : Fin 3) (s : ℕ) (hs : 6 - F.q ≤ 2 * s)
    (hsmall : ∀ k, 2 ^ s * |r i k| ≤ |r b k₀|) (hnumber : ∀ k, F.IsNumber (r i k)) (table : SHTable) (constant : ℕ → ℝ) (L : ℕ) (cart : Bool)
    (j d : ℕ) (y : FloatVal) :
    SphericalHarmonicsFloatOf F order batch table constant L cart (fun i k => .num (r i k)) i j d y ↔
      SphericalHarmonicsFloat F table constant L cart (fun k => .num (r i k)) j d y := by
  have hall : ∀ k : Fin 3, k ∈ [0, 1, 2] := fun k => by fin_cases k <;> simp
  obtain ⟨ys, norms, h1, -, h2⟩ := C76_lost hF order batch [0, 1, 2] horder r hi hb (hall k₀) s hs (fun k _ => hsmall k)
    fun k _ => hnumber k
  have e : ys i = fun k => .num (r i k) := funext fun k => h2 k (hall k)
  constructor
  · rintro ⟨u, n, h, h'⟩
    rw [h1] at h
    injection h with h
    injection h with h _
    subst h
    rw [e] at h'
    exact h'
  · intro h
    refine ⟨ys, norms, h1, ?_⟩
    rw [e]
    exact h

/-- The hypotheses are met: `spherical_harmonics([[3, -4, 12]], 4)` has 25 results for every order of the sums, and they are numbers. -/
example (order : SumOrder (Fin 3)) (horder : order.entries.Perm [0, 1, 2]) (table : SHTable) (hT : AccurateTable (2⁻¹ ^ 52) 4 table)
    (disk : Disk SHCompressed) (hd : ValidDisk (shKind sphTerms) (shTable sphTerms) disk) (j : ℕ) (hj : j < 25) :
    ∃ x : ℝ, SphericalHarmonicsFloatOf float32 order [()] table (fun _ => 1) 4 true (fun _ k => .num (![3, -4, 12] k)) () j 34 (.num x) := by
  have hlen : Spec.length ![3, -4, 12] = 13 := by
    unfold Spec.length
    rw [Fin.sum_univ_three, Real.sqrt_eq_iff_mul_self_eq_of_pos (by norm_num)]
    simp
    norm_num
  obtain ⟨Y, -, h⟩ := C86_float32 4 le_rfl true table hT disk hd .success order horder [()] (fun _ : Unit => ![3, -4, 12])
    (fun b _ => by rw [hlen]; norm_num) (i := ()) (by simp)
  have hF : float32.Accurate := by
    refine ⟨?_, ?_, ?_⟩ <;> simp [float32]
  obtain ⟨u, norms, h1⟩ : ∃ u norms, normalizeAndReturnNormFloat float32 order [()] [0, 1, 2]
      (fun _ k => .num (![3, -4, 12] k)) = .ok (u, norms) := ⟨_, _, rfl⟩
  obtain ⟨y, hy⟩ := C84_evaluation (F := float32) table (fun _ => 1) 4 true (u ()) j
  have hy' : SphericalHarmonicsFloatOf float32 order [()] table (fun _ => 1) 4 true (fun _ k => .num (![3, -4, 12] k)) () j 34 y :=
    ⟨u, norms, h1, hy⟩
  obtain ⟨x, rfl, -⟩ := h j 34 y (by omega) le_rfl hy'
  exact ⟨x, hy'⟩

/-- The hypotheses of `C86_lost` are met by the batch `[[2¹⁰⁰, 0, 0], [2, 0, 0]]` in `float32`. -/
example (table : SHTable) (constant : ℕ → ℝ) (L : ℕ) (cart : Bool) (j d : ℕ) (y : FloatVal) :
    SphericalHarmonicsFloatOf float32 leftToRight [0, 1] table constant L cart
        (fun (i : Fin 2) k => .num (![![2 ^ 100, 0, 0], ![2, 0, 0]] i k)) 1 j d y ↔
      SphericalHarmonicsFloat float32 table constant L cart (fun k => .num (![2, 0, 0] k)) j d y := by
  have hF : float32.Accurate := by
    refine ⟨?_, ?_, ?_⟩ <;> simp [float32]
  have h2 : float32.IsNumber 2 := by
    have := isNumber_two_pow hF.proper (e := 1) (by simp [float32]) (by simp [float32])
    simpa using this
  have h0 := isNumber_zero hF.proper
  exact C86_lost hF leftToRight (.refl _) [0, 1] (![![2 ^ 100, 0, 0], ![2, 0, 0]] : Fin 2 → Fin 3 → ℝ) (i := 1) (b := 0) (by simp)
    (by simp) 0 99 (by simp [float32]) (by intro k; fin_cases k <;> simp <;> norm_num) (by intro k; fin_cases k; exacts [h2, h0, h0])
    table constant L cart j d y

end E3x
