import Verif.Lemmas.RotationAverage
import Verif.Spec.RotationAverage

/-!
# C88: averages over random rotations

What `random_rotation` (of full strength) and `wigner_d` do together: the entries of the Wigner-D matrices of random rotations
are orthogonal, so that averaging randomly rotated features leaves the scalars and removes everything else, and the components
of one degree become uncorrelated and equally large; and averaging the predictions of *any* model over randomly rotated inputs
(data augmentation) makes them equivariant.
-/

namespace E3x

open MeasureTheory Finset Spec

theorem randomWignerD_eq {cart : Bool} {p : ℝ} {L : ℕ} {D : ℝ × ℝ × ℝ → ℕ → ℕ → ℝ} (hD : RandomWignerD cart p L D) (u : ℝ × ℝ × ℝ)
    {i j : ℕ} (hi : i < (L + 1) ^ 2) (hj : j < (L + 1) ^ 2) : D u i j = dMatrix cart (rotationEntries p u) i j := by
  have e := isWignerD_unique (hD u) (isWignerD cart _ L)
  rw [e]
  exact if_pos ⟨hi, hj⟩

/-- **C88** (products). For random rotations of full strength, the mean of the product of two entries of the Wigner-D matrix is
zero unless they are the same entry, and `1/(2l+1)` for an entry of degree `l`. -/
theorem C88_products (cart : Bool) (p : ℝ) (hp : 1 ≤ p) (L : ℕ) (D : ℝ × ℝ × ℝ → ℕ → ℕ → ℝ) (hD : RandomWignerD cart p L D)
    (i j k m : ℕ) (hi : i < (L + 1) ^ 2) (hj : j < (L + 1) ^ 2) (hk : k < (L + 1) ^ 2) (hm : m < (L + 1) ^ 2) :
    ∫ u, D u i j * D u k m ∂uniformDraws =
      if i = k ∧ j = m ∧ degreeOf i = degreeOf j then 1 / (2 * (degreeOf i : ℝ) + 1) else 0 := by
  rw [← moment_eq cart hp i j k m]
  unfold moment
  refine integral_congr_ae (Filter.Eventually.of_forall fun u => ?_)
  simp only [randomWignerD_eq hD u hi hj, randomWignerD_eq hD u hk hm]

theorem rotationEntries_det {p : ℝ} (hp : 1 ≤ p) : ∀ᵐ u ∂uniformDraws, det3x3 (rotationEntries p u) = 1 := by
  filter_upwards [uniformDraws_ae] with u hu
  have h := ((C25_extremes u.1 u.2.1 u.2.2 p hu.1 hu.2).2 hp).2.2
  rw [Matrix.det_fin_three] at h
  unfold det3x3 rotationEntries
  linarith

/-- **C88** (mean). The mean of the Wigner-D matrices of random rotations keeps the scalar component and removes all others. -/
theorem C88_mean (cart : Bool) (p : ℝ) (hp : 1 ≤ p) (L : ℕ) (D : ℝ × ℝ × ℝ → ℕ → ℕ → ℝ) (hD : RandomWignerD cart p L D)
    (i j : ℕ) (hi : i < (L + 1) ^ 2) (hj : j < (L + 1) ^ 2) :
    ∫ u, D u i j ∂uniformDraws = if i = 0 ∧ j = 0 then 1 else 0 := by
  have h0 : 0 < (L + 1) ^ 2 := by positivity
  have h := C88_products cart p hp L D hD i j 0 0 hi hj h0 h0
  have e : ∀ᵐ u ∂uniformDraws, D u i j * D u 0 0 = D u i j := by
    filter_upwards [rotationEntries_isOrthogonal hp, rotationEntries_det hp] with u hu hd
    rw [randomWignerD_eq hD u h0 h0, (dMatrix_isRotation cart hu hd).scalar, mul_one]
  rw [integral_congr_ae e] at h
  rw [h]
  by_cases hij : i = 0 ∧ j = 0
  · rw [if_pos ⟨hij.1, hij.2, by rw [hij.1, hij.2]⟩, if_pos hij, hij.1]
    simp [degreeOf]
  · rw [if_neg (fun h' => hij ⟨h'.1, h'.2.1⟩), if_neg hij]

theorem integrable_entry (cart : Bool) {p : ℝ} (hp : 1 ≤ p) (i j : ℕ) :
    Integrable (fun u => dMatrix cart (rotationEntries p u) i j) uniformDraws := by
  refine Integrable.of_bound ((continuous_dMatrix cart i j).measurable.comp (measurable_rotationEntries p)).aestronglyMeasurable 1 ?_
  filter_upwards [rotationEntries_isOrthogonal hp] with u hu
  exact abs_dMatrix_le cart hu i j

/-- **C88** (features). Rotating features `x` and `y` with the same random rotation: the scalar keeps its value, all other
components have mean zero, and the covariance of two components is zero unless they are the same component, whose covariance
is the inner product of `x` and `y` within the degree, divided by the number of components. -/
theorem C88_features (cart : Bool) (p : ℝ) (hp : 1 ≤ p) (L : ℕ) (D : ℝ × ℝ × ℝ → ℕ → ℕ → ℝ) (hD : RandomWignerD cart p L D)
    (x y : ℕ → ℝ) (a b : ℕ) (ha : a < (L + 1) ^ 2) (hb : b < (L + 1) ^ 2) :
    ∫ u, (∑ m ∈ range ((L + 1) ^ 2), x m * D u m a) ∂uniformDraws = (if a = 0 then x 0 else 0) ∧
    ∫ u, (∑ m ∈ range ((L + 1) ^ 2), x m * D u m a) * (∑ m ∈ range ((L + 1) ^ 2), y m * D u m b) ∂uniformDraws =
      if a = b then (∑ m ∈ range ((L + 1) ^ 2) with degreeOf m = degreeOf a, x m * y m) / (2 * (degreeOf a : ℝ) + 1) else 0 := by
  have h0 : 0 < (L + 1) ^ 2 := by positivity
  have hI : ∀ i < (L + 1) ^ 2, ∀ j < (L + 1) ^ 2, Integrable (fun u => D u i j) uniformDraws := by
    intro i hi j hj
    simp only [fun u => randomWignerD_eq hD u hi hj]
    exact integrable_entry cart hp i j
  have hII : ∀ i < (L + 1) ^ 2, ∀ j < (L + 1) ^ 2, ∀ k < (L + 1) ^ 2, ∀ m < (L + 1) ^ 2,
      Integrable (fun u => D u i j * D u k m) uniformDraws := by
    intro i hi j hj k hk m hm
    simp only [fun u => randomWignerD_eq hD u hi hj, fun u => randomWignerD_eq hD u hk hm]
    exact integrable_moment cart hp i j k m
  constructor
  · rw [integral_finsetSum _ fun m hm => (hI m (mem_range.1 hm) a ha).const_mul _]
    have e : ∀ m ∈ range ((L + 1) ^ 2), ∫ u, x m * D u m a ∂uniformDraws = if m = 0 then (if a = 0 then x 0 else 0) else 0 := by
      intro m hm
      rw [integral_const_mul, C88_mean cart p hp L D hD m a (mem_range.1 hm) ha]
      by_cases h1 : m = 0 <;> by_cases h2 : a = 0 <;> simp [h1, h2]
    rw [sum_congr rfl e, sum_ite_eq', if_pos (mem_range.2 h0)]
  · have e : ∀ u, (∑ m ∈ range ((L + 1) ^ 2), x m * D u m a) * (∑ m ∈ range ((L + 1) ^ 2), y m * D u m b) =
        ∑ m ∈ range ((L + 1) ^ 2), ∑ k ∈ range ((L + 1) ^ 2), x m * y k * (D u m a * D u k b) := by
      intro u
      rw [sum_mul_sum]
      exact sum_congr rfl fun m _ => sum_congr rfl fun k _ => by ring
    simp only [e]
    rw [integral_finsetSum _ fun m hm => integrable_finsetSum _ fun k hk =>
      (hII m (mem_range.1 hm) a ha k (mem_range.1 hk) b hb).const_mul _]
    have e2 : ∀ m ∈ range ((L + 1) ^ 2), ∫ u, ∑ k ∈ range ((L + 1) ^ 2), x m * y k * (D u m a * D u k b) ∂uniformDraws =
        if degreeOf m = degreeOf a then (if a = b then x m * y m / (2 * (degreeOf a : ℝ) + 1) else 0) else 0 := by
      intro m hm
      rw [integral_finsetSum _ fun k hk => (hII m (mem_range.1 hm) a ha k (mem_range.1 hk) b hb).const_mul _]
      have e3 : ∀ k ∈ range ((L + 1) ^ 2), ∫ u, x m * y k * (D u m a * D u k b) ∂uniformDraws =
          if m = k then (if degreeOf m = degreeOf a then (if a = b then x m * y m / (2 * (degreeOf a : ℝ) + 1) else 0) else 0) else 0 := by
        intro k hk
        rw [integral_const_mul, C88_products cart p hp L D hD m a k b (mem_range.1 hm) ha (mem_range.1 hk) hb]
        by_cases h1 : m = k
        · subst h1
          by_cases h3 : a = b
          · subst h3
            by_cases h2 : degreeOf m = degreeOf a <;> simp [h2, div_eq_mul_inv]
          · simp [h3]
        · simp [h1]
      rw [sum_congr rfl e3, sum_ite_eq, if_pos hm]
    rw [sum_congr rfl e2, ← sum_filter]
    split_ifs with h
    · rw [sum_div]
    · simp

/-- rotated positions -/
noncomputable def turned {N : ℕ} (x : Fin N → Fin 3 → ℝ) (R : Fin 3 → Fin 3 → ℝ) : Fin N → Fin 3 → ℝ :=
  fun n b => ∑ a, x n a * R a b

theorem turned_turned {N : ℕ} (x : Fin N → Fin 3 → ℝ) (Q R : Fin 3 → Fin 3 → ℝ) : turned (turned x Q) R = turned x (matMul Q R) := by
  funext n b
  simp only [turned, matMul, sum_mul, mul_sum]
  rw [sum_comm]
  exact sum_congr rfl fun a _ => sum_congr rfl fun k _ => by ring

/-- **C88** (data augmentation). Take any model `f` which maps positions to features (bounded and measurable, but otherwise
arbitrary, in particular not equivariant), apply it to randomly rotated positions, rotate the predicted features back, and take
the mean over the random rotations: the result `F` is equivariant under every rotation `Q`. -/
theorem C88_augmentation (cart : Bool) (p : ℝ) (hp : 1 ≤ p) (L : ℕ) (D : ℝ × ℝ × ℝ → ℕ → ℕ → ℝ) (hD : RandomWignerD cart p L D)
    {N : ℕ} (f : (Fin N → Fin 3 → ℝ) → ℕ → ℝ) (hf : ∀ j, Measurable fun x => f x j) (B : ℝ) (hB : ∀ x j, |f x j| ≤ B)
    (F : (Fin N → Fin 3 → ℝ) → ℕ → ℝ)
    (hF : ∀ x i, F x i = ∫ u, ∑ j ∈ range ((L + 1) ^ 2),
      f (fun n b => ∑ a, x n a * randomRotation u.1 u.2.1 u.2.2 p a b) j * D u i j ∂uniformDraws)
    (Q : Fin 3 → Fin 3 → ℝ) (hQ : IsSpatialRotation Q) (E : ℕ → ℕ → ℝ) (hE : IsWignerD cart Q L E)
    (x : Fin N → Fin 3 → ℝ) (i : ℕ) (hi : i < (L + 1) ^ 2) :
    F (fun n b => ∑ a, x n a * Q a b) i = ∑ k ∈ range ((L + 1) ^ 2), F x k * E k i := by
  have hF' : ∀ (y : Fin N → Fin 3 → ℝ) (k : ℕ), k < (L + 1) ^ 2 → F y k = ∫ u, ∑ j ∈ range ((L + 1) ^ 2),
      f (turned y (rotationEntries p u)) j * dMatrix cart (rotationEntries p u) k j ∂uniformDraws := by
    intro y k hk
    rw [hF]
    refine integral_congr_ae (Filter.Eventually.of_forall fun u => ?_)
    refine sum_congr rfl fun j hj => ?_
    rw [randomWignerD_eq hD u hk (mem_range.1 hj)]
    rfl
  have hEd : ∀ k < (L + 1) ^ 2, E k i = dMatrix cart Q k i := by
    intro k hk
    have e := isWignerD_unique hE (isWignerD cart Q L)
    rw [e]
    exact if_pos ⟨hk, hi⟩
  have hmt : ∀ y : Fin N → Fin 3 → ℝ, Measurable fun R : Fin 3 → Fin 3 → ℝ => turned y R := by
    intro y
    unfold turned
    fun_prop
  -- the function whose mean does not change
  have hg : ∀ k, Measurable fun R : Fin 3 → Fin 3 → ℝ => ∑ j ∈ range ((L + 1) ^ 2), f (turned x R) j * dMatrix cart R k j := by
    intro k
    refine Finset.measurable_sum _ fun j _ => ?_
    exact ((hf j).comp (hmt x)).mul (continuous_dMatrix cart k j).measurable
  have hgG : Measurable fun R : Fin 3 → Fin 3 → ℝ => ∑ k ∈ range ((L + 1) ^ 2), dMatrix cart Q k i *
      ∑ j ∈ range ((L + 1) ^ 2), f (turned x R) j * dMatrix cart R k j :=
    Finset.measurable_sum _ fun k _ => (hg k).const_mul _
  have h := integral_left hp hQ.1 hQ.2 hgG
  have e1 : F (fun n b => ∑ a, x n a * Q a b) i = ∫ u, (∑ k ∈ range ((L + 1) ^ 2), dMatrix cart Q k i *
      ∑ j ∈ range ((L + 1) ^ 2), f (turned x (matMul Q (rotationEntries p u))) j * dMatrix cart (matMul Q (rotationEntries p u)) k j) ∂uniformDraws := by
    rw [hF' _ i hi]
    refine integral_congr_ae ?_
    refine Filter.Eventually.of_forall fun u => ?_
    show ∑ j ∈ range ((L + 1) ^ 2), f (turned (turned x Q) (rotationEntries p u)) j * dMatrix cart (rotationEntries p u) i j = _
    simp only [mul_sum]
    rw [sum_comm]
    refine sum_congr rfl fun j _ => ?_
    rw [turned_turned]
    have e : dMatrix cart (rotationEntries p u) i j =
        ∑ k ∈ range ((L + 1) ^ 2), dMatrix cart Q k i * dMatrix cart (matMul Q (rotationEntries p u)) k j := by
      have e3 : ∀ k ∈ range ((L + 1) ^ 2), dMatrix cart Q k i * dMatrix cart (matMul Q (rotationEntries p u)) k j =
          ∑ m ∈ range ((L + 1) ^ 2), dMatrix cart Q k i * dMatrix cart Q k m * dMatrix cart (rotationEntries p u) m j := by
        intro k hk
        rw [← dMatrix_mul cart hQ.1 _ (degree_le (mem_range.1 hk)), mul_sum]
        exact sum_congr rfl fun m _ => by ring
      rw [sum_congr rfl e3, sum_comm]
      simp only [← sum_mul, dMatrix_orth_col cart hQ.1 (degree_le hi), ite_mul, one_mul, zero_mul]
      rw [sum_ite_eq, if_pos (mem_range.2 hi)]
    rw [e, mul_sum]
    exact sum_congr rfl fun k _ => by ring
  rw [e1, h, integral_finsetSum]
  · refine sum_congr rfl fun k hk => ?_
    rw [integral_const_mul, hF' x k (mem_range.1 hk), hEd k (mem_range.1 hk), mul_comm]
  · intro k _
    refine Integrable.const_mul ?_ _
    refine integrable_finsetSum _ fun j _ => ?_
    refine Integrable.of_bound (((hf j).comp ((hmt x).comp (measurable_rotationEntries p))).mul
      ((continuous_dMatrix cart k j).measurable.comp (measurable_rotationEntries p))).aestronglyMeasurable (B * 1) ?_
    filter_upwards [rotationEntries_isOrthogonal hp] with u hu
    show |f (turned x (rotationEntries p u)) j * dMatrix cart (rotationEntries p u) k j| ≤ B * 1
    rw [abs_mul]
    exact mul_le_mul (hB _ _) (abs_dMatrix_le cart hu k j) (abs_nonneg _) (le_trans (abs_nonneg _) (hB x j))

/-- the matrices exist -/
theorem exists_randomWignerD (cart : Bool) (p : ℝ) (L : ℕ) : ∃ D, RandomWignerD cart p L D := ⟨_, fun _ => isWignerD cart _ L⟩

/-- a vector of length one: the mean of its square components after a random rotation is one third, and different components
are not correlated -/
example : ∃ D, RandomWignerD true 1 1 D ∧
    ∫ u, (∑ m ∈ range ((1 + 1) ^ 2), (if m = 3 then 1 else 0) * D u m 1) * (∑ m ∈ range ((1 + 1) ^ 2), (if m = 3 then 1 else 0) * D u m 1)
      ∂uniformDraws = 1 / 3 ∧
    ∫ u, (∑ m ∈ range ((1 + 1) ^ 2), (if m = 3 then 1 else 0) * D u m 1) * (∑ m ∈ range ((1 + 1) ^ 2), (if m = 3 then 1 else 0) * D u m 2)
      ∂uniformDraws = 0 := by
  obtain ⟨D, hD⟩ := exists_randomWignerD true 1 1
  have d1 : degreeOf 1 = 1 := by decide +kernel
  refine ⟨D, hD, ?_, ?_⟩
  · rw [(C88_features true 1 le_rfl 1 D hD (fun m => if m = 3 then 1 else 0) (fun m => if m = 3 then 1 else 0) 1 1 (by norm_num)
      (by norm_num)).2, if_pos rfl]
    have e : ({m ∈ range ((1 + 1) ^ 2) | degreeOf m = degreeOf 1} : Finset ℕ) = {1, 2, 3} := by decide +kernel
    rw [e, d1]
    norm_num
  · rw [(C88_features true 1 le_rfl 1 D hD (fun m => if m = 3 then 1 else 0) (fun m => if m = 3 then 1 else 0) 1 2 (by norm_num)
      (by norm_num)).2, if_neg (by norm_num)]

/-- a model which is not equivariant: the sign of the first coordinate of the first point, as a scalar -/
example : ∃ (f : (Fin 1 → Fin 3 → ℝ) → ℕ → ℝ), (∀ j, Measurable fun x => f x j) ∧ (∀ x j, |f x j| ≤ 1) ∧
    f (fun _ => ![1, 0, 0]) 0 ≠ f (fun _ => ![-1, 0, 0]) 0 := by
  refine ⟨fun x j => if 0 < x 0 0 then 1 else 0, fun j => ?_, fun x j => ?_, ?_⟩
  · exact Measurable.ite (measurableSet_lt measurable_const (by fun_prop)) measurable_const measurable_const
  · dsimp only
    split_ifs <;> norm_num
  · norm_num

end E3x
