import Verif.Props.Rotations

/-!
# C24, C25: alignment rotations and random rotations
-/

namespace E3x

open Matrix Real

theorem cauchy3 (u v : Vec3) (hu : u 0 * u 0 + u 1 * u 1 + u 2 * u 2 = 1) (hv : v 0 * v 0 + v 1 * v 1 + v 2 * v 2 = 1) :
    0 ≤ 1 + (u 0 * v 0 + u 1 * v 1 + u 2 * v 2) ∧
      (1 + (u 0 * v 0 + u 1 * v 1 + u 2 * v 2) = 0 ↔ u = -v) := by
  have key : (u 0 + v 0) ^ 2 + (u 1 + v 1) ^ 2 + (u 2 + v 2) ^ 2 =
      2 * (1 + (u 0 * v 0 + u 1 * v 1 + u 2 * v 2)) := by linear_combination hu + hv
  have s0 := sq_nonneg (u 0 + v 0)
  have s1 := sq_nonneg (u 1 + v 1)
  have s2 := sq_nonneg (u 2 + v 2)
  refine ⟨by linarith, ?_, ?_⟩
  · intro h
    rw [h] at key
    have z0 : u 0 + v 0 = 0 := by simpa using (by linarith : (u 0 + v 0) ^ 2 = 0)
    have z1 : u 1 + v 1 = 0 := by simpa using (by linarith : (u 1 + v 1) ^ 2 = 0)
    have z2 : u 2 + v 2 = 0 := by simpa using (by linarith : (u 2 + v 2) ^ 2 = 0)
    ext k
    fin_cases k <;> simp <;> linarith
  · rintro rfl
    simp only [Pi.neg_apply]
    linarith

theorem dir_unit (u : Vec3) (h : 0 < Spec.length u) :
    Spec.direction u 0 * Spec.direction u 0 + Spec.direction u 1 * Spec.direction u 1 +
      Spec.direction u 2 * Spec.direction u 2 = 1 := by
  unfold Spec.direction
  have := spec_length_sq u
  field_simp
  linarith

theorem length_pos_of (u : Vec3) (tiny : ℝ) (ht : 0 < tiny) (h : Spec.length u ^ 2 > tiny) : 0 < Spec.length u := by
  rcases (spec_length_nonneg u).lt_or_eq with h1 | h1
  · exact h1
  · rw [← h1] at h; norm_num at h; linarith

/-- **C24** (everything but exactly antiparallel vectors). For every batch of pairs of vectors (squared lengths above
the smallest normal number) whose directions are not opposite, the returned matrix is a proper rotation, maps the
direction of `u` to the direction of `v`, and does so along the shortest arc: it fixes `u × v` and its trace is
`1 + 2 cos ∠(u, v)`. -/
theorem C24_alignment {ι : Type} [Fintype ι] [Nonempty ι] (tiny : ℝ) (ht : 0 < tiny) (u v : ι → Vec3) :
    ∃ R, alignmentRotation tiny u v = .ok R ∧ ∀ i, Spec.length (u i) ^ 2 > tiny → Spec.length (v i) ^ 2 > tiny →
      Spec.direction (u i) ≠ -Spec.direction (v i) →
      Spec.IsProper (R i) ∧ Spec.direction (u i) ᵥ* R i = Spec.direction (v i) ∧
      (u i ⨯₃ v i) ᵥ* R i = u i ⨯₃ v i ∧
      (R i).trace = 1 + 2 * (Spec.direction (u i) ⬝ᵥ Spec.direction (v i)) := by
  obtain ⟨p, hp1, hp2⟩ := normalize_vec tiny ht u
  obtain ⟨q, hq1, hq2⟩ := normalize_vec tiny ht v
  obtain ⟨w, -, hw1, -⟩ := C41_normalize tiny ht (fun (_ : Unit) (x : ι × Fin 3) => p x.1 x.2 + roll (p x.1) x.2)
    inferInstance
  obtain ⟨z, hz1, hz2⟩ := normalize_vec tiny ht (fun i => cross (p i) (fun k => w () (i, k)))
  refine ⟨_, by rw [alignmentRotation, hp1]; simp only [Except.bind]; rw [hq1]; simp only [Except.bind]
                rw [hw1]; simp only [Except.bind]; rw [rotation, hz1]; rfl, ?_⟩
  intro i hu hv hne
  obtain ⟨hp3, hp4⟩ := (hp2 i).1 hu
  obtain ⟨hq3, hq4⟩ := (hq2 i).1 hv
  have hpi : 0 < Spec.length (u i) := length_pos_of _ _ ht hu
  have hqi : 0 < Spec.length (v i) := length_pos_of _ _ ht hv
  rw [← hp3, ← hq3] at hne
  obtain ⟨hc1, hc2⟩ := cauchy3 (p i) (q i) hp4 hq4
  have hdiv : 0 < 1 + (p i 0 * q i 0 + p i 1 * q i 1 + p i 2 * q i 2) :=
    lt_of_le_of_ne hc1 fun h => hne (hc2.mp h.symm)
  have hdot : ∑ k, p i k * q i k = p i 0 * q i 0 + p i 1 * q i 1 + p i 2 * q i 2 := Fin.sum_univ_three _
  rw [← hp3, ← hq3]
  simp only [hdot, gt_iff_lt, hdiv, if_true]
  have hxlen : cross (p i) (q i) 0 * cross (p i) (q i) 0 + cross (p i) (q i) 1 * cross (p i) (q i) 1 +
      cross (p i) (q i) 2 * cross (p i) (q i) 2 = 1 - (p i 0 * q i 0 + p i 1 * q i 1 + p i 2 * q i 2) ^ 2 := by
    simp [cross]
    linear_combination hp4 * (q i 0 * q i 0 + q i 1 * q i 1 + q i 2 * q i 2) + hq4
  have hs1 : 1 / (1 + (p i 0 * q i 0 + p i 1 * q i 1 + p i 2 * q i 2)) *
      (1 + (p i 0 * q i 0 + p i 1 * q i 1 + p i 2 * q i 2)) = 1 := one_div_mul_cancel hdiv.ne'
  refine ⟨skew_orthogonal (cross (p i) (q i)) _ ?_ _ rfl, skew_vecMul (p i) (q i) _ hp4 hq4 hs1 _ rfl, ?_, ?_⟩
  · rw [hxlen]
    field_simp
    ring
  · have hcr : u i ⨯₃ v i = (Spec.length (u i) * Spec.length (v i)) • cross (p i) (q i) := by
      rw [hp3, hq3]
      unfold Spec.direction
      ext k
      fin_cases k <;> simp [crossProduct, cross] <;> field_simp
    rw [hcr, Matrix.smul_vecMul]
    congr 1
    generalize cross (p i) (q i) = x
    ext k
    fin_cases k <;> simp [stackLast, Matrix.mul_apply, Fin.sum_univ_three, Matrix.vecMul, dotProduct] <;> ring
  · simp only [dotProduct, hdot]
    rw [Matrix.trace_fin_three]
    generalize cross (p i) (q i) = x at *
    simp [stackLast, Matrix.mul_apply, Fin.sum_univ_three]
    rw [one_div] at hs1
    generalize p i 0 * q i 0 + p i 1 * q i 1 + p i 2 * q i 2 = c at *
    linear_combination (-2 * (1 + c)⁻¹) * hxlen + 2 * (c - 1) * hs1

/-- **C24** (antiparallel vectors). If the directions are exactly opposite, the returned matrix is a proper rotation
which maps one direction to the other, provided the direction is not numerically parallel to (1,1,1): the cross product
of the direction with its cyclic shift must not vanish (compared with `tiny` times the size of the batch). -/
theorem C24_antiparallel {ι : Type} [Fintype ι] [Nonempty ι] (tiny : ℝ) (ht : 0 < tiny) (ht1 : tiny ≤ 1)
    (u v : ι → Vec3) :
    ∃ R, alignmentRotation tiny u v = .ok R ∧ ∀ i, Spec.length (u i) ^ 2 > tiny → Spec.length (v i) ^ 2 > tiny →
      Spec.direction (u i) = -Spec.direction (v i) →
      4 * Fintype.card ι * tiny < Spec.length (cross (Spec.direction (u i)) (roll (Spec.direction (u i)))) ^ 2 →
      Spec.IsProper (R i) ∧ Spec.direction (u i) ᵥ* R i = Spec.direction (v i) := by
  obtain ⟨p, hp1, hp2⟩ := normalize_vec tiny ht u
  obtain ⟨q, hq1, hq2⟩ := normalize_vec tiny ht v
  obtain ⟨w, -, hw1, hw2⟩ := C41_normalize tiny ht (fun (_ : Unit) (x : ι × Fin 3) => p x.1 x.2 + roll (p x.1) x.2)
    inferInstance
  obtain ⟨z, hz1, hz2⟩ := normalize_vec tiny ht (fun i => cross (p i) (fun k => w () (i, k)))
  refine ⟨_, by rw [alignmentRotation, hp1]; simp only [Except.bind]; rw [hq1]; simp only [Except.bind]
                rw [hw1]; simp only [Except.bind]; rw [rotation, hz1]; rfl, ?_⟩
  intro i hu hv heq hx
  obtain ⟨hp3, hp4⟩ := (hp2 i).1 hu
  obtain ⟨hq3, hq4⟩ := (hq2 i).1 hv
  rw [← hp3] at hx
  rw [← hp3, ← hq3] at heq ⊢
  have hdiv : ¬ 1 + ∑ k, p i k * q i k > 0 := by
    rw [Fin.sum_univ_three, ((cauchy3 (p i) (q i) hp4 hq4).2).mpr heq]; exact lt_irrefl _
  simp only [hdiv, if_false]
  -- the batch norm
  set f : ι × Fin 3 → ℝ := fun x => p x.1 x.2 + roll (p x.1) x.2 with hf
  have hB2 : Spec.length f ^ 2 = ∑ j, ((p j 0 + p j 2) ^ 2 + (p j 1 + p j 0) ^ 2 + (p j 2 + p j 1) ^ 2) := by
    unfold Spec.length
    rw [Real.sq_sqrt (Finset.sum_nonneg fun k _ => sq_nonneg _), Fintype.sum_prod_type]
    refine Finset.sum_congr rfl fun j _ => ?_
    rw [Fin.sum_univ_three]; simp [hf, roll]
  have hle : Spec.length f ^ 2 ≤ 4 * Fintype.card ι := by
    rw [hB2]
    calc _ ≤ ∑ _j : ι, (4 : ℝ) := Finset.sum_le_sum fun j _ => by
            have hj : p j 0 * p j 0 + p j 1 * p j 1 + p j 2 * p j 2 ≤ 1 := by
              by_cases hj : Spec.length (u j) ^ 2 > tiny
              · exact (((hp2 j).1 hj).2).le
              · rw [(hp2 j).2 hj, ← spec_length_sq]; linarith
            nlinarith [sq_nonneg (p j 0 - p j 2), sq_nonneg (p j 1 - p j 0), sq_nonneg (p j 2 - p j 1)]
      _ = _ := by simp; ring
  have hcard : (1 : ℝ) ≤ Fintype.card ι := by exact_mod_cast Fintype.card_pos
  have hxlen := spec_length_sq (cross (p i) (roll (p i)))
  have hBgt : Spec.length f ^ 2 > tiny := by
    have h1 : tiny < Spec.length (cross (p i) (roll (p i))) ^ 2 := by nlinarith
    have h2 : (p i 0 + p i 2) ^ 2 + (p i 1 + p i 0) ^ 2 + (p i 2 + p i 1) ^ 2 ≤ Spec.length f ^ 2 := by
      rw [hB2]
      exact Finset.single_le_sum (f := fun j => (p j 0 + p j 2) ^ 2 + (p j 1 + p j 0) ^ 2 + (p j 2 + p j 1) ^ 2)
        (fun j _ => by positivity) (Finset.mem_univ i)
    have h3 : Spec.length (cross (p i) (roll (p i))) ^ 2 ≤
        (p i 0 + p i 2) ^ 2 + (p i 1 + p i 0) ^ 2 + (p i 2 + p i 1) ^ 2 := by
      rw [hxlen]
      simp [cross, roll]
      have hd := sq_nonneg (p i 0 * (p i 0 + p i 2) + p i 1 * (p i 1 + p i 0) + p i 2 * (p i 2 + p i 1))
      have : (p i 1 * p i 1 - p i 2 * p i 0) * (p i 1 * p i 1 - p i 2 * p i 0) +
          (p i 2 * p i 2 - p i 0 * p i 1) * (p i 2 * p i 2 - p i 0 * p i 1) +
          (p i 0 * p i 0 - p i 1 * p i 2) * (p i 0 * p i 0 - p i 1 * p i 2) =
          (p i 0 * p i 0 + p i 1 * p i 1 + p i 2 * p i 2) *
            ((p i 0 + p i 2) ^ 2 + (p i 1 + p i 0) ^ 2 + (p i 2 + p i 1) ^ 2) -
          (p i 0 * (p i 0 + p i 2) + p i 1 * (p i 1 + p i 0) + p i 2 * (p i 2 + p i 1)) ^ 2 := by ring
      rw [this, hp4]; linarith
    linarith
  obtain ⟨-, hBpos, hw3⟩ := (hw2 ()).1 hBgt
  -- the axis
  have hax : ∀ k, Spec.length f * cross (p i) (fun k => w () (i, k)) k = cross (p i) (roll (p i)) k := by
    have e0 := hw3 (i, 0)
    have e1 := hw3 (i, 1)
    have e2 := hw3 (i, 2)
    simp [roll] at e0 e1 e2
    intro k
    fin_cases k <;> simp [cross, roll]
    · linear_combination p i 2 * e1 - p i 1 * e2
    · linear_combination p i 0 * e2 - p i 2 * e0
    · linear_combination p i 1 * e0 - p i 0 * e1
  have haxlen : Spec.length (cross (p i) (fun k => w () (i, k))) ^ 2 > tiny := by
    have hl : Spec.length f ^ 2 * Spec.length (cross (p i) (fun k => w () (i, k))) ^ 2 =
        Spec.length (cross (p i) (roll (p i))) ^ 2 := by
      rw [spec_length_sq (cross (p i) (roll (p i))), ← hax 0, ← hax 1, ← hax 2, spec_length_sq]; ring
    by_contra hcon
    rw [not_lt] at hcon
    nlinarith [sq_nonneg (Spec.length f)]
  obtain ⟨hz3, hz4⟩ := (hz2 i).1 haxlen
  refine ⟨rotationBody_proper _ _ hz4, ?_⟩
  rw [rotationBody_eq, Real.cos_pi_div_two, Real.sin_pi_div_two, mul_one, mul_one, mul_one,
    rodrigues_half_turn _ _ hz4, heq, neg_neg]
  have hperp : cross (p i) (fun k => w () (i, k)) 0 * p i 0 + cross (p i) (fun k => w () (i, k)) 1 * p i 1 +
      cross (p i) (fun k => w () (i, k)) 2 * p i 2 = 0 := by simp [cross]; ring
  rw [hz3]
  unfold Spec.direction
  rw [div_mul_eq_mul_div, div_mul_eq_mul_div, div_mul_eq_mul_div, ← add_div, ← add_div, hperp, zero_div]

/-- **C24** (the exception). For `u = (1,1,1)` and `v = -u` the result is the zero matrix. -/
theorem C24_antiparallel_111 (tiny : ℝ) (ht : 0 < tiny) (ht1 : tiny < 1) :
    alignmentRotation (ι := Unit) tiny (fun _ => ![1, 1, 1]) (fun _ => ![-1, -1, -1]) = .ok fun _ => 0 := by
  obtain ⟨p, hp1, hp2⟩ := normalize_vec (ι := Unit) tiny ht (fun _ => ![1, 1, 1])
  obtain ⟨q, hq1, hq2⟩ := normalize_vec (ι := Unit) tiny ht (fun _ => ![-1, -1, -1])
  obtain ⟨w, -, hw1, hw2⟩ := C41_normalize tiny ht
    (fun (_ : Unit) (x : Unit × Fin 3) => p x.1 x.2 + roll (p x.1) x.2) inferInstance
  obtain ⟨z, hz1, hz2⟩ := normalize_vec tiny ht (fun i => cross (p i) (fun k => w () (i, k)))
  have lp : Spec.length (![1, 1, 1] : Vec3) ^ 2 = 3 := by rw [spec_length_sq]; simp; norm_num
  have lq : Spec.length (![-1, -1, -1] : Vec3) ^ 2 = 3 := by rw [spec_length_sq]; simp; norm_num
  have hpq : Spec.length (![1, 1, 1] : Vec3) = Spec.length (![-1, -1, -1] : Vec3) := by
    rw [← Real.sqrt_sq (spec_length_nonneg ![1, 1, 1]), ← Real.sqrt_sq (spec_length_nonneg ![-1, -1, -1]), lp, lq]
  obtain ⟨hp3, hp4⟩ := (hp2 ()).1 (by rw [lp]; linarith)
  obtain ⟨hq3, hq4⟩ := (hq2 ()).1 (by rw [lq]; linarith)
  have heq : p () = -q () := by
    rw [hp3, hq3]
    ext k
    unfold Spec.direction
    rw [Pi.neg_apply, hpq]
    fin_cases k <;> simp <;> ring
  have hconst : p () 0 = p () 1 ∧ p () 1 = p () 2 := by rw [hp3]; simp [Spec.direction]
  have hdiv : ¬ 1 + ∑ k, p () k * q () k > 0 := by
    rw [Fin.sum_univ_three, ((cauchy3 (p ()) (q ()) hp4 hq4).2).mpr heq]; exact lt_irrefl _
  have hw : w () ((), 0) = w () ((), 1) ∧ w () ((), 1) = w () ((), 2) := by
    by_cases h : Spec.length (fun x : Unit × Fin 3 => p x.1 x.2 + roll (p x.1) x.2) ^ 2 > tiny
    · obtain ⟨-, h1, h2⟩ := (hw2 ()).1 h
      generalize Spec.length (fun x : Unit × Fin 3 => p x.1 x.2 + roll (p x.1) x.2) = L at *
      have e0 := h2 ((), 0)
      have e1 := h2 ((), 1)
      have e2 := h2 ((), 2)
      simp [roll, hconst.1, hconst.2] at e0 e1 e2
      exact ⟨mul_left_cancel₀ h1.ne' (e0.symm.trans e1), mul_left_cancel₀ h1.ne' (e1.symm.trans e2)⟩
    · rw [(hw2 ()).2 h]
      simp [roll, hconst.1, hconst.2]
  have hax : cross (p ()) (fun k => w () ((), k)) = 0 := by
    ext k
    fin_cases k <;> simp [cross, hconst.1, hconst.2, hw.1, hw.2]
  have hz : z () = 0 := by
    have := (hz2 ()).2 (by rw [hax, spec_length_sq]; simpa using ht.le)
    rw [this, hax]
  rw [alignmentRotation, hp1]; simp only [Except.bind]; rw [hq1]; simp only [Except.bind]
  rw [hw1]; simp only [Except.bind]; rw [rotation, hz1]
  simp only [Except.map]
  congr 1
  funext x
  rw [if_neg hdiv, hz, rotationBody_eq, Real.cos_pi_div_two]
  ext a b
  fin_cases a <;> fin_cases b <;> simp [rodrigues]

/-- Hence the clause "for every pair of non-zero vectors" of C24 is false. -/
theorem C24_fails : ∃ R, alignmentRotation (ι := Unit) 1e-38 (fun _ => ![1, 1, 1]) (fun _ => ![-1, -1, -1]) = .ok R ∧
    ¬ Spec.IsProper (R ()) := by
  refine ⟨_, C24_antiparallel_111 1e-38 (by norm_num) (by norm_num), fun h => ?_⟩
  have := h.2
  simp at this

/-- Non-vacuity: x and y axis are not antiparallel; x and -x are, and the cross-product condition holds. -/
example : Spec.length (cross ![1, 0, 0] (roll ![1, 0, 0])) ^ 2 = 1 := by
  rw [spec_length_sq]; simp [cross, roll]

/-! ### C25: random rotations -/

theorem randomQuaternion_unit (u0 u1 u2 : ℝ) (h0 : 0 ≤ u0) (h1 : u0 ≤ 1) :
    ∃ r i j k, randomQuaternion u0 u1 u2 = (r, i, j, k) ∧ 0 ≤ r ∧ r * r + i * i + j * j + k * k = 1 := by
  have e1 := Real.sq_sqrt (by linarith : 0 ≤ 1 - u0)
  have e2 := Real.sq_sqrt h0
  have t1 := Real.sin_sq_add_cos_sq (2 * π * u1)
  have t2 := Real.sin_sq_add_cos_sq (2 * π * u2)
  have key : √(1 - u0) * sin (2 * π * u1) * (√(1 - u0) * sin (2 * π * u1)) +
      √(1 - u0) * cos (2 * π * u1) * (√(1 - u0) * cos (2 * π * u1)) +
      √u0 * sin (2 * π * u2) * (√u0 * sin (2 * π * u2)) + √u0 * cos (2 * π * u2) * (√u0 * cos (2 * π * u2)) = 1 := by
    linear_combination √(1 - u0) ^ 2 * t1 + √u0 ^ 2 * t2 + e1 + e2
  unfold randomQuaternion
  by_cases h : √(1 - u0) * sin (2 * π * u1) < 0
  · simp only [h, if_true]
    exact ⟨_, _, _, _, rfl, by linarith, by linarith⟩
  · simp only [h, if_false]
    exact ⟨_, _, _, _, rfl, by linarith, key⟩

/-- The slerped quaternion, away from the small-angle branch. -/
theorem slerp_eq (p r i j k : ℝ) (hs : ¬ |sin (arccos r)| < 1e-9) (hr : -1 ≤ r) (hr1 : r ≤ 1) :
    slerpFromIdentity p (r, i, j, k) = (cos (p * arccos r), sin (p * arccos r) * (i / sin (arccos r)),
      sin (p * arccos r) * (j / sin (arccos r)), sin (p * arccos r) * (k / sin (arccos r))) := by
  have hne : sin (arccos r) ≠ 0 := by intro h; rw [h] at hs; norm_num at hs
  have hc : cos (arccos r) = r := Real.cos_arccos hr hr1
  simp only [slerpFromIdentity, hs, if_false]
  have h1 : sin ((1 - p) * arccos r) / sin (arccos r) + sin (p * arccos r) / sin (arccos r) * r =
      cos (p * arccos r) := by
    rw [show (1 - p) * arccos r = arccos r - p * arccos r by ring, Real.sin_sub, hc]
    field_simp
    ring
  rw [h1]
  refine Prod.ext rfl (Prod.ext ?_ (Prod.ext ?_ ?_)) <;> simp only <;> ring

/-- **C25** (main clause). For every draw `u0 ∈ [0, 1]`, `u1`, `u2`, there are a unit axis and an angle `θ ∈ [0, π]`,
independent of the perturbation strength, such that for every strength `p` (clamped to `[0, 1]`) the result is the
rotation about that axis by `p θ`; this holds unless the drawn rotation is by less than about 2e-9 but not zero. In
particular the result is a proper rotation. -/
theorem C25_random_rotation (u0 u1 u2 : ℝ) (h0 : 0 ≤ u0) (h1 : u0 ≤ 1)
    (hbranch : (randomQuaternion u0 u1 u2).1 = 1 ∨ ¬ |sin (arccos (randomQuaternion u0 u1 u2).1)| < 1e-9) :
    ∃ (n : Vec3) (θ : ℝ), n 0 * n 0 + n 1 * n 1 + n 2 * n 2 = 1 ∧ 0 ≤ θ ∧ θ ≤ π ∧
      ∀ p, randomRotation u0 u1 u2 p = rotationBody n (max 0 (min p 1) * θ) ∧
        Spec.IsProper (randomRotation u0 u1 u2 p) := by
  obtain ⟨r, i, j, k, hq, hr0, hn⟩ := randomQuaternion_unit u0 u1 u2 h0 h1
  rw [hq] at hbranch
  dsimp only at hbranch
  suffices h : ∃ (n : Vec3) (θ : ℝ), n 0 * n 0 + n 1 * n 1 + n 2 * n 2 = 1 ∧ 0 ≤ θ ∧ θ ≤ π ∧
      ∀ p, randomRotation u0 u1 u2 p = rotationBody n (max 0 (min p 1) * θ) by
    obtain ⟨n, θ, h1, h2, h3, h4⟩ := h
    exact ⟨n, θ, h1, h2, h3, fun p => ⟨h4 p, by rw [h4 p]; exact rotationBody_proper _ _ h1⟩⟩
  rcases hbranch with hr | hs
  · subst hr
    have hi : i = 0 := by nlinarith [sq_nonneg i, sq_nonneg j, sq_nonneg k]
    have hj : j = 0 := by nlinarith [sq_nonneg i, sq_nonneg j, sq_nonneg k]
    have hk : k = 0 := by nlinarith [sq_nonneg i, sq_nonneg j, sq_nonneg k]
    refine ⟨![1, 0, 0], 0, by simp, le_refl _, Real.pi_pos.le, fun p => ?_⟩
    rw [randomRotation, hq, rotationBody_eq]
    subst hi hj hk
    simp only [slerpFromIdentity, Real.arccos_one, Real.sin_zero, abs_zero]
    rw [if_pos (by norm_num), if_pos (by norm_num)]
    ext a b
    fin_cases a <;> fin_cases b <;> simp [quaternionMatrix, rodrigues, stackLast]
  · have hr1 : r ≤ 1 := by nlinarith [sq_nonneg i, sq_nonneg j, sq_nonneg k]
    have hs0 : sin (arccos r) ≠ 0 := by intro h; rw [h] at hs; norm_num at hs
    have hsq : sin (arccos r) ^ 2 = 1 - r ^ 2 := by
      have := Real.sin_sq_add_cos_sq (arccos r)
      rw [Real.cos_arccos (by linarith) hr1] at this; linarith
    have hunit : i / sin (arccos r) * (i / sin (arccos r)) + j / sin (arccos r) * (j / sin (arccos r)) +
        k / sin (arccos r) * (k / sin (arccos r)) = 1 := by
      field_simp
      linarith
    refine ⟨![i / sin (arccos r), j / sin (arccos r), k / sin (arccos r)], 2 * arccos r, by simpa using hunit,
      by linarith [Real.arccos_nonneg r], by linarith [Real.arccos_le_pi_div_two.mpr hr0], fun p => ?_⟩
    rw [randomRotation, hq, rotationBody_eq, slerp_eq _ _ _ _ _ hs (by linarith) hr1]
    generalize max 0 (min p 1) = c
    have hh : c * (2 * arccos r) / 2 = c * arccos r := by ring
    rw [hh, quaternionMatrix_eq]
    · congr 1 <;> simp <;> ring
    · linear_combination sin (c * arccos r) ^ 2 * hunit + Real.sin_sq_add_cos_sq (c * arccos r)

/-- **C25** (extreme strengths). A strength of at most 0 gives the identity for every draw, a strength of at least 1 the
rotation of the drawn quaternion, undamped. -/
theorem C25_extremes (u0 u1 u2 p : ℝ) (h0 : 0 ≤ u0) (h1 : u0 ≤ 1) :
    (p ≤ 0 → randomRotation u0 u1 u2 p = 1) ∧
    (1 ≤ p → randomRotation u0 u1 u2 p = quaternionMatrix (randomQuaternion u0 u1 u2) ∧
      Spec.IsProper (randomRotation u0 u1 u2 p)) := by
  obtain ⟨r, i, j, k, hq, hr0, hn⟩ := randomQuaternion_unit u0 u1 u2 h0 h1
  refine ⟨fun hp => ?_, fun hp => ?_⟩
  · have hm : max 0 (min p 1) = 0 := by rw [min_eq_left (by linarith), max_eq_left hp]
    have hslerp : slerpFromIdentity 0 (r, i, j, k) = (1, 0, 0, 0) := by
      unfold slerpFromIdentity
      by_cases hs : |sin (arccos r)| < 1e-9
      · simp [hs]
      · have hs0 : sin (arccos r) ≠ 0 := by intro h; rw [h] at hs; norm_num at hs
        simp [hs, hs0]
    rw [randomRotation, hq, hm]
    rw [hslerp]
    ext a b
    fin_cases a <;> fin_cases b <;> simp [quaternionMatrix, stackLast]
  · have hm : max 0 (min p 1) = 1 := by rw [min_eq_right hp]; simp
    have hslerp : slerpFromIdentity 1 (r, i, j, k) = (r, i, j, k) := by
      unfold slerpFromIdentity
      by_cases hs : |sin (arccos r)| < 1e-9
      · simp [hs]
      · have hs0 : sin (arccos r) ≠ 0 := by intro h; rw [h] at hs; norm_num at hs
        simp [hs, hs0]
    have heq : randomRotation u0 u1 u2 p = quaternionMatrix (r, i, j, k) := by
      rw [randomRotation, hq, hm]
      rw [hslerp]
    refine ⟨by rw [heq, hq], ?_⟩
    rw [heq, quaternionMatrix_eq _ _ _ _ hn]
    have hn' : r * r + -i * -i + -j * -j + -k * -k = 1 := by linarith
    exact ⟨by rw [rodrigues_mul_transpose, hn']; simp, by rw [rodrigues_det, hn']; simp⟩

theorem abs_prod_le {x y z : ℝ} (h : x * x + y * y + z * z ≤ 1) : |x * y| ≤ 1 := by
  rw [abs_le]
  constructor
  · linarith [mul_self_nonneg (x + y), mul_self_nonneg x, mul_self_nonneg y, mul_self_nonneg z,
      (by ring : (x + y) * (x + y) = x * x + y * y + 2 * (x * y))]
  · linarith [mul_self_nonneg (x - y), mul_self_nonneg x, mul_self_nonneg y, mul_self_nonneg z,
      (by ring : (x - y) * (x - y) = x * x + y * y - 2 * (x * y))]

theorem small_block (i j k : ℝ) (hs : i * i + j * j + k * k ≤ 1) (a b : Fin 3) :
    |(if a = b then i * i + j * j + k * k else 0) - ![i, j, k] a * ![i, j, k] b| ≤ 1 := by
  have q1 := mul_self_nonneg i
  have q2 := mul_self_nonneg j
  have q3 := mul_self_nonneg k
  have p1 : |i * j| ≤ 1 := abs_prod_le hs
  have p2 : |i * k| ≤ 1 := abs_prod_le (z := j) (by linarith)
  have p3 : |j * k| ≤ 1 := abs_prod_le (z := i) (by linarith)
  have p1' : |j * i| ≤ 1 := by rw [mul_comm]; exact p1
  have p2' : |k * i| ≤ 1 := by rw [mul_comm]; exact p2
  have p3' : |k * j| ≤ 1 := by rw [mul_comm]; exact p3
  rw [abs_le] at p1 p2 p3 p1' p2' p3' ⊢
  fin_cases a <;> fin_cases b <;> simp <;> constructor <;> linarith

set_option maxHeartbeats 1000000 in
/-- **C25** (small-angle branch). In the remaining case the result is a proper rotation up to 1e-17. -/
theorem C25_small_angle (u0 u1 u2 p : ℝ) (h0 : 0 ≤ u0) (h1 : u0 ≤ 1)
    (hbranch : |sin (arccos (randomQuaternion u0 u1 u2).1)| < 1e-9) :
    ∀ a b, |(randomRotation u0 u1 u2 p * (randomRotation u0 u1 u2 p)ᵀ - 1) a b| ≤ 1e-17 := by
  obtain ⟨r, i, j, k, hq, hr0, hn⟩ := randomQuaternion_unit u0 u1 u2 h0 h1
  rw [hq] at hbranch
  dsimp only at hbranch
  have hr1 : r ≤ 1 := by nlinarith [sq_nonneg i, sq_nonneg j, sq_nonneg k]
  have hsq : sin (arccos r) ^ 2 = 1 - r ^ 2 := by
    have := Real.sin_sq_add_cos_sq (arccos r)
    rw [Real.cos_arccos (by linarith) hr1] at this; linarith
  have hsmall : 1 - r ^ 2 < 1e-18 := by
    rw [← hsq, ← sq_abs]
    calc |sin (arccos r)| ^ 2 < (1e-9) ^ 2 := pow_lt_pow_left₀ hbranch (abs_nonneg _) (by norm_num)
      _ = 1e-18 := by norm_num
  have hp0 : (0 : ℝ) ≤ max 0 (min p 1) := le_max_left _ _
  have hp1 : max 0 (min p 1) ≤ (1 : ℝ) := max_le (by norm_num) (min_le_right _ _)
  rw [randomRotation, hq]
  simp only [slerpFromIdentity, hbranch, if_true]
  generalize max 0 (min p 1) = c at *
  -- R Rᵀ - 1 = -4 c² δ (|v|² - v vᵀ), where δ = 2 c (1 - c) (1 - r)
  have hform : ∀ a b, (quaternionMatrix (1 - c + c * r, c * i, c * j, c * k) *
      (quaternionMatrix (1 - c + c * r, c * i, c * j, c * k))ᵀ - 1) a b =
      -(8 * c * (1 - c) * (1 - r) * c ^ 2) *
        ((if a = b then i * i + j * j + k * k else 0) - ![i, j, k] a * ![i, j, k] b) := by
    intro a b
    fin_cases a <;> fin_cases b <;>
      simp [quaternionMatrix, stackLast, Matrix.mul_apply, Fin.sum_univ_three]
    · linear_combination (4 * c ^ 4 * (j ^ 2 + k ^ 2)) * hn
    · linear_combination (-4 * c ^ 4 * (i * j)) * hn
    · linear_combination (-4 * c ^ 4 * (i * k)) * hn
    · linear_combination (-4 * c ^ 4 * (i * j)) * hn
    · linear_combination (4 * c ^ 4 * (i ^ 2 + k ^ 2)) * hn
    · linear_combination (-4 * c ^ 4 * (j * k)) * hn
    · linear_combination (-4 * c ^ 4 * (i * k)) * hn
    · linear_combination (-4 * c ^ 4 * (j * k)) * hn
    · linear_combination (4 * c ^ 4 * (j ^ 2 + i ^ 2)) * hn
  intro a b
  rw [hform, abs_mul, abs_neg]
  have hs : i * i + j * j + k * k ≤ 1 := by nlinarith [sq_nonneg r]
  have hA : |8 * c * (1 - c) * (1 - r) * c ^ 2| ≤ 8 * 1e-18 := by
    have hc2 : c ^ 2 ≤ 1 := by nlinarith
    have hcc : c * (1 - c) ≤ 1 := by nlinarith
    have hcc0 : 0 ≤ c * (1 - c) := mul_nonneg hp0 (by linarith)
    have hr2 : 1 - r ≤ 1e-18 := by nlinarith
    have h3 : c * (1 - c) * (1 - r) ≤ 1e-18 :=
      (mul_le_mul hcc hr2 (by linarith) (by norm_num)).trans_eq (one_mul _)
    have h3' : 0 ≤ c * (1 - c) * (1 - r) := mul_nonneg hcc0 (by linarith)
    have h4 : c * (1 - c) * (1 - r) * c ^ 2 ≤ 1e-18 :=
      (mul_le_mul h3 hc2 (sq_nonneg c) (by norm_num)).trans_eq (mul_one _)
    have h4' : 0 ≤ c * (1 - c) * (1 - r) * c ^ 2 := mul_nonneg h3' (sq_nonneg c)
    rw [show 8 * c * (1 - c) * (1 - r) * c ^ 2 = 8 * (c * (1 - c) * (1 - r) * c ^ 2) by ring,
      abs_of_nonneg (by linarith)]
    linarith
  have hB := small_block i j k hs a b
  calc _ ≤ 8 * 1e-18 * 1 := mul_le_mul hA hB (abs_nonneg _) (by norm_num)
    _ ≤ 1e-17 := by norm_num

/-- Non-vacuity: the draw (0, 1/12, 0) gives a quaternion with real part 1/2, i.e. a rotation by 2π/3. -/
example : (randomQuaternion 0 (1 / 12) 0).1 = 1 / 2 ∧ ¬ |sin (arccos ((1 : ℝ) / 2))| < 1e-9 := by
  refine ⟨?_, ?_⟩
  · have h : sin (2 * π * (1 / 12)) = 1 / 2 := by
      rw [show 2 * π * (1 / 12) = π / 6 by ring, Real.sin_pi_div_six]
    have h' : ¬ √((1 : ℝ) - 0) * sin (2 * π * (1 / 12)) < 0 := by rw [h]; simp
    unfold randomQuaternion
    simp only [h', if_false]
    rw [h]; simp
  · rw [Real.sin_arccos, not_lt, abs_of_nonneg (Real.sqrt_nonneg _)]
    exact Real.le_sqrt_of_sq_le (by norm_num)

end E3x
