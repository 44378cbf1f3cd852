import Mathlib.Analysis.SpecialFunctions.PolarCoord
import Mathlib.MeasureTheory.Function.JacobianOneDim
import Mathlib.MeasureTheory.Constructions.Pi
import Mathlib.MeasureTheory.Measure.Haar.Unique
import Mathlib.MeasureTheory.Measure.Lebesgue.Basic

/-!
# Points on the three-dimensional sphere from three uniform numbers
-/

namespace E3x

open MeasureTheory Set Real
open scoped ENNReal

/-- four coordinates, in two pairs -/
abbrev Pairs := Fin 2 ⊕ Fin 2 → ℝ

theorem lintegral_shift (g : ℝ → ℝ≥0∞) (t : ℝ) : ∫⁻ s in Ioi 0, g (s + t) = ∫⁻ a in Ioi t, g a := by
  have h := lintegral_image_eq_lintegral_abs_deriv_mul (s := Ioi (0 : ℝ)) (f := fun s => s + t) (f' := fun _ => 1) measurableSet_Ioi
    (fun x _ => ((hasDerivAt_id x).add_const t).hasDerivWithinAt) (fun a _ b _ h => by simpa using h) g
  have e : (fun s => s + t) '' Ioi (0 : ℝ) = Ioi t := by
    rw [image_add_const_Ioi, zero_add]
  rw [e] at h
  rw [h]
  simp

theorem lintegral_scale (g : ℝ → ℝ≥0∞) {a : ℝ} (ha : 0 < a) :
    ∫⁻ t in Ioo 0 a, g t = ENNReal.ofReal a * ∫⁻ u in Ioo 0 1, g (a * u) := by
  have h := lintegral_image_eq_lintegral_abs_deriv_mul (s := Ioo (0 : ℝ) 1) (f := fun u => a * u) (f' := fun _ => a) measurableSet_Ioo
    (fun x _ => by simpa using ((hasDerivAt_id x).const_mul a).hasDerivWithinAt) (fun x _ y _ h => by
      simpa [ha.ne'] using h) g
  have e : (fun u => a * u) '' Ioo (0 : ℝ) 1 = Ioo 0 a := by
    rw [image_mul_left_Ioo ha]
    simp
  rw [e] at h
  rw [h, abs_of_pos ha, lintegral_const_mul' _ _ ENNReal.ofReal_ne_top]

theorem lintegral_square (g : ℝ → ℝ≥0∞) :
    ∫⁻ r in Ioi 0, ENNReal.ofReal r * g r = ENNReal.ofReal (1 / 2) * ∫⁻ s in Ioi 0, g (√s) := by
  have h := lintegral_image_eq_lintegral_abs_deriv_mul (s := Ioi (0 : ℝ)) (f := fun r => r ^ 2) (f' := fun r => 2 * r) measurableSet_Ioi
    (fun x _ => by simpa using (hasDerivAt_pow 2 x).hasDerivWithinAt) (fun x hx y hy h => by
      have hx' : 0 < x := hx
      have hy' : 0 < y := hy
      exact (pow_left_inj₀ hx'.le hy'.le two_ne_zero).1 h) (fun s => g (√s))
  have e : (fun r => r ^ 2) '' Ioi (0 : ℝ) = Ioi 0 := by
    ext s
    constructor
    · rintro ⟨r, hr, rfl⟩
      have hr' : 0 < r := hr
      exact pow_pos hr' 2
    · intro hs
      exact ⟨√s, Real.sqrt_pos.2 hs, Real.sq_sqrt (le_of_lt hs)⟩
  rw [e] at h
  rw [h, ← lintegral_const_mul' _ _ ENNReal.ofReal_ne_top]
  refine setLIntegral_congr_fun measurableSet_Ioi fun r hr => ?_
  have hr' : 0 < r := hr
  change _ = ENNReal.ofReal (1 / 2) * (ENNReal.ofReal |2 * r| * g √(r ^ 2))
  rw [Real.sqrt_sq hr'.le, abs_of_pos (by linarith), ← mul_assoc, ← ENNReal.ofReal_mul (by norm_num)]
  congr 2
  ring

theorem lintegral_angle (g : ℝ → ℝ≥0∞) :
    ∫⁻ θ in Ioo (-π) π, g θ = ENNReal.ofReal (2 * π) * ∫⁻ v in Ioo 0 1, g (2 * π * v - π) := by
  have hp := Real.pi_pos
  have h := lintegral_image_eq_lintegral_abs_deriv_mul (s := Ioo (0 : ℝ) 1) (f := fun v => 2 * π * v - π) (f' := fun _ => 2 * π)
    measurableSet_Ioo (fun x _ => by simpa using (((hasDerivAt_id x).const_mul (2 * π)).sub_const π).hasDerivWithinAt)
    (fun x _ y _ h => by
      have h' : 2 * π * x - π = 2 * π * y - π := h
      have : 2 * π * (x - y) = 0 := by linarith
      rcases mul_eq_zero.1 this with h | h <;> linarith) g
  have e : (fun v => 2 * π * v - π) '' Ioo (0 : ℝ) 1 = Ioo (-π) π := by
    ext t
    constructor
    · rintro ⟨v, ⟨h0, h1⟩, rfl⟩
      constructor <;> simp only <;> nlinarith
    · rintro ⟨h0, h1⟩
      refine ⟨(t + π) / (2 * π), ⟨by apply div_pos <;> linarith, ?_⟩, ?_⟩
      · rw [div_lt_one (by linarith)]
        linarith
      · simp only
        field_simp
        ring
  rw [e] at h
  rw [h, abs_of_pos (by linarith), lintegral_const_mul' _ _ ENNReal.ofReal_ne_top]

/-- the point on the circle -/
noncomputable def circlePoint (r v : ℝ) : ℝ × ℝ := (r * sin (2 * π * v), r * cos (2 * π * v))

theorem measurable_circlePoint : Measurable fun z : ℝ × ℝ => circlePoint z.1 z.2 := by
  unfold circlePoint
  fun_prop

/-- integration over the plane -/
theorem lintegral_plane (g : ℝ × ℝ → ℝ≥0∞) (hg : Measurable g) :
    ∫⁻ p, g p = ENNReal.ofReal π * ∫⁻ s in Ioi 0, ∫⁻ v in Ioo 0 1, g (circlePoint √s v) := by
  have hp := Real.pi_pos
  have hflip : MeasurePreserving (fun p : ℝ × ℝ => -p.swap) := by
    have h1 : MeasurePreserving (fun p : ℝ × ℝ => p.swap) := Measure.measurePreserving_swap
    exact (Measure.measurePreserving_neg (volume : Measure (ℝ × ℝ))).comp h1
  have hG : Measurable fun p : ℝ × ℝ => g (-p.swap) := hg.comp hflip.measurable
  rw [← hflip.lintegral_comp hg, ← lintegral_comp_polarCoord_symm, polarCoord_target, Measure.volume_eq_prod,
    ← Measure.prod_restrict, lintegral_prod _ (by
      refine Measurable.aemeasurable ?_
      simp only [smul_eq_mul]
      refine (ENNReal.measurable_ofReal.comp measurable_fst).mul (hG.comp ?_)
      exact measurable_fst.mul (Real.measurable_cos.comp measurable_snd) |>.prodMk
        (measurable_fst.mul (Real.measurable_sin.comp measurable_snd)))]
  simp only [smul_eq_mul, polarCoord_symm_apply]
  have e : ∀ r : ℝ, ∫⁻ θ in Ioo (-π) π, ENNReal.ofReal r * g (-(r * cos θ, r * sin θ).swap) =
      ENNReal.ofReal r * (ENNReal.ofReal (2 * π) * ∫⁻ v in Ioo 0 1, g (r * sin (2 * π * v), r * cos (2 * π * v))) := by
    intro r
    rw [lintegral_const_mul' _ _ ENNReal.ofReal_ne_top, lintegral_angle]
    congr 2
    refine lintegral_congr fun v => ?_
    rw [Real.cos_sub_pi, Real.sin_sub_pi]
    congr 1
    simp [Prod.swap]
  simp only [e]
  rw [lintegral_square fun r => ENNReal.ofReal (2 * π) * ∫⁻ v in Ioo 0 1, g (r * sin (2 * π * v), r * cos (2 * π * v)),
    lintegral_const_mul' _ _ ENNReal.ofReal_ne_top, ← mul_assoc, ← ENNReal.ofReal_mul (by norm_num)]
  unfold circlePoint
  congr 2
  ring

/-- the four numbers from two pairs -/
def joinPairs (p q : ℝ × ℝ) : Pairs := Sum.elim ![p.1, p.2] ![q.1, q.2]

theorem measurable_joinPairs : Measurable fun z : (ℝ × ℝ) × (ℝ × ℝ) => joinPairs z.1 z.2 := by
  refine measurable_pi_lambda _ fun i => ?_
  rcases i with i | i <;> fin_cases i <;> simp only [joinPairs, Sum.elim_inl, Sum.elim_inr] <;> simp <;> fun_prop

theorem lintegral_pairs (G : Pairs → ℝ≥0∞) (hG : Measurable G) : ∫⁻ x, G x = ∫⁻ p : ℝ × ℝ, ∫⁻ q : ℝ × ℝ, G (joinPairs p q) := by
  have h1 := (volume_measurePreserving_sumPiEquivProdPi_symm (fun _ : Fin 2 ⊕ Fin 2 => ℝ))
  have h2 := (volume_preserving_finTwoArrow ℝ).symm
  have h3 := h1.comp (h2.prod h2)
  rw [← h3.lintegral_comp hG]
  have e : ∀ z : (ℝ × ℝ) × (ℝ × ℝ), G (((MeasurableEquiv.sumPiEquivProdPi fun _ : Fin 2 ⊕ Fin 2 => ℝ).symm ∘
      Prod.map MeasurableEquiv.finTwoArrow.symm MeasurableEquiv.finTwoArrow.symm) z) = G (joinPairs z.1 z.2) := by
    intro z
    congr 1
  simp only [e]
  exact lintegral_prod _ (hG.comp measurable_joinPairs).aemeasurable

/-- the length of four numbers -/
noncomputable def pairsLength (x : Pairs) : ℝ := √(∑ i, x i ^ 2)

theorem measurable_pairsLength : Measurable pairsLength := by
  unfold pairsLength
  fun_prop

theorem pairsLength_circle {s t : ℝ} (hs : 0 ≤ s) (ht : 0 ≤ t) (v w : ℝ) :
    pairsLength (joinPairs (circlePoint √s v) (circlePoint √t w)) = √(s + t) := by
  unfold pairsLength joinPairs circlePoint
  congr 1
  rw [Fintype.sum_sum_type, Fin.sum_univ_two, Fin.sum_univ_two]
  simp only [Sum.elim_inl, Sum.elim_inr, Matrix.cons_val_zero, Matrix.cons_val_one]
  have h1 := Real.sin_sq_add_cos_sq (2 * π * v)
  have h2 := Real.sin_sq_add_cos_sq (2 * π * w)
  have h3 := Real.sq_sqrt hs
  have h4 := Real.sq_sqrt ht
  linear_combination √s ^ 2 * h1 + √t ^ 2 * h2 + h3 + h4

/-- the function whose integral over the unit ball is considered -/
noncomputable def radial (f : Pairs → ℝ≥0∞) (x : Pairs) : ℝ≥0∞ :=
  if pairsLength x < 1 then f fun i => x i / pairsLength x else 0

theorem measurable_radial {f : Pairs → ℝ≥0∞} (hf : Measurable f) : Measurable (radial f) := by
  unfold radial
  refine Measurable.ite (measurableSet_lt measurable_pairsLength measurable_const) (hf.comp ?_) measurable_const
  exact measurable_pi_lambda _ fun i => (measurable_pi_apply i).div measurable_pairsLength

theorem radial_circle (f : Pairs → ℝ≥0∞) {s t : ℝ} (hs : 0 < s) (ht : 0 < t) (v w : ℝ) :
    radial f (joinPairs (circlePoint √s v) (circlePoint √t w)) =
      if s + t < 1 then f (joinPairs (circlePoint √(1 - t / (s + t)) v) (circlePoint √(t / (s + t)) w)) else 0 := by
  unfold radial
  rw [pairsLength_circle hs.le ht.le]
  have e : √(s + t) < 1 ↔ s + t < 1 := by
    rw [Real.sqrt_lt' one_pos, one_pow]
  refine if_congr e ?_ rfl
  congr 1
  have h1 : 1 - t / (s + t) = s / (s + t) := by
    field_simp
    ring
  funext i
  rw [h1, Real.sqrt_div hs.le, Real.sqrt_div ht.le]
  rcases i with i | i <;> fin_cases i <;> simp [joinPairs, circlePoint] <;> ring

/-- the mean over the two angles -/
noncomputable def angleMean (f : Pairs → ℝ≥0∞) (u : ℝ) : ℝ≥0∞ :=
  ∫⁻ v in Ioo 0 1, ∫⁻ w in Ioo 0 1, f (joinPairs (circlePoint √(1 - u) v) (circlePoint √u w))

theorem measurable_point : Measurable fun z : ℝ × ℝ × ℝ => joinPairs (circlePoint √(1 - z.1) z.2.1) (circlePoint √z.1 z.2.2) := by
  refine measurable_joinPairs.comp (Measurable.prodMk ?_ ?_)
  · exact measurable_circlePoint.comp ((by fun_prop : Measurable fun z : ℝ × ℝ × ℝ => √(1 - z.1)).prodMk (by fun_prop))
  · exact measurable_circlePoint.comp ((by fun_prop : Measurable fun z : ℝ × ℝ × ℝ => √z.1).prodMk (by fun_prop))

theorem measurable_angleMean {f : Pairs → ℝ≥0∞} (hf : Measurable f) : Measurable (angleMean f) := by
  unfold angleMean
  have h := hf.comp measurable_point
  have h1 : Measurable fun z : ℝ × ℝ => ∫⁻ w in Ioo 0 1, f (joinPairs (circlePoint √(1 - z.1) z.2) (circlePoint √z.1 w)) := by
    refine Measurable.lintegral_prod_right' (f := fun z : (ℝ × ℝ) × ℝ =>
      f (joinPairs (circlePoint √(1 - z.1.1) z.1.2) (circlePoint √z.1.1 z.2))) ?_
    exact h.comp (by fun_prop : Measurable fun z : (ℝ × ℝ) × ℝ => (z.1.1, z.1.2, z.2))
  exact Measurable.lintegral_prod_right' (f := fun z : ℝ × ℝ => ∫⁻ w in Ioo 0 1,
    f (joinPairs (circlePoint √(1 - z.1) z.2) (circlePoint √z.1 w))) h1

/-- integration over a triangle -/
theorem lintegral_triangle {m : ℝ → ℝ≥0∞} (hm : Measurable m) :
    ∫⁻ s in Ioi (0 : ℝ), ∫⁻ t in Ioi (0 : ℝ), (if s + t < 1 then m (t / (s + t)) else 0) =
      (∫⁻ a in Ioo (0 : ℝ) 1, ENNReal.ofReal a) * ∫⁻ u in Ioo 0 1, m u := by
  have hmeas : Measurable fun z : ℝ × ℝ => if z.1 + z.2 < 1 then m (z.2 / (z.1 + z.2)) else 0 :=
    Measurable.ite (measurableSet_lt (by fun_prop) measurable_const) (hm.comp (by fun_prop)) measurable_const
  rw [lintegral_lintegral_swap hmeas.aemeasurable]
  have e4 : ∀ t : ℝ, ∫⁻ s in Ioi (0 : ℝ), (if s + t < 1 then m (t / (s + t)) else 0) =
      ∫⁻ a in Ioi t, if a < 1 then m (t / a) else 0 := fun t =>
    lintegral_shift (fun a => if a < 1 then m (t / a) else 0) t
  simp only [e4]
  have e5 : ∀ t ∈ Ioi (0 : ℝ), ∫⁻ a in Ioi t, (if a < 1 then m (t / a) else 0) =
      ∫⁻ a in Ioi (0 : ℝ), if t < a ∧ a < 1 then m (t / a) else 0 := by
    intro t ht
    have ht' : 0 < t := ht
    rw [← lintegral_indicator measurableSet_Ioi, ← lintegral_indicator measurableSet_Ioi]
    refine lintegral_congr fun a => ?_
    simp only [indicator, mem_Ioi]
    by_cases h1 : t < a
    · rw [if_pos h1, if_pos (ht'.trans h1)]
      exact if_congr (by simp [h1]) rfl rfl
    · rw [if_neg h1]
      simp [h1]
  rw [setLIntegral_congr_fun measurableSet_Ioi e5]
  have hmeas' : Measurable fun z : ℝ × ℝ => if z.1 < z.2 ∧ z.2 < 1 then m (z.1 / z.2) else 0 :=
    Measurable.ite ((measurableSet_lt measurable_fst measurable_snd).inter (measurableSet_lt measurable_snd measurable_const))
      (hm.comp (by fun_prop)) measurable_const
  rw [lintegral_lintegral_swap hmeas'.aemeasurable]
  have e6 : ∀ a ∈ Ioi (0 : ℝ), ∫⁻ t in Ioi (0 : ℝ), (if t < a ∧ a < 1 then m (t / a) else 0) =
      if a < 1 then ENNReal.ofReal a * ∫⁻ u in Ioo 0 1, m u else 0 := by
    intro a ha
    have ha' : 0 < a := ha
    split_ifs with h1
    · have := lintegral_scale (fun t => m (t / a)) ha'
      simp only [mul_div_cancel_left₀ _ ha'.ne'] at this
      rw [← this, ← lintegral_indicator measurableSet_Ioi, ← lintegral_indicator measurableSet_Ioo]
      refine lintegral_congr fun t => ?_
      simp only [indicator, mem_Ioi, mem_Ioo]
      by_cases h2 : 0 < t
      · simp [h1, h2]
      · simp [h2]
    · simp [h1]
  rw [setLIntegral_congr_fun measurableSet_Ioi e6]
  generalize ∫⁻ u in Ioo 0 1, m u = c
  rw [← lintegral_mul_const'' _ ENNReal.measurable_ofReal.aemeasurable, ← lintegral_indicator measurableSet_Ioi,
    ← lintegral_indicator measurableSet_Ioo]
  refine lintegral_congr fun a => ?_
  simp only [indicator, mem_Ioi, mem_Ioo]
  by_cases h1 : 0 < a <;> by_cases h2 : a < 1 <;> simp [h1, h2]

attribute [local irreducible] radial joinPairs circlePoint

/-- the integrand in polar coordinates -/
noncomputable def radialPolar (f : Pairs → ℝ≥0∞) (s v t w : ℝ) : ℝ≥0∞ := radial f (joinPairs (circlePoint √s v) (circlePoint √t w))

theorem measurable_radialPolar {f : Pairs → ℝ≥0∞} (hf : Measurable f) :
    Measurable fun z : (ℝ × ℝ) × (ℝ × ℝ) => radialPolar f z.1.1 z.1.2 z.2.1 z.2.2 := by
  unfold radialPolar
  have h1 : Measurable fun z : (ℝ × ℝ) × (ℝ × ℝ) => circlePoint √z.1.1 z.1.2 :=
    Measurable.comp (g := fun z : ℝ × ℝ => circlePoint z.1 z.2) (f := fun z : (ℝ × ℝ) × (ℝ × ℝ) => (√z.1.1, z.1.2))
      measurable_circlePoint (by fun_prop)
  have h2 : Measurable fun z : (ℝ × ℝ) × (ℝ × ℝ) => circlePoint √z.2.1 z.2.2 :=
    Measurable.comp (g := fun z : ℝ × ℝ => circlePoint z.1 z.2) (f := fun z : (ℝ × ℝ) × (ℝ × ℝ) => (√z.2.1, z.2.2))
      measurable_circlePoint (by fun_prop)
  have h3 : Measurable fun z : (ℝ × ℝ) × (ℝ × ℝ) => joinPairs (circlePoint √z.1.1 z.1.2) (circlePoint √z.2.1 z.2.2) :=
    Measurable.comp (g := fun z : (ℝ × ℝ) × (ℝ × ℝ) => joinPairs z.1 z.2)
      (f := fun z : (ℝ × ℝ) × (ℝ × ℝ) => (circlePoint √z.1.1 z.1.2, circlePoint √z.2.1 z.2.2)) measurable_joinPairs (h1.prodMk h2)
  exact Measurable.comp (g := radial f) (measurable_radial hf) h3

theorem lintegral_radial_planes {f : Pairs → ℝ≥0∞} (hf : Measurable f) :
    ∫⁻ x, radial f x = ENNReal.ofReal π * ∫⁻ s in Ioi 0, ∫⁻ v in Ioo 0 1,
      (ENNReal.ofReal π * ∫⁻ t in Ioi 0, ∫⁻ w in Ioo 0 1, radialPolar f s v t w) := by
  have hR := measurable_radial hf
  have hj : Measurable fun z : (ℝ × ℝ) × (ℝ × ℝ) => radial f (joinPairs z.1 z.2) := hR.comp measurable_joinPairs
  rw [lintegral_pairs _ hR, lintegral_plane _ (Measurable.lintegral_prod_right' hj)]
  congr 1
  refine lintegral_congr fun s => lintegral_congr fun v => ?_
  exact lintegral_plane _ (hj.comp measurable_prodMk_left)

theorem lintegral_radial_swap {f : Pairs → ℝ≥0∞} (hf : Measurable f) (s : ℝ) :
    ∫⁻ v in Ioo 0 1, (ENNReal.ofReal π * ∫⁻ t in Ioi 0, ∫⁻ w in Ioo 0 1, radialPolar f s v t w) =
      ENNReal.ofReal π * ∫⁻ t in Ioi 0, ∫⁻ v in Ioo 0 1, ∫⁻ w in Ioo 0 1, radialPolar f s v t w := by
  rw [lintegral_const_mul' _ _ ENNReal.ofReal_ne_top]
  congr 1
  have h : Measurable fun z : (ℝ × ℝ) × ℝ => radialPolar f s z.1.1 z.1.2 z.2 :=
    Measurable.comp (g := fun z : (ℝ × ℝ) × (ℝ × ℝ) => radialPolar f z.1.1 z.1.2 z.2.1 z.2.2)
      (f := fun z : (ℝ × ℝ) × ℝ => ((s, z.1.1), (z.1.2, z.2))) (measurable_radialPolar hf) (by fun_prop)
  have h' : Measurable fun z : ℝ × ℝ => ∫⁻ w in Ioo 0 1, radialPolar f s z.1 z.2 w := Measurable.lintegral_prod_right' h
  exact lintegral_lintegral_swap (f := fun v t => ∫⁻ w in Ioo 0 1, radialPolar f s v t w) h'.aemeasurable

theorem lintegral_radial_angles (f : Pairs → ℝ≥0∞) {s t : ℝ} (hs : 0 < s) (ht : 0 < t) :
    ∫⁻ v in Ioo 0 1, ∫⁻ w in Ioo 0 1, radialPolar f s v t w = if s + t < 1 then angleMean f (t / (s + t)) else 0 := by
  unfold radialPolar
  simp only [radial_circle f hs ht]
  split_ifs
  · rfl
  · simp

/-- **Integration over the unit ball** of a function of the direction. -/
theorem lintegral_radial {f : Pairs → ℝ≥0∞} (hf : Measurable f) :
    ∫⁻ x, radial f x = ENNReal.ofReal π * (ENNReal.ofReal π *
      ((∫⁻ a in Ioo (0 : ℝ) 1, ENNReal.ofReal a) * ∫⁻ u in Ioo 0 1, angleMean f u)) := by
  rw [lintegral_radial_planes hf]
  simp only [lintegral_radial_swap hf]
  rw [lintegral_const_mul' _ _ ENNReal.ofReal_ne_top, ← lintegral_triangle (measurable_angleMean hf)]
  congr 2
  refine setLIntegral_congr_fun measurableSet_Ioi fun s hs => setLIntegral_congr_fun measurableSet_Ioi fun t ht => ?_
  exact lintegral_radial_angles f hs ht

end E3x
