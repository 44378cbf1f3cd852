import Mathlib.Probability.Independence.Integration
import Mathlib.Probability.Independence.InfinitePi
import Mathlib.Probability.Distributions.Gaussian.Real
import Verif.Spec.Variance

/-!
# Moments of random bilinear forms
-/

namespace E3x

open Finset Spec MeasureTheory ProbabilityTheory

/-- a bilinear form of independent standardised random numbers with independent random coefficients -/
theorem bilinear_moments {Ω ι κ : Type*} [MeasurableSpace Ω] [DecidableEq ι] [DecidableEq κ] {P : Measure Ω}
    [IsProbabilityMeasure P] (A : Finset ι) (B : Finset κ) (X : ι → Ω → ℝ) (Y : κ → Ω → ℝ) (U : ι × κ → Ω → ℝ)
    (c : ι → κ → ℝ) (hX : IsStandard P (A : Set ι) X) (hY : IsStandard P (B : Set κ) Y)
    (hU : ∀ a ∈ A, ∀ b ∈ B, MemLp (U (a, b)) 2 P ∧ ∫ ω, U (a, b) ω ∂P = 0 ∧ ∫ ω, U (a, b) ω ^ 2 ∂P = 1)
    (hXY : IndepFun (fun ω i => X i ω) (fun ω j => Y j ω) P)
    (hXYU : IndepFun (fun ω => (fun i => X i ω, fun j => Y j ω)) (fun ω k => U k ω) P) :
    Integrable (fun ω => ∑ a ∈ A, ∑ b ∈ B, X a ω * Y b ω * (c a b * U (a, b) ω)) P ∧
    ∫ ω, ∑ a ∈ A, ∑ b ∈ B, X a ω * Y b ω * (c a b * U (a, b) ω) ∂P = 0 ∧
    Integrable (fun ω => (∑ a ∈ A, ∑ b ∈ B, X a ω * Y b ω * (c a b * U (a, b) ω)) ^ 2) P ∧
    ∫ ω, (∑ a ∈ A, ∑ b ∈ B, X a ω * Y b ω * (c a b * U (a, b) ω)) ^ 2 ∂P = ∑ a ∈ A, ∑ b ∈ B, c a b ^ 2 := by
  have i1 : ∀ a b, IndepFun (X a) (Y b) P := fun a b =>
    hXY.comp (φ := fun x : ι → ℝ => x a) (ψ := fun y : κ → ℝ => y b) (by fun_prop) (by fun_prop)
  have i2 : ∀ a b k, IndepFun (fun ω => X a ω * Y b ω) (U k) P := fun a b k =>
    hXYU.comp (φ := fun x : (ι → ℝ) × (κ → ℝ) => x.1 a * x.2 b) (ψ := fun u : ι × κ → ℝ => u k) (by fun_prop) (by fun_prop)
  have i3 : ∀ a a' b b', IndepFun (fun ω => X a ω * X a' ω) (fun ω => Y b ω * Y b' ω) P := fun a a' b b' =>
    hXY.comp (φ := fun x : ι → ℝ => x a * x a') (ψ := fun y : κ → ℝ => y b * y b') (by fun_prop) (by fun_prop)
  have i4 : ∀ a a' b b' k k', IndepFun (fun ω => X a ω * X a' ω * (Y b ω * Y b' ω)) (fun ω => U k ω * U k' ω) P :=
    fun a a' b b' k k' => hXYU.comp (φ := fun x : (ι → ℝ) × (κ → ℝ) => x.1 a * x.1 a' * (x.2 b * x.2 b')) (ψ := fun u : ι × κ → ℝ => u k * u k')
      (by fun_prop) (by fun_prop)
  have t1 : ∀ a ∈ A, ∀ b ∈ B, Integrable (fun ω => X a ω * Y b ω * (c a b * U (a, b) ω)) P ∧
      ∫ ω, X a ω * Y b ω * (c a b * U (a, b) ω) ∂P = 0 := by
    intro a ha b hb
    have hab : Integrable (U (a, b)) P := (hU a ha b hb).1.integrable (by norm_num)
    have h1 : Integrable (fun ω => X a ω * Y b ω) P := (i1 a b).integrable_mul (hX.integrable a ha) (hY.integrable b hb)
    have h2 : Integrable (fun ω => X a ω * Y b ω * U (a, b) ω) P := (i2 a b (a, b)).integrable_mul h1 hab
    have e : (fun ω => X a ω * Y b ω * (c a b * U (a, b) ω)) = fun ω => c a b * (X a ω * Y b ω * U (a, b) ω) := by
      funext ω; ring
    rw [e]
    refine ⟨h2.const_mul _, ?_⟩
    rw [integral_const_mul, (i2 a b (a, b)).integral_fun_mul_eq_mul_integral h1.1 hab.1, (hU a ha b hb).2.1]
    ring
  have t2 : ∀ a ∈ A, ∀ b ∈ B, ∀ a' ∈ A, ∀ b' ∈ B,
      Integrable (fun ω => X a ω * Y b ω * (c a b * U (a, b) ω) * (X a' ω * Y b' ω * (c a' b' * U (a', b') ω))) P ∧
      ∫ ω, X a ω * Y b ω * (c a b * U (a, b) ω) * (X a' ω * Y b' ω * (c a' b' * U (a', b') ω)) ∂P =
        if a = a' ∧ b = b' then c a b ^ 2 else 0 := by
    intro a ha b hb a' ha' b' hb'
    have hx := hX.integrable_mul a ha a' ha'
    have hy := hY.integrable_mul b hb b' hb'
    have hu : Integrable (fun ω => U (a, b) ω * U (a', b') ω) P := (hU a ha b hb).1.integrable_mul (hU a' ha' b' hb').1
    have h1 : Integrable (fun ω => X a ω * X a' ω * (Y b ω * Y b' ω)) P := (i3 a a' b b').integrable_mul hx hy
    have h2 : Integrable (fun ω => X a ω * X a' ω * (Y b ω * Y b' ω) * (U (a, b) ω * U (a', b') ω)) P :=
      (i4 a a' b b' (a, b) (a', b')).integrable_mul h1 hu
    have e : (fun ω => X a ω * Y b ω * (c a b * U (a, b) ω) * (X a' ω * Y b' ω * (c a' b' * U (a', b') ω))) =
        fun ω => c a b * c a' b' * (X a ω * X a' ω * (Y b ω * Y b' ω) * (U (a, b) ω * U (a', b') ω)) := by
      funext ω; ring
    rw [e]
    refine ⟨h2.const_mul _, ?_⟩
    rw [integral_const_mul, (i4 a a' b b' (a, b) (a', b')).integral_fun_mul_eq_mul_integral h1.1 hu.1,
      (i3 a a' b b').integral_fun_mul_eq_mul_integral hx.1 hy.1, hX.covariance a ha a' ha', hY.covariance b hb b' hb']
    by_cases h : a = a' ∧ b = b'
    · obtain ⟨rfl, rfl⟩ := h
      have h := (hU a ha b hb).2.2
      simp only [sq] at h
      rw [h]
      simp
      ring
    · rw [if_neg h]
      by_cases h1 : a = a'
      · have h2 : b ≠ b' := fun h2 => h ⟨h1, h2⟩
        simp [h2]
      · simp [h1]
  have e : (fun ω => (∑ a ∈ A, ∑ b ∈ B, X a ω * Y b ω * (c a b * U (a, b) ω)) ^ 2) = fun ω =>
      ∑ a ∈ A, ∑ b ∈ B, ∑ a' ∈ A, ∑ b' ∈ B,
        X a ω * Y b ω * (c a b * U (a, b) ω) * (X a' ω * Y b' ω * (c a' b' * U (a', b') ω)) := by
    funext ω
    rw [sq, sum_mul]
    refine sum_congr rfl fun a _ => ?_
    rw [sum_mul]
    refine sum_congr rfl fun b _ => ?_
    rw [mul_sum]
    refine sum_congr rfl fun a' _ => ?_
    rw [mul_sum]
  refine ⟨?_, ?_, ?_, ?_⟩
  · exact integrable_finsetSum _ fun a ha => integrable_finsetSum _ fun b hb => (t1 a ha b hb).1
  · rw [integral_finsetSum _ fun a ha => integrable_finsetSum _ fun b hb => (t1 a ha b hb).1]
    refine sum_eq_zero fun a ha => ?_
    rw [integral_finsetSum _ fun b hb => (t1 a ha b hb).1]
    exact sum_eq_zero fun b hb => (t1 a ha b hb).2
  · rw [e]
    exact integrable_finsetSum _ fun a ha => integrable_finsetSum _ fun b hb => integrable_finsetSum _ fun a' ha' =>
      integrable_finsetSum _ fun b' hb' => (t2 a ha b hb a' ha' b' hb').1
  · rw [e, integral_finsetSum _ fun a ha => integrable_finsetSum _ fun b hb => integrable_finsetSum _ fun a' ha' =>
      integrable_finsetSum _ fun b' hb' => (t2 a ha b hb a' ha' b' hb').1]
    refine sum_congr rfl fun a ha => ?_
    rw [integral_finsetSum _ fun b hb => integrable_finsetSum _ fun a' ha' =>
      integrable_finsetSum _ fun b' hb' => (t2 a ha b hb a' ha' b' hb').1]
    refine sum_congr rfl fun b hb => ?_
    rw [integral_finsetSum _ fun a' ha' => integrable_finsetSum _ fun b' hb' => (t2 a ha b hb a' ha' b' hb').1,
      sum_congr rfl fun a' ha' => integral_finsetSum _ fun b' hb' => (t2 a ha b hb a' ha' b' hb').1,
      sum_congr rfl fun a' ha' => sum_congr rfl fun b' hb' => (t2 a ha b hb a' ha' b' hb').2, sum_eq_single a,
      sum_eq_single b]
    · simp
    · intro b' _ hne
      rw [if_neg (fun h => hne h.2.symm)]
    · intro h
      exact absurd hb h
    · intro a' _ hne
      exact sum_eq_zero fun b' _ => if_neg (fun h => hne h.1.symm)
    · intro h
      exact absurd ha h

/-- standardised random numbers remain standardised on a larger probability space -/
theorem IsStandard.comp {Ω Ω' ι : Type*} [MeasurableSpace Ω] [MeasurableSpace Ω'] [DecidableEq ι] {P : Measure Ω}
    {Q : Measure Ω'} {s : Set ι} {Z : ι → Ω' → ℝ} (h : IsStandard Q s Z) {g : Ω → Ω'} (hg : MeasurePreserving g P Q)
    (hm : ∀ i, Measurable (Z i)) : IsStandard P s fun i ω => Z i (g ω) := by
  have hi : ∀ f : Ω' → ℝ, Measurable f → ∫ ω, f (g ω) ∂P = ∫ ω, f ω ∂Q := by
    intro f hf
    rw [← hg.map_eq, integral_map hg.measurable.aemeasurable hf.aestronglyMeasurable]
  refine ⟨fun i his => hg.integrable_comp_of_integrable (h.integrable i his), fun i his => ?_,
    fun i his j hj => hg.integrable_comp_of_integrable (h.integrable_mul i his j hj), fun i his j hj => ?_⟩
  · rw [hi (Z i) (hm i), h.mean i his]
  · rw [hi (fun ω => Z i ω * Z j ω) ((hm i).mul (hm j)), h.covariance i his j hj]

/-- independent normally distributed random numbers -/
theorem isStandard_gaussian (ι : Type*) [DecidableEq ι] (s : Set ι) :
    IsStandard (Measure.infinitePi fun _ : ι => gaussianReal 0 1) s fun i ω => ω i := by
  have hp := fun i : ι => measurePreserving_eval_infinitePi (fun _ : ι => gaussianReal 0 1) i
  have hg : Integrable (fun x : ℝ => x) (gaussianReal 0 1) := (memLp_id_gaussianReal 1).integrable (by norm_num)
  have hg2 : MemLp (fun x : ℝ => x) 2 (gaussianReal 0 1) := memLp_id_gaussianReal 2
  have h1 : ∀ i : ι, Integrable (fun ω : ι → ℝ => ω i) (Measure.infinitePi fun _ : ι => gaussianReal 0 1) := fun i =>
    (hp i).integrable_comp_of_integrable hg
  have h2 : ∀ i : ι, MemLp (fun ω : ι → ℝ => ω i) 2 (Measure.infinitePi fun _ : ι => gaussianReal 0 1) := fun i =>
    hg2.comp_measurePreserving (hp i)
  have h3 : ∀ i : ι, ∫ ω : ι → ℝ, ω i ∂(Measure.infinitePi fun _ : ι => gaussianReal 0 1) = 0 := by
    intro i
    have h := integral_map (μ := Measure.infinitePi fun _ : ι => gaussianReal 0 1) (φ := fun ω : ι → ℝ => ω i)
      (f := fun x : ℝ => x) (measurable_pi_apply i).aemeasurable measurable_id'.aestronglyMeasurable
    rw [← h, (hp i).map_eq, integral_id_gaussianReal]
  refine ⟨fun i _ => h1 i, fun i _ => h3 i, fun i _ j _ => (h2 i).integrable_mul (h2 j), fun i _ j _ => ?_⟩
  by_cases hij : i = j
  · subst hij
    rw [if_pos rfl]
    have h := integral_map (μ := Measure.infinitePi fun _ : ι => gaussianReal 0 1) (φ := fun ω : ι → ℝ => ω i)
      (f := fun x : ℝ => x * x) (measurable_pi_apply i).aemeasurable (by fun_prop)
    rw [← h, (hp i).map_eq]
    have hv := variance_fun_id_gaussianReal (μ := 0) (v := 1)
    rw [variance_eq_integral measurable_id'.aemeasurable, integral_id_gaussianReal] at hv
    simpa [sq] using hv
  · rw [if_neg hij]
    have hind := iIndepFun_infinitePi (P := fun _ : ι => gaussianReal 0 1) (X := fun (_ : ι) (x : ℝ) => x)
      (fun _ => measurable_id')
    have h := (hind.indepFun hij).integral_fun_mul_eq_mul_integral (h1 i).1 (h1 j).1
    rw [h, h3 i, zero_mul]

end E3x
