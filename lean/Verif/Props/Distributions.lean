import Mathlib.Analysis.SpecialFunctions.Integrals.Basic
import Mathlib.Analysis.SpecialFunctions.ExpDeriv
import Mathlib.Analysis.Calculus.MeanValue
import Mathlib.Tactic.IntervalCases
import Verif.Props.Initializers

/-!
# C74: the constants by which the initialisers multiply random numbers
-/

namespace E3x

noncomputable section

open Finset Spec

/-- the Taylor polynomials of the exponential function are upper and lower bounds in turn -/
theorem exp_neg_taylor (n : ℕ) : ∀ t : ℝ, 0 ≤ t →
    0 ≤ (-1) ^ n * (Real.exp (-t) - ∑ k ∈ range n, (-t) ^ k / (k.factorial : ℝ)) := by
  induction n with
  | zero =>
    intro t _
    simpa using (Real.exp_pos (-t)).le
  | succ n ih =>
    have hd : ∀ t : ℝ, HasDerivAt (fun t : ℝ => (-1) ^ (n + 1) * (Real.exp (-t) -
        ∑ k ∈ range (n + 1), (-t) ^ k / (k.factorial : ℝ)))
        ((-1) ^ n * (Real.exp (-t) - ∑ k ∈ range n, (-t) ^ k / (k.factorial : ℝ))) t := by
      intro t
      have h1 : HasDerivAt (fun t : ℝ => Real.exp (-t)) (-Real.exp (-t)) t := by
        simpa using (hasDerivAt_neg t).exp
      have h2 : HasDerivAt (fun t : ℝ => ∑ k ∈ range (n + 1), (-t) ^ k / (k.factorial : ℝ))
          (∑ k ∈ range (n + 1), ((k : ℝ) * (-t) ^ (k - 1) * (-1)) / (k.factorial : ℝ)) t := by
        refine HasDerivAt.fun_sum fun k _ => ?_
        exact ((hasDerivAt_neg t).pow k).div_const _
      refine ((h1.sub h2).const_mul ((-1) ^ (n + 1))).congr_deriv ?_
      rw [sum_range_succ']
      have h3 : ∀ k ∈ range n, ((k + 1 : ℕ) : ℝ) * (-t) ^ (k + 1 - 1) * (-1) / ((k + 1).factorial : ℝ) =
          - ((-t) ^ k / (k.factorial : ℝ)) := by
        intro k _
        rw [Nat.factorial_succ]
        push_cast
        have : (k.factorial : ℝ) ≠ 0 := by positivity
        have : (k : ℝ) + 1 ≠ 0 := by positivity
        field_simp
      rw [sum_congr rfl h3, sum_neg_distrib]
      simp
      ring
    have hmono : MonotoneOn (fun t : ℝ => (-1) ^ (n + 1) * (Real.exp (-t) -
        ∑ k ∈ range (n + 1), (-t) ^ k / (k.factorial : ℝ))) (Set.Ici 0) := by
      refine monotoneOn_of_deriv_nonneg (convex_Ici 0) (fun t _ => (hd t).continuousAt.continuousWithinAt)
        (fun t _ => (hd t).differentiableAt.differentiableWithinAt) fun t ht => ?_
      rw [(hd t).deriv]
      rw [interior_Ici] at ht
      exact ih t (le_of_lt ht)
    intro t ht
    have h := hmono (Set.mem_Ici.2 le_rfl) (Set.mem_Ici.2 ht) ht
    refine le_trans (le_of_eq ?_) h
    have : ∑ k ∈ range (n + 1), (-(0 : ℝ)) ^ k / (k.factorial : ℝ) = 1 := by
      rw [sum_range_succ']
      simp
    dsimp only
    rw [this]
    simp

/-- **C74 (uniform distribution).** Numbers from the uniform distribution on `(-1, 1)`, times the factor of the
initialisers, have mean zero and variance one. -/
theorem C74_uniform : (∫ x in (-1 : ℝ)..1, (unitFactor "uniform" * x) * (1 / 2)) = 0 ∧
    (∫ x in (-1 : ℝ)..1, (unitFactor "uniform" * x) ^ 2 * (1 / 2)) = 1 := by
  have h : unitFactor "uniform" = Real.sqrt 3 := by unfold unitFactor; simp
  rw [h]
  constructor
  · rw [intervalIntegral.integral_mul_const, intervalIntegral.integral_const_mul, integral_id]
    norm_num
  · have e : ∀ x : ℝ, (Real.sqrt 3 * x) ^ 2 * (1 / 2) = 3 / 2 * x ^ 2 := by
      intro x
      rw [mul_pow, Real.sq_sqrt (by norm_num)]
      ring
    simp only [e]
    rw [intervalIntegral.integral_const_mul, integral_pow]
    norm_num

/-- the integral of a Taylor polynomial -/
theorem integral_taylor (n : ℕ) : ∫ x in (-2 : ℝ)..2, ∑ k ∈ range n, (-(x ^ 2 / 2)) ^ k / (k.factorial : ℝ) =
    ∑ k ∈ range n, (-1) ^ k * 2 ^ (k + 2) / ((2 * k + 1) * (k.factorial : ℝ)) := by
  rw [intervalIntegral.integral_finsetSum]
  · refine sum_congr rfl fun k _ => ?_
    have e : ∀ x : ℝ, (-(x ^ 2 / 2)) ^ k / (k.factorial : ℝ) = ((-1) ^ k / (2 ^ k * k.factorial)) * x ^ (2 * k) := by
      intro x
      rw [neg_pow, div_pow, ← pow_mul]
      field_simp
    simp only [e]
    rw [intervalIntegral.integral_const_mul, integral_pow]
    have h1 : (-2 : ℝ) ^ (2 * k + 1) = - 2 ^ (2 * k + 1) := (by exact ⟨k, rfl⟩ : Odd (2 * k + 1)).neg_pow 2
    rw [h1]
    have h2 : (2 : ℝ) ^ (2 * k + 1) = 2 ^ k * 2 ^ k * 2 := by rw [pow_succ, two_mul, pow_add]
    rw [h2, pow_add]
    have : (k.factorial : ℝ) ≠ 0 := by positivity
    have : 2 * (k : ℝ) + 1 ≠ 0 := by positivity
    push_cast
    field_simp
    ring
  · intro k _
    exact Continuous.intervalIntegrable (by fun_prop) _ _

theorem truncated_mass : 2.392576026645216404 < ∫ x in (-2 : ℝ)..2, Real.exp (-(x ^ 2 / 2)) ∧
    ∫ x in (-2 : ℝ)..2, Real.exp (-(x ^ 2 / 2)) < 2.392576026645216407 := by
  have hc : ∀ n, IntervalIntegrable (fun x : ℝ => ∑ k ∈ range n, (-(x ^ 2 / 2)) ^ k / (k.factorial : ℝ)) MeasureTheory.volume (-2) 2 :=
    fun n => Continuous.intervalIntegrable (by fun_prop) _ _
  have hc' : IntervalIntegrable (fun x : ℝ => Real.exp (-(x ^ 2 / 2))) MeasureTheory.volume (-2) 2 :=
    Continuous.intervalIntegrable (by fun_prop) _ _
  have h1 := intervalIntegral.integral_mono_on (by norm_num : (-2 : ℝ) ≤ 2) (hc 30) hc' (fun x _ => by
    have h := exp_neg_taylor 30 (x ^ 2 / 2) (by positivity)
    norm_num at h
    exact h)
  have h2 := intervalIntegral.integral_mono_on (by norm_num : (-2 : ℝ) ≤ 2) hc' (hc 29) (fun x _ => by
    have h := exp_neg_taylor 29 (x ^ 2 / 2) (by positivity)
    norm_num at h
    exact h)
  rw [integral_taylor] at h1 h2
  simp only [sum_range_succ, sum_range_zero, Nat.factorial] at h1 h2
  norm_num at h1 h2
  constructor <;> linarith

theorem truncated_second : ∫ x in (-2 : ℝ)..2, x ^ 2 * Real.exp (-(x ^ 2 / 2)) =
    (∫ x in (-2 : ℝ)..2, Real.exp (-(x ^ 2 / 2))) - 4 * Real.exp (-2) := by
  have hd : ∀ x ∈ Set.uIcc (-2 : ℝ) 2, HasDerivAt (fun x : ℝ => x * Real.exp (-(x ^ 2 / 2)))
      (Real.exp (-(x ^ 2 / 2)) - x ^ 2 * Real.exp (-(x ^ 2 / 2))) x := by
    intro x _
    have h : HasDerivAt (fun x : ℝ => -(x ^ 2 / 2)) (-x) x := by
      refine (((hasDerivAt_pow 2 x).div_const 2).neg).congr_deriv ?_
      simp
    refine ((hasDerivAt_id x).mul h.exp).congr_deriv ?_
    simp
    ring
  have h1 := intervalIntegral.integral_eq_sub_of_hasDerivAt hd (Continuous.intervalIntegrable (by fun_prop) _ _)
  rw [intervalIntegral.integral_sub (Continuous.intervalIntegrable (by fun_prop) _ _)
    (Continuous.intervalIntegrable (by fun_prop) _ _)] at h1
  norm_num at h1
  linarith

/-- **C74 (truncated normal distribution).** The normal distribution restricted to `(-2, 2)` has mean zero, and the
constant by which the initialisers divide numbers drawn from it is its standard deviation up to `1e-16`. -/
theorem C74_truncated_normal :
    (∫ x in (-2 : ℝ)..2, x * Real.exp (-(x ^ 2 / 2))) / (∫ x in (-2 : ℝ)..2, Real.exp (-(x ^ 2 / 2))) = 0 ∧
    |Real.sqrt ((∫ x in (-2 : ℝ)..2, x ^ 2 * Real.exp (-(x ^ 2 / 2))) / (∫ x in (-2 : ℝ)..2, Real.exp (-(x ^ 2 / 2)))) -
      1 / unitFactor "truncated_normal"| ≤ 1e-16 := by
  obtain ⟨m1, m2⟩ := truncated_mass
  constructor
  · have hd : ∀ x ∈ Set.uIcc (-2 : ℝ) 2, HasDerivAt (fun x : ℝ => - Real.exp (-(x ^ 2 / 2)))
        (x * Real.exp (-(x ^ 2 / 2))) x := by
      intro x _
      have h : HasDerivAt (fun x : ℝ => -(x ^ 2 / 2)) (-x) x := by
        refine (((hasDerivAt_pow 2 x).div_const 2).neg).congr_deriv ?_
        simp
      refine (h.exp.neg).congr_deriv ?_
      ring
    rw [intervalIntegral.integral_eq_sub_of_hasDerivAt hd (Continuous.intervalIntegrable (by fun_prop) _ _)]
    norm_num
  · rw [truncated_second]
    set I := ∫ x in (-2 : ℝ)..2, Real.exp (-(x ^ 2 / 2)) with hI
    have e1 := exp_neg_taylor 32 2 (by norm_num)
    have e2 := exp_neg_taylor 31 2 (by norm_num)
    simp only [sum_range_succ, sum_range_zero, Nat.factorial] at e1 e2
    norm_num at e1 e2
    have hu : 1 / unitFactor "truncated_normal" = 0.87962566103423978 := by
      unfold unitFactor
      rw [if_neg (by decide), if_pos rfl]
      norm_num
    have hpos : 0 < I := by linarith
    have hq : (I - 4 * Real.exp (-2)) / I = 1 - 4 * Real.exp (-2) / I := by
      field_simp
    rw [hu, hq, abs_le]
    constructor
    · have : (0.87962566103423978 - 1e-16 : ℝ) ≤ Real.sqrt (1 - 4 * Real.exp (-2) / I) := by
        apply Real.le_sqrt_of_sq_le
        rw [le_sub_comm, div_le_iff₀ hpos]
        norm_num
        nlinarith
      linarith
    · have : Real.sqrt (1 - 4 * Real.exp (-2) / I) ≤ (0.87962566103423978 + 1e-16 : ℝ) := by
        rw [Real.sqrt_le_left (by norm_num)]
        rw [sub_le_comm, le_div_iff₀ hpos]
        norm_num
        nlinarith
      linarith

end

end E3x
