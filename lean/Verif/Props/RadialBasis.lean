import Mathlib.RingTheory.Polynomial.Bernstein
import Mathlib.RingTheory.Polynomial.Chebyshev
import Mathlib.Analysis.SpecialFunctions.Trigonometric.Chebyshev.Basic
import Mathlib.Analysis.SpecialFunctions.Trigonometric.Chebyshev.RootsExtrema
import Mathlib.Analysis.SpecialFunctions.Trigonometric.Sinc
import Mathlib.Analysis.SpecialFunctions.Trigonometric.Bounds
import Mathlib.Analysis.Calculus.Deriv.Polynomial
import Mathlib.Analysis.SpecialFunctions.Gamma.Basic
import Verif.Props.Cutoff
import Verif.Props.Switch

/-!
# C45 (Bernstein), C47 (Chebyshev, Fourier, Gaussian), C52 (sinc)
-/

namespace E3x

open Real Set

/-! ## C45: Bernstein -/

/-- The Bernstein polynomials of degree `n`, written out. -/
noncomputable def Spec.bernstein (n v : ℕ) (x : ℝ) : ℝ := n.choose v * x ^ v * (1 - x) ^ (n - v)

theorem Spec.bernstein_eq_eval (n v : ℕ) (x : ℝ) : Spec.bernstein n v x = (bernsteinPolynomial ℝ n v).eval x := by
  simp [Spec.bernstein, bernsteinPolynomial]

theorem binomln_eq {n v : ℕ} (h : v ≤ n) : -betaln (1 + n - v) (1 + v) - log (n + 1) = log (n.choose v) := by
  have e1 : (1 + n - v : ℝ) = ((n - v : ℕ) : ℝ) + 1 := by rw [Nat.cast_sub h]; ring
  have e2 : (1 + v : ℝ) = (v : ℝ) + 1 := by ring
  have e3 : (1 + n - v : ℝ) + (1 + v) = ((n + 1 : ℕ) : ℝ) + 1 := by push_cast; ring
  unfold betaln
  rw [e3, e1, e2, Gamma_nat_eq_factorial, Gamma_nat_eq_factorial, Gamma_nat_eq_factorial]
  have p1 : ((n - v).factorial : ℝ) ≠ 0 := by positivity
  have p2 : (v.factorial : ℝ) ≠ 0 := by positivity
  have p4 : (n.choose v : ℝ) ≠ 0 := by exact_mod_cast (Nat.choose_pos h).ne'
  have p5 : ((n : ℝ) + 1) ≠ 0 := by positivity
  have hf : ((n + 1).factorial : ℝ) = (n + 1) * (n.choose v * v.factorial * (n - v).factorial) := by
    rw [Nat.factorial_succ, ← Nat.choose_mul_factorial_mul_factorial h]; push_cast; ring
  rw [hf, log_mul p5 (by positivity), log_mul (by positivity) p1, log_mul p4 p2]
  ring

theorem bernstein_ok (eps x : ℝ) {num : ℤ} (h : 1 ≤ num) : ∃ b, bernstein eps x num = .ok b := by
  unfold bernstein
  rw [if_neg (by omega)]
  split_ifs
  · exact ⟨_, rfl⟩
  · exact ⟨_, rfl⟩

/-- **C45.** Between the thresholds the entries are the Bernstein polynomials of degree `num - 1`. -/
theorem C45_values (eps x : ℝ) (h0 : 0 < eps) (hx : eps ≤ x) (hx' : x ≤ 1 - eps) (n : ℕ) (b : ℕ → ℝ)
    (hb : bernstein eps x (n + 1) = .ok b) (v : ℕ) (hv : v ≤ n) :
    b v = n.choose v * x ^ v * (1 - x) ^ (n - v) := by
  unfold bernstein at hb
  rw [if_neg (by omega)] at hb
  split_ifs at hb with h1
  · have hn : n = 0 := by omega
    subst hn
    have hv0 : v = 0 := by omega
    subst hv0
    rw [← Except.ok.inj hb]; simp
  · have hn : ((n : ℤ) + 1 - 1).toNat = n := by omega
    rw [hn] at hb
    have := congrFun (Except.ok.inj hb) v
    simp only [not_lt.mpr hx, not_lt.mpr hx', or_self, if_false, false_and] at this
    rw [← this, binomln_eq hv, exp_add, exp_add, exp_log (by exact_mod_cast Nat.choose_pos hv)]
    have hxp : 0 < x := by linarith
    have hxp' : 0 < 1 - x := by linarith
    congr 1
    · congr 1
      rw [exp_nat_mul, exp_log hxp]
    · rw [← Nat.cast_sub hv, exp_nat_mul, ← sub_eq_add_neg, exp_log hxp']

/-- **C45.** At and beyond the thresholds the values are those of the Bernstein polynomials at the end points 0, 1. -/
theorem C45_ends (eps x : ℝ) (h1 : eps < 1 / 2) (n : ℕ) (b : ℕ → ℝ)
    (hb : bernstein eps x (n + 1) = .ok b) (v : ℕ) (hv : v ≤ n) :
    (x < eps → b v = Spec.bernstein n v 0) ∧ (1 - eps < x → b v = Spec.bernstein n v 1) := by
  rw [Spec.bernstein_eq_eval, Spec.bernstein_eq_eval, bernsteinPolynomial.eval_at_0, bernsteinPolynomial.eval_at_1]
  unfold bernstein at hb
  rw [if_neg (by omega)] at hb
  split_ifs at hb with h2
  · have hn : n = 0 := by omega
    subst hn
    have hv0 : v = 0 := by omega
    subst hv0
    rw [← Except.ok.inj hb]; simp
  · have hn : ((n : ℤ) + 1 - 1).toNat = n := by omega
    rw [hn] at hb
    have := congrFun (Except.ok.inj hb) v
    constructor
    · intro hx
      have hx1 : ¬ 1 - eps < x := by linarith
      simp only [hx, hx1, or_false, if_true, true_and, false_and, if_false] at this
      exact this.symm
    · intro hx
      have hx1 : ¬ x < eps := by linarith
      simp only [hx, hx1, or_true, if_true, true_and, false_and, if_false] at this
      exact this.symm

/-- The value at `x` is that of the Bernstein polynomial at a point of `[0, 1]` which does not depend on the index. -/
theorem bernstein_at (eps x : ℝ) (h0 : 0 < eps) (h1 : eps < 1 / 2) (n : ℕ) (b : ℕ → ℝ)
    (hb : bernstein eps x (n + 1) = .ok b) :
    ∃ y, 0 ≤ y ∧ y ≤ 1 ∧ ∀ v, v ≤ n → b v = Spec.bernstein n v y := by
  by_cases hx : x < eps
  · exact ⟨0, le_rfl, zero_le_one, fun v hv => (C45_ends eps x h1 n b hb v hv).1 hx⟩
  by_cases hx' : 1 - eps < x
  · exact ⟨1, zero_le_one, le_rfl, fun v hv => (C45_ends eps x h1 n b hb v hv).2 hx'⟩
  push Not at hx hx'
  exact ⟨x, by linarith, by linarith, fun v hv => C45_values eps x h0 hx hx' n b hb v hv⟩

/-- **C45.** For every `num ≥ 1` and every input the entries are non-negative and sum to one. -/
theorem C45_partition (eps x : ℝ) (h0 : 0 < eps) (h1 : eps < 1 / 2) (num : ℕ) (hn : 1 ≤ num) (b : ℕ → ℝ)
    (hb : bernstein eps x num = .ok b) : Spec.PartitionOfUnity num b := by
  obtain ⟨n, rfl⟩ : ∃ n, num = n + 1 := ⟨num - 1, by omega⟩
  push_cast at hb
  obtain ⟨y, hy0, hy1, hy⟩ := bernstein_at eps x h0 h1 n b hb
  constructor
  · intro k hk
    rw [hy k (by omega)]
    have : 0 ≤ 1 - y := by linarith
    unfold Spec.bernstein
    positivity
  · rw [Finset.sum_congr rfl fun k hk => hy k (by have := Finset.mem_range.mp hk; omega)]
    have := congrArg (Polynomial.eval y) (bernsteinPolynomial.sum ℝ n)
    rw [Polynomial.eval_finsetSum, Polynomial.eval_one] at this
    rw [← this]
    exact Finset.sum_congr rfl fun k _ => Spec.bernstein_eq_eval n k y

/-- **C45.** `num < 1`, and nothing else, raises; the error is a ValueError. -/
theorem C45_raises (eps x : ℝ) (num : ℤ) :
    (num < 1 → bernstein eps x num = .error .valueError) ∧ (1 ≤ num → ∃ b, bernstein eps x num = .ok b) := by
  refine ⟨fun h => by simp [bernstein, h], fun h => bernstein_ok eps x h⟩

/-- **C45.** Strictly between the thresholds the hand-written derivative of entry `v` is the derivative of the computed
function (which there is the Bernstein polynomial), times the incoming tangent. -/
theorem C45_jvp (eps x xDot : ℝ) (h0 : 0 < eps) (hx : eps < x) (hx' : x < 1 - eps) (n : ℕ) (b : ℝ → ℕ → ℝ)
    (hb : ∀ y, bernstein eps y (n + 1) = .ok (b y)) (v : ℕ) (hv : v ≤ n) :
    ∃ f' t, HasDerivAt (fun y => b y v) f' x ∧ HasDerivAt (Spec.bernstein n v) f' x ∧
      bernsteinTangent eps x (n + 1) xDot = .ok t ∧ t v = f' * xDot := by
  have hev : (fun y => b y v) =ᶠ[nhds x] Spec.bernstein n v := by
    filter_upwards [Ioo_mem_nhds hx hx'] with y hy
    exact C45_values eps y h0 hy.1.le hy.2.le n (b y) (hb y) v hv
  have hpoly : Spec.bernstein n v = fun y => (bernsteinPolynomial ℝ n v).eval y :=
    funext fun y => Spec.bernstein_eq_eval n v y
  have hder : HasDerivAt (Spec.bernstein n v) ((bernsteinPolynomial ℝ n v).derivative.eval x) x := by
    rw [hpoly]; exact (bernsteinPolynomial ℝ n v).hasDerivAt x
  rcases Nat.eq_zero_or_pos n with rfl | hn
  · have hv0 : v = 0 := by omega
    subst hv0
    refine ⟨_, fun _ => 0 * xDot, hder.congr_of_eventuallyEq hev, hder, ?_, ?_⟩
    · unfold bernsteinTangent
      rw [hb x]
      simp [Except.bind]
    · simp [bernsteinPolynomial]
  · obtain ⟨m, rfl⟩ : ∃ m, n = m + 1 := ⟨n - 1, by omega⟩
    obtain ⟨l, hl⟩ := bernstein_ok eps x (num := (m : ℤ) + 1) (by omega)
    have hlv : ∀ u, u ≤ m → l u = (bernsteinPolynomial ℝ m u).eval x := by
      intro u hu
      rw [← Spec.bernstein_eq_eval]
      exact C45_values eps x h0 hx.le hx'.le m l hl u hu
    have hlow : ∀ u : ℕ, (if u < m + 1 then l u else 0) = (bernsteinPolynomial ℝ m u).eval x := by
      intro u
      split_ifs with hu
      · exact hlv u (by omega)
      · rw [bernsteinPolynomial.eq_zero_of_lt ℝ (by omega), Polynomial.eval_zero]
    have htan : bernsteinTangent eps x (((m + 1 : ℕ) : ℤ) + 1) xDot = .ok fun u =>
        xDot * ((((m + 1 : ℕ) : ℤ) + 1 : ℤ) - 1) *
          ((if u = 0 then 0 else if u - 1 < m + 1 then l (u - 1) else 0) - if u < m + 1 then l u else 0) := by
      unfold bernsteinTangent
      rw [hb x]
      have e1 : (((m + 1 : ℕ) : ℤ) + 1 - 1) = (m : ℤ) + 1 := by push_cast; ring
      have e2 : ((m : ℤ) + 1).toNat = m + 1 := by omega
      have e3 : (1 : ℤ) < ((m + 1 : ℕ) : ℤ) + 1 := by push_cast; omega
      simp only [Except.bind, e1, hl, e2, e3, if_true]
    refine ⟨_, _, hder.congr_of_eventuallyEq hev, hder, htan, ?_⟩
    rw [hlow v]
    rcases Nat.eq_zero_or_pos v with rfl | hvp
    · rw [bernsteinPolynomial.derivative_zero]
      simp
      ring
    · obtain ⟨w, rfl⟩ : ∃ w, v = w + 1 := ⟨v - 1, by omega⟩
      rw [bernsteinPolynomial.derivative_succ]
      simp only [Nat.succ_ne_zero, if_false, Nat.add_sub_cancel, hlow w]
      simp
      ring

/-- **C45 (what fails outside).** Beyond the interval the function is constant, but the hand-written derivative is not
zero: for every `num ≥ 2`, every `x > 1` and every tangent, the derivative reported for the last entry is
`num - 1` times the tangent, although the function does not change there. (`basic_bernstein` with `x > limit`.) -/
theorem C45_jvp_outside_nonzero (eps x xDot : ℝ) (h0 : 0 < eps) (h1 : eps < 1 / 2) (hx : 1 < x) (n : ℕ) (hn : 1 ≤ n)
    (b : ℝ → ℕ → ℝ) (hb : ∀ y, bernstein eps y (n + 1) = .ok (b y)) :
    HasDerivAt (fun y => b y n) 0 x ∧
    ∃ t, bernsteinTangent eps x (n + 1) xDot = .ok t ∧ t n = xDot * n := by
  constructor
  · have hev : (fun y => b y n) =ᶠ[nhds x] fun _ => Spec.bernstein n n 1 := by
      filter_upwards [Ioi_mem_nhds (show 1 - eps < x by linarith)] with y hy
      exact (C45_ends eps y h1 n (b y) (hb y) n le_rfl).2 hy
    exact (hasDerivAt_const x _).congr_of_eventuallyEq hev
  · obtain ⟨m, rfl⟩ : ∃ m, n = m + 1 := ⟨n - 1, by omega⟩
    obtain ⟨l, hl⟩ := bernstein_ok eps x (num := (m : ℤ) + 1) (by omega)
    have hlm : l m = 1 := by
      rw [(C45_ends eps x h1 m l hl m le_rfl).2 (by linarith), Spec.bernstein_eq_eval, bernsteinPolynomial.eval_at_1]
      simp
    refine ⟨fun u => xDot * ((((m + 1 : ℕ) : ℤ) + 1 : ℤ) - 1) *
          ((if u = 0 then 0 else if u - 1 < m + 1 then l (u - 1) else 0) - if u < m + 1 then l u else 0), ?_, ?_⟩
    · unfold bernsteinTangent
      rw [hb x]
      have e1 : (((m + 1 : ℕ) : ℤ) + 1 - 1) = (m : ℤ) + 1 := by push_cast; ring
      have e2 : ((m : ℤ) + 1).toNat = m + 1 := by omega
      have e3 : (1 : ℤ) < ((m + 1 : ℕ) : ℤ) + 1 := by push_cast; omega
      simp only [Except.bind, e1, hl, e2, e3, if_true]
    · simp [hlm]

/-- **C45.** The public functions: `basic_bernstein` and the unweighted `reciprocal_` and `exponential_` variants are
partitions of unity at every input; the weighted variants are non-negative and sum to the mapping. -/
theorem C45_public (eps epsneg x limit gamma : ℝ) (h0 : 0 < epsneg) (h1 : epsneg < 1 / 2) (he0 : 0 < eps)
    (he1 : eps ≤ 1) (hx : 0 ≤ x) (hg : 0 < gamma) (num : ℕ) (hn : 1 ≤ num) (kind : String)
    (hk : kind ∈ ["shifted", "damped", "cuspless"]) (cuspless : Bool) :
    (∃ b, basicBasis (bernstein epsneg) x num limit = .ok b ∧ Spec.PartitionOfUnity num b) ∧
    (∃ b, reciprocalBasis (bernstein epsneg) eps x num kind false = .ok b ∧ Spec.PartitionOfUnity num b) ∧
    (∃ b, exponentialBasis (bernstein epsneg) x num gamma cuspless false = .ok b ∧ Spec.PartitionOfUnity num b) ∧
    (∃ b m, reciprocalBasis (bernstein epsneg) eps x num kind true = .ok b ∧ reciprocalMapping eps x kind = .ok m ∧
      (∀ k, k < num → 0 ≤ b k) ∧ ∑ k ∈ Finset.range num, b k = m) ∧
    (∃ b, exponentialBasis (bernstein epsneg) x num gamma cuspless true = .ok b ∧
      (∀ k, k < num → 0 ≤ b k) ∧ ∑ k ∈ Finset.range num, b k = exponentialMapping x gamma cuspless) := by
  have hn' : (1 : ℤ) ≤ num := by exact_mod_cast hn
  have base : ∀ y, ∃ b, bernstein epsneg y num = .ok b ∧ Spec.PartitionOfUnity num b := fun y => by
    obtain ⟨b, hb⟩ := bernstein_ok epsneg y hn'
    exact ⟨b, hb, C45_partition epsneg y h0 h1 num hn b hb⟩
  obtain ⟨f, hf, hfm⟩ := C46_reciprocal_mapping eps he0 he1 kind hk
  have hem := (C46_exponential_mapping gamma hg).1 cuspless
  obtain ⟨b1, hb1, hp1⟩ := base (x / limit)
  obtain ⟨b2, hb2, hp2⟩ := base (1 - f x)
  obtain ⟨b3, hb3, hp3⟩ := base (1 - exponentialMapping x gamma cuspless)
  refine ⟨⟨b1, hb1, hp1⟩, ⟨b2, ?_, hp2⟩, ⟨b3, ?_, hp3⟩, ⟨fun k => b2 k * f x, f x, ?_, hf x, ?_, ?_⟩,
    ⟨fun k => b3 k * exponentialMapping x gamma cuspless, ?_, ?_, ?_⟩⟩
  · simp [reciprocalBasis, hf, Except.bind, hb2]
  · simp [exponentialBasis, Except.bind, hb3]
  · simp [reciprocalBasis, hf, Except.bind, hb2]
  · exact fun k hk => mul_nonneg (hp2.1 k hk) (hfm.mem_unit x hx).1.le
  · rw [← Finset.sum_mul, hp2.2, one_mul]
  · simp [exponentialBasis, Except.bind, hb3]
  · exact fun k hk => mul_nonneg (hp3.1 k hk) (hem.mem_unit x hx).1.le
  · rw [← Finset.sum_mul, hp3.2, one_mul]

example : ∃ b, bernstein (1 / 10) (1 / 2) 3 = .ok b ∧ b 1 = 1 / 2 := by
  obtain ⟨b, hb⟩ := bernstein_ok (1 / 10) (1 / 2) (num := 3) (by norm_num)
  refine ⟨b, hb, ?_⟩
  have := C45_values (1 / 10) (1 / 2) (by norm_num) (by norm_num) (by norm_num) 2 b hb 1 (by norm_num)
  rw [this]; norm_num

/-! ## C47: Chebyshev -/

open Polynomial in
/-- **C47.** Away from the end points the entries are the Chebyshev polynomials of the first kind (hence satisfy the
three-term recurrence), and they are bounded by one. -/
theorem C47_chebyshev (eps x : ℝ) (h0 : 0 < eps) (hx : -(1 - eps) ≤ x) (hx' : x ≤ 1 - eps) (num : ℕ) (hn : 1 ≤ num) :
    ∃ c, chebyshev eps x num = .ok c ∧ (∀ k, k < num → c k = (Chebyshev.T ℝ k).eval x) ∧
      (∀ k, k < num → |c k| ≤ 1) ∧ c 0 = 1 ∧ (1 < num → c 1 = x) ∧
      ∀ k, k + 2 < num → c (k + 2) = 2 * x * c (k + 1) - c k := by
  have hval : ∃ c, chebyshev eps x num = .ok c ∧ ∀ k, k < num → c k = (Chebyshev.T ℝ k).eval x := by
    unfold chebyshev
    rw [if_neg (by omega)]
    split_ifs with h1
    · refine ⟨_, rfl, fun k hk => ?_⟩
      have : k = 0 := by omega
      subst this; simp
    · refine ⟨_, rfl, fun k hk => ?_⟩
      simp only [not_lt.mpr hx, not_lt.mpr hx', or_self, if_false]
      have hc : x = cos (arccos x) := (cos_arccos (by linarith) (by linarith)).symm
      conv_rhs => rw [hc]
      rw [Chebyshev.T_real_cos]
      simp
  obtain ⟨c, hc, hT⟩ := hval
  refine ⟨c, hc, hT, ?_, ?_, ?_, ?_⟩
  · intro k hk
    rw [hT k hk]
    exact Chebyshev.abs_eval_T_real_le_one k (abs_le.mpr ⟨by linarith, by linarith⟩)
  · rw [hT 0 (by omega)]; simp
  · intro h; rw [hT 1 h]; simp
  · intro k hk
    rw [hT _ hk, hT _ (by omega), hT _ (by omega)]
    have := congrArg (Polynomial.eval x) (Chebyshev.T_add_two ℝ (k : ℤ))
    simp only [Polynomial.eval_sub, Polynomial.eval_mul, Polynomial.eval_X, Polynomial.eval_ofNat] at this
    push_cast
    exact this

open Polynomial in
/-- The second-order Taylor polynomial of the Chebyshev polynomial `T_k` at one. -/
noncomputable def Spec.chebyshevTaylor (k : ℕ) (x : ℝ) : ℝ :=
  ∑ j ∈ Finset.range 3, (derivative^[j] (Chebyshev.T ℝ k)).eval 1 / (j.factorial : ℝ) * (x - 1) ^ j

theorem chebyshevTaylor_eq (k : ℕ) (x : ℝ) : Spec.chebyshevTaylor k x =
    1 + (k * k : ℝ) * (x - 1) + 1 / 6 * (k * k : ℝ) * ((k * k : ℝ) - 1) * (x - 1) * (x - 1) := by
  unfold Spec.chebyshevTaylor
  simp only [Polynomial.Chebyshev.iterate_derivative_T_eval_one_eq_div]
  simp [Finset.sum_range_succ, Finset.prod_range_succ, Nat.factorial]
  ring

/-- **C47.** Next to the end points the entries are the second-order Taylor polynomials of the Chebyshev polynomials
there (`T_k(-y) = (-1)^k T_k(y)` relates the two end points); at the end points themselves they are exact. -/
theorem C47_chebyshev_ends (eps x : ℝ) (h0 : 0 < eps) (h1 : eps < 1) (num : ℕ) (hn : 1 ≤ num) :
    ∃ c, chebyshev eps x num = .ok c ∧
      (1 - eps < x → ∀ k, k < num → c k = Spec.chebyshevTaylor k x) ∧
      (x < -(1 - eps) → ∀ k, k < num → c k = (-1) ^ k * Spec.chebyshevTaylor k (-x)) ∧
      (x = 1 → ∀ k, k < num → c k = 1) ∧ (x = -1 → ∀ k, k < num → c k = (-1) ^ k) := by
  have hmain : ∃ c, chebyshev eps x num = .ok c ∧
      (1 - eps < x → ∀ k, k < num → c k = Spec.chebyshevTaylor k x) ∧
      (x < -(1 - eps) → ∀ k, k < num → c k = (-1) ^ k * Spec.chebyshevTaylor k (-x)) := by
    unfold chebyshev
    rw [if_neg (by omega)]
    split_ifs with h1
    · refine ⟨_, rfl, fun _ k hk => ?_, fun _ k hk => ?_⟩
      all_goals
        have : k = 0 := by omega
        subst this
        rw [chebyshevTaylor_eq]; simp
    · refine ⟨_, rfl, fun hx k hk => ?_, fun hx k hk => ?_⟩
      · have hx2 : ¬ x < -(1 - eps) := by linarith
        rw [chebyshevTaylor_eq]
        simp only [hx, hx2, if_true, if_false]
      · rw [chebyshevTaylor_eq]
        simp only [hx, if_true]
        ring
  obtain ⟨c, hc, ha, hb⟩ := hmain
  refine ⟨c, hc, ha, hb, ?_, ?_⟩
  · rintro rfl k hk
    rw [ha (by linarith) k hk, chebyshevTaylor_eq]; simp
  · rintro rfl k hk
    rw [hb (by linarith) k hk, chebyshevTaylor_eq]; simp

theorem chebyshevTaylor_bounded (eps x : ℝ) (h0 : 0 < eps) (h1 : eps ≤ 1 / 2) (k : ℕ) (hk : (k : ℝ) ^ 2 * eps ≤ 6)
    (hx : 1 - eps ≤ x) (hx' : x ≤ 1) : |Spec.chebyshevTaylor k x| ≤ 1 := by
  rw [chebyshevTaylor_eq]
  set u := 1 - x with hu
  have hu0 : 0 ≤ u := by linarith
  have hue : u ≤ eps := by linarith
  have hxu : x - 1 = -u := by linarith
  rw [hxu]
  rcases Nat.eq_zero_or_pos k with rfl | hkp
  · simp
  have hk1 : (1 : ℝ) ≤ (k : ℝ) * k := by
    have : (1 : ℝ) ≤ k := by exact_mod_cast hkp
    nlinarith
  set w : ℝ := (k : ℝ) * k * u with hw
  have hw0 : 0 ≤ w := by positivity
  have hw6 : w ≤ 6 := by
    have : (k : ℝ) * k * u ≤ k * k * eps := mul_le_mul_of_nonneg_left hue (by positivity)
    nlinarith
  have e : 1 + (k : ℝ) * k * -u + 1 / 6 * (k * k) * ((k : ℝ) * k - 1) * -u * -u = 1 - w + w * w / 6 - w * u / 6 := by
    rw [hw]; ring
  rw [e, abs_le]
  constructor
  · nlinarith [sq_nonneg (w - 3)]
  · nlinarith

/-- **C47.** On all of `[-1, 1]` the entries are bounded by one, provided `(num-1)² · eps ≤ 6` (for single precision:
up to ten thousand basis functions). -/
theorem C47_chebyshev_bounded (eps x : ℝ) (h0 : 0 < eps) (h1 : eps ≤ 1 / 2) (hx : |x| ≤ 1) (num : ℕ) (hn : 1 ≤ num)
    (hnum : ((num : ℝ) - 1) ^ 2 * eps ≤ 6) :
    ∃ c, chebyshev eps x num = .ok c ∧ ∀ k, k < num → |c k| ≤ 1 := by
  rw [abs_le] at hx
  have hkb : ∀ k, k < num → (k : ℝ) ^ 2 * eps ≤ 6 := by
    intro k hk
    refine le_trans (mul_le_mul_of_nonneg_right ?_ h0.le) hnum
    have : (k : ℝ) + 1 ≤ num := by exact_mod_cast hk
    have hk0 : (0 : ℝ) ≤ k := by positivity
    exact pow_le_pow_left₀ hk0 (by linarith) 2
  obtain ⟨c, hc, ha, hb, _, _⟩ := C47_chebyshev_ends eps x h0 (by linarith) num hn
  by_cases hl : 1 - eps < x
  · exact ⟨c, hc, fun k hk => by
      rw [ha hl k hk]; exact chebyshevTaylor_bounded eps x h0 h1 k (hkb k hk) hl.le hx.2⟩
  by_cases hs : x < -(1 - eps)
  · refine ⟨c, hc, fun k hk => ?_⟩
    rw [hb hs k hk, abs_mul, abs_pow, abs_neg, abs_one, one_pow, one_mul]
    exact chebyshevTaylor_bounded eps (-x) h0 h1 k (hkb k hk) (by linarith) (by linarith)
  push Not at hl hs
  obtain ⟨c', hc', _, hbd, _⟩ := C47_chebyshev eps x h0 hs hl num hn
  exact ⟨c', hc', hbd⟩

/-- **C47 (why the proviso is needed).** For every threshold `eps` there are basis functions which exceed one inside
`[-1, 1]`: the Taylor branch leaves the unit interval for large degrees. -/
theorem C47_chebyshev_unbounded (eps : ℝ) (h0 : 0 < eps) (h1 : eps < 1) :
    ∃ (num : ℕ) (x : ℝ) (c : ℕ → ℝ) (k : ℕ), 1 ≤ num ∧ |x| ≤ 1 ∧ chebyshev eps x num = .ok c ∧ k < num ∧ 1 < c k := by
  obtain ⟨k, hk⟩ := exists_nat_gt (12 / eps + 1)
  have hk1 : (1 : ℝ) ≤ k := by
    have : 0 < 12 / eps := by positivity
    linarith
  have hx1 : |1 - eps / 2| ≤ 1 := by rw [abs_le]; constructor <;> linarith
  obtain ⟨c, hc, ha, _⟩ := C47_chebyshev_ends eps (1 - eps / 2) h0 h1 (k + 1) (by omega)
  refine ⟨k + 1, 1 - eps / 2, c, k, by omega, hx1, hc, by omega, ?_⟩
  rw [ha (by linarith) k (by omega), chebyshevTaylor_eq]
  have h2 : 12 < (k - 1) * eps := by
    have := (div_lt_iff₀ h0).mp (show 12 / eps < (k : ℝ) - 1 by linarith)
    linarith
  have h3 : 12 < ((k : ℝ) * k - 1) * eps := by
    have : (k : ℝ) - 1 ≤ k * k - 1 := by nlinarith
    nlinarith
  have hkk : (1 : ℝ) ≤ (k : ℝ) * k := by nlinarith
  have e : 1 + (k * k : ℝ) * (1 - eps / 2 - 1) +
      1 / 6 * (k * k : ℝ) * ((k * k : ℝ) - 1) * (1 - eps / 2 - 1) * (1 - eps / 2 - 1) =
      1 + (k * k : ℝ) * (eps / 2) * ((((k : ℝ) * k - 1) * eps) / 12 - 1) := by ring
  rw [e]
  have : 0 < (k * k : ℝ) * (eps / 2) * ((((k : ℝ) * k - 1) * eps) / 12 - 1) := by
    apply mul_pos (by positivity); linarith
  linarith

/-- **C47.** `basic_chebyshev`: on `0 ≤ x ≤ limit` it is the basis at `2x/limit - 1`; beyond the limit every entry is
one (the documentation says zero), below zero the entries alternate. -/
theorem C47_basic_chebyshev (eps x limit : ℝ) (hl : 0 < limit) (num : ℕ) (hn : 1 ≤ num) :
    ∃ b c, basicChebyshev eps x num limit = .ok b ∧ chebyshev eps (2 * x / limit - 1) num = .ok c ∧
      (0 ≤ x → x ≤ limit → ∀ k, k < num → b k = c k) ∧ (limit < x → ∀ k, k < num → b k = 1) ∧
      (x < 0 → ∀ k, k < num → b k = (-1) ^ k) := by
  obtain ⟨c, hc⟩ : ∃ c, chebyshev eps (2 * x / limit - 1) num = .ok c := by
    unfold chebyshev
    rw [if_neg (by omega)]
    split_ifs <;> exact ⟨_, rfl⟩
  refine ⟨fun k => if |2 * x / limit - 1| ≤ 1 then c k else signFn (2 * x / limit - 1) ^ k, c, ?_, hc, ?_, ?_, ?_⟩
  · simp [basicChebyshev, hc, Except.bind]
  · intro hx hx' k _
    have h1 : 0 ≤ 2 * x / limit := by positivity
    have h2 : 2 * x / limit ≤ 2 := by rw [div_le_iff₀ hl]; linarith
    have : |2 * x / limit - 1| ≤ 1 := by rw [abs_le]; constructor <;> linarith
    simp [this]
  · intro hx k _
    have h2 : 2 < 2 * x / limit := by rw [lt_div_iff₀ hl]; linarith
    have : ¬ |2 * x / limit - 1| ≤ 1 := by rw [abs_le]; push Not; intro; linarith
    simp [this, signFn, show (0 : ℝ) < 2 * x / limit - 1 by linarith]
  · intro hx k _
    have h2 : 2 * x / limit < 0 := div_neg_of_neg_of_pos (by linarith) hl
    have : ¬ |2 * x / limit - 1| ≤ 1 := by rw [abs_le]; push Not; intro h; linarith
    have a1 : ¬ (0 : ℝ) < 2 * x / limit - 1 := by linarith
    have a2 : 2 * x / limit - 1 < 0 := by linarith
    simp only [this, signFn, a1, a2, if_true, if_false]

/-! ## C47: Fourier and Gaussian -/

/-- **C47.** `basic_fourier`: entry `k` is `cos(k π x / limit)`, bounded by one. -/
theorem C47_fourier (x limit : ℝ) (num : ℕ) (hn : 1 ≤ num) :
    ∃ b, basicBasis fourier x num limit = .ok b ∧
      ∀ k, k < num → b k = cos (k * π * x / limit) ∧ |b k| ≤ 1 := by
  have : ¬ ((num : ℤ) < 1) := by omega
  refine ⟨_, by simp only [basicBasis, fourier, this, if_false]; rfl, fun k _ => ⟨?_, abs_cos_le_one _⟩⟩
  congr 1; ring

/-- **C47.** `basic_gaussian`: entry `k` of `num ≥ 2` Gaussians is `exp(-√(2K)(K-1)(x/l - k/(K-1))²)`, lies in `(0, 1]` and
equals one exactly at its centre `k·limit/(num-1)`; a single Gaussian is the constant one. (The documentation writes
`1/l` where the code has `1/l²`.) -/
theorem C47_gaussian (x limit : ℝ) (hl : 0 < limit) (num : ℕ) (hn : 1 ≤ num) :
    ∃ b, basicBasis gaussian x num limit = .ok b ∧
      (∀ k, k < num → 0 < b k ∧ b k ≤ 1) ∧ (num = 1 → b 0 = 1) ∧
      (2 ≤ num → ∀ k, k < num → (b k = 1 ↔ x = k * limit / (num - 1)) ∧
        b k = exp (-(√(2 * num) * (num - 1) / limit ^ 2 * (x - k * limit / (num - 1)) ^ 2))) := by
  have hnn : ¬ ((num : ℤ) < 1) := by omega
  have hnr : (1 : ℝ) ≤ num := by exact_mod_cast hn
  refine ⟨_, by simp only [basicBasis, gaussian, hnn, if_false]; rfl, ?_, ?_, ?_⟩
  · intro k hk
    refine ⟨exp_pos _, ?_⟩
    rw [exp_le_one_iff]
    have h1 : (0 : ℝ) ≤ √(2 * (num : ℤ)) * ((num : ℤ) - 1) := by
      push_cast
      exact mul_nonneg (sqrt_nonneg _) (by linarith)
    nlinarith [sq_nonneg (x / limit - if (num : ℤ) = 1 then 0 else (k : ℝ) / (((num : ℤ) : ℝ) - 1)), h1,
      mul_nonneg h1 (sq_nonneg (x / limit - if (num : ℤ) = 1 then 0 else (k : ℝ) / (((num : ℤ) : ℝ) - 1)))]
  · rintro rfl; simp
  · intro h2 k hk
    have hn1 : ¬ ((num : ℤ) = 1) := by omega
    have hn2 : (2 : ℝ) ≤ num := by exact_mod_cast h2
    have hne : (num : ℝ) - 1 ≠ 0 := by linarith
    have hpos : 0 < √(2 * (num : ℝ)) * ((num : ℝ) - 1) := mul_pos (sqrt_pos.mpr (by linarith)) (by linarith)
    simp only [hn1, if_false, Int.cast_natCast]
    constructor
    · rw [exp_eq_one_iff, neg_mul, neg_eq_zero, mul_eq_zero, or_iff_right hpos.ne', sq_eq_zero_iff, sub_eq_zero,
        div_eq_div_iff hl.ne' hne, eq_div_iff hne]
    · congr 1
      rw [neg_mul]
      congr 1
      field_simp

/-- **C47.** `num < 1` raises ValueError in every family. -/
theorem C47_raises (eps epsneg x limit gamma : ℝ) (num : ℤ) (kind : String)
    (hk : kind ∈ ["shifted", "damped", "cuspless"]) (cuspless weighting : Bool) (hn : num < 1) :
    basicBasis fourier x num limit = .error .valueError ∧ basicBasis gaussian x num limit = .error .valueError ∧
    basicChebyshev epsneg x num limit = .error .valueError ∧
    reciprocalBasis fourier eps x num kind weighting = .error .valueError ∧
    reciprocalBasis gaussian eps x num kind weighting = .error .valueError ∧
    reciprocalChebyshev eps epsneg x num kind weighting = .error .valueError ∧
    exponentialBasis fourier x num gamma cuspless weighting = .error .valueError ∧
    exponentialBasis gaussian x num gamma cuspless weighting = .error .valueError ∧
    exponentialChebyshev epsneg x num gamma cuspless weighting = .error .valueError := by
  have hmap : ∃ m, reciprocalMapping eps x kind = .ok m := by
    by_contra h
    exact (C46_reciprocal_raises eps x kind).mp h hk
  obtain ⟨m, hm⟩ := hmap
  simp [basicBasis, basicChebyshev, reciprocalBasis, reciprocalChebyshev, exponentialBasis, exponentialChebyshev,
    fourier, gaussian, chebyshev, hn, hm, Except.bind]

/-- **C47.** The mapped variants are bounded by one (and by the mapping if weighted), for `x ≥ 0`. -/
theorem C47_mapped (eps epsneg x gamma : ℝ) (he0 : 0 < eps) (he1 : eps ≤ 1) (h0 : 0 < epsneg) (h1 : epsneg ≤ 1 / 2)
    (hx : 0 ≤ x) (hg : 0 < gamma) (num : ℕ) (hn : 1 ≤ num) (hnum : ((num : ℝ) - 1) ^ 2 * epsneg ≤ 6) (kind : String)
    (hk : kind ∈ ["shifted", "damped", "cuspless"]) (cuspless weighting : Bool) :
    (∃ b, reciprocalBasis fourier eps x num kind weighting = .ok b ∧ ∀ k, k < num → |b k| ≤ 1) ∧
    (∃ b, reciprocalBasis gaussian eps x num kind weighting = .ok b ∧ ∀ k, k < num → 0 < b k ∧ b k ≤ 1) ∧
    (∃ b, reciprocalChebyshev eps epsneg x num kind weighting = .ok b ∧ ∀ k, k < num → |b k| ≤ 1) ∧
    (∃ b, exponentialBasis fourier x num gamma cuspless weighting = .ok b ∧ ∀ k, k < num → |b k| ≤ 1) ∧
    (∃ b, exponentialBasis gaussian x num gamma cuspless weighting = .ok b ∧ ∀ k, k < num → 0 < b k ∧ b k ≤ 1) ∧
    (∃ b, exponentialChebyshev epsneg x num gamma cuspless weighting = .ok b ∧ ∀ k, k < num → |b k| ≤ 1) := by
  obtain ⟨f, hf, hfm⟩ := C46_reciprocal_mapping eps he0 he1 kind hk
  have hem := (C46_exponential_mapping gamma hg).1 cuspless
  have hm1 := hfm.mem_unit x hx
  have hm2 := hem.mem_unit x hx
  set m1 := f x
  set m2 := exponentialMapping x gamma cuspless with hm2def
  have hF : ∀ y, ∃ b, fourier y num = .ok b ∧ ∀ k, k < num → |b k| ≤ 1 := by
    intro y
    obtain ⟨b, hb, hb'⟩ := C47_fourier y 1 num hn
    refine ⟨b, ?_, fun k hk => (hb' k hk).2⟩
    simpa [basicBasis] using hb
  have hG : ∀ y, ∃ b, gaussian y num = .ok b ∧ ∀ k, k < num → 0 < b k ∧ b k ≤ 1 := by
    intro y
    obtain ⟨b, hb, hb', _⟩ := C47_gaussian y 1 one_pos num hn
    refine ⟨b, ?_, hb'⟩
    simpa [basicBasis] using hb
  have hC : ∀ m : ℝ, 0 < m → m ≤ 1 → ∃ b, chebyshev epsneg (2 * m - 1) num = .ok b ∧ ∀ k, k < num → |b k| ≤ 1 := by
    intro m a1 a2
    exact C47_chebyshev_bounded epsneg _ h0 h1 (by rw [abs_le]; constructor <;> linarith) num hn hnum
  have habs : ∀ (b m : ℝ), |b| ≤ 1 → 0 < m → m ≤ 1 → |if weighting then b * m else b| ≤ 1 := by
    intro b m hb a1 a2
    cases weighting
    · simpa using hb
    · simp only [if_true, abs_mul, abs_of_pos a1]
      nlinarith [abs_nonneg b]
  have hpos : ∀ (b m : ℝ), 0 < b ∧ b ≤ 1 → 0 < m → m ≤ 1 →
      0 < (if weighting then b * m else b) ∧ (if weighting then b * m else b) ≤ 1 := by
    intro b m hb a1 a2
    cases weighting
    · simpa using hb
    · simp only [if_true]
      exact ⟨mul_pos hb.1 a1, by nlinarith [hb.1, hb.2]⟩
  obtain ⟨b1, hb1, hb1'⟩ := hF (1 - m1)
  obtain ⟨b2, hb2, hb2'⟩ := hG (1 - m1)
  obtain ⟨b3, hb3, hb3'⟩ := hC m1 hm1.1 hm1.2
  obtain ⟨b4, hb4, hb4'⟩ := hF (1 - m2)
  obtain ⟨b5, hb5, hb5'⟩ := hG (1 - m2)
  obtain ⟨b6, hb6, hb6'⟩ := hC m2 hm2.1 hm2.2
  refine ⟨⟨_, ?_, fun k hk => habs (b1 k) m1 (hb1' k hk) hm1.1 hm1.2⟩,
    ⟨_, ?_, fun k hk => hpos (b2 k) m1 (hb2' k hk) hm1.1 hm1.2⟩,
    ⟨_, ?_, fun k hk => habs (b3 k) m1 (hb3' k hk) hm1.1 hm1.2⟩,
    ⟨_, ?_, fun k hk => habs (b4 k) m2 (hb4' k hk) hm2.1 hm2.2⟩,
    ⟨_, ?_, fun k hk => hpos (b5 k) m2 (hb5' k hk) hm2.1 hm2.2⟩,
    ⟨_, ?_, fun k hk => habs (b6 k) m2 (hb6' k hk) hm2.1 hm2.2⟩⟩
  · simp only [reciprocalBasis, hf, Except.bind, hb1, m1]
  · simp only [reciprocalBasis, hf, Except.bind, hb2, m1]
  · simp only [reciprocalChebyshev, hf, Except.bind, hb3, m1]
  · simp only [exponentialBasis, ← hm2def, Except.bind, hb4]
  · simp only [exponentialBasis, ← hm2def, Except.bind, hb5]
  · simp only [exponentialChebyshev, ← hm2def, Except.bind, hb6]

example : (((5 : ℕ) : ℝ) - 1) ^ 2 * (1 / 100) ≤ 6 ∧ (1 : ℕ) ≤ 5 := by norm_num

/-! ## C52: sinc -/

/-- **C52.** `sinc`: entry `k` is the normalised cardinal sine of `(k+1)x/limit` up to the limit, one at the origin, zero from
the limit on; it is bounded by one and continuous on all of the real line. -/
theorem C52_sinc (limit : ℝ) (hl : 0 < limit) (k : ℕ) :
    sincBasis 0 limit k = 1 ∧ (∀ x, limit ≤ x → sincBasis x limit k = 0) ∧
    (∀ x, 0 < x → x ≤ limit → sincBasis x limit k = sin ((k + 1) * π * x / limit) / ((k + 1) * π * x / limit)) ∧
    (∀ x, |sincBasis x limit k| ≤ 1) ∧ Continuous fun x => sincBasis x limit k := by
  have hs : ∀ t, jnpSinc t = sinc (π * t) := by
    intro t
    unfold jnpSinc sinc
    by_cases h : t = 0
    · simp [h]
    · simp [h, pi_ne_zero]
  have hval : ∀ x, sincBasis x limit k = if x / limit ≤ 1 then sinc (π * ((k + 1) * (x / limit))) else 0 := by
    intro x
    simp only [sincBasis, hs]
    push_cast
    rfl
  have hk : (0 : ℝ) < k + 1 := by positivity
  have hend : sinc (π * ((k + 1) * 1)) = 0 := by
    unfold sinc
    rw [if_neg (by positivity)]
    have : sin (π * ((k + 1) * 1)) = 0 := by
      have := sin_nat_mul_pi (k + 1)
      push_cast at this
      rw [← this]; ring_nf
    rw [this, zero_div]
  refine ⟨?_, ?_, ?_, ?_, ?_⟩
  · rw [hval]; simp
  · intro x hx
    rw [hval]
    split_ifs with h
    · have h1 : 1 ≤ x / limit := by rwa [le_div_iff₀ hl, one_mul]
      rw [le_antisymm h h1]; exact hend
    · rfl
  · intro x hx hx'
    have h1 : x / limit ≤ 1 := by rwa [div_le_one hl]
    rw [hval, if_pos h1]
    unfold sinc
    rw [if_neg (by positivity)]
    have e : π * ((k + 1) * (x / limit)) = (k + 1) * π * x / limit := by ring
    rw [e]
  · intro x
    rw [hval]
    split_ifs
    · exact abs_sinc_le_one _
    · simp
  · have : (fun x => sincBasis x limit k) =
        fun x => if x / limit ≤ 1 then sinc (π * ((k + 1) * (x / limit))) else 0 := funext hval
    rw [this]
    refine Continuous.if_le ?_ continuous_const (by fun_prop) continuous_const ?_
    · exact continuous_sinc.comp (by fun_prop)
    · intro x hx
      rw [hx]; exact hend

example : (0 : ℝ) < 5 ∧ sincBasis 0 5 2 = 1 := ⟨by norm_num, (C52_sinc 5 (by norm_num) 2).1⟩

end E3x
