import Verif.Model.SoftmaxFloat
import Verif.Spec.SoftmaxFloat
import Verif.Lemmas.SafeFloat

/-!
# Rounding errors of the softmax
-/

namespace E3x

open FloatFormat

variable {F : FloatFormat} {κ : Type}

/-- The maximum of the segment is exact. -/
theorem segmentMax_spec (init : FloatVal) (x : κ → ℝ) :
    ∀ (l : List κ) (m : FloatVal), (m = .negInf ∨ ∃ c, m = .num c ∧ ∀ k ∈ l, c ≤ x k) → l ≠ [] →
      ∃ M, segmentMaxFloat m (fun k => .num (x k)) l = .num M ∧ (∀ k ∈ l, x k ≤ M) ∧ ∃ k ∈ l, x k = M := by
  have key : ∀ (l : List κ) (m : ℝ), ∃ M, segmentMaxFloat (.num m) (fun k => .num (x k)) l = .num M ∧ m ≤ M ∧
      (∀ k ∈ l, x k ≤ M) ∧ (M = m ∨ ∃ k ∈ l, x k = M) := by
    intro l
    induction l with
    | nil => exact fun m => ⟨m, rfl, le_rfl, by simp, .inl rfl⟩
    | cons k l ih =>
      intro m
      obtain ⟨M, h1, h2, h3, h4⟩ := ih (max m (x k))
      refine ⟨M, h1, (le_max_left _ _).trans h2, ?_, ?_⟩
      · intro j hj
        rcases List.mem_cons.1 hj with rfl | hj
        · exact (le_max_right _ _).trans h2
        · exact h3 j hj
      · rcases h4 with h | ⟨j, hj, h⟩
        · rcases max_choice m (x k) with h' | h'
          · exact .inl (h.trans h')
          · exact .inr ⟨k, by simp, (h.trans h').symm⟩
        · exact .inr ⟨j, by simp [hj], h⟩
  intro l m hm hl
  obtain ⟨k, l, rfl⟩ := List.exists_cons_of_ne_nil hl
  have h1 : segmentMaxFloat m (fun k => .num (x k)) (k :: l) = segmentMaxFloat (.num (x k)) (fun k => .num (x k)) l := by
    rcases hm with rfl | ⟨c, rfl, hc⟩
    · rfl
    · have : max c (x k) = x k := max_eq_right (hc k (by simp))
      simp only [segmentMaxFloat, List.foldl_cons, FloatVal.maximum, this]
  obtain ⟨M, h2, h3, h4, h5⟩ := key l (x k)
  refine ⟨M, h1.trans h2, ?_, ?_⟩
  · intro j hj
    rcases List.mem_cons.1 hj with rfl | hj
    · exact h3
    · exact h4 j hj
  · rcases h5 with h | ⟨j, hj, h⟩
    · exact ⟨k, by simp, h.symm⟩
    · exact ⟨j, by simp [hj], h⟩

/-- `u t exp (-t (1 - u))` is of the order of `u`. -/
theorem mul_exp_le {u t : ℝ} (u0 : 0 < u) (u1 : u ≤ 1 / 8) : u * t * Real.exp (-t + u * t) ≤ 8 / 7 * u := by
  have h := Real.add_one_le_exp ((1 - u) * t)
  have h1 : (1 - u) * t * Real.exp (-((1 - u) * t)) ≤ 1 := by
    have : (1 - u) * t ≤ Real.exp ((1 - u) * t) := by linarith
    have := mul_le_mul_of_nonneg_right this (Real.exp_pos (-((1 - u) * t))).le
    rwa [← Real.exp_add, add_neg_cancel, Real.exp_zero] at this
  have h2 : -t + u * t = -((1 - u) * t) := by ring
  rw [h2]
  set E := Real.exp (-((1 - u) * t))
  have h3 : t * E ≤ 8 / 7 := by
    by_contra h4
    push Not at h4
    nlinarith
  calc u * t * E = u * (t * E) := by ring
    _ ≤ u * (8 / 7) := mul_le_mul_of_nonneg_left h3 u0.le
    _ = _ := by ring

/-- The rounded difference. -/
theorem sub_spec (hF : F.Accurate) {x m : ℝ} (h : x ≤ m) :
    (F.sub (.num x) (.num m) = .negInf ∧ Real.exp (x - m) ≤ F.unit) ∨
      ∃ d, F.sub (.num x) (.num m) = .num d ∧ |d - (x - m)| ≤ F.unit * (m - x) + F.tiny := by
  have hs : F.sub (.num x) (.num m) = F.round (x - m) := by
    simp only [FloatFormat.sub, FloatVal.neg, FloatFormat.add, ← sub_eq_add_neg]
  rw [hs]
  rcases le_or_gt (m - x) F.maxFinite with h1 | h1
  · obtain ⟨d, hd, e, -⟩ := round_spec hF.proper (x := x - m) (by rw [abs_sub_comm, abs_of_nonneg (by linarith)]; exact h1)
    rw [abs_sub_comm x m, abs_of_nonneg (a := m - x) (by linarith)] at e
    exact .inr ⟨d, hd, e⟩
  · have hexp : Real.exp (x - m) ≤ F.unit := by
      have h2 := hF.le_max
      have u0 := unit_pos (F := F)
      have h3 : 1 / F.unit ≤ Real.exp (m - x) := by
        have := Real.add_one_le_exp (m - x)
        linarith
      rw [show x - m = -(m - x) by ring, Real.exp_neg]
      rw [one_div] at h3
      exact inv_le_of_inv_le₀ u0 h3
    rcases round_neg_large hF.proper (x := m - x) ((tiny_le_maxFinite hF.proper).trans h1.le) with h2 | ⟨r, hr, e⟩
    · rw [neg_sub] at h2
      exact .inl ⟨h2, hexp⟩
    · rw [neg_sub] at hr e
      exact .inr ⟨r, hr, by have := tiny_pos (F := F); linarith⟩

/-- One numerator. -/
theorem numerator_spec (hF : F.Accurate) {exp : FloatVal → FloatVal} (hexp : AccurateExp F exp) {x m : ℝ} (h : x ≤ m) :
    ∃ r, exp (F.sub (.num x) (.num m)) = .num r ∧ 0 ≤ r ∧ |r - Real.exp (x - m)| ≤ 7 * F.unit := by
  have u0 := unit_pos (F := F)
  have u1 := hF.unit_le
  have t0 := tiny_pos (F := F)
  have t1 : F.tiny ≤ F.unit / 8 := hF.tiny_le.trans (by nlinarith)
  rcases sub_spec hF h with ⟨h1, h2⟩ | ⟨d, hd, e⟩
  · refine ⟨0, by rw [h1, hexp.negInf], le_rfl, ?_⟩
    rw [zero_sub, abs_neg, abs_of_pos (Real.exp_pos _)]
    linarith
  · set t := m - x with ht
    have t2 : 0 ≤ t := by linarith
    have hxm : x - m = -t := by linarith
    rw [hxm] at e ⊢
    have e1 := abs_le.1 e
    have hd1 : d ≤ -t + F.unit * t + F.tiny := by linarith
    have hut : F.unit * t ≤ t := by nlinarith
    obtain ⟨r, hr, r0, er⟩ := hexp.num d (by linarith)
    refine ⟨r, by rw [hd, hr], r0, ?_⟩
    -- the exponential of the rounded difference
    have hE : Real.exp F.tiny ≤ 8 / 7 := by
      have h3 := Real.one_sub_le_exp_neg F.tiny
      rw [Real.exp_neg] at h3
      have h4 : 7 / 8 ≤ (Real.exp F.tiny)⁻¹ := by linarith
      have := inv_anti₀ (by norm_num) h4
      rw [inv_inv] at this
      linarith
    have hE0 := Real.exp_pos (F.tiny)
    have hA : Real.exp (-t + F.unit * t) ≤ 1 := by
      rw [Real.exp_le_one_iff]
      linarith
    have hA0 := Real.exp_pos (-t + F.unit * t)
    have hB : Real.exp (-t + F.unit * t + F.tiny) ≤ 8 / 7 := by
      rw [Real.exp_add]
      nlinarith
    have hdexp : Real.exp d ≤ 8 / 7 := (Real.exp_le_exp.2 hd1).trans hB
    have hmul := mul_exp_le (t := t) u0 u1
    have hprod : (F.unit * t + F.tiny) * Real.exp (-t + F.unit * t + F.tiny) ≤ 2 * F.unit := by
      rw [Real.exp_add]
      have : (F.unit * t + F.tiny) * (Real.exp (-t + F.unit * t) * Real.exp F.tiny) =
        (F.unit * t * Real.exp (-t + F.unit * t) + F.tiny * Real.exp (-t + F.unit * t)) * Real.exp F.tiny := by ring
      rw [this]
      have h5 : F.unit * t * Real.exp (-t + F.unit * t) + F.tiny * Real.exp (-t + F.unit * t) ≤ 8 / 7 * F.unit + F.unit / 8 := by
        have : F.tiny * Real.exp (-t + F.unit * t) ≤ F.tiny * 1 := mul_le_mul_of_nonneg_left hA t0.le
        linarith
      have := mul_le_mul h5 hE hE0.le (by linarith)
      linarith
    have hdiff : |Real.exp d - Real.exp (-t)| ≤ 2 * F.unit := by
      -- the mean value bound: the difference is at most the distance times the larger exponential
      have key : ∀ a b : ℝ, Real.exp a - Real.exp b ≤ (a - b) * Real.exp a := by
        intro a b
        have := Real.add_one_le_exp (b - a)
        have h6 : Real.exp b = Real.exp (b - a) * Real.exp a := by rw [← Real.exp_add]; ring_nf
        rw [h6]
        nlinarith [Real.exp_pos a]
      have hw : 0 ≤ F.unit * t + F.tiny := by positivity
      rw [abs_le]
      constructor
      · have h7 := key (-t) d
        have h8 : (-t - d) * Real.exp (-t) ≤ (F.unit * t + F.tiny) * Real.exp (-t + F.unit * t + F.tiny) := by
          refine mul_le_mul (by linarith) (Real.exp_le_exp.2 ?_) (Real.exp_pos _).le hw
          have : 0 ≤ F.unit * t := by positivity
          linarith
        linarith
      · have h7 := key d (-t)
        have h8 : (d - -t) * Real.exp d ≤ (F.unit * t + F.tiny) * Real.exp (-t + F.unit * t + F.tiny) :=
          mul_le_mul (by linarith) (Real.exp_le_exp.2 hd1) (Real.exp_pos _).le hw
        linarith
    have h9 := abs_sub_le r (Real.exp d) (Real.exp (-t))
    have h10 : 4 * F.unit * Real.exp d ≤ 4 * F.unit * (8 / 7) := mul_le_mul_of_nonneg_left hdexp (by linarith)
    linarith

/-- One numerator with a weight. -/
theorem numerator_mask_spec (hF : F.Accurate) {exp : FloatVal → FloatVal} (hexp : AccurateExp F exp) {x m w : ℝ} (h : x ≤ m)
    (w0 : 0 ≤ w) (w1 : w ≤ 1) : ∃ r, F.mul (exp (F.sub (.num x) (.num m))) (.num w) = .num r ∧ 0 ≤ r ∧
      |r - w * Real.exp (x - m)| ≤ 10 * F.unit := by
  have u0 := unit_pos (F := F)
  have u1 := hF.unit_le
  have t0 := tiny_pos (F := F)
  have t1 : F.tiny ≤ F.unit / 8 := hF.tiny_le.trans (by nlinarith)
  have hmax : 8 ≤ F.maxFinite := by
    refine le_trans ?_ hF.le_max
    rw [le_div_iff₀ unit_pos]
    linarith
  obtain ⟨c, hc, c0, ec⟩ := numerator_spec hF hexp h
  have h1 : Real.exp (x - m) ≤ 1 := by
    rw [Real.exp_le_one_iff]
    linarith
  have c1 : c ≤ 2 := by have := (abs_le.1 ec).2; linarith
  have cw : c * w ≤ c := mul_le_of_le_one_right c0 w1
  have cw0 : 0 ≤ c * w := by positivity
  have hcu : c ≤ 1 + 7 * F.unit := by have := (abs_le.1 ec).2; linarith
  obtain ⟨r, hr, er, -, hr0⟩ := round_spec hF.proper (x := c * w) (by rw [abs_of_nonneg cw0]; linarith)
  refine ⟨r, by rw [hc]; exact hr, hr0 cw0, ?_⟩
  rw [abs_of_nonneg cw0] at er
  have h2 : |c * w - w * Real.exp (x - m)| ≤ 7 * F.unit := by
    rw [show c * w - w * Real.exp (x - m) = w * (c - Real.exp (x - m)) by ring, abs_mul, abs_of_nonneg w0]
    exact (mul_le_of_le_one_left (abs_nonneg _) w1).trans ec
  have h3 := abs_sub_le r (c * w) (w * Real.exp (x - m))
  have h4 : F.unit * (c * w) ≤ F.unit * 2 := mul_le_mul_of_nonneg_left (by linarith) u0.le
  linarith

end E3x
