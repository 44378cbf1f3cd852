import Verif.Lemmas.SafeFloat
import Mathlib.Data.List.FinRange
import Mathlib.Data.Fin.VecNotation
import Mathlib.Tactic.FinCases

/-!
# C76: norms in floating-point arithmetic

`norm` and `normalize` with every operation rounded (`Model/FloatArith.lean`, `Model/SafeFloat.lean`).
-/

namespace E3x

open FloatFormat

variable {F : FloatFormat} {ι κ : Type}

/-- The formats used in practice. -/
example : float32.Accurate ∧ float64.Accurate ∧ bfloat16.Accurate ∧ FloatFormat.Accurate { float32 with flush := true } := by
  refine ⟨⟨?_, ?_, ?_⟩, ⟨?_, ?_, ?_⟩, ⟨?_, ?_, ?_⟩, ⟨?_, ?_, ?_⟩⟩ <;> simp [float32, float64, bfloat16]

/-- C76: the computed norm of a vector of a batch is finite and accurate to `2 (n + 2)` units in the last place, in whatever
order the squares are added, unless the norm is not representable or the largest entry of the whole batch exceeds it by a
factor of more than `unit / √tiny`. -/
theorem C76_norm (hF : F.Accurate) (order : SumOrder κ) (batch : List ι) (axis : List κ) (horder : order.entries.Perm axis)
    (x : ι → κ → ℝ) {i : ι} (hi : i ∈ batch) (hn : 8 * ((axis.length : ℝ) + 4) * F.unit ≤ 1)
    (hrange : ∀ j ∈ batch, ∀ k ∈ axis, |x j k| * √F.tiny ≤ F.unit * √(axis.map fun k => x i k ^ 2).sum)
    (hlow : 2 * F.tiny ≤ √(axis.map fun k => x i k ^ 2).sum)
    (hhigh : (1 + 2 * ((axis.length : ℝ) + 2) * F.unit) * √(axis.map fun k => x i k ^ 2).sum ≤ F.maxFinite) :
    ∃ norms r, normFloat F order batch axis (fun i k => .num (x i k)) = .ok norms ∧ norms i = .num r ∧
      |r - √(axis.map fun k => x i k ^ 2).sum| ≤
        2 * ((axis.length : ℝ) + 2) * F.unit * √(axis.map fun k => x i k ^ 2).sum := by
  have τ0 := tiny_pos (F := F)
  have u0 := unit_pos (F := F)
  have hne : ∃ k, k ∈ axis := by
    by_contra h
    have : axis = [] := List.eq_nil_iff_forall_not_mem.2 fun k hk => h ⟨k, hk⟩
    rw [this] at hlow
    simp at hlow
    linarith
  obtain ⟨k, hk⟩ := hne
  obtain ⟨a, ha, hxa, haeq, hnorm⟩ := normFloat_eq (F := F) order batch axis x hi hk
  have a0 : 0 < a := τ0.trans_le ha
  have hlen : order.entries.length = axis.length := horder.length_eq
  have hsum : (order.entries.map fun k => (x i k / a) ^ 2).sum = (axis.map fun k => x i k ^ 2).sum / a ^ 2 := by
    rw [(horder.map _).sum_eq]
    simp only [div_pow]
    exact sum_map_div axis (fun k => x i k ^ 2) _
  set S := (axis.map fun k => x i k ^ 2).sum
  have hN : a * √(S / a ^ 2) = √S := by
    rw [Real.sqrt_div' _ (by positivity), Real.sqrt_sq a0.le]
    field_simp
  have hscale : F.tiny ≤ F.unit ^ 2 * (S / a ^ 2) := by
    have h1 : a * √F.tiny ≤ F.unit * √S := by
      rcases haeq with h | ⟨j, hj, k, hk, h⟩
      · have h2 : √F.tiny ≤ 2 * F.unit := by
          rw [Real.sqrt_le_left (by linarith)]
          have := hF.tiny_le
          nlinarith
        rw [h]
        calc F.tiny * √F.tiny ≤ F.tiny * (2 * F.unit) := mul_le_mul_of_nonneg_left h2 τ0.le
          _ = F.unit * (2 * F.tiny) := by ring
          _ ≤ _ := mul_le_mul_of_nonneg_left hlow u0.le
      · rw [← h]
        exact hrange j hj k hk
    have hS0 : 0 ≤ S := List.sum_nonneg (by simpa using fun k _ => sq_nonneg (x i k))
    have h3 := mul_self_le_mul_self (by positivity) h1
    have h4 : √F.tiny * √F.tiny = F.tiny := Real.mul_self_sqrt τ0.le
    have h5 : √S * √S = S := Real.mul_self_sqrt hS0
    rw [← mul_div_assoc, le_div_iff₀ (by positivity)]
    nlinarith
  obtain ⟨r, hr, er⟩ := row_spec hF order (fun k => x i k / a)
    (fun k hk => by
      rw [abs_div, abs_of_pos a0, div_le_one a0]
      exact hxa i hi k (horder.mem_iff.1 hk))
    a a0 (by rw [hlen]; exact hn) (by rw [hsum]; exact hscale) (by rw [hsum, hN]; exact hlow)
    (by rw [hsum, hN, hlen]; exact hhigh) _ (fun k _ => rfl)
  rw [hsum, hN, hlen] at er
  exact ⟨_, r, hnorm, hr, er⟩

/-- C76: for a single vector there is no condition on its largest entry. -/
theorem C76_norm_single (hF : F.Accurate) (order : SumOrder κ) (axis : List κ) (horder : order.entries.Perm axis)
    (x : κ → ℝ) (hn : 8 * ((axis.length : ℝ) + 4) * F.unit ≤ 1) (hlow : 2 * F.tiny ≤ √(axis.map fun k => x k ^ 2).sum)
    (hhigh : (1 + 2 * ((axis.length : ℝ) + 2) * F.unit) * √(axis.map fun k => x k ^ 2).sum ≤ F.maxFinite) :
    ∃ norms r, normFloat F order [()] axis (fun _ k => .num (x k)) = .ok norms ∧ norms () = .num r ∧
      |r - √(axis.map fun k => x k ^ 2).sum| ≤ 2 * ((axis.length : ℝ) + 2) * F.unit * √(axis.map fun k => x k ^ 2).sum := by
  refine C76_norm hF order [()] axis horder (fun _ => x) (by simp) hn ?_ hlow hhigh
  intro _ _ k hk
  have h1 : |x k| ≤ √(axis.map fun k => x k ^ 2).sum := by
    rw [← Real.sqrt_sq_eq_abs]
    exact Real.sqrt_le_sqrt (List.single_le_sum (by simpa using fun k _ => sq_nonneg (x k)) _ (List.mem_map.2 ⟨k, hk, rfl⟩))
  have h2 : √F.tiny ≤ F.unit := by
    rw [Real.sqrt_le_left unit_pos.le]
    exact hF.tiny_le
  calc |x k| * √F.tiny ≤ √(axis.map fun k => x k ^ 2).sum * F.unit :=
        mul_le_mul h1 h2 (Real.sqrt_nonneg _) (Real.sqrt_nonneg _)
    _ = _ := mul_comm _ _


/-- C76: so does the normalised vector, if the square of its norm is a normal number: every entry is accurate to
`3 (n + 3)` units in the last place, up to the smallest normal number. -/
theorem C76_normalize (hF : F.Accurate) (order : SumOrder κ) (batch : List ι) (axis : List κ)
    (horder : order.entries.Perm axis) (x : ι → κ → ℝ) {i : ι} (hi : i ∈ batch)
    (hn : 8 * ((axis.length : ℝ) + 4) * F.unit ≤ 1)
    (hrange : ∀ j ∈ batch, ∀ k ∈ axis, |x j k| * √F.tiny ≤ F.unit * √(axis.map fun k => x i k ^ 2).sum)
    (hlow : 2 * F.tiny ≤ (axis.map fun k => x i k ^ 2).sum)
    (hhigh : (1 + 2 * ((axis.length : ℝ) + 2) * F.unit) * √(axis.map fun k => x i k ^ 2).sum ≤ F.maxFinite) :
    ∃ ys norms, normalizeAndReturnNormFloat F order batch axis (fun i k => .num (x i k)) = .ok (ys, norms) ∧
      ∀ k ∈ axis, ∃ y, ys i k = .num y ∧
        |y - x i k / √(axis.map fun k => x i k ^ 2).sum| ≤
          3 * ((axis.length : ℝ) + 3) * F.unit * (|x i k| / √(axis.map fun k => x i k ^ 2).sum) + F.tiny := by
  have τ0 := tiny_pos (F := F)
  have u0 := unit_pos (F := F)
  have u1 := hF.unit_le
  have τ1 := hF.tiny_le
  set S := (axis.map fun k => x i k ^ 2).sum with hS
  set N := √S with hN
  have hNN : N * N = S := Real.mul_self_sqrt (by linarith)
  have N0 : 0 < N := Real.sqrt_pos.2 (by linarith)
  have hlow' : 2 * F.tiny ≤ N := by
    rcases le_total N 1 with h | h
    · have : N * N ≤ N * 1 := mul_le_mul_of_nonneg_left h N0.le
      linarith
    · have : F.unit ^ 2 ≤ F.unit * (1 / 8) := by rw [sq]; exact mul_le_mul_of_nonneg_left u1 u0.le
      linarith
  have hlen : (1 : ℝ) ≤ axis.length := by
    have : axis ≠ [] := by
      rintro rfl
      simp at hS
      linarith
    exact_mod_cast List.length_pos_iff.2 this
  obtain ⟨norms, r, hnorm, hr, er⟩ := C76_norm hF order batch axis horder x hi hn hrange hlow' hhigh
  set n : ℝ := (axis.length : ℝ)
  set δ := 2 * (n + 2) * F.unit with hδ
  have δ1 : δ ≤ 1 / 4 := by rw [hδ]; linarith
  have r0 : 3 / 4 * N ≤ r := by
    have := (abs_le.1 er).1
    nlinarith
  have rpos : 0 < r := by linarith
  have hbig : (9 / 8) * F.tiny ≤ r * r := by nlinarith
  have u2 : F.unit ≤ 1 / 40 := by nlinarith
  have hgt : (F.mul (.num r) (.num r)).gt (.num F.tiny) := by
    show (F.round (r * r)).gt _
    rcases round_large hF.proper (x := r * r) (by linarith) with h | ⟨c, h, ec⟩
    · rw [h]; trivial
    · rw [h]
      show F.tiny < c
      have := (abs_le.1 ec).1
      nlinarith
  refine ⟨_, norms, by unfold normalizeAndReturnNormFloat; rw [hnorm], ?_⟩
  intro k hk
  rw [hr, if_pos hgt]
  have hxk : |x i k| ≤ N := by
    rw [hN, ← Real.sqrt_sq_eq_abs]
    exact Real.sqrt_le_sqrt (List.single_le_sum (by simpa using fun k _ => sq_nonneg (x i k)) _ (List.mem_map.2 ⟨k, hk, rfl⟩))
  have hq : |x i k / r| ≤ 4 / 3 * (|x i k| / N) := by
    rw [abs_div, abs_of_pos rpos, ← mul_div_assoc, div_le_div_iff₀ rpos N0]
    nlinarith [abs_nonneg (x i k)]
  have hq1 : |x i k| / N ≤ 1 := (div_le_one N0).2 hxk
  have hmax : 8 ≤ F.maxFinite := by
    refine le_trans ?_ hF.le_max
    rw [le_div_iff₀ u0]
    linarith
  obtain ⟨y, hy, ey, -⟩ := round_spec hF.proper (x := x i k / r) (by linarith)
  refine ⟨y, by simp only [FloatFormat.div, if_neg rpos.ne', hy], ?_⟩
  have hd : |x i k / r - x i k / N| ≤ 4 / 3 * δ * (|x i k| / N) := by
    have : x i k / r - x i k / N = (x i k / r) * ((N - r) / N) := by field_simp
    rw [this, abs_mul, abs_div (N - r), abs_of_pos N0, abs_sub_comm]
    have : |r - N| / N ≤ δ := (div_le_iff₀ N0).2 er
    calc |x i k / r| * (|r - N| / N) ≤ 4 / 3 * (|x i k| / N) * δ :=
          mul_le_mul hq this (by positivity) (by positivity)
      _ = _ := by ring
  have h0 : 0 ≤ |x i k| / N := by positivity
  have := abs_sub_le y (x i k / r) (x i k / N)
  have h1 : F.unit * |x i k / r| ≤ F.unit * (4 / 3 * (|x i k| / N)) := mul_le_mul_of_nonneg_left hq u0.le
  have h2 : 4 / 3 * δ * (|x i k| / N) + F.unit * (4 / 3 * (|x i k| / N)) ≤ 3 * (n + 3) * F.unit * (|x i k| / N) := by
    rw [show 4 / 3 * δ * (|x i k| / N) + F.unit * (4 / 3 * (|x i k| / N)) =
      (4 / 3 * (2 * (n + 2)) + 4 / 3) * F.unit * (|x i k| / N) by rw [hδ]; ring]
    refine mul_le_mul_of_nonneg_right (mul_le_mul_of_nonneg_right (by linarith) u0.le) h0
  linarith

/-- C76: but a vector whose entries are smaller than the largest entry of the whole batch by a factor of `2 ^ s`, where
`2 s ≥ 6 - q` (`s = 78` for float32), has computed norm zero and is returned as it is by `normalize`. -/
theorem C76_lost (hF : F.Accurate) (order : SumOrder κ) (batch : List ι) (axis : List κ) (horder : order.entries.Perm axis)
    (x : ι → κ → ℝ) {i j : ι} (hi : i ∈ batch) (hj : j ∈ batch) {k₀ : κ} (hk₀ : k₀ ∈ axis) (s : ℕ)
    (hs : 6 - F.q ≤ 2 * s) (hsmall : ∀ k ∈ axis, 2 ^ s * |x i k| ≤ |x j k₀|)
    (hnumber : ∀ k ∈ axis, F.IsNumber (x i k)) :
    ∃ ys norms, normalizeAndReturnNormFloat F order batch axis (fun i k => .num (x i k)) = .ok (ys, norms) ∧
      norms i = .num 0 ∧ ∀ k ∈ axis, ys i k = .num (x i k) := by
  have τ0 := tiny_pos (F := F)
  have hq : F.q ≤ -8 := by have := hF.precision; have := hF.underflow; omega
  obtain ⟨a, ha, hxa, -, hnorm⟩ := normFloat_eq (F := F) order batch axis x hj hk₀
  have a0 : 0 < a := τ0.trans_le ha
  have hzero : ∀ k ∈ order.entries, F.mul (F.round (x i k / a)) (F.round (x i k / a)) = .num 0 := by
    intro k hk
    have hk' := horder.mem_iff.1 hk
    have P : (0 : ℝ) < 2 ^ s := by positivity
    have ht : |x i k / a| ≤ 1 / 2 ^ s := by
      rw [abs_div, abs_of_pos a0, div_le_div_iff₀ a0 P]
      have := hsmall k hk'
      have := hxa j hj k₀ hk₀
      linarith
    have hP1 : (1 : ℝ) / 2 ^ s ≤ 1 := by
      rw [div_le_one P]
      exact one_le_pow₀ (by norm_num)
    have hmax : 8 ≤ F.maxFinite := by
      refine le_trans ?_ hF.le_max
      rw [le_div_iff₀ unit_pos]
      linarith [hF.unit_le]
    obtain ⟨b, hb, eb⟩ := abs_round_le hF.proper (by linarith [hF.unit_le]) (x := x i k / a) (by linarith)
    rw [hb]
    refine round_underflow hF.proper ?_
    have hQ : (2 : ℝ) ^ F.q ≤ 1 / 256 := by
      have := zpow_le hq
      norm_num at this ⊢
      exact this
    have hQ0 := two_zpow_pos F.q
    set Q : ℝ := 2 ^ F.q
    have hPQ : (1 / 2 ^ s) * (1 / 2 ^ s) ≤ Q / 64 := by
      have h1 : (2 : ℝ) ^ (6 - F.q) ≤ 2 ^ (2 * s : ℤ) := zpow_le (by exact_mod_cast hs)
      have h2 : (2 : ℝ) ^ (2 * s : ℤ) = 2 ^ s * 2 ^ s := by
        rw [two_mul, zpow_add₀ two_ne_zero, zpow_natCast]
      rw [h2, zpow_sub₀ two_ne_zero] at h1
      rw [div_mul_div_comm, one_mul, div_le_div_iff₀ (by positivity) (by norm_num)]
      rw [div_le_iff₀ hQ0] at h1
      norm_num at h1 ⊢
      linarith
    have hb1 : |b| ≤ 2 * (1 / 2 ^ s) + Q / 2 := by linarith
    have hw : (0 : ℝ) < 1 / 2 ^ s := by positivity
    set w : ℝ := 1 / 2 ^ s
    rw [abs_mul]
    have h3 := mul_self_le_mul_self (abs_nonneg b) hb1
    nlinarith [sq_nonneg (2 * w - Q / 2)]
  have hsum : order.sum F (fun k => F.mul (F.round (x i k / a)) (F.round (x i k / a))) = .num 0 := by
    rw [sum_congr order hzero]
    exact sum_zero hF.proper order
  have r0 : F.round 0 = .num 0 := round_zero hF.proper
  obtain ⟨norms, hnorm, hi0⟩ : ∃ norms, normFloat F order batch axis (fun i k => .num (x i k)) = .ok norms ∧
      norms i = .num 0 := by
    refine ⟨_, hnorm, ?_⟩
    show F.mul (.num a) (F.sqrt _) = _
    rw [hsum]
    simp only [FloatFormat.sqrt, lt_irrefl, if_false, Real.sqrt_zero, r0, FloatFormat.mul, mul_zero]
  refine ⟨_, norms, by unfold normalizeAndReturnNormFloat; rw [hnorm], hi0, ?_⟩
  intro k hk
  rw [hi0, if_neg]
  · simp only [FloatFormat.div, if_neg one_ne_zero, div_one]
    exact hnumber k hk
  · simp only [FloatFormat.mul, mul_zero, r0, FloatVal.gt]
    linarith

/-- C76: the textbook formula overflows if the square of an entry does. -/
theorem C76_naive (hF : F.Accurate) (order : SumOrder κ) (x : κ → ℝ) {k : κ} (hk : k ∈ order.entries)
    (hx : 2 * F.maxFinite ≤ x k ^ 2) : naiveNormFloat F order (fun k => .num (x k)) = .posInf := by
  have hk' : F.mul (.num (x k)) (.num (x k)) = .posInf := by
    refine round_overflow hF.proper (by linarith [hF.unit_le]) ?_
    rw [← sq]
    exact hx
  have hall : ∀ k, F.mul (.num (x k)) (.num (x k)) = .posInf ∨ ∃ c, 0 ≤ c ∧ F.mul (.num (x k)) (.num (x k)) = .num c :=
    fun k => round_nonneg hF.proper (mul_self_nonneg (x k))
  unfold naiveNormFloat
  rw [sum_posInf hF.proper order hall hk hk']
  rfl

/-- Adding three numbers from left to right. -/
def leftToRight : SumOrder (Fin 3) := .node (.node (.entry 0) (.entry 1)) (.entry 2)

/-- C76, the negation for batches: in float32, with or without flushing of subnormal numbers, the norm of the vector
`(2, 0, 0)` is accurate when it is alone, but next to a vector of length `2 ^ 100` it is zero, and `normalize` returns
`(2, 0, 0)`. -/
theorem C76_batch (flush : Bool) :
    (∃ norms r, normFloat { float32 with flush := flush } leftToRight [()] [0, 1, 2] (fun _ k => .num (![2, 0, 0] k)) =
        .ok norms ∧ norms () = .num r ∧ |r - 2| ≤ 20 / 2 ^ 24) ∧
      ∃ ys norms, normalizeAndReturnNormFloat { float32 with flush := flush } leftToRight [0, 1] [0, 1, 2]
          (fun (i : Fin 2) k => .num (![![2 ^ 100, 0, 0], ![2, 0, 0]] i k)) = .ok (ys, norms) ∧
        norms 1 = .num 0 ∧ ys 1 0 = .num 2 ∧ ys 1 1 = .num 0 ∧ ys 1 2 = .num 0 := by
  have hF : FloatFormat.Accurate { float32 with flush := flush } := by
    refine ⟨?_, ?_, ?_⟩ <;> simp [float32]
  have hu : FloatFormat.unit { float32 with flush := flush } = 1 / 2 ^ 24 := by
    norm_num [FloatFormat.unit, float32, zpow_neg, zpow_natCast]
  have ht : FloatFormat.tiny { float32 with flush := flush } ≤ 1 := by
    have := hF.tiny_le
    rw [hu] at this
    norm_num at this ⊢
    linarith
  have hm : (2 : ℝ) ^ 24 ≤ FloatFormat.maxFinite { float32 with flush := flush } := by
    have := hF.le_max
    rw [hu] at this
    simpa using this
  have hsqrt : √(([0, 1, 2] : List (Fin 3)).map fun k => (![2, 0, 0] : Fin 3 → ℝ) k ^ 2).sum = 2 := by
    rw [Real.sqrt_eq_iff_mul_self_eq (List.sum_nonneg (by simp)) (by norm_num)]
    simp
    norm_num
  constructor
  · obtain ⟨norms, r, h, hr, er⟩ := C76_norm_single hF leftToRight [0, 1, 2] (.refl _) (![2, 0, 0])
      (by rw [hu]; norm_num) (by rw [hsqrt]; linarith) (by rw [hsqrt, hu]; norm_num at hm ⊢; linarith)
    refine ⟨norms, r, h, hr, ?_⟩
    rw [hsqrt, hu] at er
    norm_num at er ⊢
    exact er
  · have h2 : FloatFormat.IsNumber { float32 with flush := flush } 2 := by
      have := isNumber_two_pow hF.proper (e := 1) (by simp [float32]) (by simp [float32])
      simpa using this
    have h0 := isNumber_zero hF.proper
    obtain ⟨ys, norms, h, hn, hy⟩ := C76_lost hF leftToRight [0, 1] [0, 1, 2] (.refl _)
      (![![2 ^ 100, 0, 0], ![2, 0, 0]] : Fin 2 → Fin 3 → ℝ) (i := 1) (j := 0) (by simp) (by simp) (k₀ := 0) (by simp) 99
      (by simp [float32])
      (by intro k hk; fin_cases k <;> simp <;> norm_num)
      (by intro k hk; fin_cases k; exacts [h2, h0, h0])
    exact ⟨ys, norms, h, hn, hy 0 (by simp), hy 1 (by simp), hy 2 (by simp)⟩

/-- C76, the docstring's claim in a concrete case: in float32 the norm of `(2 ^ 100, 0, 0)` is finite and accurate, while the
textbook formula gives infinity. -/
example (flush : Bool) :
    naiveNormFloat { float32 with flush := flush } leftToRight (fun k => .num (![2 ^ 100, 0, 0] k)) = .posInf ∧
      ∃ norms r, normFloat { float32 with flush := flush } leftToRight [()] [0, 1, 2]
        (fun _ k => .num (![2 ^ 100, 0, 0] k)) = .ok norms ∧ norms () = .num r ∧ |r - 2 ^ 100| ≤ 10 / 2 ^ 24 * 2 ^ 100 := by
  have hF : FloatFormat.Accurate { float32 with flush := flush } := by
    refine ⟨?_, ?_, ?_⟩ <;> simp [float32]
  have hu : FloatFormat.unit { float32 with flush := flush } = 1 / 2 ^ 24 := by
    norm_num [FloatFormat.unit, float32, zpow_neg, zpow_natCast]
  have ht : FloatFormat.tiny { float32 with flush := flush } ≤ 1 := by
    have := hF.tiny_le
    rw [hu] at this
    norm_num at this ⊢
    linarith
  have hm : FloatFormat.maxFinite { float32 with flush := flush } = (2 ^ 24 - 1) * 2 ^ 104 := by
    norm_num [FloatFormat.maxFinite, float32]
  have hsqrt : √(([0, 1, 2] : List (Fin 3)).map fun k => (![2 ^ 100, 0, 0] : Fin 3 → ℝ) k ^ 2).sum = 2 ^ 100 := by
    rw [Real.sqrt_eq_iff_mul_self_eq (List.sum_nonneg (by simp)) (by norm_num)]
    simp
    norm_num
  constructor
  · refine C76_naive hF leftToRight _ (k := 0) (by simp [leftToRight, SumOrder.entries]) ?_
    rw [hm]
    norm_num
  · obtain ⟨norms, r, h, hr, er⟩ := C76_norm_single hF leftToRight [0, 1, 2] (.refl _) (![2 ^ 100, 0, 0])
      (by rw [hu]; norm_num) (by rw [hsqrt]; norm_num; linarith) (by rw [hsqrt, hu, hm]; norm_num)
    refine ⟨norms, r, h, hr, ?_⟩
    rw [hsqrt, hu] at er
    norm_num at er ⊢
    exact er

/-- The hypotheses of `C76_norm` and `C76_normalize` for a batch of two vectors of different lengths. -/
example (flush : Bool) : ∃ ys norms,
    normalizeAndReturnNormFloat { float32 with flush := flush } leftToRight [0, 1] [0, 1, 2]
        (fun (i : Fin 2) k => .num (![![3, 0, 4], ![0, 1000, 0]] i k)) = .ok (ys, norms) ∧
      ∃ y, ys 0 0 = .num y ∧ |y - 3 / 5| ≤ 1 / 10 ^ 6 := by
  have hF : FloatFormat.Accurate { float32 with flush := flush } := by
    refine ⟨?_, ?_, ?_⟩ <;> simp [float32]
  have hu : FloatFormat.unit { float32 with flush := flush } = 1 / 2 ^ 24 := by
    norm_num [FloatFormat.unit, float32, zpow_neg, zpow_natCast]
  have ht : FloatFormat.tiny { float32 with flush := flush } = 1 / 2 ^ 126 := by
    norm_num [FloatFormat.tiny, float32, zpow_neg, zpow_natCast]
  have hm : FloatFormat.maxFinite { float32 with flush := flush } = (2 ^ 24 - 1) * 2 ^ 104 := by
    norm_num [FloatFormat.maxFinite, float32]
  have hsum : (([0, 1, 2] : List (Fin 3)).map fun k => (![![3, 0, 4], ![0, 1000, 0]] : Fin 2 → Fin 3 → ℝ) 0 k ^ 2).sum = 25 := by
    simp
    norm_num
  have hsqrt : √(25 : ℝ) = 5 := by
    rw [Real.sqrt_eq_iff_mul_self_eq (by norm_num) (by norm_num)]
    norm_num
  have hst : √(1 / 2 ^ 126 : ℝ) = 1 / 2 ^ 63 := by
    rw [Real.sqrt_eq_iff_mul_self_eq (by norm_num) (by norm_num)]
    norm_num
  obtain ⟨ys, norms, h, hy⟩ := C76_normalize hF leftToRight [0, 1] [0, 1, 2] (.refl _)
    (![![3, 0, 4], ![0, 1000, 0]] : Fin 2 → Fin 3 → ℝ) (i := 0) (by simp) (by rw [hu]; norm_num)
    (by
      rw [hsum, hsqrt, ht, hst, hu]
      intro j hj k hk
      fin_cases j <;> fin_cases k <;> norm_num)
    (by rw [hsum, ht]; norm_num) (by rw [hsum, hsqrt, hu, hm]; norm_num)
  obtain ⟨y, hy0, ey⟩ := hy 0 (by simp)
  refine ⟨ys, norms, h, y, hy0, ?_⟩
  rw [hsum, hsqrt, hu, ht] at ey
  norm_num at ey ⊢
  linarith

end E3x
