import Verif.Spec.FloatLayers
import Verif.Lemmas.FloatArith

/-!
# Rounding errors of expressions
-/

namespace E3x

open FloatFormat Spec

variable {F : FloatFormat}

/-- A finite result of rounding is accurate. -/
theorem round_num_error (hp : 1 ≤ F.p) {x r : ℝ} (h : F.round x = .num r) :
    |r - x| ≤ F.unit * |x| + F.tiny ∧ (x = 0 → r = 0) := by
  have hu := mul_nonneg (unit_pos (F := F)).le (abs_nonneg x)
  have ht := tiny_pos (F := F)
  unfold FloatFormat.round at h
  simp only at h
  split_ifs at h with a b c
  · injection h with h
    subst h
    have hx : |x| < F.tiny := by
      by_contra hx
      exact absurd c.2 (not_lt.2 (tiny_le_abs_round hp (not_lt.1 hx)))
    refine ⟨?_, fun _ => rfl⟩
    rw [zero_sub, abs_neg]
    linarith
  · injection h with h
    subst h
    refine ⟨?_, fun hx => by rw [hx, roundUnbounded_zero]⟩
    rcases lt_or_ge |x| F.tiny with hx | hx
    · have := error_subnormal hp hx
      linarith
    · have := error_normal hx
      linarith

/-- The invariant of the error analysis: `a'` is the computed value of `a`, `A` and `M` its values for absolute values and for
absolute values of at least one. -/
structure ErrBound (F : FloatFormat) (n : ℕ) (a a' A M : ℝ) : Prop where
  err : |a' - a| ≤ ((1 + F.unit) ^ n - 1) * A + (1 + F.unit) ^ n * ((1 + F.tiny) ^ n - 1) * M
  abs_le : |a| ≤ A
  le : A ≤ M
  big : 1 ≤ M ∨ M = 0 ∧ a' = 0

namespace ErrBound

theorem pow_unit (n : ℕ) : 1 ≤ (1 + F.unit) ^ n := one_le_pow₀ (by have := unit_pos (F := F); linarith)

theorem pow_tiny (n : ℕ) : 1 ≤ (1 + F.tiny) ^ n := one_le_pow₀ (by have := tiny_pos (F := F); linarith)

variable {n m : ℕ} {a a' A M b b' B N : ℝ}

theorem nonneg (h : ErrBound F n a a' A M) : 0 ≤ A := (abs_nonneg a).trans h.abs_le

theorem mono (h : ErrBound F n a a' A M) (hm : n ≤ m) : ErrBound F m a a' A M := by
  refine ⟨h.err.trans ?_, h.abs_le, h.le, h.big⟩
  have u1 : (1 + F.unit) ^ n ≤ (1 + F.unit) ^ m := pow_le_pow_right₀ (by have := unit_pos (F := F); linarith) hm
  have t1 : (1 + F.tiny) ^ n ≤ (1 + F.tiny) ^ m := pow_le_pow_right₀ (by have := tiny_pos (F := F); linarith) hm
  have u0 := pow_unit (F := F) n
  have t0 := pow_tiny (F := F) n
  have hM := h.nonneg.trans h.le
  refine add_le_add (mul_le_mul_of_nonneg_right (by linarith) h.nonneg) ?_
  refine mul_le_mul_of_nonneg_right (mul_le_mul u1 (by linarith) (by linarith) (by linarith)) hM

theorem add (h : ErrBound F n a a' A M) (k : ErrBound F n b b' B N) : ErrBound F n (a + b) (a' + b') (A + B) (M + N) := by
  refine ⟨?_, (abs_add_le a b).trans (add_le_add h.abs_le k.abs_le), add_le_add h.le k.le, ?_⟩
  · have := abs_add_le (a' - a) (b' - b)
    rw [show a' + b' - (a + b) = a' - a + (b' - b) by ring]
    have h1 := h.err
    have k1 := k.err
    linarith
  · have hM := h.nonneg.trans h.le
    have hN := k.nonneg.trans k.le
    rcases h.big with h1 | ⟨h1, h2⟩
    · left; linarith
    · rcases k.big with k1 | ⟨k1, k2⟩
      · left; linarith
      · right; rw [h1, h2, k1, k2]; simp

theorem mul (h : ErrBound F n a a' A M) (k : ErrBound F m b b' B N) : ErrBound F (n + m) (a * b) (a' * b') (A * B) (M * N) := by
  have hA := h.nonneg
  have hB := k.nonneg
  have hM := hA.trans h.le
  have hN := hB.trans k.le
  refine ⟨?_, by rw [abs_mul]; exact mul_le_mul h.abs_le k.abs_le (abs_nonneg b) hA, mul_le_mul h.le k.le hB hM, ?_⟩
  · have e1 := h.err
    have e2 := k.err
    set θ := (1 + F.unit) ^ n with hθ
    set θ' := (1 + F.unit) ^ m with hθ'
    set ω := (1 + F.tiny) ^ n with hω
    set ω' := (1 + F.tiny) ^ m with hω'
    have t1 : 1 ≤ θ := pow_unit n
    have t2 : 1 ≤ θ' := pow_unit m
    have w1 : 1 ≤ ω := pow_tiny n
    have w2 : 1 ≤ ω' := pow_tiny m
    rw [pow_add, pow_add, ← hθ, ← hθ', ← hω, ← hω']
    have hb' : |b'| ≤ θ' * (B + (ω' - 1) * N) := by
      have := abs_add_le b (b' - b)
      rw [add_sub_cancel] at this
      have := k.abs_le
      nlinarith
    have hb'' : B + (ω' - 1) * N ≤ ω' * N := by
      have := k.le
      linarith
    have s : |a' * b' - a * b| ≤ |a' - a| * |b'| + |a| * |b' - b| := by
      rw [show a' * b' - a * b = (a' - a) * b' + a * (b' - b) by ring, ← abs_mul, ← abs_mul]
      exact abs_add_le _ _
    have hX : 0 ≤ B + (ω' - 1) * N := by
      have := mul_nonneg (sub_nonneg.2 w2) hN
      linarith
    have s1 : |a' - a| * |b'| ≤ ((θ - 1) * A) * (θ' * (B + (ω' - 1) * N)) + (θ * (ω - 1) * M) * (θ' * (ω' * N)) := by
      have c1 : 0 ≤ (θ - 1) * A := mul_nonneg (by linarith) hA
      have c2 : 0 ≤ θ * (ω - 1) * M := mul_nonneg (mul_nonneg (by linarith) (by linarith)) hM
      calc |a' - a| * |b'| ≤ ((θ - 1) * A + θ * (ω - 1) * M) * (θ' * (B + (ω' - 1) * N)) :=
            mul_le_mul e1 hb' (abs_nonneg _) (by linarith)
        _ = ((θ - 1) * A) * (θ' * (B + (ω' - 1) * N)) + (θ * (ω - 1) * M) * (θ' * (B + (ω' - 1) * N)) := by ring
        _ ≤ _ := add_le_add le_rfl (mul_le_mul_of_nonneg_left (mul_le_mul_of_nonneg_left hb'' (by linarith)) c2)
    have s2 : |a| * |b' - b| ≤ A * ((θ' - 1) * B + θ' * (ω' - 1) * N) :=
      mul_le_mul h.abs_le e2 (abs_nonneg _) hA
    have s3 : A * (θ * θ' * (ω' - 1) * N) ≤ M * (θ * θ' * (ω' - 1) * N) := by
      refine mul_le_mul_of_nonneg_right h.le ?_
      exact mul_nonneg (mul_nonneg (mul_nonneg (by linarith) (by linarith)) (by linarith)) hN
    linarith
  · rcases h.big with h1 | ⟨h1, h2⟩
    · rcases k.big with k1 | ⟨k1, k2⟩
      · left
        nlinarith
      · right; rw [k1, k2]; simp
    · right; rw [h1, h2]; simp

theorem round (hp : 1 ≤ F.p) (h : ErrBound F n a a' A M) {r : ℝ} (hr : F.round a' = .num r) : ErrBound F (n + 1) a r A M := by
  obtain ⟨h1, h2⟩ := round_num_error hp hr
  rcases h.big with hM | ⟨hM, ha⟩
  swap
  · have hr0 := h2 ha
    have hA : A = 0 := le_antisymm (hM ▸ h.le) h.nonneg
    have : a = 0 := abs_eq_zero.1 (le_antisymm (hA ▸ h.abs_le) (abs_nonneg a))
    refine ⟨?_, h.abs_le, h.le, .inr ⟨hM, hr0⟩⟩
    rw [hr0, this, hA, hM]
    simp
  refine ⟨?_, h.abs_le, h.le, .inl hM⟩
  have u0 := unit_pos (F := F)
  have τ0 := tiny_pos (F := F)
  have e := h.err
  set E := ((1 + F.unit) ^ n - 1) * A + (1 + F.unit) ^ n * ((1 + F.tiny) ^ n - 1) * M with hE
  have s : |r - a| ≤ |r - a'| + |a' - a| := abs_sub_le r a' a
  have s' : |a'| ≤ A + E := by
    have := abs_add_le a (a' - a)
    rw [add_sub_cancel] at this
    have := h.abs_le
    linarith
  have s2 : F.unit * |a'| ≤ F.unit * (A + E) := mul_le_mul_of_nonneg_left s' u0.le
  have s3 : |r - a| ≤ F.unit * (A + E) + F.tiny + E := by linarith
  refine s3.trans ?_
  rw [hE, pow_succ, pow_succ]
  have t1 := pow_unit (F := F) n
  have w1 := pow_tiny (F := F) n
  set θ := (1 + F.unit) ^ n
  set ω := (1 + F.tiny) ^ n
  have k : F.tiny ≤ θ * (1 + F.unit) * (ω * F.tiny) * M := by
    have k1 : 1 ≤ θ * (1 + F.unit) := one_le_mul_of_one_le_of_one_le t1 (by linarith)
    have k2 : 1 ≤ θ * (1 + F.unit) * ω := one_le_mul_of_one_le_of_one_le k1 w1
    have k3 : 1 ≤ θ * (1 + F.unit) * ω * M := one_le_mul_of_one_le_of_one_le k2 hM
    calc F.tiny = 1 * F.tiny := (one_mul _).symm
      _ ≤ (θ * (1 + F.unit) * ω * M) * F.tiny := mul_le_mul_of_nonneg_right k3 τ0.le
      _ = _ := by ring
  nlinarith

theorem mask (b : Bool) : ErrBound F 0 (if b then (1 : ℝ) else 0) (if b then 1 else 0) (if b then 1 else 0) (if b then 1 else 0) := by
  refine ⟨by simp, ?_, le_rfl, ?_⟩ <;> cases b <;> simp

theorem entry {a b : ℝ} (h : |b - a| ≤ F.unit * |a| + F.tiny) : ErrBound F 1 a b |a| (max 1 |a|) := by
  refine ⟨h.trans ?_, le_rfl, le_max_right _ _, .inl (le_max_left _ _)⟩
  have u0 := unit_pos (F := F)
  have τ0 := tiny_pos (F := F)
  have : F.tiny ≤ (1 + F.unit) * F.tiny * max 1 |a| := by
    have k1 : 1 ≤ (1 + F.unit) * max 1 |a| := one_le_mul_of_one_le_of_one_le (by linarith) (le_max_left _ _)
    calc F.tiny = 1 * F.tiny := (one_mul _).symm
      _ ≤ ((1 + F.unit) * max 1 |a|) * F.tiny := mul_le_mul_of_nonneg_right k1 τ0.le
      _ = _ := by ring
  simp only [pow_one]
  have e : (1 + F.unit) * (1 + F.tiny - 1) * max 1 |a| = (1 + F.unit) * F.tiny * max 1 |a| := by ring
  rw [e]
  linarith

end ErrBound

/-- Only numbers have a number as their sum. -/
theorem add_num {x y : FloatVal} {r : ℝ} (h : F.add x y = .num r) : ∃ a b, x = .num a ∧ y = .num b ∧ F.round (a + b) = .num r := by
  cases x <;> cases y <;> first | (exact ⟨_, _, rfl, rfl, h⟩) | cases h

theorem infOfSign_ne {x r : ℝ} : infOfSign x ≠ .num r := by
  unfold infOfSign
  split_ifs <;> simp

theorem mul_num {x y : FloatVal} {r : ℝ} (h : F.mul x y = .num r) : ∃ a b, x = .num a ∧ y = .num b ∧ F.round (a * b) = .num r := by
  cases x <;> cases y <;> first | (exact ⟨_, _, rfl, rfl, h⟩) | (exact absurd h infOfSign_ne) | cases h

theorem fma_num {x y z : FloatVal} {r : ℝ} (h : F.fma x y z = .num r) :
    ∃ a b c, x = .num a ∧ y = .num b ∧ z = .num c ∧ F.round (a * b + c) = .num r := by
  by_cases hxy : ∃ a b, x = .num a ∧ y = .num b
  · obtain ⟨a, b, rfl, rfl⟩ := hxy
    cases z with
    | num c => exact ⟨a, b, c, rfl, rfl, rfl, h⟩
    | _ => cases h
  · have e : F.fma x y z = F.add (F.mul x y) z := by
      cases x <;> cases y <;> first | (exact absurd ⟨_, _, rfl, rfl⟩ hxy) | rfl
    rw [e] at h
    obtain ⟨a, -, ha, -⟩ := add_num h
    obtain ⟨u, v, hu, hv, -⟩ := mul_num ha
    exact absurd ⟨u, v, hu, hv⟩ hxy

variable {ν : Type}

/-- The error of an expression whose computed value is finite. -/
theorem arith_error (hp : 1 ≤ F.p) (v : ν → ℝ) (w : ν → FloatVal) (hw : ∀ k, Rounded F (w k) (v k)) (e : Arith ν) (r : ℝ)
    (h : e.float F w = .num r) :
    ErrBound F (roundings e) (e.value v) r (e.value fun k => |v k|) (e.value fun k => max 1 |v k|) := by
  induction e generalizing r with
  | entry k =>
    obtain ⟨b, hb, hb'⟩ := hw k
    have : b = r := by
      have h' : w k = .num r := h
      rw [hb] at h'
      injection h'
    subst this
    exact ErrBound.entry hb'
  | mask b =>
    have h' : FloatVal.num (if b then (1 : ℝ) else 0) = .num r := h
    injection h' with h'
    subst h'
    exact ErrBound.mask b
  | add a b iha ihb =>
    obtain ⟨x, y, hx, hy, hr⟩ := add_num h
    exact (((iha x hx).mono (le_max_left _ _)).add ((ihb y hy).mono (le_max_right _ _))).round hp hr
  | mul a b iha ihb =>
    obtain ⟨x, y, hx, hy, hr⟩ := mul_num h
    exact ((iha x hx).mul (ihb y hy)).round hp hr
  | fma a b c iha ihb ihc =>
    obtain ⟨x, y, z, hx, hy, hz, hr⟩ := fma_num h
    exact ((((iha x hx).mul (ihb y hy)).mono (le_max_left _ _)).add ((ihc z hz).mono (le_max_right _ _))).round hp hr

theorem get_map (g : ℝ → ℝ) (v : Arrays) (k : Entry) : (mapArrays g v).get k = g (v.get k) := by
  cases k with
  | fused n l f => cases n <;> rfl
  | _ => rfl

end E3x

namespace E3x

open FloatFormat Spec

/-! ## Overflow -/

section

variable {F : FloatFormat} {ν : Type}

theorem one_le_unmasked (v : ν → ℝ) (e : Arith ν) : 1 ≤ unmasked (fun k => max 1 |v k|) e := by
  induction e with
  | entry k => exact le_max_left _ _
  | mask b => exact le_rfl
  | add a b iha ihb => simp only [unmasked]; linarith
  | mul a b iha ihb => exact one_le_mul_of_one_le_of_one_le iha ihb
  | fma a b c iha ihb ihc =>
    have := one_le_mul_of_one_le_of_one_le iha ihb
    simp only [unmasked]; linarith

theorem value_nonneg {v : ν → ℝ} (hv : ∀ k, 0 ≤ v k) (e : Arith ν) : 0 ≤ e.value v := by
  induction e with
  | entry k => exact hv k
  | mask b => simp only [Arith.value]; split_ifs <;> norm_num
  | add a b iha ihb => exact add_nonneg iha ihb
  | mul a b iha ihb => exact mul_nonneg iha ihb
  | fma a b c iha ihb ihc => exact add_nonneg (mul_nonneg iha ihb) ihc

theorem value_le_unmasked (v : ν → ℝ) (e : Arith ν) :
    e.value (fun k => max 1 |v k|) ≤ unmasked (fun k => max 1 |v k|) e := by
  have h0 := value_nonneg (v := fun k => max 1 |v k|) (fun k => le_trans zero_le_one (le_max_left _ _))
  have h1 := one_le_unmasked v
  induction e with
  | entry k => exact le_rfl
  | mask b => simp only [Arith.value, unmasked]; split_ifs <;> norm_num
  | add a b iha ihb => exact add_le_add iha ihb
  | mul a b iha ihb => exact mul_le_mul iha ihb (h0 b) (by linarith [h1 a])
  | fma a b c iha ihb ihc => exact add_le_add (mul_le_mul iha ihb (h0 b) (by linarith [h1 a])) ihc

theorem abs_le_unmasked (hp : 1 ≤ F.p) (v : ν → ℝ) (w : ν → FloatVal) (hw : ∀ k, Rounded F (w k) (v k)) (e : Arith ν) (r : ℝ)
    (h : e.float F w = .num r) :
    |r| ≤ ((1 + F.unit) * (1 + F.tiny)) ^ roundings e * unmasked (fun k => max 1 |v k|) e := by
  have hb := arith_error hp v w hw e r h
  have hM := value_le_unmasked v e
  have t1 := ErrBound.pow_unit (F := F) (roundings e)
  have w1 := ErrBound.pow_tiny (F := F) (roundings e)
  have := hb.err
  have h1 := hb.abs_le
  have h2 := hb.le
  have h3 := hb.nonneg
  rw [mul_pow]
  set θ := (1 + F.unit) ^ roundings e
  set ω := (1 + F.tiny) ^ roundings e
  set U := unmasked (fun k => max 1 |v k|) e
  set M := e.value fun k => max 1 |v k|
  set A := e.value fun k => |v k|
  have s := abs_add_le (e.value v) (r - e.value v)
  rw [add_sub_cancel] at s
  have s1 : |r| ≤ θ * A + θ * (ω - 1) * M := by linarith
  have s2 : θ * A ≤ θ * M := mul_le_mul_of_nonneg_left h2 (by linarith)
  have s3 : θ * ω * M ≤ θ * ω * U := mul_le_mul_of_nonneg_left hM (by positivity)
  linarith

/-- If the entries are not too large, nothing overflows. -/
theorem arith_finite (hF : F.Proper) (v : ν → ℝ) (w : ν → FloatVal) (hw : ∀ k, Rounded F (w k) (v k)) (e : Arith ν)
    (h : ((1 + F.unit) * (1 + F.tiny)) ^ roundings e * unmasked (fun k => max 1 |v k|) e ≤ F.maxFinite) :
    ∃ r, e.float F w = .num r := by
  have hb : 1 ≤ (1 + F.unit) * (1 + F.tiny) := by
    have := unit_pos (F := F)
    have := tiny_pos (F := F)
    exact one_le_mul_of_one_le_of_one_le (by linarith) (by linarith)
  set β := (1 + F.unit) * (1 + F.tiny) with hβ
  have hpow : ∀ {m n : ℕ}, m ≤ n → β ^ m ≤ β ^ n := fun h => pow_le_pow_right₀ hb h
  have hpos : ∀ n, 0 < β ^ n := fun n => pow_pos (by linarith) n
  have fin : ∀ x : ℝ, |x| ≤ F.maxFinite → ∃ r, F.round x = .num r := fun x hx => by
    obtain ⟨r, hr, -⟩ := round_spec hF hx
    exact ⟨r, hr⟩
  have bound := abs_le_unmasked hF.p_pos v w hw
  rw [← hβ] at bound
  have one := one_le_unmasked v
  induction e with
  | entry k =>
    obtain ⟨b, hb, -⟩ := hw k
    exact ⟨b, hb⟩
  | mask b => exact ⟨_, rfl⟩
  | add a b iha ihb =>
    simp only [roundings, unmasked] at h
    set m := max (roundings a) (roundings b)
    have ha := one a
    have hb' := one b
    set U := unmasked (fun k => max 1 |v k|) a
    set V := unmasked (fun k => max 1 |v k|) b
    have hm : β ^ m * (U + V) ≤ F.maxFinite :=
      (mul_le_mul_of_nonneg_right (hpow (Nat.le_succ m)) (by linarith)).trans h
    have sa : β ^ roundings a * U ≤ β ^ m * U := mul_le_mul_of_nonneg_right (hpow (le_max_left _ _)) (by linarith)
    have sb : β ^ roundings b * V ≤ β ^ m * V := mul_le_mul_of_nonneg_right (hpow (le_max_right _ _)) (by linarith)
    have pU : 0 ≤ β ^ m * U := mul_nonneg (hpos m).le (by linarith)
    have pV : 0 ≤ β ^ m * V := mul_nonneg (hpos m).le (by linarith)
    rw [mul_add] at hm
    obtain ⟨x, hx⟩ := iha (by linarith)
    obtain ⟨y, hy⟩ := ihb (by linarith)
    have bx := bound a x hx
    have bY := bound b y hy
    obtain ⟨r, hr⟩ := fin (x + y) (by
      have := abs_add_le x y
      linarith)
    exact ⟨r, by simp only [Arith.float, hx, hy, FloatFormat.add, hr]⟩
  | mul a b iha ihb =>
    simp only [roundings, unmasked] at h
    have ha := one a
    have hb' := one b
    set U := unmasked (fun k => max 1 |v k|) a
    set V := unmasked (fun k => max 1 |v k|) b
    have hm : β ^ (roundings a + roundings b) * (U * V) ≤ F.maxFinite :=
      (mul_le_mul_of_nonneg_right (hpow (Nat.le_succ _)) (by nlinarith)).trans h
    have e1 : (β ^ roundings a * U) * (β ^ roundings b * V) ≤ F.maxFinite := by
      rw [pow_add] at hm
      linarith
    have p1 : 1 ≤ β ^ roundings a * U := one_le_mul_of_one_le_of_one_le (one_le_pow₀ hb) ha
    have p2 : 1 ≤ β ^ roundings b * V := one_le_mul_of_one_le_of_one_le (one_le_pow₀ hb) hb'
    obtain ⟨x, hx⟩ := iha (by nlinarith)
    obtain ⟨y, hy⟩ := ihb (by nlinarith)
    have bx := bound a x hx
    have bY := bound b y hy
    obtain ⟨r, hr⟩ := fin (x * y) (by
      rw [abs_mul]
      exact (mul_le_mul bx bY (abs_nonneg _) (by linarith)).trans e1)
    exact ⟨r, by simp only [Arith.float, hx, hy, FloatFormat.mul, hr]⟩
  | fma a b c iha ihb ihc =>
    simp only [roundings, unmasked] at h
    have ha := one a
    have hb' := one b
    have hc := one c
    set m := max (roundings a + roundings b) (roundings c)
    set U := unmasked (fun k => max 1 |v k|) a
    set V := unmasked (fun k => max 1 |v k|) b
    set W := unmasked (fun k => max 1 |v k|) c
    have hUV : 1 ≤ U * V := one_le_mul_of_one_le_of_one_le ha hb'
    have hm : β ^ m * (U * V + W) ≤ F.maxFinite :=
      (mul_le_mul_of_nonneg_right (hpow (Nat.le_succ m)) (by linarith)).trans h
    rw [mul_add] at hm
    have sab : β ^ (roundings a + roundings b) * (U * V) ≤ β ^ m * (U * V) :=
      mul_le_mul_of_nonneg_right (hpow (le_max_left _ _)) (by linarith)
    have sc : β ^ roundings c * W ≤ β ^ m * W := mul_le_mul_of_nonneg_right (hpow (le_max_right _ _)) (by linarith)
    have pW : 0 ≤ β ^ m * W := mul_nonneg (hpos m).le (by linarith)
    have pUV : 0 ≤ β ^ m * (U * V) := mul_nonneg (hpos m).le (by linarith)
    have e1 : (β ^ roundings a * U) * (β ^ roundings b * V) ≤ β ^ m * (U * V) := by
      rw [pow_add] at sab
      linarith
    have p1 : 1 ≤ β ^ roundings a * U := one_le_mul_of_one_le_of_one_le (one_le_pow₀ hb) ha
    have p2 : 1 ≤ β ^ roundings b * V := one_le_mul_of_one_le_of_one_le (one_le_pow₀ hb) hb'
    obtain ⟨x, hx⟩ := iha (by nlinarith)
    obtain ⟨y, hy⟩ := ihb (by nlinarith)
    obtain ⟨z, hz⟩ := ihc (by linarith)
    have bx := bound a x hx
    have bY := bound b y hy
    have bz := bound c z hz
    have bxy : |x * y| ≤ β ^ m * (U * V) := by
      rw [abs_mul]
      exact (mul_le_mul bx bY (abs_nonneg _) (by linarith)).trans e1
    obtain ⟨r, hr⟩ := fin (x * y + z) (by
      have := abs_add_le (x * y) z
      linarith)
    exact ⟨r, by simp only [Arith.float, hx, hy, hz, FloatFormat.fma, hr]⟩

end

/-! ## Functions with an evaluation -/

/-- There is an evaluation. -/
def HasEval (g : Arrays → ℝ) : Prop := ∃ e, Evaluates e g

namespace HasEval

variable {g h : Arrays → ℝ}

theorem entry (k : Entry) : HasEval fun v => v.get k := ⟨.entry k, fun _ => rfl⟩

theorem zero : HasEval fun _ => 0 := ⟨.mask false, fun _ => rfl⟩

theorem one : HasEval fun _ => 1 := ⟨.mask true, fun _ => rfl⟩

theorem add (hg : HasEval g) (hh : HasEval h) : HasEval fun v => g v + h v := by
  obtain ⟨a, ha⟩ := hg
  obtain ⟨b, hb⟩ := hh
  exact ⟨.add a b, fun v => by simp only [Arith.value, ha v, hb v]⟩

theorem mul (hg : HasEval g) (hh : HasEval h) : HasEval fun v => g v * h v := by
  obtain ⟨a, ha⟩ := hg
  obtain ⟨b, hb⟩ := hh
  exact ⟨.mul a b, fun v => by simp only [Arith.value, ha v, hb v]⟩

theorem nat (n : ℕ) : HasEval fun _ => (n : ℝ) := by
  induction n with
  | zero => simpa using zero
  | succ n ih => simpa using ih.add one

theorem sum {n : ℕ} {g : ℕ → Arrays → ℝ} (hg : ∀ k, HasEval (g k)) : HasEval fun v => ∑ k ∈ Finset.range n, g k v := by
  induction n with
  | zero => simpa using zero
  | succ n ih =>
    simp only [Finset.sum_range_succ]
    exact ih.add (hg n)

theorem listSum {α : Type} {g : α → Arrays → ℝ} (l : List α) (hg : ∀ k ∈ l, HasEval (g k)) :
    HasEval fun v => (l.map fun k => g k v).sum := by
  induction l with
  | nil => simpa using zero
  | cons a l ih =>
    simp only [List.map_cons, List.sum_cons]
    exact (hg a (by simp)).add (ih fun k hk => hg k (by simp [hk]))

end HasEval

end E3x
