import Verif.Lemmas.QuadratureMoments
import Verif.Spec.QuadratureError

/-!
# Sums over the points of a quadrature rule
-/

namespace E3x

namespace QuadratureCheck

open Finset MvPolynomial

noncomputable section

/-! ## orbits -/

theorem sum_map_flatMap {α β : Type} (l : List α) (f : α → List β) (g : β → ℝ) :
    ((l.flatMap f).map g).sum = (l.map fun x => ((f x).map g).sum).sum := by
  induction l with
  | nil => simp
  | cons a l ih => simp [ih]

theorem numSigns_eq (x : ℕ) : numSigns x = if x = 0 then 1 else 2 := by
  unfold numSigns
  by_cases h : x = 0
  · subst h; rfl
  · rw [if_neg h]
    have : Nat.beq x 0 = false := by
      cases x with
      | zero => exact absurd rfl h
      | succ n => rfl
    rw [this]; rfl

/-- a power of a coordinate, summed over the signs -/
theorem sum_signs (x i : ℕ) : ((QuadratureOrbit.signs x).map fun s : ℤ => ((s : ℝ) / 2 ^ 70) ^ i).sum =
    if Even i then (numSigns x : ℝ) * ((x : ℝ) / 2 ^ 70) ^ i else 0 := by
  rw [numSigns_eq, QuadratureOrbit.signs]
  by_cases hx : x = 0
  · subst hx
    simp only [if_true, List.map_cons, List.map_nil, List.sum_cons, List.sum_nil, add_zero, Int.cast_zero, zero_div,
      Nat.cast_one, one_mul, Nat.cast_zero]
    split_ifs with h
    · rfl
    · exact zero_pow (by rintro rfl; simp at h)
  · simp only [if_neg hx, List.map_cons, List.map_nil, List.sum_cons, List.sum_nil, add_zero, Int.cast_neg,
      Int.cast_natCast, neg_div]
    split_ifs with h
    · rw [h.neg_pow]; push_cast; ring
    · rw [(Nat.not_even_iff_odd.mp h).neg_pow]; ring

theorem beq_eq_decide (x y : ℕ) : Nat.beq x y = decide (x = y) := by
  by_cases h : x = y
  · subst h; simp
  · rw [decide_eq_false h]
    by_contra hc
    exact h (Nat.eq_of_beq_eq_true (by simpa using hc))

/-- a function, summed over the different arrangements of three coordinates -/
theorem sum_arrangements (x y z : ℕ) (f : ℕ × ℕ × ℕ → ℝ) :
    ((QuadratureOrbit.arrangements x y z).map f).sum = (numArrangements x y z : ℝ) / 6 *
      (f (x, y, z) + f (x, z, y) + (f (y, x, z) + f (y, z, x)) + (f (z, x, y) + f (z, y, x))) := by
  unfold QuadratureOrbit.arrangements numArrangements
  simp only [beq_eq_decide]
  by_cases hxy : x = y
  · subst hxy
    by_cases hxz : x = z
    · subst hxz
      simp [List.dedup_cons_of_mem]
      ring
    · have hzx : z ≠ x := fun h => hxz h.symm
      simp [hxz, hzx]
      ring
  · have hyx : y ≠ x := fun h => hxy h.symm
    by_cases hyz : y = z
    · subst hyz
      simp [hxy, hyx]
      ring
    · have hzy : z ≠ y := fun h => hyz h.symm
      by_cases hxz : x = z
      · subst hxz
        simp [hxy, hyx]
        ring
      · have hzx : z ≠ x := fun h => hxz h.symm
        simp [hxy, hyx, hxz, hzx, hyz, hzy]
        ring

/-- a monomial -/
def mono (i j k : ℕ) (r : Fin 3 → ℝ) : ℝ := r 0 ^ i * r 1 ^ j * r 2 ^ k

theorem pow_even (x a : ℕ) : ((x : ℝ) / 2 ^ 70) ^ (2 * a) = sq x ^ a := by rw [sq, pow_mul]

theorem triple (A B C : List ℤ) (f g h : ℤ → ℝ) :
    (A.map fun a => (B.map fun b => (C.map fun c => f a * g b * h c).sum).sum).sum =
      (A.map f).sum * (B.map g).sum * (C.map h).sum := by
  simp only [List.sum_map_mul_left, List.sum_map_mul_right]

theorem sum_vectors (o : QuadratureOrbit) (i j k : ℕ) : (o.vectors.map (mono i j k)).sum =
    if Even i ∧ Even j ∧ Even k then
      (numArrangements o.x o.y o.z * (numSigns o.x * (numSigns o.y * numSigns o.z)) : ℝ) / 6 *
        six (sq o.x) (sq o.y) (sq o.z) (i / 2) (j / 2) (k / 2)
    else 0 := by
  have h1 : (o.vectors.map (mono i j k)).sum = ((QuadratureOrbit.arrangements o.x o.y o.z).map fun t =>
      ((QuadratureOrbit.signs t.1).map fun s : ℤ => ((s : ℝ) / 2 ^ 70) ^ i).sum *
      ((QuadratureOrbit.signs t.2.1).map fun s : ℤ => ((s : ℝ) / 2 ^ 70) ^ j).sum *
      ((QuadratureOrbit.signs t.2.2).map fun s : ℤ => ((s : ℝ) / 2 ^ 70) ^ k).sum).sum := by
    unfold QuadratureOrbit.vectors QuadratureOrbit.points
    rw [List.map_map, sum_map_flatMap]
    congr 1
    refine List.map_congr_left fun t _ => ?_
    rw [← triple, sum_map_flatMap]
    congr 1
    refine List.map_congr_left fun a _ => ?_
    rw [sum_map_flatMap]
    congr 1
    refine List.map_congr_left fun b _ => ?_
    rw [List.map_map]
    rfl
  rw [h1]
  simp only [sum_signs]
  rw [sum_arrangements]
  by_cases hi : Even i
  · by_cases hj : Even j
    · by_cases hk : Even k
      · simp only [hi, hj, hk, and_self, if_true]
        obtain ⟨a, rfl⟩ := hi.two_dvd
        obtain ⟨b, rfl⟩ := hj.two_dvd
        obtain ⟨c, rfl⟩ := hk.two_dvd
        simp only [pow_even, Nat.mul_div_cancel_left _ two_pos, six]
        ring
      · simp only [hk, and_false, if_false, mul_zero, add_zero]
    · simp only [hj, false_and, and_false, if_false, mul_zero, zero_mul, add_zero]
  · simp only [hi, false_and, if_false, mul_zero, zero_mul, add_zero]

theorem total_cast (o : QuadratureOrbit) : (total o : ℝ) =
    o.w * (numArrangements o.x o.y o.z * (numSigns o.x * (numSigns o.y * numSigns o.z))) := by
  have : total o = o.w * (numArrangements o.x o.y o.z * (numSigns o.x * (numSigns o.y * numSigns o.z))) := rfl
  rw [this]; push_cast; rfl

/-- the moments of the grid -/
theorem sum_grid (R : QuadratureRule) (i j k : ℕ) : (R.grid.map fun p => p.2 * mono i j k p.1).sum =
    if Even i ∧ Even j ∧ Even k then
      (mom R.pos (i / 2) (j / 2) (k / 2) - mom R.neg (i / 2) (j / 2) (k / 2)) / (6 * 2 ^ 70)
    else 0 := by
  have key : ∀ (s : ℝ) (l : List QuadratureOrbit),
      ((l.flatMap fun o => o.vectors.map fun r => (r, s * ((o.w : ℝ) / 2 ^ 70))).map fun p => p.2 * mono i j k p.1).sum =
      if Even i ∧ Even j ∧ Even k then s * mom l (i / 2) (j / 2) (k / 2) / (6 * 2 ^ 70) else 0 := by
    intro s l
    rw [sum_map_flatMap]
    induction l with
    | nil => simp [mom]
    | cons o l ih =>
      rw [List.map_cons, List.sum_cons, ih, List.map_map]
      have : ((fun p : (Fin 3 → ℝ) × ℝ => p.2 * mono i j k p.1) ∘ fun r => (r, s * ((o.w : ℝ) / 2 ^ 70))) =
          fun r => s * ((o.w : ℝ) / 2 ^ 70) * mono i j k r := rfl
      rw [this, List.sum_map_mul_left, sum_vectors]
      split_ifs
      · simp only [mom, List.map_cons, List.sum_cons, total_cast]
        ring
      · simp
  unfold QuadratureRule.grid
  rw [List.map_append, List.sum_append]
  have h1 := key 1 R.pos
  have h2 := key (-1) R.neg
  simp only [one_mul, neg_mul, one_mul] at h1 h2
  rw [h1, h2]
  split_ifs
  · ring
  · ring

/-- The number of points, as the kernel can evaluate it. -/
def size (l : List QuadratureOrbit) : ℕ :=
  List.rec (motive := fun _ => ℕ) 0 (fun o _ ih => Nat.add (Nat.mul (numArrangements o.x o.y o.z)
    (Nat.mul (numSigns o.x) (Nat.mul (numSigns o.y) (numSigns o.z)))) ih) l

theorem length_vectors (o : QuadratureOrbit) : o.vectors.length =
    numArrangements o.x o.y o.z * (numSigns o.x * (numSigns o.y * numSigns o.z)) := by
  have h := sum_vectors o 0 0 0
  have e : mono 0 0 0 = fun _ => 1 := by funext r; simp [mono]
  simp only [e, pow_zero, mul_one, Even.zero, and_self, if_true, Nat.zero_div, six] at h
  rw [List.map_const', List.sum_replicate, nsmul_eq_mul, mul_one] at h
  have : (o.vectors.length : ℝ) =
      ((numArrangements o.x o.y o.z * (numSigns o.x * (numSigns o.y * numSigns o.z)) : ℕ) : ℝ) := by
    rw [h]; push_cast; ring
  exact_mod_cast this

theorem length_grid (R : QuadratureRule) : R.grid.length = size R.pos + size R.neg := by
  have key : ∀ (s : QuadratureOrbit → ℝ) (l : List QuadratureOrbit),
      (l.flatMap fun o => o.vectors.map fun r => (r, s o)).length = size l := by
    intro s l
    induction l with
    | nil => rfl
    | cons o l ih =>
      rw [List.flatMap_cons, List.length_append, ih, List.length_map, length_vectors]
      rfl
  rw [QuadratureRule.grid, List.length_append, key, key]

theorem sum_abs_grid (R : QuadratureRule) :
    (R.grid.map fun p => |p.2|).sum = (weight R.pos + weight R.neg : ℝ) / 2 ^ 70 := by
  have key : ∀ (s : ℝ) (l : List QuadratureOrbit), |s| = 1 →
      ((l.flatMap fun o => o.vectors.map fun r => (r, s * ((o.w : ℝ) / 2 ^ 70))).map fun p => |p.2|).sum =
        (weight l : ℝ) / 2 ^ 70 := by
    intro s l hs
    rw [sum_map_flatMap]
    induction l with
    | nil => simp [weight_eq]
    | cons o l ih =>
      rw [List.map_cons, List.sum_cons, ih, List.map_map]
      have : ((fun p : (Fin 3 → ℝ) × ℝ => |p.2|) ∘ fun r => (r, s * ((o.w : ℝ) / 2 ^ 70))) =
          fun _ => (o.w : ℝ) / 2 ^ 70 := by
        funext r
        simp only [Function.comp, abs_mul, hs, one_mul]
        exact abs_of_nonneg (by positivity)
      rw [this, List.map_const', List.sum_replicate, nsmul_eq_mul, length_vectors, weight_eq, weight_eq, List.map_cons,
        List.sum_cons, Nat.cast_add, total_cast]
      push_cast
      ring
  unfold QuadratureRule.grid
  rw [List.map_append, List.sum_append]
  have h1 := key 1 R.pos (by simp)
  have h2 := key (-1) R.neg (by simp)
  simp only [one_mul, neg_mul, one_mul] at h1 h2
  rw [h1, h2]
  ring

theorem signs_le {x : ℕ} (hx : x ≤ 2 ^ 70) {s : ℤ} (hs : s ∈ QuadratureOrbit.signs x) : |(s : ℝ) / 2 ^ 70| ≤ 1 := by
  have h1 : |(s : ℝ)| ≤ (x : ℝ) := by
    unfold QuadratureOrbit.signs at hs
    split_ifs at hs with h
    · simp only [List.mem_singleton] at hs
      subst hs h; simp
    · simp only [List.mem_cons, List.not_mem_nil, or_false] at hs
      rcases hs with rfl | rfl <;> simp
  rw [abs_div, abs_of_pos (a := (2 : ℝ) ^ 70) (by positivity), div_le_one (by positivity)]
  exact h1.trans (by exact_mod_cast hx)

theorem vectors_le {o : QuadratureOrbit} (h : Small o) {r : Fin 3 → ℝ} (hr : r ∈ o.vectors) (i : Fin 3) : |r i| ≤ 1 := by
  obtain ⟨hx, hy, hz⟩ := h
  simp only [QuadratureOrbit.vectors, QuadratureOrbit.points, List.mem_map, List.mem_flatMap] at hr
  obtain ⟨t, ⟨u, hu, a, ha, b, hb, c, hc, rfl⟩, rfl⟩ := hr
  have hu' : u.1 ≤ 2 ^ 70 ∧ u.2.1 ≤ 2 ^ 70 ∧ u.2.2 ≤ 2 ^ 70 := by
    simp only [QuadratureOrbit.arrangements, List.mem_dedup, List.mem_cons, List.not_mem_nil, or_false] at hu
    rcases hu with rfl | rfl | rfl | rfl | rfl | rfl
    exacts [⟨hx, hy, hz⟩, ⟨hx, hz, hy⟩, ⟨hy, hx, hz⟩, ⟨hy, hz, hx⟩, ⟨hz, hx, hy⟩, ⟨hz, hy, hx⟩]
  fin_cases i
  · exact signs_le hu'.1 ha
  · exact signs_le hu'.2.1 hb
  · exact signs_le hu'.2.2 hc

theorem grid_le {R : QuadratureRule} (hp : ∀ o ∈ R.pos, Small o) (hn : ∀ o ∈ R.neg, Small o)
    {p : (Fin 3 → ℝ) × ℝ} (h : p ∈ R.grid) (i : Fin 3) : |p.1 i| ≤ 1 := by
  simp only [QuadratureRule.grid, List.mem_append, List.mem_flatMap, List.mem_map] at h
  rcases h with ⟨o, ho, r, hr, rfl⟩ | ⟨o, ho, r, hr, rfl⟩
  · exact vectors_le (hp o ho) hr i
  · exact vectors_le (hn o ho) hr i

/-! ## moments -/

/-- `∏_{i<a} (2i+1)` -/
def odds (a : ℕ) : ℝ := ∏ i ∈ range a, (2 * (i : ℝ) + 1)

theorem mean_closed (a b c : ℕ) : mean a b c * odds (a + b + c + 1) = odds a * odds b * odds c := by
  have hs : ∀ n, odds (n + 1) = odds n * (2 * (n : ℝ) + 1) := fun n => prod_range_succ _ _
  have h0 : odds 0 = 1 := by simp [odds]
  induction a with
  | zero =>
    induction b with
    | zero =>
      induction c with
      | zero => simp [hs, h0, mean_zero]
      | succ c ih =>
        have h := mean_z 0 0 c
        rw [show 0 + 0 + (c + 1) + 1 = (0 + 0 + c + 1) + 1 by ring, hs (0 + 0 + c + 1), hs c]
        push_cast at h ⊢
        linear_combination (odds (0 + 0 + c + 1)) * h + (2 * (c : ℝ) + 1) * ih
    | succ b ih =>
      have h := mean_y 0 b c
      rw [show 0 + (b + 1) + c + 1 = (0 + b + c + 1) + 1 by ring, hs (0 + b + c + 1), hs b]
      push_cast at h ⊢
      linear_combination (odds (0 + b + c + 1)) * h + (2 * (b : ℝ) + 1) * ih
  | succ a ih =>
    have h := mean_x a b c
    rw [show a + 1 + b + c + 1 = (a + b + c + 1) + 1 by ring, hs (a + b + c + 1), hs a]
    push_cast at h ⊢
    linear_combination (odds (a + b + c + 1)) * h + (2 * (a : ℝ) + 1) * ih

theorem odds_pos (a : ℕ) : 0 < odds a := prod_pos fun _ _ => by positivity

theorem mean_swap (a b c : ℕ) : mean a b c = mean b a c := by
  have h1 := mean_closed a b c
  have h2 := mean_closed b a c
  rw [show b + a + c + 1 = a + b + c + 1 by ring] at h2
  exact mul_right_cancel₀ (odds_pos _).ne' (h1.trans (by rw [h2]; ring))

theorem mean_swap' (a b c : ℕ) : mean a b c = mean a c b := by
  have h1 := mean_closed a b c
  have h2 := mean_closed a c b
  rw [show a + c + b + 1 = a + b + c + 1 by ring] at h2
  exact mul_right_cancel₀ (odds_pos _).ne' (h1.trans (by rw [h2]; ring))

theorem mom_swap (l : List QuadratureOrbit) (a b c : ℕ) : mom l a b c = mom l b a c := by
  unfold mom
  congr 1
  refine List.map_congr_left fun o _ => ?_
  unfold six; ring

theorem mom_swap' (l : List QuadratureOrbit) (a b c : ℕ) : mom l a b c = mom l a c b := by
  unfold mom
  congr 1
  refine List.map_congr_left fun o _ => ?_
  unfold six; ring

theorem check_even {e n : ℕ} {R : QuadratureRule} (he : 0 < e) (h : check e n R = true) {a b c : ℕ}
    (hn : a + b + c ≤ n) :
    |(mom R.pos a b c - mom R.neg a b c) / (6 * 2 ^ 70) - mean a b c| ≤ 1 / (e : ℝ) + 6 / 2 ^ 64 := by
  have sw : ∀ a b c, (mom R.pos a b c - mom R.neg a b c) / (6 * 2 ^ 70) - mean a b c =
      (mom R.pos b a c - mom R.neg b a c) / (6 * 2 ^ 70) - mean b a c := fun a b c => by
    rw [mom_swap R.pos, mom_swap R.neg, mean_swap]
  have sw' : ∀ a b c, (mom R.pos a b c - mom R.neg a b c) / (6 * 2 ^ 70) - mean a b c =
      (mom R.pos a c b - mom R.neg a c b) / (6 * 2 ^ 70) - mean a c b := fun a b c => by
    rw [mom_swap' R.pos, mom_swap' R.neg, mean_swap']
  rcases le_total a b with hab | hab <;> rcases le_total b c with hbc | hbc <;> rcases le_total a c with hac | hac
  · rw [sw' a b c, sw a c b, sw' c a b]; exact check_sorted he h hbc hab (by omega)
  · have : a = b ∧ b = c := by omega
    obtain ⟨rfl, rfl⟩ := this
    exact check_sorted he h le_rfl le_rfl hn
  · rw [sw a b c, sw' b a c]; exact check_sorted he h hbc hac (by omega)
  · rw [sw a b c]; exact check_sorted he h hab hac (by omega)
  · rw [sw' a b c, sw a c b]; exact check_sorted he h hac hab (by omega)
  · rw [sw' a b c]; exact check_sorted he h hac hbc (by omega)
  · have : a = b ∧ b = c := by omega
    obtain ⟨rfl, rfl⟩ := this
    exact check_sorted he h le_rfl le_rfl hn
  · exact check_sorted he h hab hbc hn

theorem monoInt_odd (i j k : ℕ) (h : ¬ (Even i ∧ Even j ∧ Even k)) : monoInt i j k = 0 := by
  have hx : ∀ i j k, Odd i → monoInt i j k = 0 := by
    rintro i j k ⟨a, rfl⟩
    induction a with
    | zero => exact monoInt_x_one j k
    | succ a ih =>
      have h := monoInt_x (2 * a + 1) j k
      rw [ih, mul_zero] at h
      exact (mul_eq_zero.mp h).resolve_left (by positivity)
  have hy : ∀ i j k, Odd j → monoInt i j k = 0 := by
    rintro i j k ⟨a, rfl⟩
    induction a with
    | zero => exact monoInt_y_one i k
    | succ a ih =>
      have h := monoInt_y i (2 * a + 1) k
      rw [ih, mul_zero] at h
      exact (mul_eq_zero.mp h).resolve_left (by positivity)
  have hz : ∀ i j k, Odd k → monoInt i j k = 0 := by
    rintro i j k ⟨a, rfl⟩
    induction a with
    | zero => exact monoInt_z_one i j
    | succ a ih =>
      have h := monoInt_z i j (2 * a + 1)
      rw [ih, mul_zero] at h
      exact (mul_eq_zero.mp h).resolve_left (by positivity)
  simp only [not_and_or, Nat.not_even_iff_odd] at h
  rcases h with h | h | h
  exacts [hx i j k h, hy i j k h, hz i j k h]

theorem check_moment {e n : ℕ} {R : QuadratureRule} (he : 0 < e) (h : check e n R = true) {i j k : ℕ}
    (hn : i + j + k ≤ 2 * n + 1) :
    |(R.grid.map fun p => p.2 * mono i j k p.1).sum - monoInt i j k / (4 * Real.pi)| ≤ 1 / (e : ℝ) + 6 / 2 ^ 64 := by
  rw [sum_grid]
  split_ifs with hev
  · obtain ⟨hi, hj, hk⟩ := hev
    obtain ⟨a, rfl⟩ := hi.two_dvd
    obtain ⟨b, rfl⟩ := hj.two_dvd
    obtain ⟨c, rfl⟩ := hk.two_dvd
    simp only [Nat.mul_div_cancel_left _ two_pos]
    exact check_even he h (by omega)
  · rw [monoInt_odd i j k hev]
    simp only [zero_div, sub_zero, abs_zero]
    positivity

/-! ## perturbed grids -/

theorem pow_perturb {δ x y : ℝ} (hx : |x| ≤ 1) (hxy : |y - x| ≤ δ) (n : ℕ) :
    |y ^ n - x ^ n| ≤ (1 + δ) ^ n - 1 := by
  induction n with
  | zero => simp
  | succ n ih =>
    have e : y ^ (n + 1) - x ^ (n + 1) = (y ^ n - x ^ n) * (y - x) + (y ^ n - x ^ n) * x + x ^ n * (y - x) := by ring
    have hxn : |x ^ n| ≤ 1 := by rw [abs_pow]; exact pow_le_one₀ (abs_nonneg _) hx
    have h1 : 0 ≤ (1 + δ) ^ n - 1 := (abs_nonneg _).trans ih
    calc |y ^ (n + 1) - x ^ (n + 1)| ≤ |(y ^ n - x ^ n) * (y - x)| + |(y ^ n - x ^ n) * x| + |x ^ n * (y - x)| := by
          rw [e]; exact abs_add_three _ _ _
      _ ≤ ((1 + δ) ^ n - 1) * δ + ((1 + δ) ^ n - 1) * 1 + 1 * δ := by
          rw [abs_mul, abs_mul, abs_mul]
          gcongr
      _ = (1 + δ) ^ (n + 1) - 1 := by ring

theorem mul_perturb {α β a a' b b' : ℝ} (ha : |a| ≤ 1) (hb : |b| ≤ 1) (ha' : |a' - a| ≤ α - 1) (hb' : |b' - b| ≤ β - 1) :
    |a' * b' - a * b| ≤ α * β - 1 := by
  have e : a' * b' - a * b = (a' - a) * (b' - b) + (a' - a) * b + a * (b' - b) := by ring
  have h1 : 0 ≤ α - 1 := (abs_nonneg _).trans ha'
  have h2 : 0 ≤ β - 1 := (abs_nonneg _).trans hb'
  calc |a' * b' - a * b| ≤ |(a' - a) * (b' - b)| + |(a' - a) * b| + |a * (b' - b)| := by
        rw [e]; exact abs_add_three _ _ _
    _ ≤ (α - 1) * (β - 1) + (α - 1) * 1 + 1 * (β - 1) := by
        rw [abs_mul, abs_mul, abs_mul]
        gcongr
    _ = α * β - 1 := by ring

theorem mono_le {r : Fin 3 → ℝ} (h : ∀ i, |r i| ≤ 1) (i j k : ℕ) : |mono i j k r| ≤ 1 := by
  have hp : ∀ (l : Fin 3) (n : ℕ), |r l ^ n| ≤ 1 := fun l n => by
    rw [abs_pow]; exact pow_le_one₀ (abs_nonneg _) (h l)
  rw [mono, abs_mul, abs_mul]
  exact mul_le_one₀ (mul_le_one₀ (hp 0 i) (abs_nonneg _) (hp 1 j)) (abs_nonneg _) (hp 2 k)

theorem mono_perturb {δ : ℝ} {r s : Fin 3 → ℝ} (h : ∀ i, |r i| ≤ 1) (hs : ∀ i, |s i - r i| ≤ δ) (i j k : ℕ) :
    |mono i j k s - mono i j k r| ≤ (1 + δ) ^ (i + j + k) - 1 := by
  have hp : ∀ (l : Fin 3) (n : ℕ), |r l ^ n| ≤ 1 := fun l n => by
    rw [abs_pow]; exact pow_le_one₀ (abs_nonneg _) (h l)
  have h2 : |r 0 ^ i * r 1 ^ j| ≤ 1 := by
    rw [abs_mul]; exact mul_le_one₀ (hp 0 i) (abs_nonneg _) (hp 1 j)
  rw [pow_add, pow_add]
  exact mul_perturb h2 (hp 2 k) (mul_perturb (hp 0 i) (hp 1 j) (pow_perturb (h 0) (hs 0) i)
    (pow_perturb (h 1) (hs 1) j)) (pow_perturb (h 2) (hs 2) k)

theorem sum_perturb {δ : ℝ} (hδ : 0 ≤ δ) {g l : List ((Fin 3 → ℝ) × ℝ)}
    (hg : List.Forall₂ (fun p q => (∀ i, |p.1 i - q.1 i| ≤ δ) ∧ |p.2 - q.2| ≤ δ * |q.2|) g l)
    (hl : ∀ p ∈ l, ∀ i, |p.1 i| ≤ 1) (i j k : ℕ) :
    |(g.map fun p => p.2 * mono i j k p.1).sum - (l.map fun p => p.2 * mono i j k p.1).sum| ≤
      ((1 + δ) ^ (i + j + k + 1) - 1) * (l.map fun p => |p.2|).sum := by
  induction hg with
  | nil => simp
  | @cons p q g l hpq _ ih =>
    have h1 := ih fun p hp => hl p (List.mem_cons_of_mem _ hp)
    have hq := hl q List.mem_cons_self
    have h2 := mono_perturb hq hpq.1 i j k
    have h3 := mono_le hq i j k
    simp only [List.map_cons, List.sum_cons]
    have e : p.2 * mono i j k p.1 - q.2 * mono i j k q.1 = (p.2 - q.2) * (mono i j k p.1 - mono i j k q.1) +
        (p.2 - q.2) * mono i j k q.1 + q.2 * (mono i j k p.1 - mono i j k q.1) := by ring
    have h0 : 0 ≤ (1 + δ) ^ (i + j + k) - 1 := (abs_nonneg _).trans h2
    have h4 : |p.2 * mono i j k p.1 - q.2 * mono i j k q.1| ≤ ((1 + δ) ^ (i + j + k + 1) - 1) * |q.2| := by
      calc _ ≤ |(p.2 - q.2) * (mono i j k p.1 - mono i j k q.1)| + |(p.2 - q.2) * mono i j k q.1| +
            |q.2 * (mono i j k p.1 - mono i j k q.1)| := by rw [e]; exact abs_add_three _ _ _
        _ ≤ δ * |q.2| * ((1 + δ) ^ (i + j + k) - 1) + δ * |q.2| * 1 + |q.2| * ((1 + δ) ^ (i + j + k) - 1) := by
            rw [abs_mul, abs_mul, abs_mul]
            have := hpq.2
            gcongr
        _ = _ := by ring
    calc _ = |(p.2 * mono i j k p.1 - q.2 * mono i j k q.1) +
          ((g.map fun p => p.2 * mono i j k p.1).sum - (l.map fun p => p.2 * mono i j k p.1).sum)| := by
          congr 1; ring
      _ ≤ _ := abs_add_le _ _
      _ ≤ _ := by linarith

/-! ## polynomials -/

/-- What the check says about all polynomials and all slightly perturbed grids. -/
theorem check_spec {e n : ℕ} {R : QuadratureRule} (he : 0 < e) (h : check e n R = true) {δ : ℝ} (hδ : 0 ≤ δ)
    {grid : List ((Fin 3 → ℝ) × ℝ)} (hg : Spec.SameUpTo δ grid R.grid) {p : ℕ} (hp : p ≤ 2 * n + 1)
    (P : MvPolynomial (Fin 3) ℝ) (hP : P.totalDegree ≤ p) :
    |Spec.quadrature grid (fun r => eval r P) - Spec.sphereIntegral (fun r => eval r P)| ≤
      4 * Real.pi * (1 / (e : ℝ) + 6 / 2 ^ 64 + 2 * ((1 + δ) ^ (p + 1) - 1)) * Spec.coeffSum P := by
  obtain ⟨l, hperm, hfor⟩ := hg
  have hchk := h
  rw [check, Bool.and_eq_true, Bool.and_eq_true, Bool.and_eq_true, small_iff, small_iff, Nat.ble_eq] at hchk
  obtain ⟨⟨hsp, hsn⟩, hw, -⟩ := hchk
  have hw' : (weight R.pos : ℝ) + weight R.neg ≤ 2 ^ 71 := by
    have : weight R.pos + weight R.neg ≤ 2 ^ 71 := hw
    exact_mod_cast this
  have habs : (l.map fun p => |p.2|).sum ≤ 2 := by
    rw [(hperm.map _).sum_eq, sum_abs_grid, div_le_iff₀ (by positivity)]
    linarith
  have hmono : ∀ k : Fin 3 →₀ ℕ, k 0 + k 1 + k 2 ≤ p →
      |(grid.map fun p => p.2 * mono (k 0) (k 1) (k 2) p.1).sum - monoInt (k 0) (k 1) (k 2) / (4 * Real.pi)| ≤
        1 / (e : ℝ) + 6 / 2 ^ 64 + 2 * ((1 + δ) ^ (p + 1) - 1) := by
    intro k hk
    have h1 := sum_perturb hδ hfor (fun q hq => grid_le hsp hsn (hperm.mem_iff.mp hq)) (k 0) (k 1) (k 2)
    have h2 := check_moment he h (i := k 0) (j := k 1) (k := k 2) (by omega)
    rw [(hperm.map _).sum_eq] at h1
    have h3 : (1 + δ) ^ (k 0 + k 1 + k 2 + 1) ≤ (1 + δ) ^ (p + 1) := pow_le_pow_right₀ (by linarith) (by omega)
    have h4 : 1 ≤ (1 + δ) ^ (k 0 + k 1 + k 2 + 1) := one_le_pow₀ (by linarith)
    have h5 : ((1 + δ) ^ (k 0 + k 1 + k 2 + 1) - 1) * (l.map fun p => |p.2|).sum ≤ ((1 + δ) ^ (p + 1) - 1) * 2 :=
      mul_le_mul (by linarith) habs (by rw [(hperm.map _).sum_eq, sum_abs_grid]; positivity) (by linarith)
    calc _ ≤ _ := abs_sub_le _ _ _
      _ ≤ _ := add_le_add h1 h2
      _ ≤ _ := by linarith
  have hq : Spec.quadrature grid (fun r => eval r P) =
      ∑ k ∈ P.support, 4 * Real.pi * (P.coeff k * (grid.map fun p => p.2 * mono (k 0) (k 1) (k 2) p.1).sum) := by
    unfold Spec.quadrature
    rw [← mul_sum]
    congr 1
    have : ∀ g : List ((Fin 3 → ℝ) × ℝ), (g.map fun p => p.2 * eval p.1 P).sum =
        ∑ k ∈ P.support, P.coeff k * (g.map fun p => p.2 * mono (k 0) (k 1) (k 2) p.1).sum := by
      intro g
      induction g with
      | nil => simp
      | cons q g ih =>
        simp only [List.map_cons, List.sum_cons, mul_add, sum_add_distrib]
        rw [ih]
        congr 1
        rw [eval_eq', mul_sum]
        refine sum_congr rfl fun k _ => ?_
        rw [Fin.prod_univ_three, mono]
        ring
    exact this grid
  have hs : Spec.sphereIntegral (fun r => eval r P) =
      ∑ k ∈ P.support, 4 * Real.pi * (P.coeff k * (monoInt (k 0) (k 1) (k 2) / (4 * Real.pi))) := by
    rw [sphereIntegral_poly]
    conv_lhs => rw [P.as_sum]
    rw [map_sum]
    refine sum_congr rfl fun k _ => ?_
    rw [polyInt_monomial]
    have : Real.pi ≠ 0 := Real.pi_ne_zero
    field_simp
  rw [hq, hs, ← sum_sub_distrib, Spec.coeffSum, mul_sum]
  refine (abs_sum_le_sum_abs _ _).trans (sum_le_sum fun k hk => ?_)
  rw [← mul_sub, ← mul_sub, abs_mul (4 * Real.pi), abs_mul (coeff k P), abs_of_pos (a := 4 * Real.pi) (by positivity)]
  have hdeg : k 0 + k 1 + k 2 ≤ p := by
    have := le_totalDegree hk
    rw [Finsupp.sum_fintype _ _ (by simp), Fin.sum_univ_three] at this
    exact this.trans hP
  have := mul_le_mul_of_nonneg_left (hmono k hdeg) (show 0 ≤ 4 * Real.pi * |coeff k P| by positivity)
  calc _ = 4 * Real.pi * |coeff k P| * |(grid.map fun p => p.2 * mono (k 0) (k 1) (k 2) p.1).sum - monoInt (k 0) (k 1) (k 2) / (4 * Real.pi)| := by ring
    _ ≤ _ := this
    _ = _ := by ring

end

end QuadratureCheck

end E3x
