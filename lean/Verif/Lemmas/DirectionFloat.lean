import Verif.Lemmas.HarmonicsFloat
import Verif.Props.HarmonicsFloat

/-!
# The harmonics of a perturbed vector
-/

namespace E3x

open Finset Spec

theorem product_perturb {a a' b b' c c' d d' : ℝ} (h1 : |a| ≤ b) (h2 : |c| ≤ d) (h3 : |a' - a| ≤ b' - b) (h4 : |c' - c| ≤ d' - d) :
    |a' * c' - a * c| ≤ b' * d' - b * d := by
  have hc : |c'| ≤ d' := by
    have := abs_add_le (c' - c) c
    rw [sub_add_cancel] at this
    linarith
  have hb : 0 ≤ b := (abs_nonneg a).trans h1
  rw [show a' * c' - a * c = (a' - a) * c' + a * (c' - c) by ring]
  refine (abs_add_le _ _).trans ?_
  rw [abs_mul, abs_mul]
  have s1 := mul_le_mul h3 hc (abs_nonneg _) ((abs_nonneg _).trans h3)
  have s2 := mul_le_mul h1 h4 (abs_nonneg _) hb
  linarith

theorem abs_pow_perturb {a a' b b' : ℝ} (h1 : |a| ≤ b) (h3 : |a' - a| ≤ b' - b) (n : ℕ) : |a' ^ n - a ^ n| ≤ b' ^ n - b ^ n := by
  induction n with
  | zero => simp
  | succ n ih =>
    rw [pow_succ, pow_succ, pow_succ, pow_succ]
    refine product_perturb ?_ h1 ih h3
    rw [abs_pow]
    exact pow_le_pow_left₀ (abs_nonneg a) h1 n

theorem abs_pow_le' {a b : ℝ} (h : |a| ≤ b) (n : ℕ) : |a ^ n| ≤ b ^ n := by
  rw [abs_pow]
  exact pow_le_pow_left₀ (abs_nonneg a) h n

theorem monomial_perturb {u u' v v' : Fin 3 → ℝ} (h1 : ∀ k, |u k| ≤ v k) (h2 : ∀ k, |u' k - u k| ≤ v' k - v k) (p : List ℕ) :
    |monomialValue u' p - monomialValue u p| ≤ monomialValue v' p - monomialValue v p := by
  unfold monomialValue
  rw [Fin.prod_univ_three, Fin.prod_univ_three, Fin.prod_univ_three, Fin.prod_univ_three]
  refine product_perturb ?_ (abs_pow_le' (h1 2) _) (product_perturb (abs_pow_le' (h1 0) _) (abs_pow_le' (h1 1) _)
    (abs_pow_perturb (h1 0) (h2 0) _) (abs_pow_perturb (h1 1) (h2 1) _)) (abs_pow_perturb (h1 2) (h2 2) _)
  rw [abs_mul]
  exact mul_le_mul (abs_pow_le' (h1 0) _) (abs_pow_le' (h1 1) _) (abs_nonneg _) (pow_nonneg ((abs_nonneg _).trans (h1 0)) _)

/-! Increments by a fraction: `b` grows to `x` where `c` is reached after the full increment. -/

theorem product_fraction {t b x c b' x' c' : ℝ} (h0 : 0 ≤ b) (h0' : 0 ≤ b') (h1 : b ≤ x) (h2 : x - b ≤ t * (c - b)) (h3 : x' ≤ c')
    (h1' : b' ≤ x') (h2' : x' - b' ≤ t * (c' - b')) : x * x' - b * b' ≤ t * (c * c' - b * b') := by
  have s1 := mul_le_mul h2 h3 (by linarith) (by linarith)
  have s2 := mul_le_mul_of_nonneg_left h2' h0
  linarith

theorem pow_fraction {t b x c : ℝ} (h0 : 0 ≤ b) (h1 : b ≤ x) (h3 : x ≤ c) (h2 : x - b ≤ t * (c - b)) (n : ℕ) :
    x ^ n - b ^ n ≤ t * (c ^ n - b ^ n) := by
  induction n with
  | zero => simp
  | succ n ih =>
    rw [pow_succ, pow_succ, pow_succ]
    exact product_fraction (pow_nonneg h0 n) h0 (pow_le_pow_left₀ h0 h1 n) ih h3 h1 h2

theorem monomial_fraction {t : ℝ} {v x w : Fin 3 → ℝ} (h0 : ∀ k, 0 ≤ v k) (h1 : ∀ k, v k ≤ x k) (h3 : ∀ k, x k ≤ w k)
    (h2 : ∀ k, x k - v k ≤ t * (w k - v k)) (p : List ℕ) :
    monomialValue x p - monomialValue v p ≤ t * (monomialValue w p - monomialValue v p) := by
  unfold monomialValue
  rw [Fin.prod_univ_three, Fin.prod_univ_three, Fin.prod_univ_three]
  have f := fun k n => pow_fraction (h0 k) (h1 k) (h3 k) (h2 k) n
  have q := fun k n => pow_le_pow_left₀ (h0 k) (h1 k) n
  have q' := fun k n => pow_le_pow_left₀ ((h0 k).trans (h1 k)) (h3 k) n
  have z := fun k n => pow_nonneg (h0 k) n
  exact product_fraction (mul_nonneg (z 0 _) (z 1 _)) (z 2 _) (mul_le_mul (q 0 _) (q 1 _) (z 1 _) ((z 0 _).trans (q 0 _)))
    (product_fraction (z 0 _) (z 1 _) (q 0 _) (f 0 _) (q' 1 _) (q 1 _) (f 1 _)) (q' 2 _) (q 2 _) (f 2 _)

theorem monomial_scale {ε : ℝ} (hε : 0 ≤ ε) {v : Fin 3 → ℝ} (h0 : ∀ k, 0 ≤ v k) {p : List ℕ} {L : ℕ}
    (hp : p.getD 0 0 + p.getD 1 0 + p.getD 2 0 ≤ L) :
    monomialValue (fun k => (1 + ε) * v k) p ≤ (1 + ε) ^ L * monomialValue v p := by
  have e : monomialValue (fun k => (1 + ε) * v k) p = (1 + ε) ^ (p.getD 0 0 + p.getD 1 0 + p.getD 2 0) * monomialValue v p := by
    unfold monomialValue
    rw [Fin.prod_univ_three, Fin.prod_univ_three, pow_add, pow_add, mul_pow, mul_pow, mul_pow]
    simp only [Fin.val_zero, Fin.val_one, Fin.val_two]
    ring
  rw [e]
  refine mul_le_mul_of_nonneg_right (pow_le_pow_right₀ (by linarith) hp) ?_
  exact prod_nonneg fun k _ => pow_nonneg (h0 k) _

/-- A monomial of a vector with relative errors `ε` and absolute errors `t`. -/
theorem monomial_error {ε t : ℝ} (hε : 0 ≤ ε) (ht : 0 ≤ t) (ht1 : t ≤ 1) {u u' : Fin 3 → ℝ} (h : ∀ k, |u' k - u k| ≤ ε * |u k| + t)
    {p : List ℕ} {L : ℕ} (hp : p.getD 0 0 + p.getD 1 0 + p.getD 2 0 ≤ L) :
    |monomialValue u' p - monomialValue u p| ≤ ((1 + ε) ^ L - 1) * monomialValue (fun k => |u k|) p +
      t * monomialValue (fun k => |(1 + ε) * |u k| + 1|) p := by
  have hw : ∀ k, 0 ≤ (1 + ε) * |u k| := fun k => mul_nonneg (by linarith) (abs_nonneg _)
  have hw1 : ∀ k, |(1 + ε) * |u k| + 1| = (1 + ε) * |u k| + 1 := fun k => abs_of_nonneg (by linarith [hw k])
  have s1 := monomial_perturb (u := u) (u' := u') (v := fun k => |u k|) (v' := fun k => (1 + ε) * |u k| + t) (fun k => le_rfl)
    (fun k => by have := h k; linarith) p
  have s2 := monomial_fraction (t := t) (v := fun k => (1 + ε) * |u k|) (x := fun k => (1 + ε) * |u k| + t)
    (w := fun k => |(1 + ε) * |u k| + 1|) hw (fun k => by linarith) (fun k => by rw [hw1 k]; linarith)
    (fun k => by rw [hw1 k]; linarith) p
  have s3 := monomial_scale hε (v := fun k => |u k|) (fun k => abs_nonneg _) hp
  have s4 : 0 ≤ monomialValue (fun k => (1 + ε) * |u k|) p := prod_nonneg fun k _ => pow_nonneg (hw k) _
  have s5 := mul_nonneg ht s4
  linarith

/-- The harmonics of a vector with relative errors `ε` and absolute errors `t`. -/
theorem harmonics_error {ε t : ℝ} (hε : 0 ≤ ε) (ht : 0 ≤ t) (ht1 : t ≤ 1) {u u' : Fin 3 → ℝ} (h : ∀ k, |u' k - u k| ≤ ε * |u k| + t)
    (L : ℕ) (cart : Bool) (s : String) {j : ℕ} (hj : j < (L + 1) ^ 2) :
    |harmonics L cart s u' j - harmonics L cart s u j| ≤ normConstant s (degreeOf j) * (harmonicScale (degreeOf j) *
      (((1 + ε) ^ L - 1) * Spec.length u ^ degreeOf j + t * Spec.length (fun k => (1 + ε) * |u k| + 1) ^ degreeOf j)) := by
  have hn := (normConstant_pos s (degreeOf j)).le
  have hl : degreeOf j ≤ L := (deg_le_iff j L).mpr hj
  have hm := componentOrder_bounds cart j
  have a1 := abs_rows L (degreeOf j) (componentOrder cart j) hl hm u
  have a2 := abs_rows L (degreeOf j) (componentOrder cart j) hl hm (fun k => (1 + ε) * |u k| + 1)
  have hp1 : 0 ≤ (1 + ε) ^ L - 1 := by
    have := one_le_pow₀ (n := L) (by linarith : 1 ≤ 1 + ε)
    linarith
  have b1 := mul_le_mul_of_nonneg_left a1 hp1
  have b2 := mul_le_mul_of_nonneg_left a2 ht
  unfold harmonics
  rw [if_pos hj, if_pos hj, ← sum_sh_row L (degreeOf j) (componentOrder cart j) hl hm u,
    ← sum_sh_row L (degreeOf j) (componentOrder cart j) hl hm u', ← mul_sub, abs_mul, abs_of_nonneg hn]
  refine mul_le_mul_of_nonneg_left ?_ hn
  rw [← sum_sub_distrib]
  refine (abs_sum_le_sum_abs _ _).trans ?_
  rw [mul_sum] at b1 b2
  have b3 := add_le_add b1 b2
  rw [← sum_add_distrib] at b3
  refine le_trans (sum_le_sum fun i hi => ?_) (b3.trans (le_of_eq ?_))
  · rw [mem_range] at hi
    have hrow := row_mem hi
    rw [cartesianMonomial_eq u (powers_mem_monomials (by omega) hrow).2, cartesianMonomial_eq u' (powers_mem_monomials (by omega) hrow).2,
      ← sub_mul, abs_mul]
    have := mul_le_mul_of_nonneg_right (monomial_error hε ht ht1 h (row_sum hi))
      (abs_nonneg (rowCoefficient (monomials monomialPowers L) (sphTerms (degreeOf j) (componentOrder cart j)) i))
    linarith
  · unfold harmonicScale
    ring

end E3x
