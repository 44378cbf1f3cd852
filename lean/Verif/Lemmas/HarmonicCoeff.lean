import Verif.Model.Symbolic
import Mathlib.Data.Nat.Choose.Sum
import Mathlib.Algebra.BigOperators.Field

/-!
# The coefficients of the polynomials of the spherical harmonics
-/

namespace E3x.Coefficients

open MvPolynomial Finset

/-- The exponents of `xᵃ yᵇ zᶜ`. -/
noncomputable def expo (a b c : ℕ) : Fin 3 →₀ ℕ := Finsupp.equivFunOnFinite.symm ![a, b, c]

theorem expo_add (a b c a' b' c' : ℕ) : expo a b c + expo a' b' c' = expo (a + a') (b + b') (c + c') := by
  ext i
  fin_cases i <;> simp [expo]

theorem expo_inj {a b c a' b' c' : ℕ} : expo a b c = expo a' b' c' ↔ a = a' ∧ b = b' ∧ c = c' := by
  constructor
  · intro h
    have h0 := DFunLike.congr_fun h 0
    have h1 := DFunLike.congr_fun h 1
    have h2 := DFunLike.congr_fun h 2
    simp [expo] at h0 h1 h2
    exact ⟨h0, h1, h2⟩
  · rintro ⟨rfl, rfl, rfl⟩
    rfl

theorem monomial_expo (a b c : ℕ) : (X 0 ^ a * X 1 ^ b * X 2 ^ c : MvPolynomial (Fin 3) ℝ) = monomial (expo a b c) 1 := by
  rw [monomial_eq, Finsupp.prod_fintype _ _ (fun i => by simp), Fin.prod_univ_three]
  simp [expo]

theorem radius_pow (k : ℕ) : (X 0 ^ 2 + X 1 ^ 2 + X 2 ^ 2 : MvPolynomial (Fin 3) ℝ) ^ k =
    ∑ i ∈ range (k + 1), ∑ j ∈ range (k - i + 1),
      monomial (expo (2 * i) (2 * j) (2 * (k - i - j))) ((k.choose i : ℝ) * ((k - i).choose j : ℝ)) := by
  rw [add_assoc, add_pow]
  refine sum_congr rfl fun i _ => ?_
  rw [add_pow, mul_sum, sum_mul]
  refine sum_congr rfl fun j _ => ?_
  rw [← mul_one ((k.choose i : ℝ) * ((k - i).choose j : ℝ)), ← C_mul_monomial, ← monomial_expo, C_mul]
  simp only [map_natCast, ← pow_mul]
  ring

theorem coeff_term {a b c p q e k : ℕ} (h : a + b + c = p + q + e + 2 * k) :
    coeff (expo a b c) (X 0 ^ p * X 1 ^ q * X 2 ^ e * (X 0 ^ 2 + X 1 ^ 2 + X 2 ^ 2) ^ k : MvPolynomial (Fin 3) ℝ) =
      if p ≤ a ∧ q ≤ b ∧ (a - p) % 2 = 0 ∧ (b - q) % 2 = 0 then
        (k.choose ((a + b - (p + q)) / 2) : ℝ) * (((a + b - (p + q)) / 2).choose ((a - p) / 2) : ℝ)
      else 0 := by
  rw [radius_pow, monomial_expo, mul_sum]
  simp only [mul_sum, monomial_mul, one_mul, expo_add, coeff_sum, coeff_monomial, expo_inj]
  split_ifs with hc
  · obtain ⟨h1, h2, h3, h4⟩ := hc
    obtain ⟨i, hi⟩ : ∃ i, a = p + 2 * i := ⟨(a - p) / 2, by omega⟩
    obtain ⟨j, hj⟩ : ∃ j, b = q + 2 * j := ⟨(b - q) / 2, by omega⟩
    have e1 : (a + b - (p + q)) / 2 = i + j := by omega
    have e2 : (a - p) / 2 = i := by omega
    rw [e1, e2]
    by_cases hij : i + j ≤ k
    · rw [sum_eq_single_of_mem i (mem_range.2 (by omega)), sum_eq_single_of_mem j (mem_range.2 (by omega)),
        if_pos ⟨by omega, by omega, by omega⟩]
      · have := Nat.choose_mul (n := k) (k := i + j) (s := i) (by omega)
        rw [Nat.add_sub_cancel_left] at this
        exact_mod_cast this.symm
      · intro j' _ hj'
        exact if_neg (by omega)
      · intro i' _ hi'
        exact sum_eq_zero fun j' _ => if_neg (by omega)
    · rw [Nat.choose_eq_zero_of_lt (by omega)]
      simp only [Nat.cast_zero, zero_mul]
      refine sum_eq_zero fun i' hi' => sum_eq_zero fun j' hj' => if_neg ?_
      rw [mem_range] at hi' hj'
      omega
  · exact sum_eq_zero fun i' _ => sum_eq_zero fun j' _ => if_neg (by omega)

/-- The sum over `k` in the coefficients of `symPi`, multiplied by `2ˡ`. -/
def piCoeff (l m s : ℕ) : ℤ := ∑ k ∈ range ((l - m) / 2 + 1),
  (-1) ^ k * (l.choose k : ℤ) * ((2 * l - 2 * k).choose l : ℤ) * ((l - 2 * k).descFactorial m : ℤ) * (k.choose s : ℤ)

/-- The sum over `p`; `t e` stands for `cos(e π / 2)` or `sin(e π / 2)`. -/
def trigCoeff (t : ℕ → ℤ) (m a b s : ℕ) : ℤ := ∑ p ∈ range (m + 1),
  if p ≤ a ∧ m - p ≤ b ∧ (a - p) % 2 = 0 ∧ (b - (m - p)) % 2 = 0 then
    (m.choose p : ℤ) * t (m - p) * (s.choose ((a - p) / 2) : ℤ) else 0

theorem coeff_product {l m a b c : ℕ} (hm : m ≤ l) (h : a + b + c = l) (t : ℕ → ℤ) (u : ℕ → ℝ) (ht : ∀ e, u e = t e) :
    coeff (expo a b c) (symPi l m * ∑ p ∈ range (m + 1), C ((m.choose p : ℝ) * u (m - p)) * X 0 ^ p * X 1 ^ (m - p)) =
      Real.sqrt ((l - m).factorial / (l + m).factorial) *
        ((piCoeff l m ((a + b - m) / 2) * trigCoeff t m a b ((a + b - m) / 2) : ℤ) / 2 ^ l) := by
  unfold symPi
  simp only
  rw [mul_assoc, coeff_C_mul]
  congr 1
  rw [sum_mul_sum, coeff_sum]
  unfold piCoeff trigCoeff
  push_cast
  rw [sum_mul_sum, sum_div]
  refine sum_congr rfl fun k hk => ?_
  rw [mem_range] at hk
  rw [coeff_sum, sum_div]
  refine sum_congr rfl fun p hp => ?_
  rw [mem_range] at hp
  have hdesc : ((l - 2 * k).factorial : ℝ) / ((l - 2 * k - m).factorial : ℝ) = ((l - 2 * k).descFactorial m : ℝ) := by
    have := Nat.factorial_mul_descFactorial (n := l - 2 * k) (k := m) (by omega)
    rw [← this]
    push_cast
    field_simp
  have e : ∀ (α β : ℝ) (x y z r : MvPolynomial (Fin 3) ℝ), C α * z * r * (C β * x * y) = C (α * β) * (x * y * z * r) := by
    intro α β x y z r
    rw [C_mul]
    ring
  rw [e, coeff_C_mul, coeff_term (by omega), mul_div_assoc, hdesc, ht, show p + (m - p) = m by omega]
  split_ifs
  · rw [inv_pow]
    push_cast
    field_simp
  · simp

end E3x.Coefficients
