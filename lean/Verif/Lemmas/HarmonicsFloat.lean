import Verif.Lemmas.FloatLayers
import Verif.Lemmas.ShippedError
import Verif.Model.HarmonicsFloat

/-!
# Rounding errors of spherical harmonics
-/

namespace E3x

open FloatFormat Spec

section

variable {F : FloatFormat} {ν : Type}

/-- The number of roundings if entry `k` has undergone `c k` of them. -/
def roundingsFrom (c : ν → ℕ) : Arith ν → ℕ
  | .entry k => c k
  | .mask _ => 0
  | .add a b => max (roundingsFrom c a) (roundingsFrom c b) + 1
  | .mul a b => roundingsFrom c a + roundingsFrom c b + 1
  | .fma a b d => max (roundingsFrom c a + roundingsFrom c b) (roundingsFrom c d) + 1

theorem ErrBound.exact (a : ℝ) : ErrBound F 0 a a |a| (max 1 |a|) :=
  ⟨by simp, le_rfl, le_max_right _ _, .inl (le_max_left _ _)⟩

theorem arith_error_from (hp : 1 ≤ F.p) (c : ν → ℕ) (v : ν → ℝ) (w : ν → FloatVal)
    (hw : ∀ k b, w k = .num b → ErrBound F (c k) (v k) b |v k| (max 1 |v k|)) (e : Arith ν) (r : ℝ) (h : e.float F w = .num r) :
    ErrBound F (roundingsFrom c e) (e.value v) r (e.value fun k => |v k|) (e.value fun k => max 1 |v k|) := by
  induction e generalizing r with
  | entry k => exact hw k r h
  | mask b =>
    have h' : FloatVal.num (if b then (1 : ℝ) else 0) = .num r := h
    injection h' with h'
    subst h'
    exact ErrBound.mask b
  | add a b iha ihb =>
    obtain ⟨x, y, hx, hy, hr⟩ := add_num h
    exact (((iha x hx).mono (le_max_left _ _)).add ((ihb y hy).mono (le_max_right _ _))).round hp hr
  | mul a b iha ihb =>
    obtain ⟨x, y, hx, hy, hr⟩ := mul_num h
    exact ((iha x hx).mul (ihb y hy)).round hp hr
  | fma a b d iha ihb ihd =>
    obtain ⟨x, y, z, hx, hy, hz, hr⟩ := fma_num h
    exact ((((iha x hx).mul (ihb y hy)).mono (le_max_left _ _)).add ((ihd z hz).mono (le_max_right _ _))).round hp hr

theorem abs_le_unmasked_from (hp : 1 ≤ F.p) (c : ν → ℕ) (v : ν → ℝ) (w : ν → FloatVal) (hw : ∀ k b, w k = .num b → ErrBound F (c k) (v k) b |v k| (max 1 |v k|)) (e : Arith ν) (r : ℝ)
    (h : e.float F w = .num r) :
    |r| ≤ ((1 + F.unit) * (1 + F.tiny)) ^ roundingsFrom c e * unmasked (fun k => max 1 |v k|) e := by
  have hb := arith_error_from hp c v w hw e r h
  have hM := value_le_unmasked v e
  have t1 := ErrBound.pow_unit (F := F) (roundingsFrom c e)
  have w1 := ErrBound.pow_tiny (F := F) (roundingsFrom c e)
  have := hb.err
  have h1 := hb.abs_le
  have h2 := hb.le
  have h3 := hb.nonneg
  rw [mul_pow]
  set θ := (1 + F.unit) ^ roundingsFrom c e
  set ω := (1 + F.tiny) ^ roundingsFrom c e
  set U := unmasked (fun k => max 1 |v k|) e
  set M := e.value fun k => max 1 |v k|
  set A := e.value fun k => |v k|
  have s := abs_add_le (e.value v) (r - e.value v)
  rw [add_sub_cancel] at s
  have s1 : |r| ≤ θ * A + θ * (ω - 1) * M := by linarith
  have s2 : θ * A ≤ θ * M := mul_le_mul_of_nonneg_left h2 (by linarith)
  have s3 : θ * ω * M ≤ θ * ω * U := mul_le_mul_of_nonneg_left hM (by positivity)
  linarith

/-- If the entries are not too large, nothing overflows. -/
theorem arith_finite_from (hF : F.Proper) (c : ν → ℕ) (v : ν → ℝ) (w : ν → FloatVal) (hw' : ∀ k b, w k = .num b → ErrBound F (c k) (v k) b |v k| (max 1 |v k|))
    (hw : ∀ k, ∃ b, w k = .num b) (e : Arith ν)
    (h : ((1 + F.unit) * (1 + F.tiny)) ^ roundingsFrom c e * unmasked (fun k => max 1 |v k|) e ≤ F.maxFinite) :
    ∃ r, e.float F w = .num r := by
  have hb : 1 ≤ (1 + F.unit) * (1 + F.tiny) := by
    have := unit_pos (F := F)
    have := tiny_pos (F := F)
    exact one_le_mul_of_one_le_of_one_le (by linarith) (by linarith)
  set β := (1 + F.unit) * (1 + F.tiny) with hβ
  have hpow : ∀ {m n : ℕ}, m ≤ n → β ^ m ≤ β ^ n := fun h => pow_le_pow_right₀ hb h
  have hpos : ∀ n, 0 < β ^ n := fun n => pow_pos (by linarith) n
  have fin : ∀ x : ℝ, |x| ≤ F.maxFinite → ∃ r, F.round x = .num r := fun x hx => by
    obtain ⟨r, hr, -⟩ := round_spec hF hx
    exact ⟨r, hr⟩
  have bound := abs_le_unmasked_from hF.p_pos c v w hw'
  rw [← hβ] at bound
  have one := one_le_unmasked v
  induction e with
  | entry k =>
    exact hw k
  | mask b => exact ⟨_, rfl⟩
  | add a b iha ihb =>
    simp only [roundingsFrom, unmasked] at h
    set m := max (roundingsFrom c a) (roundingsFrom c b)
    have ha := one a
    have hb' := one b
    set U := unmasked (fun k => max 1 |v k|) a
    set V := unmasked (fun k => max 1 |v k|) b
    have hm : β ^ m * (U + V) ≤ F.maxFinite :=
      (mul_le_mul_of_nonneg_right (hpow (Nat.le_succ m)) (by linarith)).trans h
    have sa : β ^ roundingsFrom c a * U ≤ β ^ m * U := mul_le_mul_of_nonneg_right (hpow (le_max_left _ _)) (by linarith)
    have sb : β ^ roundingsFrom c b * V ≤ β ^ m * V := mul_le_mul_of_nonneg_right (hpow (le_max_right _ _)) (by linarith)
    have pU : 0 ≤ β ^ m * U := mul_nonneg (hpos m).le (by linarith)
    have pV : 0 ≤ β ^ m * V := mul_nonneg (hpos m).le (by linarith)
    rw [mul_add] at hm
    obtain ⟨x, hx⟩ := iha (by linarith)
    obtain ⟨y, hy⟩ := ihb (by linarith)
    have bx := bound a x hx
    have bY := bound b y hy
    obtain ⟨r, hr⟩ := fin (x + y) (by
      have := abs_add_le x y
      linarith)
    exact ⟨r, by simp only [Arith.float, hx, hy, FloatFormat.add, hr]⟩
  | mul a b iha ihb =>
    simp only [roundingsFrom, unmasked] at h
    have ha := one a
    have hb' := one b
    set U := unmasked (fun k => max 1 |v k|) a
    set V := unmasked (fun k => max 1 |v k|) b
    have hm : β ^ (roundingsFrom c a + roundingsFrom c b) * (U * V) ≤ F.maxFinite :=
      (mul_le_mul_of_nonneg_right (hpow (Nat.le_succ _)) (by nlinarith)).trans h
    have e1 : (β ^ roundingsFrom c a * U) * (β ^ roundingsFrom c b * V) ≤ F.maxFinite := by
      rw [pow_add] at hm
      linarith
    have p1 : 1 ≤ β ^ roundingsFrom c a * U := one_le_mul_of_one_le_of_one_le (one_le_pow₀ hb) ha
    have p2 : 1 ≤ β ^ roundingsFrom c b * V := one_le_mul_of_one_le_of_one_le (one_le_pow₀ hb) hb'
    obtain ⟨x, hx⟩ := iha (by nlinarith)
    obtain ⟨y, hy⟩ := ihb (by nlinarith)
    have bx := bound a x hx
    have bY := bound b y hy
    obtain ⟨r, hr⟩ := fin (x * y) (by
      rw [abs_mul]
      exact (mul_le_mul bx bY (abs_nonneg _) (by linarith)).trans e1)
    exact ⟨r, by simp only [Arith.float, hx, hy, FloatFormat.mul, hr]⟩
  | fma a b c' iha ihb ihc =>
    simp only [roundingsFrom, unmasked] at h
    have ha := one a
    have hb' := one b
    have hc := one c'
    set m := max (roundingsFrom c a + roundingsFrom c b) (roundingsFrom c c')
    set U := unmasked (fun k => max 1 |v k|) a
    set V := unmasked (fun k => max 1 |v k|) b
    set W := unmasked (fun k => max 1 |v k|) c'
    have hUV : 1 ≤ U * V := one_le_mul_of_one_le_of_one_le ha hb'
    have hm : β ^ m * (U * V + W) ≤ F.maxFinite :=
      (mul_le_mul_of_nonneg_right (hpow (Nat.le_succ m)) (by linarith)).trans h
    rw [mul_add] at hm
    have sab : β ^ (roundingsFrom c a + roundingsFrom c b) * (U * V) ≤ β ^ m * (U * V) :=
      mul_le_mul_of_nonneg_right (hpow (le_max_left _ _)) (by linarith)
    have sc : β ^ roundingsFrom c c' * W ≤ β ^ m * W := mul_le_mul_of_nonneg_right (hpow (le_max_right _ _)) (by linarith)
    have pW : 0 ≤ β ^ m * W := mul_nonneg (hpos m).le (by linarith)
    have pUV : 0 ≤ β ^ m * (U * V) := mul_nonneg (hpos m).le (by linarith)
    have e1 : (β ^ roundingsFrom c a * U) * (β ^ roundingsFrom c b * V) ≤ β ^ m * (U * V) := by
      rw [pow_add] at sab
      linarith
    have p1 : 1 ≤ β ^ roundingsFrom c a * U := one_le_mul_of_one_le_of_one_le (one_le_pow₀ hb) ha
    have p2 : 1 ≤ β ^ roundingsFrom c b * V := one_le_mul_of_one_le_of_one_le (one_le_pow₀ hb) hb'
    obtain ⟨x, hx⟩ := iha (by nlinarith)
    obtain ⟨y, hy⟩ := ihb (by nlinarith)
    obtain ⟨z, hz⟩ := ihc (by linarith)
    have bx := bound a x hx
    have bY := bound b y hy
    have bz := bound c' z hz
    have bxy : |x * y| ≤ β ^ m * (U * V) := by
      rw [abs_mul]
      exact (mul_le_mul bx bY (abs_nonneg _) (by linarith)).trans e1
    obtain ⟨r, hr⟩ := fin (x * y + z) (by
      have := abs_add_le (x * y) z
      linarith)
    exact ⟨r, by simp only [Arith.float, hx, hy, hz, FloatFormat.fma, hr]⟩

end

/-! ## The expressions -/

/-- the roundings of the entries: vectors are exact, the table and the constant are rounded -/
def harmonicCount : HarmonicEntry → ℕ
  | .coordinate _ => 0
  | .table _ => 1
  | .constant => 1

theorem IsProduct.spec {k : Fin 3} {a m : ℕ} {e : Arith HarmonicEntry} (h : IsProduct k a m e) :
    roundingsFrom harmonicCount e + 1 = a + m ∧ (∀ v, e.value v = v (.coordinate k) ^ m) ∧ ∀ v, unmasked v e = e.value v := by
  induction h with
  | one => exact ⟨rfl, fun v => by simp [Arith.value], fun v => by simp [Arith.value, unmasked]⟩
  | coordinate => exact ⟨rfl, fun v => by simp [Arith.value], fun v => rfl⟩
  | mul _ _ ihx ihy =>
    refine ⟨?_, fun v => ?_, fun v => ?_⟩
    · have h1 := ihx.1
      have h2 := ihy.1
      simp only [roundingsFrom]
      omega
    · simp only [Arith.value, ihx.2.1, ihy.2.1, pow_add]
    · simp only [Arith.value, unmasked, ihx.2.2, ihy.2.2]

theorem IsMonomial.spec {p : List ℕ} {e : Arith HarmonicEntry} (h : IsMonomial p e) :
    roundingsFrom harmonicCount e = p.getD 0 0 + p.getD 1 0 + p.getD 2 0 + 2 ∧
      (∀ v, e.value v = monomialValue (fun k => v (.coordinate k)) p) ∧ ∀ v, unmasked v e = e.value v := by
  obtain ⟨x, y, z, hx, hy, hz, rfl⟩ := h
  obtain ⟨x1, x2, x3⟩ := hx.spec
  obtain ⟨y1, y2, y3⟩ := hy.spec
  obtain ⟨z1, z2, z3⟩ := hz.spec
  refine ⟨?_, fun v => ?_, fun v => ?_⟩
  · simp only [roundingsFrom]
    omega
  · simp only [Arith.value, x2, y2, z2, monomialValue, Fin.prod_univ_three]
    rfl
  · simp only [Arith.value, unmasked, x3, y3, z3]

theorem IsContraction.spec {ls : ℕ → List ℕ} {d L : ℕ} {s : List ℕ} {e : Arith HarmonicEntry} (h : IsContraction ls d s e)
    (hs : ∀ i ∈ s, (ls i).getD 0 0 + (ls i).getD 1 0 + (ls i).getD 2 0 ≤ L) :
    roundingsFrom harmonicCount e ≤ L + 6 + d ∧
      (∀ v, e.value v = (s.map fun i => monomialValue (fun k => v (.coordinate k)) (ls i) * (v (.table i) * v .constant)).sum) ∧
      ∀ v, unmasked v e = e.value v := by
  induction h with
  | term hm =>
    obtain ⟨h1, h2, h3⟩ := hm.spec
    refine ⟨?_, fun v => ?_, fun v => ?_⟩
    · have := hs _ (List.mem_singleton_self _)
      simp only [roundingsFrom, scaledEntry, harmonicCount]
      omega
    · simp [Arith.value, scaledEntry, h2]
    · simp only [Arith.value, unmasked, scaledEntry, h3]
  | add _ _ iha ihb =>
    obtain ⟨a1, a2, a3⟩ := iha fun i hi => hs i (by simp [hi])
    obtain ⟨b1, b2, b3⟩ := ihb fun i hi => hs i (by simp [hi])
    refine ⟨?_, fun v => ?_, fun v => ?_⟩
    · simp only [roundingsFrom]
      omega
    · simp only [Arith.value, a2, b2, List.map_append, List.sum_append]
    · simp only [Arith.value, unmasked, a3, b3]
  | fma hm _ iha =>
    obtain ⟨h1, h2, h3⟩ := hm.spec
    obtain ⟨a1, a2, a3⟩ := iha fun i hi => hs i (by simp [hi])
    refine ⟨?_, fun v => ?_, fun v => ?_⟩
    · have := hs _ (List.mem_cons_self ..)
      simp only [roundingsFrom, scaledEntry, harmonicCount]
      omega
    · simp only [Arith.value, scaledEntry, h2, a2, List.map_cons, List.sum_cons]
    · simp only [Arith.value, unmasked, scaledEntry, h3, a3]
  | perm hp _ ih =>
    obtain ⟨h1, h2, h3⟩ := ih fun i hi => hs i (hp.subset hi)
    refine ⟨h1, fun v => ?_, h3⟩
    rw [h2 v]
    exact (hp.map _).sum_eq

/-! ## The sums -/

open Finset Coefficients
open MvPolynomial hiding degreeOf

theorem row_mem {L i : ℕ} (hi : i < totalCartMonomials L) :
    (monomials monomialPowers L).getD i [] ∈ monomials (fun d => multicombinations d 3) L := by
  rw [← monomials_length_cart] at hi
  rw [List.getD, List.getElem?_eq_getElem hi, Option.getD_some]
  exact List.getElem_mem hi

theorem row_sum {L i : ℕ} (hi : i < totalCartMonomials L) :
    ((monomials monomialPowers L).getD i []).getD 0 0 + ((monomials monomialPowers L).getD i []).getD 1 0 +
      ((monomials monomialPowers L).getD i []).getD 2 0 ≤ L := by
  obtain ⟨h1, h2⟩ := powers_mem_monomials (by omega) (row_mem hi)
  generalize (monomials monomialPowers L).getD i [] = p at h1 h2
  match p, h1 with
  | [a, b, c], _ => simpa [add_assoc] using h2

/-- the sum of the absolute values of the terms of a harmonic, as a sum over rows -/
theorem abs_rows (L l : ℕ) (m : ℤ) (hl : l ≤ L) (hm : |m| ≤ l) (u : Fin 3 → ℝ) :
    ∑ i ∈ range (totalCartMonomials L), monomialValue (fun k => |u k|) ((monomials monomialPowers L).getD i []) *
        |rowCoefficient (monomials monomialPowers L) (sphTerms l m) i| ≤
      Real.sqrt (((2 * l).choose l : ℝ) / 2 ^ l) * Spec.length u ^ l := by
  refine le_trans (le_of_eq ?_) (sum_abs_le l m hm u)
  have h := sum_monomials (n := 3) (by omega) (absPoly (symSphericalHarmonics l m)) l L hl
    (absPoly_homog (symSH_homog l m hm)) (fun i => |u i|) (monomials monomialPowers L) rfl
  rw [← h, monomials_length_cart]
  refine sum_congr rfl fun i hi => ?_
  rw [mem_range] at hi
  obtain ⟨d, -, hd⟩ := (mem_monomials _ _ _).1 (row_mem hi)
  rw [rowCoefficient_getD _ (by rw [monomials_length_cart]; exact hi)]
  congr 1
  unfold sphTerms
  rw [coefficient_power d _ _ hd, coefficient_power d _ _ hd, coeff_absPoly]

theorem list_sum_range (n : ℕ) (f : ℕ → ℝ) : ((List.range n).map f).sum = ∑ i ∈ range n, f i := rfl

theorem monomialValue_le {B : ℝ} (hB : 1 ≤ B) {x : Fin 3 → ℝ} (h0 : ∀ k, 0 ≤ x k) (hx : ∀ k, x k ≤ B) {p : List ℕ} {L : ℕ}
    (hp : p.getD 0 0 + p.getD 1 0 + p.getD 2 0 ≤ L) : monomialValue x p ≤ B ^ L := by
  unfold monomialValue
  calc ∏ k : Fin 3, x k ^ p.getD k 0 ≤ ∏ k : Fin 3, B ^ p.getD k 0 :=
        prod_le_prod (fun k _ => pow_nonneg (h0 k) _) fun k _ => pow_le_pow_left₀ (h0 k) (hx k) _
    _ = B ^ (p.getD 0 0 + p.getD 1 0 + p.getD 2 0) := by
        rw [Fin.prod_univ_three, pow_add, pow_add]
        rfl
    _ ≤ B ^ L := pow_le_pow_right₀ hB hp

end E3x
