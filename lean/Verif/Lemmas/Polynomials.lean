import Verif.Lemmas.WignerD
import Verif.Lemmas.LutKinds3

/-!
# Polynomials as lists of terms; the tables of the modelled symbolic functions
-/

namespace E3x

noncomputable section

open Finset MvPolynomial Spec

/-! ## lists of terms -/

theorem polyTerms_nodup {n : ℕ} (p : MvPolynomial (Fin n) ℝ) : ((polyTerms p).map (·.1)).Nodup := by
  unfold polyTerms
  split_ifs
  · simp
  · rw [List.map_map]
    refine List.Nodup.map ?_ (nodup_toList _)
    intro a b h
    have h' : (List.ofFn fun i => a i) = List.ofFn fun i => b i := h
    exact DFunLike.coe_injective (List.ofFn_injective h')

theorem polyTerms_mem {n : ℕ} (hn : 1 ≤ n) (p : MvPolynomial (Fin n) ℝ) (hp : p ≠ 0) (l : ℕ) (h : p.IsHomogeneous l)
    (t : List ℕ × ℝ) (ht : t ∈ polyTerms p) : t.1 ∈ multicombinations l n := by
  unfold polyTerms at ht
  rw [if_neg hp, List.mem_map] at ht
  obtain ⟨s, hs, rfl⟩ := ht
  rw [(C21_multicombinations l n hn).1]
  refine ⟨by simp, ?_⟩
  rw [List.sum_ofFn, h.degree_eq_sum_deg_support (mem_toList.mp hs)]
  exact (sum_subset (subset_univ _) fun i _ hi => Finsupp.notMem_support_iff.mp hi).symm

theorem find_of_nodup {α β : Type} [DecidableEq α] (xs : List (α × β)) (h : (xs.map (·.1)).Nodup) (x : α × β) (hx : x ∈ xs) :
    xs.find? (fun t => decide (t.1 = x.1)) = some x := by
  induction xs with
  | nil => simp at hx
  | cons y ys ih =>
    rw [List.map_cons, List.nodup_cons] at h
    rw [List.find?_cons]
    rcases List.mem_cons.mp hx with rfl | hx
    · simp
    · have hne : y.1 ≠ x.1 := fun e => h.1 (List.mem_map.mpr ⟨x, hx, e.symm⟩)
      rw [decide_eq_false hne]
      exact ih h.2 hx

theorem coefficient_polyTerms {n : ℕ} (p : MvPolynomial (Fin n) ℝ) (s : Fin n →₀ ℕ) :
    coefficient (polyTerms p) (List.ofFn fun i => s i) = p.coeff s := by
  unfold coefficient
  by_cases hs : s ∈ p.support
  · have hp : p ≠ 0 := by rintro rfl; simp at hs
    have hmem : ((List.ofFn fun i => s i), p.coeff s) ∈ polyTerms p := by
      unfold polyTerms
      rw [if_neg hp, List.mem_map]
      exact ⟨s, mem_toList.mpr hs, rfl⟩
    rw [find_of_nodup _ (polyTerms_nodup p) _ hmem]
    rfl
  · rw [notMem_support_iff.mp hs]
    cases hf : (polyTerms p).find? (fun t => decide (t.1 = List.ofFn fun i => s i)) with
    | none => rfl
    | some t =>
      have h1 := List.mem_of_find?_eq_some hf
      have h2 : t.1 = List.ofFn fun i => s i := by
        have := List.find?_some hf
        simpa using this
      unfold polyTerms at h1
      split_ifs at h1 with hp
      · rw [List.mem_singleton] at h1
        rw [h1]; rfl
      · rw [List.mem_map] at h1
        obtain ⟨s', hs', rfl⟩ := h1
        have : s' = s := DFunLike.coe_injective (List.ofFn_injective h2)
        exact absurd (this ▸ mem_toList.mp hs') hs

theorem sum_range_getD {α : Type} (xs : List α) (d : α) (f : α → ℝ) :
    ∑ i ∈ range xs.length, f (xs.getD i d) = (xs.map f).sum := by
  induction xs with
  | nil => simp
  | cons y ys ih =>
    rw [List.length_cons, sum_range_succ', List.map_cons, List.sum_cons, ← ih, add_comm]
    rfl

/-- the value of a monomial -/
def monomialValue {n : ℕ} (x : Fin n → ℝ) (powers : List ℕ) : ℝ := ∏ k : Fin n, x k ^ powers.getD k 0

/-- A homogeneous polynomial is the combination of the listed monomials with the stored coefficients. -/
theorem sum_monomials {n : ℕ} (hn : 1 ≤ n) (p : MvPolynomial (Fin n) ℝ) (l L : ℕ) (hl : l ≤ L) (h : p.IsHomogeneous l)
    (x : Fin n → ℝ) (mons : List (List ℕ)) (hm : mons = monomials (fun d => multicombinations d n) L) :
    ∑ i ∈ range mons.length, monomialValue x (mons.getD i []) * coefficient (polyTerms p) (mons.getD i []) =
      eval x p := by
  have hnd : mons.Nodup := by
    rw [hm]
    exact monomials_nodup _ (fun d q hq => ((C21_multicombinations d n hn).1 q).1 hq |>.2)
      (fun d => (C21_multicombinations d n hn).2) L
  have e1 : ∑ i ∈ range mons.length, monomialValue x (mons.getD i []) * coefficient (polyTerms p) (mons.getD i []) =
      ∑ q ∈ mons.toFinset, monomialValue x q * coefficient (polyTerms p) q := by
    rw [List.sum_toFinset _ hnd, ← sum_range_getD _ []]
  rw [e1, eval_eq']
  symm
  refine sum_bij_ne_zero (fun s _ _ => List.ofFn fun i => s i) ?_ ?_ ?_ ?_
  · intro s hs _
    rw [List.mem_toFinset, hm, mem_monomials]
    refine ⟨l, hl, ((C21_multicombinations l n hn).1 _).2 ⟨by simp, ?_⟩⟩
    rw [List.sum_ofFn, h.degree_eq_sum_deg_support hs]
    exact (sum_subset (subset_univ _) fun i _ hi => Finsupp.notMem_support_iff.mp hi).symm
  · intro a _ _ b _ _ e
    exact DFunLike.coe_injective (List.ofFn_injective e)
  · intro q hq hne
    rw [List.mem_toFinset, hm, mem_monomials] at hq
    obtain ⟨d, _, hq⟩ := hq
    have hlen := (((C21_multicombinations d n hn).1 q).1 hq).1
    have e : (List.ofFn fun i : Fin n => (Finsupp.equivFunOnFinite.symm fun i : Fin n => q.getD i 0) i) = q := by
      refine List.ext_getElem (by simp [hlen]) fun i h1 h2 => ?_
      simp [List.getD_eq_getElem?_getD, List.getElem?_eq_getElem h2]
    refine ⟨Finsupp.equivFunOnFinite.symm fun i : Fin n => q.getD i 0, ?_, ?_, e⟩
    · rw [mem_support_iff, ← coefficient_polyTerms, e]
      exact right_ne_zero_of_mul hne
    · rw [← coefficient_polyTerms, e, mul_comm]
      exact hne
  · intro s _ _
    rw [coefficient_polyTerms, mul_comm]
    congr 1
    refine prod_congr rfl fun k _ => ?_
    simp

/-! ## Wigner-D entries -/

/-- all coefficients are homogeneous of degree `d` -/
def CoeffHomog (d : ℕ) (P : MvPolynomial (Fin 3) (MvPolynomial (Fin 9) ℝ)) : Prop := ∀ k, (coeff k P).IsHomogeneous d

theorem CoeffHomog.mul {d e : ℕ} {P Q} (hP : CoeffHomog d P) (hQ : CoeffHomog e Q) : CoeffHomog (d + e) (P * Q) := by
  intro k
  rw [coeff_mul]
  exact IsHomogeneous.sum _ _ _ fun x _ => (hP _).mul (hQ _)

theorem CoeffHomog.one : CoeffHomog 0 1 := by
  intro k
  rw [← C_1, coeff_C]
  split_ifs
  · exact isHomogeneous_one _ _
  · exact isHomogeneous_zero _ _ _

theorem CoeffHomog.pow {d : ℕ} {P} (hP : CoeffHomog d P) (n : ℕ) : CoeffHomog (d * n) (P ^ n) := by
  induction n with
  | zero => simpa using CoeffHomog.one
  | succ n ih => rw [pow_succ, Nat.mul_succ]; exact ih.mul hP

theorem CoeffHomog.sum {ι : Type} {d : ℕ} (s : Finset ι) (P : ι → MvPolynomial (Fin 3) (MvPolynomial (Fin 9) ℝ))
    (h : ∀ i ∈ s, CoeffHomog d (P i)) : CoeffHomog d (∑ i ∈ s, P i) := by
  intro k
  rw [coeff_sum]
  exact IsHomogeneous.sum _ _ _ fun i hi => h i hi k

theorem CoeffHomog.linear (i : Fin 3) : CoeffHomog 1 (∑ j : Fin 3, C (rotSymbol i j) * X j) := by
  refine CoeffHomog.sum _ _ fun j _ k => ?_
  rw [coeff_C_mul, coeff_X]
  split_ifs
  · rw [mul_one]; exact isHomogeneous_X _ _
  · rw [mul_zero]; exact isHomogeneous_zero _ _ _

theorem rotateXyz_coeffHomog (l : ℕ) (p : MvPolynomial (Fin 3) ℝ) (hp : p.IsHomogeneous l) :
    CoeffHomog l (rotateXyzPolynomial p) := by
  unfold rotateXyzPolynomial
  rw [aeval_def, eval₂_eq']
  refine CoeffHomog.sum _ _ fun d hd => ?_
  have e : l = 0 + ∑ i : Fin 3, 1 * d i := by
    rw [hp.degree_eq_sum_deg_support hd, zero_add]
    simp only [one_mul]
    exact sum_subset (subset_univ _) fun i _ hi => Finsupp.notMem_support_iff.mp hi
  rw [e]
  refine CoeffHomog.mul (fun k => ?_) ?_
  · have e : (algebraMap ℝ (MvPolynomial (Fin 3) (MvPolynomial (Fin 9) ℝ))) (coeff d p) = C (C (coeff d p)) := rfl
    rw [e, coeff_C]
    split_ifs
    · exact isHomogeneous_C _ _
    · exact isHomogeneous_zero _ _ _
  · rw [Fin.prod_univ_three, Fin.sum_univ_three]
    have h0 := (CoeffHomog.linear 0).pow (d 0)
    have h1 := (CoeffHomog.linear 1).pow (d 1)
    have h2 := (CoeffHomog.linear 2).pow (d 2)
    exact (h0.mul h1).mul h2

theorem symWignerD_homog (l : ℕ) (a b : ℤ) (ha : |a| ≤ l) : (symWignerD l a b).IsHomogeneous l := by
  unfold symWignerD polynomialDotProduct
  dsimp only
  split_ifs
  · exact isHomogeneous_zero _ _ _
  · have h := rotateXyz_coeffHomog l _ (symSH_homog l a ha)
    have := (IsHomogeneous.sum (symSphericalHarmonics l b).support
      (fun key => C ((symSphericalHarmonics l b).coeff key) *
        (rotateXyzPolynomial (symSphericalHarmonics l a)).coeff key * C (1 / trinomialCoefficient key)) l fun key _ => by
        have h1 := (IsHomogeneous.C_mul (h key) ((symSphericalHarmonics l b).coeff key)).mul
          (isHomogeneous_C (Fin 9) (1 / trinomialCoefficient key))
        simpa using h1).mul (isHomogeneous_C (Fin 9) (2 ^ (symSphericalHarmonics l b).totalDegree /
          (((2 * (symSphericalHarmonics l b).totalDegree).choose (symSphericalHarmonics l b).totalDegree : ℕ) : ℝ)))
    simpa using this

theorem fischer_comm (p q : MvPolynomial (Fin 3) ℂ) : fischer q p = fischer p q := by
  rw [fischer_eq, fischer_eq]
  have e : ∀ p q : MvPolynomial (Fin 3) ℂ, ∑ k ∈ p.support, coeff k p * (coeff k q / (trinomialCoefficient k : ℂ)) =
      ∑ k ∈ p.support ∪ q.support, coeff k p * coeff k q / (trinomialCoefficient k : ℂ) := by
    intro p q
    rw [← sum_subset (subset_union_left (s₁ := p.support) (s₂ := q.support))]
    · exact sum_congr rfl fun _ _ => by ring
    · intro k _ hk
      rw [notMem_support_iff.mp hk]; simp
  rw [e, e, union_comm]
  exact sum_congr rfl fun _ _ => by ring

theorem exists_eval_ne (l : ℕ) (m : ℤ) (h : |m| ≤ l) : ∃ r : Fin 3 → ℝ, eval r (symSphericalHarmonics l m) ≠ 0 := by
  by_contra hc
  push Not at hc
  exact symSH_ne_zero l m h (MvPolynomial.funext fun r => by rw [hc r, map_zero])

theorem sphC_ofReal (l : ℕ) (m : ℤ) (r : Fin 3 → ℝ) :
    sphC l m (fun i => (r i : ℂ)) = ((eval r (symSphericalHarmonics l m) : ℝ) : ℂ) := by
  unfold sphC
  rw [aeval_def, eval₂_eq', eval_eq']
  push_cast
  rfl

/-- The Wigner-D polynomial at a matrix of rank one. -/
theorem wigC_rank_one (l : ℕ) (a b : ℤ) (ha : |a| ≤ l) (hb : |b| ≤ l) (w c : Fin 3 → ℂ) :
    wigC l (fun i j => w i * c j) a b = sphC l a w * sphC l b c / kConst l := by
  have e : rotPoly (fun i j => w i * c j) (symSHC l a) = sphC l a w • linForm c ^ l := by
    refine MvPolynomial.funext fun r => ?_
    rw [eval_rotPoly, smul_eq_C_mul, map_mul, eval_C, map_pow, eval_linForm]
    have e2 : cmulVec (fun i j => w i * c j) r = fun i => cdot c r * w i := by
      ext i
      simp only [cmulVec, cdot, sum_mul]
      exact sum_congr rfl fun _ _ => by ring
    rw [e2]
    have h3 : eval (fun i => cdot c r * w i) (symSHC l a) = cdot c r ^ l * eval w (symSHC l a) := by
      rw [eval_eq', eval_eq', mul_sum]
      refine sum_congr rfl fun d hd => ?_
      have hdeg : l = ∑ i, d i := by
        rw [(symSHC_homog l a ha).degree_eq_sum_deg_support hd]
        exact sum_subset (subset_univ _) fun i _ hi => Finsupp.notMem_support_iff.mp hi
      simp only [mul_pow, prod_mul_distrib, prod_pow_eq_pow_sum]
      rw [← hdeg]; ring
    rw [h3, eval_symSHC]; ring
  rw [wigC, fischer_comm, e, map_smul, fischer_linForm_pow _ l (symSHC_homog l b hb), eval_symSHC, smul_eq_mul]

theorem symWignerD_ne_zero (l : ℕ) (a b : ℤ) (ha : |a| ≤ l) (hb : |b| ≤ l) : symWignerD l a b ≠ 0 := by
  intro h0
  obtain ⟨w, hw⟩ := exists_eval_ne l a ha
  obtain ⟨c, hc⟩ := exists_eval_ne l b hb
  have h1 := wigR_eq l (fun i j => w i * c j) a b ha hb
  rw [wigR, h0, map_zero] at h1
  have h2 : toC (fun i j => w i * c j) = fun i j => (w i : ℂ) * (c j : ℂ) := by
    ext i j; simp [toC]
  rw [h2, wigC_rank_one l a b ha hb, sphC_ofReal, sphC_ofReal] at h1
  have := kConst_ne l
  have hw' : ((eval w (symSphericalHarmonics l a) : ℝ) : ℂ) ≠ 0 := Complex.ofReal_ne_zero.mpr hw
  have hc' : ((eval c (symSphericalHarmonics l b) : ℝ) : ℂ) ≠ 0 := Complex.ofReal_ne_zero.mpr hc
  exact div_ne_zero (mul_ne_zero hw' hc') this (by rw [← h1, Complex.ofReal_zero])

theorem sphTerms_wellFormed : ShWellFormed sphTerms := fun l m hm =>
  ⟨polyTerms_nodup _, fun t ht => polyTerms_mem (by omega) _ (symSH_ne_zero l m hm) l (symSH_homog l m hm) t ht⟩

theorem wigTerms_wellFormed : WdWellFormed wigTerms := fun l a b ha hb =>
  ⟨polyTerms_nodup _, fun t ht =>
    polyTerms_mem (by omega) _ (symWignerD_ne_zero l a b ha hb) l (symWignerD_homog l a b ha) t ht⟩

end

end E3x
