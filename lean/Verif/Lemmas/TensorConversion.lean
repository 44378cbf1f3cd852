import Verif.Lemmas.Detrace
import Verif.Lemmas.LutKinds2
import Mathlib.LinearAlgebra.Matrix.ToLinearEquiv
import Mathlib.LinearAlgebra.Matrix.DotProduct

/-!
# The tensor conversion matrices
-/

namespace E3x

noncomputable section

open Finset MvPolynomial Spec
open scoped Nat

/-! ## stored components -/

theorem cwr_three (n : ℕ) : combinationsWithReplacement (n + 1) ([0, 1, 2] : List (Fin 3)) =
    (combinationsWithReplacement n [0, 1, 2]).map (0 :: ·) ++ ((combinationsWithReplacement n [1, 2]).map (1 :: ·) ++
      (combinationsWithReplacement n [2]).map (2 :: ·)) := by
  simp [combinationsWithReplacement, List.tails]

theorem cwr_two (n : ℕ) : combinationsWithReplacement (n + 1) ([1, 2] : List (Fin 3)) =
    (combinationsWithReplacement n [1, 2]).map (1 :: ·) ++ (combinationsWithReplacement n [2]).map (2 :: ·) := by
  simp [combinationsWithReplacement, List.tails]

theorem cwr_one (n : ℕ) : combinationsWithReplacement (n + 1) ([2] : List (Fin 3)) =
    (combinationsWithReplacement n [2]).map (2 :: ·) := by
  simp [combinationsWithReplacement, List.tails]

theorem cwr_length (n : ℕ) : (combinationsWithReplacement n ([2] : List (Fin 3))).length = 1 ∧
    (combinationsWithReplacement n ([1, 2] : List (Fin 3))).length = n + 1 ∧
    2 * (combinationsWithReplacement n ([0, 1, 2] : List (Fin 3))).length = (n + 1) * (n + 2) := by
  induction n with
  | zero => simp [combinationsWithReplacement]
  | succ n ih =>
    obtain ⟨h1, h2, h3⟩ := ih
    rw [cwr_one, cwr_two, cwr_three]
    simp only [List.length_map, List.length_append, h1, h2]
    refine ⟨trivial, trivial, ?_⟩
    rw [mul_add, h3]
    ring

theorem storedIndices_length (n : ℕ) : (storedIndices n).length = numCartMonomials n := by
  have := (cwr_length n).2.2
  unfold storedIndices numCartMonomials
  omega

/-- sorted lists of `n` indices that are at least `k` -/
def SortedFrom (k : Fin 3) (n : ℕ) (α : List (Fin 3)) : Prop := α.length = n ∧ α.Pairwise (· ≤ ·) ∧ ∀ i ∈ α, k ≤ i

theorem sortedFrom_cons (k : Fin 3) (n : ℕ) (a : Fin 3) (α : List (Fin 3)) :
    SortedFrom k (n + 1) (a :: α) ↔ k ≤ a ∧ SortedFrom a n α := by
  unfold SortedFrom
  rw [List.length_cons, List.pairwise_cons]
  constructor
  · rintro ⟨h1, ⟨h2, h3⟩, h4⟩
    exact ⟨h4 a (by simp), by omega, h3, h2⟩
  · rintro ⟨h1, h2, h3, h4⟩
    refine ⟨by omega, ⟨h4, h3⟩, fun i hi => ?_⟩
    rcases List.mem_cons.mp hi with rfl | hi
    · exact h1
    · exact le_trans h1 (h4 i hi)

theorem mem_cwr (n : ℕ) (α : List (Fin 3)) : (α ∈ combinationsWithReplacement n ([2] : List (Fin 3)) ↔ SortedFrom 2 n α) ∧
    (α ∈ combinationsWithReplacement n ([1, 2] : List (Fin 3)) ↔ SortedFrom 1 n α) ∧
    (α ∈ combinationsWithReplacement n ([0, 1, 2] : List (Fin 3)) ↔ SortedFrom 0 n α) := by
  induction n generalizing α with
  | zero =>
    have : ∀ k, SortedFrom k 0 α ↔ α = [] := fun k => by
      unfold SortedFrom
      constructor
      · exact fun h => List.length_eq_zero_iff.mp h.1
      · rintro rfl; simp
    simp [combinationsWithReplacement, this]
  | succ n ih =>
    rw [cwr_one, cwr_two, cwr_three]
    cases α with
    | nil => simp [SortedFrom]
    | cons a α =>
      obtain ⟨h1, h2, h3⟩ := ih α
      simp only [List.mem_append, List.mem_map, List.cons.injEq, sortedFrom_cons]
      fin_cases a <;> simp [h1, h2, h3]

theorem mem_storedIndices (n : ℕ) (α : List (Fin 3)) : α ∈ storedIndices n ↔ α.length = n ∧ α.Pairwise (· ≤ ·) := by
  rw [storedIndices, (mem_cwr n α).2.2, SortedFrom]
  simp

theorem cwr_nodup (n : ℕ) : (combinationsWithReplacement n ([2] : List (Fin 3))).Nodup ∧
    (combinationsWithReplacement n ([1, 2] : List (Fin 3))).Nodup ∧
    (combinationsWithReplacement n ([0, 1, 2] : List (Fin 3))).Nodup := by
  induction n with
  | zero => simp [combinationsWithReplacement]
  | succ n ih =>
    obtain ⟨h1, h2, h3⟩ := ih
    have hm : ∀ (a : Fin 3) (xs : List (List (Fin 3))), xs.Nodup → (xs.map (a :: ·)).Nodup :=
      fun a xs h => h.map (List.cons_injective)
    rw [cwr_one, cwr_two, cwr_three]
    refine ⟨hm _ _ h1, ?_, ?_⟩
    · refine List.nodup_append'.mpr ⟨hm _ _ h2, hm _ _ h1, ?_⟩
      intro x hx hy
      obtain ⟨a, -, rfl⟩ := List.mem_map.mp hx
      obtain ⟨b, -, hb⟩ := List.mem_map.mp hy
      simp at hb
    · refine List.nodup_append'.mpr ⟨hm _ _ h3, List.nodup_append'.mpr ⟨hm _ _ h2, hm _ _ h1, ?_⟩, ?_⟩
      · intro x hx hy
        obtain ⟨a, -, rfl⟩ := List.mem_map.mp hx
        obtain ⟨b, -, hb⟩ := List.mem_map.mp hy
        simp at hb
      · intro x hx hy
        obtain ⟨a, -, rfl⟩ := List.mem_map.mp hx
        rcases List.mem_append.mp hy with hy | hy
        · obtain ⟨b, -, hb⟩ := List.mem_map.mp hy
          simp at hb
        · obtain ⟨b, -, hb⟩ := List.mem_map.mp hy
          simp at hb

theorem storedIndices_nodup (n : ℕ) : (storedIndices n).Nodup := (cwr_nodup n).2.2

/-- Every index list is a permutation of a stored one. -/
theorem exists_stored (n : ℕ) (α : List (Fin 3)) (h : α.length = n) :
    ∃ i, ∃ hi : i < (storedIndices n).length, ((storedIndices n)[i]).Perm α := by
  have hp : (α.mergeSort (· ≤ ·)).Perm α := List.mergeSort_perm α _
  have hm : α.mergeSort (· ≤ ·) ∈ storedIndices n := by
    rw [mem_storedIndices]
    refine ⟨by rw [hp.length_eq, h], ?_⟩
    have := List.pairwise_mergeSort (le := fun a b : Fin 3 => decide (a ≤ b))
      (fun a b c => by simpa using le_trans) (fun a b => by simpa using le_total a b) α
    simpa using this
  obtain ⟨i, hi, e⟩ := List.getElem_of_mem hm
  exact ⟨i, hi, e ▸ hp⟩

theorem stored_perm_eq (n : ℕ) {α β : List (Fin 3)} (hα : α ∈ storedIndices n) (hβ : β ∈ storedIndices n) (h : α.Perm β) :
    α = β :=
  h.eq_of_pairwise (fun a b _ _ h1 h2 => le_antisymm h1 h2) ((mem_storedIndices n α).mp hα).2
    ((mem_storedIndices n β).mp hβ).2

/-! ## the traceless tensor -/

theorem foldl_update {α β : Type} [DecidableEq α] (g : α → β → β) (xs : List α) (h : xs.Nodup) (b : α → β) (a : α) :
    xs.foldl (fun b x => Function.update b x (g x (b x))) b a = if a ∈ xs then g a (b a) else b a := by
  induction xs generalizing b with
  | nil => simp
  | cons x xs ih =>
    rw [List.nodup_cons] at h
    rw [List.foldl_cons, ih h.2]
    by_cases hx : a = x
    · subst hx
      rw [if_neg h.1, if_pos (by simp), Function.update_self]
    · rw [Function.update_of_ne hx]
      simp [hx]

theorem foldl_add_map {α M : Type} [AddCommMonoid M] (f : α → M) (xs : List α) (b : M) :
    xs.foldl (fun acc x => acc + f x) b = b + (xs.map f).sum := by
  induction xs generalizing b with
  | nil => simp
  | cons x xs ih => rw [List.foldl_cons, ih, List.map_cons, List.sum_cons, add_assoc]

theorem outerPower_eq (α : List (Fin 3)) : outerPower α = vprod X α := by
  have h : ∀ b : MvPolynomial (Fin 3) ℝ, α.foldl (fun a i => a * X i) b = b * vprod X α := by
    induction α with
    | nil => simp
    | cons i α ih =>
      intro b
      rw [List.foldl_cons, ih, vprod_cons]
      ring
  unfold outerPower
  rw [h, one_mul]

/-- partial sums of the detraced tensor -/
def detracedUpTo (n k : ℕ) (α : List (Fin 3)) : MvPolynomial (Fin 3) ℝ :=
  ∑ m ∈ range (k + 1), C (detraceRatio n m) * (∑ i, X i ^ 2) ^ m *
    splitSum α (2 * m) (fun β => C (multiDiracDelta β)) (vprod X)

theorem detrace_loop (n k : ℕ) :
    (∀ α ∈ storedIndices n, ((List.range' 1 k).foldl (detraceStep n) (outerPower, outerPower)).1 α = detracedUpTo n k α) ∧
      ∀ β, ((List.range' 1 k).foldl (detraceStep n) (outerPower, outerPower)).2 β = (∑ i, X i ^ 2) ^ k * vprod X β := by
  induction k with
  | zero =>
    refine ⟨fun α _ => ?_, fun β => ?_⟩
    · simp [detracedUpTo, detraceRatio_zero, splitSum_zero, outerPower_eq, multiDiracDelta]
    · simp [outerPower_eq]
  | succ k ih =>
    rw [List.range'_concat, List.foldl_append, List.foldl_cons, List.foldl_nil]
    set s := (List.range' 1 k).foldl (detraceStep n) (outerPower, outerPower) with hs
    have htr : ∀ β, traceLastTwo s.2 β = (∑ i, X i ^ 2) ^ (k + 1) * vprod X β := by
      intro β
      unfold traceLastTwo
      rw [sum_congr rfl fun i _ => by rw [ih.2, vprod_append, vprod_cons, vprod_cons, vprod_nil], pow_succ, mul_assoc,
        sum_mul, mul_sum]
      exact sum_congr rfl fun i _ => by ring
    refine ⟨fun α hα => ?_, fun β => htr β⟩
    have hlen := ((mem_storedIndices n α).mp hα).1
    unfold detraceStep
    dsimp only
    have hf := foldl_update (fun α b => (combinations (List.range n) (2 * (1 + 1 * k))).foldl
      (fun acc comb => acc + C (multiDiracDelta (chosenAlphas α comb) * ((-1) ^ (1 + 1 * k) *
        (((2 * n - 1 - 2 * (1 + 1 * k))‼ : ℝ) / ((2 * n - 1)‼ : ℝ)))) * traceLastTwo s.2 (leftoverAlphas α comb)) b)
      (storedIndices n) (storedIndices_nodup n) s.1 α
    have e : (storedIndices n).foldl (detraceComponent n (1 + 1 * k) ((-1) ^ (1 + 1 * k) *
        (((2 * n - 1 - 2 * (1 + 1 * k))‼ : ℝ) / ((2 * n - 1)‼ : ℝ))) (traceLastTwo s.2)) s.1 α = _ := hf
    rw [e, if_pos hα, foldl_add_map, ih.1 α hα, detracedUpTo, detracedUpTo, sum_range_succ _ (k + 1)]
    congr 1
    rw [show 1 + 1 * k = k + 1 by ring]
    unfold splitSum
    rw [← combinations_splits, hlen, List.map_map, ← List.sum_map_mul_left]
    congr 1
    refine List.map_congr_left fun c _ => ?_
    simp only [Function.comp_apply]
    rw [htr, C_mul, detraceRatio]
    ring

theorem detracedUpTo_eq (n : ℕ) (α : List (Fin 3)) : detracedUpTo n (n / 2) α = detraced n X α := by
  unfold detracedUpTo detraced
  rw [algebraMap_eq]

/-- `_traceless_tensor` lists the components of the detraced tensor. -/
theorem tracelessTensor_eq (n : ℕ) : tracelessTensor n = (storedIndices n).map (detraced n X) := by
  unfold tracelessTensor
  by_cases h0 : n = 0
  · subst h0
    rw [if_pos rfl]
    simp only [storedIndices, combinationsWithReplacement, List.map_cons, List.map_nil]
    rw [← detracedUpTo_eq]
    simp [detracedUpTo, detraceRatio_zero, splitSum_zero, multiDiracDelta]
  · rw [if_neg h0]
    by_cases h1 : n = 1
    · subst h1
      rw [if_pos rfl]
      have : storedIndices 1 = [[0], [1], [2]] := by
        simp [storedIndices, combinationsWithReplacement, List.tails]
      rw [this]
      simp only [List.map_cons, List.map_nil]
      rw [← detracedUpTo_eq, ← detracedUpTo_eq, ← detracedUpTo_eq]
      simp [detracedUpTo, detraceRatio_zero, splitSum_zero, multiDiracDelta]
    · rw [if_neg h1]
      refine List.map_congr_left fun α hα => ?_
      rw [(detrace_loop n (n / 2)).1 α hα, detracedUpTo_eq]

/-! ## coefficient matrices -/

theorem sum_fin_orders (l : ℕ) (f : ℤ → ℝ) :
    ∑ k : Fin (numSphericalHarmonics l), f ((k : ℕ) - l) = ∑ m ∈ Icc (-(l : ℤ)) l, f m := by
  unfold numSphericalHarmonics
  rw [Fin.sum_univ_eq_sum_range (fun k => f ((k : ℤ) - l))]
  refine sum_bij (fun k _ => (k : ℤ) - l) ?_ ?_ ?_ ?_
  · intro k hk
    rw [mem_range] at hk
    rw [mem_Icc]
    omega
  · intro a _ b _ h
    omega
  · intro m hm
    rw [mem_Icc] at hm
    exact ⟨(m + l).toNat, by rw [mem_range]; omega, by omega⟩
  · intro _ _; rfl

theorem coefficient_power (l : ℕ) (p : MvPolynomial (Fin 3) ℝ) (q : List ℕ) (hq : q ∈ monomialPowers l) :
    coefficient (polyTerms p) q = coeff (Finsupp.equivFunOnFinite.symm fun i : Fin 3 => q.getD i 0) p := by
  obtain ⟨a, b, c, rfl, -⟩ := ((C21_monomial_powers l).1 q).1 hq
  rw [← coefficient_polyTerms]
  congr 1

theorem monomialPowers_length (l : ℕ) : (monomialPowers l).length = numCartMonomials l := (C21_monomial_powers l).2.2

theorem monomialPowers_nodup (l : ℕ) : (monomialPowers l).Nodup := (C21_multicombinations l 3 (by omega)).2

/-- the exponents of the monomial in row `i` -/
def rowPower (l i : ℕ) : Fin 3 →₀ ℕ := Finsupp.equivFunOnFinite.symm fun k : Fin 3 => ((monomialPowers l).getD i []).getD k 0

theorem rowCoefficient_power (l : ℕ) (p : MvPolynomial (Fin 3) ℝ) (i : ℕ) (hi : i < numCartMonomials l) :
    rowCoefficient (monomialPowers l) (polyTerms p) i = coeff (rowPower l i) p := by
  rw [← monomialPowers_length] at hi
  unfold rowCoefficient
  rw [List.getElem?_eq_getElem hi]
  dsimp only
  rw [coefficient_power l p _ (List.getElem_mem hi), rowPower, List.getD_eq_getElem?_getD, List.getElem?_eq_getElem hi]
  rfl

/-- A homogeneous polynomial with vanishing listed coefficients is zero. -/
theorem eq_zero_of_rows (l : ℕ) (p : MvPolynomial (Fin 3) ℝ) (hp : p.IsHomogeneous l)
    (h : ∀ i < numCartMonomials l, coeff (rowPower l i) p = 0) : p = 0 := by
  ext s
  rw [coeff_zero]
  by_contra hs
  have hdeg := hp hs
  have hmem : (List.ofFn fun i => s i) ∈ monomialPowers l := by
    refine ((C21_multicombinations l 3 (by omega)).1 _).2 ⟨by simp, ?_⟩
    rw [List.sum_ofFn, ← hdeg, Finsupp.weight_apply, Finsupp.sum_fintype _ _ (by simp)]
    simp
  obtain ⟨i, hi, e⟩ := List.getElem_of_mem hmem
  have := h i (by rw [← monomialPowers_length]; exact hi)
  rw [← rowCoefficient_power l p i (by rw [← monomialPowers_length]; exact hi), rowCoefficient,
    List.getElem?_eq_getElem hi, e] at this
  dsimp only at this
  rw [coefficient_polyTerms] at this
  exact hs this

theorem solveColumns_ok {r c : ℕ} (A : Matrix (Fin r) (Fin c) ℝ) (B : ℕ → Fin r → ℝ) (x : ℕ → Fin c → ℝ) (is : List ℕ)
    (h : ∀ i ∈ is, luSolve A (B i) = .ok (x i)) : solveColumns A B is = .ok (is.map x) := by
  induction is with
  | nil => rfl
  | cons i is ih =>
    rw [solveColumns, h i (by simp)]
    dsimp only
    rw [ih fun j hj => h j (by simp [hj])]
    rfl

theorem luSolve_ok {r c : ℕ} (A : Matrix (Fin r) (Fin c) ℝ) (b : Fin r → ℝ) (x : Fin c → ℝ) (hx : A.mulVec x = b)
    (hu : ∀ y, A.mulVec y = b → y = x) : luSolve A b = .ok x := by
  unfold luSolve
  have h : ∃! x, A.mulVec x = b := ⟨x, hx, hu⟩
  rw [dif_pos h]
  exact congrArg Except.ok (hu _ h.choose_spec.1)

/-- The conversion matrix from irreps to compressed tensors. -/
def s2tMatrix (l : ℕ) : Matrix (Fin (numSphericalHarmonics l)) (Fin (numCartMonomials l)) ℝ :=
  Matrix.of fun m i => detraceConst l * shTensor l ((m : ℤ) - l) ((storedIndices l).getD i [])

theorem s2tMatrix_apply (l : ℕ) (m : Fin (numSphericalHarmonics l)) (i : Fin (numCartMonomials l)) : s2tMatrix l m i =
    detraceConst l * shTensor l (((m : ℕ) : ℤ) - l) ((storedIndices l).getD i []) := rfl

theorem s2t_independent (l : ℕ) (v : Fin (numSphericalHarmonics l) → ℝ) (h : Matrix.vecMul v (s2tMatrix l) = 0) : v = 0 := by
  let x : ℤ → ℝ := fun m => if hm : (m + l).toNat < 2 * l + 1 then v ⟨(m + l).toNat, hm⟩ else 0
  have hx : ∀ k : Fin (numSphericalHarmonics l), x ((k : ℕ) - l) = v k := by
    intro k
    have hk2 : (k : ℕ) < 2 * l + 1 := k.2
    have hk : (((k : ℕ) : ℤ) - l + l).toNat = k := by omega
    simp only [x]
    rw [dif_pos (by omega)]
    congr 1
    exact Fin.ext hk
  have h1 : ∀ α : List (Fin 3), α.length = l → ∑ m ∈ Icc (-(l : ℤ)) l, x m * shTensor l m α = 0 := by
    intro α hα
    obtain ⟨i, hi, hp⟩ := exists_stored l α hα
    have hi' : i < numCartMonomials l := by rw [← storedIndices_length]; exact hi
    have h2 := congrFun h ⟨i, hi'⟩
    rw [Matrix.vecMul, dotProduct, Pi.zero_apply] at h2
    have h3 : detraceConst l * ∑ m ∈ Icc (-(l : ℤ)) l, x m * shTensor l m α = 0 := by
      rw [← h2, ← sum_fin_orders, mul_sum]
      refine sum_congr rfl fun k _ => ?_
      rw [hx k, s2tMatrix_apply, List.getD_eq_getElem?_getD, List.getElem?_eq_getElem hi, Option.getD_some,
        shTensor_perm l _ _ _ hp]
      ring
    exact (mul_eq_zero.mp h3).resolve_left (detraceConst_pos l).ne'
  have h2 := harmonic_independent l x fun r => by
    rw [sum_congr rfl fun m hm => by rw [← polyOf_shTensor l m (abs_le.mpr (mem_Icc.mp hm))], ← polyOf_sum]
    rw [polyOf, sumTup_congr (g := fun _ => (0 : ℝ)) l fun α hα => by rw [h1 α hα, zero_mul]]
    simp [sumTup_eq]
  funext k
  rw [← hx k]
  have hk : (k : ℕ) < 2 * l + 1 := k.2
  exact h2 _ (by rw [mem_Icc]; omega)

theorem gram_det (l : ℕ) : (s2tMatrix l * (s2tMatrix l).transpose).det ≠ 0 := by
  intro h0
  obtain ⟨v, hv, h⟩ := Matrix.exists_vecMul_eq_zero_iff.mpr h0
  refine hv (s2t_independent l v ?_)
  have h2 : dotProduct (Matrix.vecMul v (s2tMatrix l)) (Matrix.vecMul v (s2tMatrix l)) = 0 := by
    have := congrArg (dotProduct v) h
    rw [dotProduct_zero, ← Matrix.vecMul_vecMul, Matrix.vecMul_transpose, Matrix.dotProduct_mulVec] at this
    exact this
  exact dotProduct_self_eq_zero.mp h2

/-- `_tensor_conversion_matrices` succeeds and returns these matrices. -/
theorem tensorConversionMatrices_eq (l : ℕ) : tensorConversionMatrices l =
    .ok (matrixArray (s2tMatrix l), matrixArray ((s2tMatrix l).transpose * (s2tMatrix l * (s2tMatrix l).transpose)⁻¹)) := by
  have hm : ∀ k : ℕ, k < 2 * l + 1 → |(k : ℤ) - l| ≤ l := fun k hk => abs_le.mpr ⟨by omega, by omega⟩
  have hstored : ∀ i < numCartMonomials l, ((storedIndices l).getD i []).length = l := by
    intro i hi
    rw [← storedIndices_length] at hi
    rw [List.getD_eq_getElem?_getD, List.getElem?_eq_getElem hi, Option.getD_some]
    exact ((mem_storedIndices l _).mp (List.getElem_mem hi)).1
  obtain ⟨m2s, e1, -, hs⟩ := storeTerms_spec [] (monomialPowers l) (monomialPowers_nodup l)
    ((List.range (numSphericalHarmonics l)).map fun isph => (isph, sphTerms l ((isph : ℤ) - l))) (fun _ => 0)
    (by
      intro a ha b hb hab
      obtain ⟨i, -, rfl⟩ := List.mem_map.mp ha
      obtain ⟨j, -, rfl⟩ := List.mem_map.mp hb
      have : i = j := hab
      rw [this])
    (by
      intro col hcol t ht
      obtain ⟨i, hi, rfl⟩ := List.mem_map.mp hcol
      rw [List.mem_range] at hi
      exact polyTerms_mem (by omega) _ (symSH_ne_zero l _ (hm i hi)) l (symSH_homog l _ (hm i hi)) t ht)
    (by
      intro col hcol
      obtain ⟨i, hi, rfl⟩ := List.mem_map.mp hcol
      exact polyTerms_nodup _)
    (by intros; rfl)
  obtain ⟨m2t, e2, -, ht⟩ := storeTerms_spec [] (monomialPowers l) (monomialPowers_nodup l)
    ((tracelessTensor l).zipIdx.map fun p => (p.2, polyTerms p.1)) (fun _ => 0)
    (by
      intro a ha b hb hab
      obtain ⟨p, hp, rfl⟩ := List.mem_map.mp ha
      obtain ⟨q, hq, rfl⟩ := List.mem_map.mp hb
      have : p.2 = q.2 := hab
      have h1 := List.mem_zipIdx_iff_getElem?.mp hp
      have h2 := List.mem_zipIdx_iff_getElem?.mp hq
      rw [this, h2] at h1
      simp only [Option.some.injEq] at h1
      rw [h1])
    (by
      intro col hcol t ht
      obtain ⟨p, hp, rfl⟩ := List.mem_map.mp hcol
      have h1 := List.mem_zipIdx_iff_getElem?.mp hp
      have h2 := List.mem_of_getElem? h1
      rw [tracelessTensor_eq] at h2
      obtain ⟨α, hα, h3⟩ := List.mem_map.mp h2
      dsimp only at ht
      rw [← h3] at ht
      have hlen := ((mem_storedIndices l α).mp hα).1
      exact polyTerms_mem (by omega) _ (detraced_ne_zero l α) l (detraced_homog l α hlen) t ht)
    (by
      intro col hcol
      obtain ⟨p, hp, rfl⟩ := List.mem_map.mp hcol
      exact polyTerms_nodup _)
    (by intros; rfl)
  have hs' : ∀ (i : Fin (numCartMonomials l)) (k : Fin (numSphericalHarmonics l)), m2s ((i : ℕ), (k : ℕ)) =
      coeff (rowPower l i) (symSphericalHarmonics l ((k : ℕ) - l)) := by
    intro i k
    have := hs ((k : ℕ), sphTerms l (((k : ℕ) : ℤ) - l)) (List.mem_map.mpr ⟨k, List.mem_range.mpr k.2, rfl⟩) i
    rw [this, List.nil_append, sphTerms, rowCoefficient_power l _ i i.2]
  have ht' : ∀ (i : Fin (numCartMonomials l)) (j : ℕ), j < numCartMonomials l → m2t ((i : ℕ), j) =
      coeff (rowPower l i) (detraced l X ((storedIndices l).getD j [])) := by
    intro i j hj
    have hj' : j < (storedIndices l).length := by rw [storedIndices_length]; exact hj
    have := ht (j, polyTerms (detraced l X ((storedIndices l).getD j []))) (List.mem_map.mpr
      ⟨(detraced l X ((storedIndices l).getD j []), j), by
        rw [List.mem_zipIdx_iff_getElem?, tracelessTensor_eq]
        simp [List.getElem?_eq_getElem hj'], rfl⟩) i
    rw [this, List.nil_append, rowCoefficient_power l _ i i.2]
  unfold tensorConversionMatrices
  dsimp only
  rw [show (monomialPowers l).zipIdx = (monomialPowers l).zipIdx ([] : List (List ℕ)).length from rfl, e1]
  dsimp only
  rw [e2]
  dsimp only
  rw [solveColumns_ok _ _ (fun i k => if h : i < numCartMonomials l then s2tMatrix l k ⟨i, h⟩ else 0)]
  · dsimp only
    have e3 : (Matrix.of fun (isph : Fin (numSphericalHarmonics l)) (i : Fin (numCartMonomials l)) =>
        ((List.range (numCartMonomials l)).map fun (i : ℕ) (k : Fin (numSphericalHarmonics l)) =>
          if h : i < numCartMonomials l then s2tMatrix l k ⟨i, h⟩ else 0).getD i 0 isph) = s2tMatrix l := by
      funext k i
      rw [Matrix.of_apply, List.getD_eq_getElem?_getD, List.getElem?_map, List.getElem?_range i.2]
      simp
    rw [e3, invert, if_pos (gram_det l)]
  · intro i hi
    rw [List.mem_range] at hi
    refine luSolve_ok _ _ _ ?_ ?_
    · funext c
      rw [Matrix.mulVec, dotProduct, ht' c i hi, detraced_poly l _ (hstored i hi), coeff_sum,
        ← sum_fin_orders l fun m => coeff (rowPower l c) (C (detraceConst l * shTensor l m ((storedIndices l).getD i [])) *
          symSphericalHarmonics l m)]
      refine sum_congr rfl fun k _ => ?_
      rw [Matrix.of_apply, hs', dif_pos hi, coeff_C_mul, s2tMatrix_apply]
      ring
    · intro y hy
      let x : ℤ → ℝ := fun m => if hm : (m + l).toNat < 2 * l + 1 then y ⟨(m + l).toNat, hm⟩ else 0
      have hx : ∀ k : Fin (numSphericalHarmonics l), x ((k : ℕ) - l) = y k := by
        intro k
        have hk2 : (k : ℕ) < 2 * l + 1 := k.2
        have hk : (((k : ℕ) : ℤ) - l + l).toNat = k := by omega
        simp only [x]
        rw [dif_pos (by omega)]
        congr 1
        exact Fin.ext hk
      have hp : (∑ m ∈ Icc (-(l : ℤ)) l, C (x m - detraceConst l * shTensor l m ((storedIndices l).getD i [])) *
          symSphericalHarmonics l m : MvPolynomial (Fin 3) ℝ) = 0 := by
        refine eq_zero_of_rows l _ ?_ fun c hc => ?_
        · refine IsHomogeneous.sum _ _ _ fun m hm => ?_
          have := (isHomogeneous_C (Fin 3) (x m - detraceConst l * shTensor l m ((storedIndices l).getD i []))).mul
            (symSH_homog l m (abs_le.mpr (mem_Icc.mp hm)))
          rwa [zero_add] at this
        · have h1 := congrFun hy ⟨c, hc⟩
          rw [Matrix.mulVec, dotProduct, ht' ⟨c, hc⟩ i hi, detraced_poly l _ (hstored i hi), coeff_sum,
            ← sub_eq_zero] at h1
          rw [coeff_sum, ← h1]
          have e4 : ∑ k : Fin (numSphericalHarmonics l), (Matrix.of fun (icar : Fin (numCartMonomials l))
              (isph : Fin (numSphericalHarmonics l)) => m2s ((icar : ℕ), (isph : ℕ))) ⟨c, hc⟩ k * y k =
              ∑ m ∈ Icc (-(l : ℤ)) l, coeff (rowPower l c) (symSphericalHarmonics l m) * x m := by
            rw [← sum_fin_orders]
            refine sum_congr rfl fun k _ => ?_
            rw [hx k, Matrix.of_apply, hs']
          rw [e4, ← sum_sub_distrib]
          refine sum_congr rfl fun m _ => ?_
          rw [coeff_C_mul, coeff_C_mul]
          ring
      have h2 := harmonic_independent l (fun m => x m - detraceConst l * shTensor l m ((storedIndices l).getD i []))
        fun r => by
          have := congrArg (eval r) hp
          rw [map_sum, map_zero] at this
          rw [← this]
          exact sum_congr rfl fun m _ => by rw [map_mul, eval_C]; rfl
      funext k
      have hk : (k : ℕ) < 2 * l + 1 := k.2
      have h3 := h2 ((k : ℕ) - l) (by rw [mem_Icc]; omega)
      rw [dif_pos hi, s2tMatrix_apply, ← hx k]
      exact sub_eq_zero.mp h3

end

end E3x
