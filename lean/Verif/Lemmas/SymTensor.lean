import Verif.Model.TensorConversion
import Mathlib.Algebra.BigOperators.Fin
import Mathlib.Algebra.MvPolynomial.Funext
import Mathlib.RingTheory.MvPolynomial.Homogeneous

/-!
# Tensors as functions of index lists and their polynomials
-/

namespace E3x

noncomputable section

open Finset MvPolynomial
open scoped Nat

/-! ## Sums over all index lists -/

/-- sum over all lists of `n` indices -/
def sumTup {M : Type} [AddCommMonoid M] : ℕ → (List (Fin 3) → M) → M
  | 0, f => f []
  | n + 1, f => ∑ i : Fin 3, sumTup n fun α => f (i :: α)

section sums
variable {M : Type} [AddCommMonoid M]

theorem sumTup_eq (n : ℕ) (f : List (Fin 3) → M) : sumTup n f = ∑ α : Fin n → Fin 3, f (List.ofFn α) := by
  induction n generalizing f with
  | zero => simp [sumTup]
  | succ n ih =>
    rw [sumTup, ← Equiv.sum_comp (Fin.consEquiv fun _ : Fin (n + 1) => Fin 3), Fintype.sum_prod_type]
    refine sum_congr rfl fun i _ => ?_
    rw [ih]
    refine sum_congr rfl fun α _ => ?_
    rw [List.ofFn_succ]
    simp [Fin.consEquiv]

theorem sumTup_congr (n : ℕ) {f g : List (Fin 3) → M} (h : ∀ α, α.length = n → f α = g α) :
    sumTup n f = sumTup n g := by
  rw [sumTup_eq, sumTup_eq]
  exact sum_congr rfl fun α _ => h _ (by simp)

theorem sumTup_add (n : ℕ) (f g : List (Fin 3) → M) : sumTup n (fun α => f α + g α) = sumTup n f + sumTup n g := by
  simp only [sumTup_eq, sum_add_distrib]

theorem sumTup_sum {ι : Type} (s : Finset ι) (n : ℕ) (f : ι → List (Fin 3) → M) :
    sumTup n (fun α => ∑ i ∈ s, f i α) = ∑ i ∈ s, sumTup n (f i) := by
  simp only [sumTup_eq]
  exact sum_comm

end sums

theorem sumTup_mul_left {A : Type} [CommRing A] (n : ℕ) (c : A) (f : List (Fin 3) → A) :
    sumTup n (fun α => c * f α) = c * sumTup n f := by
  simp only [sumTup_eq, mul_sum]

theorem sumTup_mul_right {A : Type} [CommRing A] (n : ℕ) (c : A) (f : List (Fin 3) → A) :
    sumTup n (fun α => f α * c) = sumTup n f * c := by
  simp only [sumTup_eq, sum_mul]

/-- product of the entries of a vector at the given indices -/
def vprod {A : Type} [CommRing A] (s : Fin 3 → A) (α : List (Fin 3)) : A := (α.map s).prod

@[simp] theorem vprod_nil {A : Type} [CommRing A] (s : Fin 3 → A) : vprod s [] = 1 := rfl

@[simp] theorem vprod_cons {A : Type} [CommRing A] (s : Fin 3 → A) (i : Fin 3) (α : List (Fin 3)) :
    vprod s (i :: α) = s i * vprod s α := by simp [vprod]

theorem vprod_perm {A : Type} [CommRing A] (s : Fin 3 → A) {α β : List (Fin 3)} (h : α.Perm β) :
    vprod s α = vprod s β := (h.map s).prod_eq

theorem vprod_append {A : Type} [CommRing A] (s : Fin 3 → A) (α β : List (Fin 3)) :
    vprod s (α ++ β) = vprod s α * vprod s β := by simp [vprod]

/-- the polynomial of a tensor -/
def polyOf {A : Type} [CommRing A] (n : ℕ) (t : List (Fin 3) → A) (s : Fin 3 → A) : A :=
  sumTup n fun α => t α * vprod s α

/-- invariance under permutations of the indices -/
def PermInv {A : Type} (f : List (Fin 3) → A) : Prop := ∀ α β, α.Perm β → f α = f β

theorem PermInv.cons {A : Type} {f : List (Fin 3) → A} (h : PermInv f) (a : Fin 3) : PermInv fun α => f (a :: α) :=
  fun _ _ e => h _ _ (e.cons a)

/-! ## Contractions with symmetric tensors -/

/-- exponents of the monomial of an index list -/
def expo {n : ℕ} (α : Fin n → Fin 3) : Fin 3 →₀ ℕ := ∑ k, Finsupp.single (α k) 1

theorem expo_count {n : ℕ} (α : Fin n → Fin 3) (i : Fin 3) : expo α i = (List.ofFn α).count i := by
  rw [expo, Finsupp.finsetSum_apply]
  induction n with
  | zero => simp
  | succ n ih =>
    rw [Fin.sum_univ_succ, List.ofFn_succ, List.count_cons, ih fun k => α k.succ, add_comm]
    congr 1
    simp [Finsupp.single_apply]

theorem perm_of_expo {n : ℕ} {α β : Fin n → Fin 3} (h : expo α = expo β) : (List.ofFn α).Perm (List.ofFn β) := by
  rw [List.perm_iff_count]
  intro i
  rw [← expo_count, ← expo_count, h]

theorem vprod_X {n : ℕ} (α : Fin n → Fin 3) :
    vprod (X : Fin 3 → MvPolynomial (Fin 3) ℝ) (List.ofFn α) = monomial (expo α) 1 := by
  induction n with
  | zero => simp [expo]
  | succ n ih =>
    rw [List.ofFn_succ, vprod_cons, ih fun k => α k.succ, X, monomial_mul, one_mul, expo, expo, Fin.sum_univ_succ]

/-- Tensors with the same polynomial have the same contraction with every symmetric tensor. -/
theorem contract_eq (n : ℕ) (u A B : List (Fin 3) → ℝ)
    (hu : ∀ α β : List (Fin 3), α.length = n → α.Perm β → u α = u β)
    (h : ∀ s : Fin 3 → ℝ, polyOf n A s = polyOf n B s) :
    sumTup n (fun α => u α * A α) = sumTup n fun α => u α * B α := by
  classical
  set D : (Fin n → Fin 3) → ℝ := fun α => A (List.ofFn α) - B (List.ofFn α) with hD
  have hP : (∑ α, monomial (expo α) (D α) : MvPolynomial (Fin 3) ℝ) = 0 := by
    refine MvPolynomial.funext fun s => ?_
    rw [map_sum, map_zero]
    have e : ∀ α : Fin n → Fin 3, eval s (monomial (expo α) (D α)) = D α * vprod s (List.ofFn α) := by
      intro α
      have h1 := congrArg (eval s) (vprod_X α)
      have h2 : eval s (vprod (X : Fin 3 → MvPolynomial (Fin 3) ℝ) (List.ofFn α)) = vprod s (List.ofFn α) := by
        unfold vprod
        rw [map_list_prod, List.map_map]
        congr 2
        funext i
        simp
      rw [h2] at h1
      rw [h1, ← mul_one (D α), ← C_mul_monomial, map_mul, eval_C, mul_one]
    rw [sum_congr rfl fun α _ => e α]
    have := h s
    rw [polyOf, polyOf, sumTup_eq, sumTup_eq, ← sub_eq_zero, ← sum_sub_distrib] at this
    rw [← this]
    exact sum_congr rfl fun α _ => by rw [hD]; ring
  have hc : ∀ d, ∑ α with expo α = d, D α = 0 := by
    intro d
    have := congrArg (coeff d) hP
    rw [coeff_sum, coeff_zero] at this
    rw [← this, sum_filter]
    exact sum_congr rfl fun α _ => by rw [coeff_monomial]
  rw [sumTup_eq, sumTup_eq, ← sub_eq_zero, ← sum_sub_distrib,
    ← sum_fiberwise_of_maps_to (t := univ.image (expo (n := n))) (g := expo) (fun α _ => mem_image_of_mem _ (mem_univ α))]
  refine sum_eq_zero fun d hd => ?_
  obtain ⟨β, -, rfl⟩ := mem_image.mp hd
  rw [← mul_zero (u (List.ofFn β)), ← hc (expo β), mul_sum]
  refine sum_congr rfl fun α hα => ?_
  rw [hu _ (List.ofFn β) (by simp) (perm_of_expo (mem_filter.mp hα).2), hD]
  ring

/-- A symmetric tensor is determined by its polynomial. -/
theorem symTensor_ext (n : ℕ) (A B : List (Fin 3) → ℝ)
    (hA : ∀ α β : List (Fin 3), α.length = n → α.Perm β → A α = A β)
    (hB : ∀ α β : List (Fin 3), α.length = n → α.Perm β → B α = B β)
    (h : ∀ s : Fin 3 → ℝ, polyOf n A s = polyOf n B s) (α : List (Fin 3)) (hα : α.length = n) : A α = B α := by
  have hs : sumTup n (fun α => (A α - B α) * (A α - B α)) = 0 := by
    have := contract_eq n (fun α => A α - B α) A B (fun α β h1 h2 => by rw [hA α β h1 h2, hB α β h1 h2]) h
    have e : (fun α => (A α - B α) * (A α - B α)) = fun α => (A α - B α) * A α + (-1) * ((A α - B α) * B α) := by
      funext α; ring
    rw [e, sumTup_add, sumTup_mul_left, this]
    ring
  rw [sumTup_eq, sum_eq_zero_iff_of_nonneg fun _ _ => mul_self_nonneg _] at hs
  have := hs (fun k => α.get (k.cast hα.symm)) (mem_univ _)
  have e : List.ofFn (fun k : Fin n => α.get (k.cast hα.symm)) = α := by
    subst hα
    simp
  rw [e] at this
  linarith [mul_self_eq_zero.mp this]

/-- Every homogeneous polynomial is the polynomial of a symmetric tensor. -/
def coeffTensor (n : ℕ) (p : MvPolynomial (Fin 3) ℝ) (α : List (Fin 3)) : ℝ :=
  let d : Fin 3 →₀ ℕ := Finsupp.equivFunOnFinite.symm fun i => α.count i
  coeff d p / ((univ.filter fun β : Fin n → Fin 3 => expo β = d).card : ℝ)

theorem coeffTensor_perm (n : ℕ) (p : MvPolynomial (Fin 3) ℝ) : PermInv (coeffTensor n p) := by
  intro α β h
  unfold coeffTensor
  have : (fun i => α.count i) = fun i => β.count i := funext fun i => h.count_eq i
  rw [this]

theorem polyOf_coeffTensor (n : ℕ) (p : MvPolynomial (Fin 3) ℝ) (hp : p.IsHomogeneous n) (s : Fin 3 → ℝ) :
    polyOf n (coeffTensor n p) s = eval s p := by
  classical
  have hd : ∀ α : Fin n → Fin 3, (Finsupp.equivFunOnFinite.symm fun i => (List.ofFn α).count i) = expo α := by
    intro α
    ext i
    rw [expo_count]
    rfl
  have hv : ∀ α : Fin n → Fin 3, vprod s (List.ofFn α) = ∏ i, s i ^ expo α i := by
    intro α
    have h1 := congrArg (eval s) (vprod_X α)
    have h2 : eval s (vprod (X : Fin 3 → MvPolynomial (Fin 3) ℝ) (List.ofFn α)) = vprod s (List.ofFn α) := by
      unfold vprod
      rw [map_list_prod, List.map_map]
      congr 2
      funext i
      simp
    rw [← h2, h1, eval_monomial, one_mul, Finsupp.prod_fintype _ _ (by simp)]
  rw [polyOf, sumTup_eq, eval_eq',
    ← sum_fiberwise_of_maps_to (t := univ.image (expo (n := n))) (g := expo) (fun α _ => mem_image_of_mem _ (mem_univ α))]
  have e1 : ∀ d ∈ univ.image (expo (n := n)), ∑ α : Fin n → Fin 3 with expo α = d, coeffTensor n p (List.ofFn α) * vprod s (List.ofFn α) =
      coeff d p * ∏ i, s i ^ d i := by
    intro d hd'
    obtain ⟨β, -, rfl⟩ := mem_image.mp hd'
    have hpos : ((univ.filter fun α : Fin n → Fin 3 => expo α = expo β).card : ℝ) ≠ 0 := by
      have : 0 < (univ.filter fun α : Fin n → Fin 3 => expo α = expo β).card :=
        card_pos.mpr ⟨β, by simp⟩
      exact_mod_cast this.ne'
    rw [sum_congr rfl (g := fun _ => coeff (expo β) p /
      ((univ.filter fun α : Fin n → Fin 3 => expo α = expo β).card : ℝ) * ∏ i, s i ^ expo β i), sum_const, nsmul_eq_mul]
    · field_simp
    · intro α hα
      rw [hv, coeffTensor, hd, (mem_filter.mp hα).2]
  rw [sum_congr rfl e1]
  symm
  refine sum_subset (fun d hd' => ?_) fun d _ hn => by rw [notMem_support_iff.mp hn, zero_mul]
  have hdeg := hp (mem_support_iff.mp hd')
  rw [mem_image]
  have hs : ∑ i, d i = n := by
    rw [← hdeg, Finsupp.weight_apply, Finsupp.sum_fintype _ _ (by simp)]
    simp
  -- a list with the given counts
  let α : List (Fin 3) := List.replicate (d 0) 0 ++ List.replicate (d 1) 1 ++ List.replicate (d 2) 2
  have hl : α.length = n := by
    rw [← hs, Fin.sum_univ_three]
    simp [α, add_assoc]
  refine ⟨fun k => α.get (k.cast hl.symm), mem_univ _, ?_⟩
  ext i
  rw [expo_count]
  have e : List.ofFn (fun k : Fin n => α.get (k.cast hl.symm)) = α := by
    clear_value α
    subst hl
    simp
  rw [e]
  fin_cases i <;> simp [α, List.count_replicate]

/-! ## Choosing a part of the indices -/

/-- all ways to choose `k` elements: the chosen ones and the others -/
def splits : List (Fin 3) → ℕ → List (List (Fin 3) × List (Fin 3))
  | α, 0 => [([], α)]
  | [], _ + 1 => []
  | a :: α, k + 1 => (splits α k).map (fun p => (a :: p.1, p.2)) ++ (splits α (k + 1)).map fun p => (p.1, a :: p.2)

theorem combinations_map {α β : Type} (f : α → β) (xs : List α) (k : ℕ) :
    combinations (xs.map f) k = (combinations xs k).map (List.map f) := by
  induction xs generalizing k with
  | nil => cases k <;> simp [combinations]
  | cons x xs ih =>
    cases k with
    | zero => simp [combinations]
    | succ k => simp [combinations, ih, Function.comp_def]

theorem combinations_splits (α : List (Fin 3)) (k : ℕ) :
    (combinations (List.range α.length) k).map (fun c => (chosenAlphas α c, leftoverAlphas α c)) = splits α k := by
  induction α generalizing k with
  | nil => cases k <;> simp [combinations, splits, chosenAlphas, leftoverAlphas]
  | cons a α ih =>
    have hr : List.range (a :: α).length = 0 :: (List.range α.length).map Nat.succ := by
      rw [List.length_cons, List.range_succ_eq_map]
    cases k with
    | zero =>
      simp only [combinations, splits, List.map_cons, List.map_nil, chosenAlphas, leftoverAlphas]
      congr 2
      refine List.ext_getElem (by simp) fun i h1 h2 => ?_
      simp only [List.not_mem_nil, not_false_eq_true, decide_true, List.filter_true, List.getElem_map, List.getElem_range]
      rw [List.getD_eq_getElem?_getD, List.getElem?_eq_getElem h2, Option.getD_some]
    | succ k =>
      rw [hr, combinations, splits, List.map_append, combinations_map, combinations_map, ← ih, ← ih]
      simp only [List.map_map]
      congr 1
      · refine List.map_congr_left fun c _ => ?_
        simp only [Function.comp_apply, chosenAlphas, leftoverAlphas, hr, List.map_cons, List.map_map]
        refine Prod.ext ?_ ?_
        · simp [Function.comp_def]
        · have e : (fun x => decide (∀ y ∈ c, ¬y = x)) = fun x => !decide (x ∈ c) := by
            funext x
            rw [← decide_not]
            refine decide_eq_decide.mpr ⟨fun h hx => h x hx rfl, fun h y hy e => h (e ▸ hy)⟩
          simp [Function.comp_def, List.filter_map, e]
      · refine List.map_congr_left fun c _ => ?_
        simp only [Function.comp_apply, chosenAlphas, leftoverAlphas, hr, List.map_cons, List.map_map]
        refine Prod.ext ?_ ?_
        · simp [Function.comp_def]
        · have e : (fun x => decide (∀ y ∈ c, ¬y = x)) = fun x => !decide (x ∈ c) := by
            funext x
            rw [← decide_not]
            refine decide_eq_decide.mpr ⟨fun h hx => h x hx rfl, fun h y hy e => h (e ▸ hy)⟩
          simp [Function.comp_def, List.filter_map, e]

/-- sum over all splits -/
def splitSum {A : Type} [CommRing A] (α : List (Fin 3)) (k : ℕ) (f g : List (Fin 3) → A) : A :=
  ((splits α k).map fun p => f p.1 * g p.2).sum

section splitSum
variable {A : Type} [CommRing A]

theorem splitSum_zero (α : List (Fin 3)) (f g : List (Fin 3) → A) : splitSum α 0 f g = f [] * g α := by
  cases α <;> simp [splitSum, splits]

theorem splitSum_nil (k : ℕ) (f g : List (Fin 3) → A) : splitSum [] (k + 1) f g = 0 := by
  simp [splitSum, splits]

theorem splitSum_cons (a : Fin 3) (α : List (Fin 3)) (k : ℕ) (f g : List (Fin 3) → A) :
    splitSum (a :: α) (k + 1) f g = splitSum α k (fun x => f (a :: x)) g + splitSum α (k + 1) f fun x => g (a :: x) := by
  simp [splitSum, splits, Function.comp_def]

theorem splitSum_perm (f g : List (Fin 3) → A) (hf : PermInv f) (hg : PermInv g) (α β : List (Fin 3)) (h : α.Perm β)
    (k : ℕ) : splitSum α k f g = splitSum β k f g := by
  induction h generalizing k f g with
  | nil => rfl
  | cons a h ih =>
    cases k with
    | zero => rw [splitSum_zero, splitSum_zero, hg _ _ (h.cons a)]
    | succ k => rw [splitSum_cons, splitSum_cons, ih _ _ (hf.cons a) hg, ih _ _ hf (hg.cons a)]
  | swap a b α =>
    cases k with
    | zero => rw [splitSum_zero, splitSum_zero, hg _ _ (.swap a b α)]
    | succ k =>
      rw [splitSum_cons b, splitSum_cons a, splitSum_cons a (b :: α), splitSum_cons b]
      have e1 : (fun x => g (b :: a :: x)) = fun x => g (a :: b :: x) := funext fun x => hg _ _ (.swap a b x)
      cases k with
      | zero =>
        simp only [splitSum_zero]
        rw [e1]
        ring
      | succ k =>
        rw [splitSum_cons a, splitSum_cons b]
        have e2 : (fun x => f (b :: a :: x)) = fun x => f (a :: b :: x) := funext fun x => hf _ _ (.swap a b x)
        rw [e1, e2]
        ring
  | trans _ _ ih1 ih2 => rw [ih1 f g hf hg, ih2 f g hf hg]

/-- The polynomial of a sum over splits. -/
theorem polyOf_splitSum (n k : ℕ) (f : List (Fin 3) → A) (r s : Fin 3 → A) :
    polyOf n (fun α => splitSum α k f (vprod r)) s =
      (n.choose k : A) * polyOf k f s * (∑ i, r i * s i) ^ (n - k) := by
  induction n generalizing k f with
  | zero =>
    cases k with
    | zero => simp [polyOf, sumTup, splitSum_zero]
    | succ k => simp [polyOf, sumTup, splitSum_nil]
  | succ n ih =>
    cases k with
    | zero =>
      have e : ∀ m, sumTup m (fun α => vprod r α * vprod s α) = (∑ i, r i * s i) ^ m := by
        intro m
        induction m with
        | zero => simp [sumTup]
        | succ m ihm =>
          rw [sumTup, pow_succ', ← ihm, sum_mul]
          refine sum_congr rfl fun i _ => ?_
          rw [← sumTup_mul_left]
          refine sumTup_congr m fun α _ => ?_
          simp only [vprod_cons]; ring
      simp only [polyOf, splitSum_zero, Nat.choose_zero_right, Nat.cast_one, sumTup, vprod_nil, mul_one, one_mul,
        Nat.sub_zero]
      have := e (n + 1)
      rw [sumTup] at this
      rw [← this, mul_sum]
      refine sum_congr rfl fun i _ => ?_
      rw [← sumTup_mul_left]
      exact sumTup_congr n fun α _ => by ring
    | succ k =>
      have e : polyOf (n + 1) (fun α => splitSum α (k + 1) f (vprod r)) s =
          ∑ a : Fin 3, (s a * polyOf n (fun α => splitSum α k (fun x => f (a :: x)) (vprod r)) s +
            r a * s a * polyOf n (fun α => splitSum α (k + 1) f (vprod r)) s) := by
        rw [polyOf, sumTup]
        refine sum_congr rfl fun a _ => ?_
        rw [polyOf, polyOf, ← sumTup_mul_left, ← sumTup_mul_left, ← sumTup_add]
        refine sumTup_congr n fun α _ => ?_
        rw [splitSum_cons, vprod_cons]
        have : splitSum α (k + 1) f (fun x => vprod r (a :: x)) = r a * splitSum α (k + 1) f (vprod r) := by
          unfold splitSum
          rw [← List.sum_map_mul_left]
          congr 1
          refine List.map_congr_left fun p _ => ?_
          simp only [vprod_cons]; ring
        rw [this]
        ring
      rw [e, sum_add_distrib, ← sum_mul, ih]
      have e2 : ∑ a : Fin 3, s a * polyOf n (fun α => splitSum α k (fun x => f (a :: x)) (vprod r)) s =
          (n.choose k : A) * polyOf (k + 1) f s * (∑ i, r i * s i) ^ (n - k) := by
        rw [polyOf, sumTup, mul_sum, sum_mul]
        refine sum_congr rfl fun a _ => ?_
        rw [ih, polyOf]
        have : sumTup k (fun α => f (a :: α) * vprod s (a :: α)) = s a * sumTup k fun α => f (a :: α) * vprod s α := by
          rw [← sumTup_mul_left]
          exact sumTup_congr k fun α _ => by rw [vprod_cons]; ring
        rw [this]
        ring
      rw [e2, Nat.choose_succ_succ, Nat.add_sub_add_right]
      rcases Nat.lt_or_ge k n with hk | hk
      · rw [show n - k = (n - (k + 1)) + 1 by omega]
        push_cast
        ring
      · rw [Nat.choose_eq_zero_of_lt (show n < k + 1 by omega)]
        push_cast
        ring

end splitSum

/-! ## Sums of products of Kronecker deltas -/

/-- contribution of an index that occurs `c` times -/
def deltaCount (c : ℕ) : ℝ := if c % 2 = 1 then 0 else ((c - 1)‼ : ℝ)

theorem deltaCount_succ (c : ℕ) : deltaCount (c + 1) = c * deltaCount (c - 1) := by
  unfold deltaCount
  rcases c with - | c
  · simp
  · rcases Nat.even_or_odd c with ⟨k, hk⟩ | ⟨k, hk⟩
    · rw [if_neg (by omega), if_neg (by omega)]
      rcases k with - | k
      · have : c = 0 := by omega
        subst this
        simp
      · rw [show c + 1 + 1 - 1 = (c - 1) + 2 by omega, Nat.doubleFactorial_add_two, show c + 1 - 1 - 1 = c - 1 by omega]
        push_cast
        rw [show ((c - 1 : ℕ) : ℝ) = (c : ℝ) - 1 by rw [Nat.cast_sub (by omega)]; simp]
        ring
    · rw [if_pos (by omega), if_pos (by omega)]
      simp

theorem multiDiracDelta_eq (α : List (Fin 3)) :
    multiDiracDelta α = deltaCount (α.count 0) * deltaCount (α.count 1) * deltaCount (α.count 2) := by
  have key : ∀ v : Fin 3, v ∉ α → deltaCount (α.count v) = 1 := by
    intro v hv
    rw [List.count_eq_zero.mpr hv]
    simp [deltaCount]
  unfold multiDiracDelta
  dsimp only
  by_cases h : ∃ v : Fin 3, α.count v % 2 = 1
  · obtain ⟨v, hv⟩ := h
    have hm : v ∈ α := by
      by_contra hn
      rw [List.count_eq_zero.mpr hn] at hv
      omega
    rw [if_pos]
    · have h0 : deltaCount (α.count v) = 0 := by rw [deltaCount, if_pos hv]
      fin_cases v <;> simp_all
    · rw [List.any_eq_true]
      refine ⟨α.count v, List.mem_map.mpr ⟨v, List.mem_filter.mpr ⟨by fin_cases v <;> simp, by simpa using hm⟩, rfl⟩,
        by simpa using hv⟩
  · push Not at h
    rw [if_neg]
    · have hd : ∀ v, ((α.count v - 1)‼ : ℝ) = deltaCount (α.count v) := fun v => by rw [deltaCount, if_neg (h v)]
      have hk : ∀ v, v ∉ α → α.count v = 0 := fun v hv => List.count_eq_zero.mpr hv
      have h1 : deltaCount 0 = 1 := by simp [deltaCount]
      simp only [List.filter_cons, List.filter_nil]
      by_cases m0 : (0 : Fin 3) ∈ α <;> by_cases m1 : (1 : Fin 3) ∈ α <;> by_cases m2 : (2 : Fin 3) ∈ α <;>
        simp [m0, m1, m2, hd, key, mul_assoc]
    · rw [List.any_eq_true]
      rintro ⟨c, hc, hodd⟩
      obtain ⟨v, -, rfl⟩ := List.mem_map.mp hc
      exact h v (by simpa using hodd)

theorem multiDiracDelta_perm : PermInv multiDiracDelta := by
  intro α β h
  rw [multiDiracDelta_eq, multiDiracDelta_eq, h.count_eq, h.count_eq, h.count_eq]

theorem multiDiracDelta_cons (a : Fin 3) (β : List (Fin 3)) :
    multiDiracDelta (a :: β) = β.count a * multiDiracDelta (β.erase a) := by
  rw [multiDiracDelta_eq, multiDiracDelta_eq]
  fin_cases a <;> simp [deltaCount_succ] <;> ring

/-- removing one occurrence of `a` in all possible ways -/
theorem sum_erase {A : Type} [CommRing A] (k : ℕ) (a : Fin 3) (h : List (Fin 3) → A) (hh : PermInv h) (s : Fin 3 → A) :
    sumTup (k + 1) (fun β => (β.count a : A) * h (β.erase a) * vprod s β) = (k + 1) * (s a * polyOf k h s) := by
  have step : ∀ (b : Fin 3) (β : List (Fin 3)) (h : List (Fin 3) → A), PermInv h →
      ((b :: β).count a : A) * h ((b :: β).erase a) =
      (if b = a then h β else 0) + (β.count a : A) * h (b :: β.erase a) := by
    intro b β h hh
    by_cases hb : b = a
    · subst hb
      rw [if_pos rfl, List.count_cons_self, List.erase_cons_head]
      by_cases hm : b ∈ β
      · rw [hh (b :: β.erase b) β (List.perm_cons_erase hm).symm]
        push_cast; ring
      · rw [List.count_eq_zero.mpr hm]
        push_cast; ring
    · rw [if_neg hb, List.count_cons_of_ne hb, List.erase_cons_tail (by simpa using hb), zero_add]
  induction k generalizing h with
  | zero =>
    simp only [sumTup, polyOf, vprod_cons, vprod_nil]
    rw [sum_eq_single a]
    · simp [mul_comm]
    · intro b _ hb
      rw [List.count_cons_of_ne hb]
      simp
    · simp
  | succ k ih =>
    rw [sumTup]
    have e : ∀ b : Fin 3, sumTup (k + 1) (fun β => ((b :: β).count a : A) * h ((b :: β).erase a) * vprod s (b :: β)) =
        (if b = a then s a * polyOf (k + 1) h s else 0) + s b * ((k + 1) * (s a * polyOf k (fun x => h (b :: x)) s)) := by
      intro b
      rw [← ih _ (hh.cons b), ← sumTup_mul_left]
      have : (if b = a then s a * polyOf (k + 1) h s else 0) =
          sumTup (k + 1) (fun β => (if b = a then h β else 0) * vprod s (b :: β)) := by
        by_cases hb : b = a
        · subst hb
          rw [if_pos rfl, polyOf, ← sumTup_mul_left]
          refine sumTup_congr _ fun β _ => ?_
          rw [if_pos rfl, vprod_cons]; ring
        · rw [if_neg hb, sumTup_congr (k + 1) (g := fun _ => (0 : A) * 0) (fun β _ => by rw [if_neg hb]; ring),
            sumTup_mul_left, zero_mul]
      rw [this, ← sumTup_add]
      refine sumTup_congr _ fun β _ => ?_
      rw [step b β h hh, vprod_cons]
      ring
    rw [sum_congr rfl fun b _ => e b, sum_add_distrib, sum_ite_eq' univ a, if_pos (mem_univ a)]
    have e2 : ∑ b : Fin 3, s b * ((k + 1) * (s a * polyOf k (fun x => h (b :: x)) s)) =
        (k + 1) * (s a * polyOf (k + 1) h s) := by
      rw [polyOf, sumTup, mul_sum, mul_sum]
      refine sum_congr rfl fun b _ => ?_
      have : sumTup k (fun α => h (b :: α) * vprod s (b :: α)) = s b * polyOf k (fun x => h (b :: x)) s := by
        rw [polyOf, ← sumTup_mul_left]
        exact sumTup_congr k fun α _ => by rw [vprod_cons]; ring
      rw [this]
      ring
    rw [e2]
    push_cast
    ring

/-- The polynomial of the sum of products of Kronecker deltas. -/
theorem polyOf_delta (m : ℕ) (s : Fin 3 → ℝ) :
    polyOf (2 * m) multiDiracDelta s = ((2 * m - 1)‼ : ℝ) * (∑ i, s i ^ 2) ^ m := by
  induction m with
  | zero => simp [polyOf, sumTup, multiDiracDelta]
  | succ m ih =>
    have e : polyOf (2 * (m + 1)) multiDiracDelta s = ∑ a : Fin 3, s a ^ 2 * ((2 * m + 1) * polyOf (2 * m) multiDiracDelta s) := by
      rw [show 2 * (m + 1) = 2 * m + 1 + 1 by ring, polyOf, sumTup]
      refine sum_congr rfl fun a _ => ?_
      have h := sum_erase (2 * m) a multiDiracDelta multiDiracDelta_perm s
      have : sumTup (2 * m + 1) (fun α => multiDiracDelta (a :: α) * vprod s (a :: α)) =
          s a * sumTup (2 * m + 1) (fun β => (β.count a : ℝ) * multiDiracDelta (β.erase a) * vprod s β) := by
        rw [← sumTup_mul_left]
        refine sumTup_congr _ fun β _ => ?_
        rw [multiDiracDelta_cons, vprod_cons]; ring
      rw [this, h]
      push_cast
      ring
    rw [e, ih, ← sum_mul, show 2 * (m + 1) - 1 = 2 * m + 1 by omega, pow_succ]
    rcases m with - | m
    · simp
    · rw [show 2 * (m + 1) + 1 = (2 * (m + 1) - 1) + 2 by omega, Nat.doubleFactorial_add_two,
        show 2 * (m + 1) - 1 + 2 = 2 * (m + 1) + 1 by omega]
      push_cast
      ring

end

end E3x
