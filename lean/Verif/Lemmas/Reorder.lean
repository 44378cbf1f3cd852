import Verif.Spec.Reorder
import Verif.Lemmas.Orders
import Verif.Lemmas.Irreps
import Verif.Props.Network

/-!
# Reordering components
-/

namespace E3x

open Finset Spec

variable {cart cart' : Bool} {π : ℕ → ℕ}

theorem reorder_exists (cart cart' : Bool) :
    IsReordering cart cart' fun j => flatIndex cart (degreeOf j) (componentOrder cart' j) := fun j =>
  ⟨flatIndex_degree cart _ _ (componentOrder_bounds cart' j), flatIndex_order cart _ _ (componentOrder_bounds cart' j)⟩

theorem reorder_unique {π' : ℕ → ℕ} (h : IsReordering cart cart' π) (h' : IsReordering cart cart' π') : π = π' := by
  funext j
  exact component_inj cart ((h j).1.trans (h' j).1.symm) ((h j).2.trans (h' j).2.symm)

theorem reorder_inverse {π' : ℕ → ℕ} (h : IsReordering cart cart' π) (h' : IsReordering cart' cart π') (j : ℕ) :
    π (π' j) = j :=
  component_inj cart ((h _).1.trans (h' j).1) ((h _).2.trans (h' j).2)

theorem reorder_inj (h : IsReordering cart cart' π) {i j : ℕ} (e : π i = π j) : i = j :=
  component_inj cart' ((h i).1.symm.trans ((congrArg _ e).trans (h j).1))
    ((h i).2.symm.trans ((congrArg _ e).trans (h j).2))

theorem reorder_deg (h : IsReordering cart cart' π) (j : ℕ) : deg (π j) = deg j := (h j).1

theorem reorder_lt (h : IsReordering cart cart' π) {L j : ℕ} : π j < (L + 1) ^ 2 ↔ j < (L + 1) ^ 2 := by
  rw [← deg_le_iff, ← deg_le_iff, reorder_deg h]

theorem reorder_zero (h : IsReordering cart cart' π) : π 0 = 0 := by
  have := reorder_deg h 0
  rw [show deg 0 = 0 from deg_eq_zero.2 rfl] at this
  exact deg_eq_zero.1 this

theorem sum_reorder (h : IsReordering cart cart' π) (L : ℕ) (g : ℕ → ℝ) :
    ∑ l ∈ range ((L + 1) ^ 2), g (π l) = ∑ l ∈ range ((L + 1) ^ 2), g l := by
  have h' := reorder_exists cart' cart
  refine sum_nbij' π (fun j => flatIndex cart' (degreeOf j) (componentOrder cart j)) ?_ ?_ ?_ ?_ ?_
  · intro i hi
    rw [mem_range] at hi ⊢
    exact (reorder_lt h).2 hi
  · intro i hi
    rw [mem_range] at hi ⊢
    exact (reorder_lt h').2 hi
  · intro i _
    exact reorder_inverse h' h i
  · intro i _
    exact reorder_inverse h h' i
  · intro i _
    rfl

theorem sum_reorder_block (h : IsReordering cart cart' π) (lam : ℕ) (g : ℕ → ℝ) :
    ∑ a ∈ range (2 * lam + 1), g (π (lam ^ 2 + a)) = ∑ a ∈ range (2 * lam + 1), g (lam ^ 2 + a) := by
  have key : ∀ g : ℕ → ℝ, ∑ a ∈ range (2 * lam + 1), g (lam ^ 2 + a) =
      ∑ l ∈ range ((lam + 1) ^ 2), if deg l = lam then g l else 0 := by
    intro g
    rw [show (lam + 1) ^ 2 = lam ^ 2 + (2 * lam + 1) by ring,
      sum_range_add (fun l => if deg l = lam then g l else 0) (lam ^ 2) (2 * lam + 1),
      sum_eq_zero (s := range (lam ^ 2)), zero_add]
    · refine sum_congr rfl fun a ha => ?_
      rw [if_pos (deg_sq_add (mem_range.1 ha))]
    · intro l hl
      rw [if_neg]
      intro hd
      have := ((deg_eq_iff l lam).1 hd).1
      rw [mem_range] at hl
      omega
  rw [key fun l => g (π l), key g, ← sum_reorder h lam fun l => if deg l = lam then g l else 0]
  refine sum_congr rfl fun l _ => ?_
  rw [reorder_deg h]

/-- The permutation matrix. -/
noncomputable def reorderMatrix (π : ℕ → ℕ) (l m : ℕ) : ℝ := if l = π m then 1 else 0

theorem reorderMatrix_blockDiag (h : IsReordering cart cart' π) : BlockDiag (reorderMatrix π) := by
  intro i j hij
  unfold reorderMatrix
  rw [if_neg]
  rintro rfl
  exact hij (reorder_deg h j)

theorem reorderMatrix_zero (h : IsReordering cart cart' π) : reorderMatrix π 0 0 = 1 := by
  unfold reorderMatrix
  rw [reorder_zero h, if_pos rfl]

theorem reorderMatrix_orthogonal (h : IsReordering cart cart' π) : Orthogonal (reorderMatrix π) := by
  have h' := reorder_exists cart' cart
  intro i j
  constructor
  · set k := flatIndex cart' (degreeOf i) (componentOrder cart i) with hk
    have e : π k = i := reorder_inverse h h' i
    have hd : deg k = deg i := by rw [← e, reorder_deg h]
    rw [sum_eq_single k]
    · unfold reorderMatrix
      rw [e, if_pos rfl, one_mul]
      by_cases hij : i = j
      · rw [if_pos hij.symm, if_pos hij]
      · rw [if_neg (Ne.symm hij), if_neg hij]
    · intro b _ hb
      unfold reorderMatrix
      rw [if_neg, zero_mul]
      intro hc
      exact hb (reorder_inj h (hc.symm.trans e.symm))
    · intro hc
      exact absurd (mem_range.2 ((deg_le_iff _ _).1 hd.le)) hc
  · rw [sum_eq_single (π i)]
    · unfold reorderMatrix
      rw [if_pos rfl, one_mul]
      by_cases hij : i = j
      · rw [hij, if_pos rfl, if_pos rfl]
      · rw [if_neg fun hc => hij (reorder_inj h hc), if_neg hij]
    · intro b _ hb
      unfold reorderMatrix
      rw [if_neg hb, zero_mul]
    · intro hc
      exact absurd (mem_range.2 ((deg_le_iff _ _).1 (reorder_deg h i).le)) hc

theorem rotate_reorder (h : IsReordering cart cart' π) (x : Feat) (p i f : ℕ) (hi : i < (x.L + 1) ^ 2) :
    (rotate x (reorderMatrix π)).val p i f = x.val p (π i) f := by
  unfold rotate reorderMatrix
  dsimp only
  rw [sum_eq_single (π i)]
  · rw [if_pos rfl, mul_one]
  · intro b _ hb
    rw [if_neg hb, mul_zero]
  · intro hc
    exact absurd (mem_range.2 ((reorder_lt h).2 hi)) hc

theorem reordered_same (h : IsReordering cart cart' π) (x : Feat) : (reordered π x).Same (rotate x (reorderMatrix π)) :=
  ⟨rfl, rfl, rfl, fun p i f _ hi _ => (rotate_reorder h x p i f hi).symm⟩

theorem comp_reorder (h : IsReordering cart cart' π) (x : Feat) (p i f : ℕ) :
    comp (rotate x (reorderMatrix π)) p i f = comp x p (π i) f := by
  by_cases hi : i < (x.L + 1) ^ 2
  · have hi' := (reorder_lt h).2 hi
    unfold comp
    rw [rotate_reorder h x p i f hi, rotate_reorder h x 0 i f hi, reorder_deg h]
    have e1 : ¬ (x.L + 1) ^ 2 ≤ i := by omega
    have e2 : ¬ (x.L + 1) ^ 2 ≤ π i := by omega
    simp only [show (rotate x (reorderMatrix π)).L = x.L from rfl,
      show (rotate x (reorderMatrix π)).pseudo = x.pseudo from rfl, e1, e2, false_or]
  · have hi' : (x.L + 1) ^ 2 ≤ π i := by
      by_contra hc
      exact hi ((reorder_lt h).1 (by omega))
    unfold comp
    rw [if_pos (Or.inl hi'), if_pos (Or.inl (by change (x.L + 1) ^ 2 ≤ i; omega))]

variable {cg cg' : ℕ → ℕ → ℕ → ℝ} (hcg : ∀ i j k, cg' i j k = cg (π i) (π j) (π k))

include hcg

theorem coupled_reorder (h : IsReordering cart cart' π) (W : ℕ → ℕ → ℕ → ℕ → ℕ → ℕ → ℝ) (x y : Feat) (r n f : ℕ) :
    coupled W cg' (rotate x (reorderMatrix π)) (rotate y (reorderMatrix π)) r n f = coupled W cg x y r (π n) f := by
  unfold coupled
  refine sum_congr rfl fun p _ => sum_congr rfl fun q _ => ?_
  split
  · rw [← sum_reorder h x.L]
    refine sum_congr rfl fun l _ => ?_
    rw [← sum_reorder h y.L]
    refine sum_congr rfl fun m _ => ?_
    rw [comp_reorder h, comp_reorder h, hcg]
    simp only [reorder_deg h]
  · rfl

theorem toMatrix_reorder (h : IsReordering cart cart' π) (w : ℕ → ℝ) (lam : ℕ) (x : Feat) (p f a b a' b' : ℕ)
    (ha : π (lam ^ 2 + a) = lam ^ 2 + a') (hb : π (lam ^ 2 + b) = lam ^ 2 + b') :
    toMatrix w cg' lam (rotate x (reorderMatrix π)) p f a b = toMatrix w cg lam x p f a' b' := by
  unfold toMatrix
  rw [← sum_reorder h x.L]
  refine sum_congr rfl fun n _ => ?_
  rw [comp_reorder h, hcg, ha, hb, reorder_deg h]

omit hcg in
/-- A reordering acts within each degree. -/
theorem reorder_block (h : IsReordering cart cart' π) {lam a : ℕ} (ha : a ∈ range (2 * lam + 1)) :
    π (lam ^ 2 + a) = lam ^ 2 + (π (lam ^ 2 + a) - lam ^ 2) ∧ π (lam ^ 2 + a) - lam ^ 2 ∈ range (2 * lam + 1) := by
  have hd : deg (π (lam ^ 2 + a)) = lam := by rw [reorder_deg h]; exact deg_sq_add (mem_range.1 ha)
  obtain ⟨h1, h2⟩ := (deg_eq_iff _ _).1 hd
  have h3 : (lam + 1) ^ 2 = lam ^ 2 + 2 * lam + 1 := by ring
  rw [mem_range]
  omega

theorem fusedCoupled_reorder (h : IsReordering cart cart' π) (w1 w2 : ℕ → ℕ → ℝ) (w3 : ℕ → ℕ → ℕ → ℝ) (lam : ℕ) (x y : Feat)
    (r n f : ℕ) : fusedCoupled w1 w2 w3 cg' lam (rotate x (reorderMatrix π)) (rotate y (reorderMatrix π)) r n f =
      fusedCoupled w1 w2 w3 cg lam x y r (π n) f := by
  unfold fusedCoupled
  refine sum_congr rfl fun p _ => sum_congr rfl fun q _ => ?_
  have hs : ∀ g : ℕ → ℝ, ∑ a ∈ range (2 * lam + 1), g (π (lam ^ 2 + a) - lam ^ 2) = ∑ a ∈ range (2 * lam + 1), g a := by
    intro g
    have := sum_reorder_block h lam fun l => g (l - lam ^ 2)
    simpa only [Nat.add_sub_cancel_left] using this
  split
  · refine Eq.trans ?_ (hs _)
    refine sum_congr rfl fun a ha => ?_
    refine Eq.trans ?_ (hs _)
    refine sum_congr rfl fun b hb => ?_
    rw [hcg, ← (reorder_block h ha).1, ← (reorder_block h hb).1, reorder_deg h]
    congr 2
    refine Eq.trans ?_ (hs _)
    refine sum_congr rfl fun c hc => ?_
    rw [toMatrix_reorder hcg h _ _ _ _ _ _ _ _ _ (reorder_block h ha).1 (reorder_block h hc).1,
      toMatrix_reorder hcg h _ _ _ _ _ _ _ _ _ (reorder_block h hc).1 (reorder_block h hb).1]
  · rfl

theorem anyTensor_reorder (h : IsReordering cart cart' π) (cfg : TensorCfg) (T : TensorParams) (x y z : Feat)
    (hz : anyTensor cfg T cg x y = .ok z) :
    ∃ z', anyTensor cfg T cg' (rotate x (reorderMatrix π)) (rotate y (reorderMatrix π)) = .ok z' ∧
      z'.Same (rotate z (reorderMatrix π)) := by
  cases T with
  | tensor K =>
    have hok : cfg.maxDegree.getD (max x.L y.L) ≤ x.L + y.L ∧ x.F = y.F := by
      by_contra hc
      have : tensor cfg K cg x y = .error .valueError :=
        (C15_tensor_error _ _ _ _ _ _).2 ⟨rfl, by by_contra h; push Not at h; exact hc h⟩
      rw [show tensor cfg K cg x y = .ok z from hz] at this
      cases this
    obtain ⟨z0, h0, h1, h2, h3, h4⟩ := C15_tensor cfg K cg x y hok.1 hok.2
    rw [show tensor cfg K cg x y = .ok z from hz] at h0
    injection h0 with h0
    subst h0
    obtain ⟨z', g0, g1, g2, g3, g4⟩ := C15_tensor cfg K cg' (rotate x (reorderMatrix π)) (rotate y (reorderMatrix π)) hok.1 hok.2
    have hp : z'.pseudo = z.pseudo := by rw [Bool.eq_iff_iff, g3, h3]; rfl
    have hL : z'.L = z.L := g1.trans h1.symm
    refine ⟨z', g0, same_of_comp _ _ hp hL (g2.trans h2.symm) ?_⟩
    intro r n f _
    rw [comp_reorder h, g4, h4, coupled_reorder hcg h, hp, hL, reorder_deg h]
    simp only [reorder_lt h]
    rfl
  | fused K =>
    have hok := fused_ok hz
    obtain ⟨z0, h0, h1, h2, h3, h4⟩ := C16_fused cfg K cg x y hok.1 hok.2
    rw [show fusedTensor cfg K cg x y = .ok z from hz] at h0
    injection h0 with h0
    subst h0
    obtain ⟨z', g0, g1, g2, g3, g4⟩ := C16_fused cfg K cg' (rotate x (reorderMatrix π)) (rotate y (reorderMatrix π)) hok.1 hok.2
    have hp : z'.pseudo = z.pseudo := by rw [Bool.eq_iff_iff, g3, h3]; rfl
    have hL : z'.L = z.L := g1.trans h1.symm
    refine ⟨z', g0, same_of_comp _ _ hp hL (g2.trans h2.symm) ?_⟩
    intro r n f _
    rw [comp_reorder h, g4, h4, fusedCoupled_reorder hcg h, hp, hL, reorder_deg h]
    simp only [reorder_lt h]
    rfl

theorem symFacts_reorder (h : IsReordering cart cart' π) : SymFacts cg cg' fun x => rotate x (reorderMatrix π) :=
  symFacts_matrix cg cg' (reorderMatrix π) (reorderMatrix_blockDiag h) (reorderMatrix_zero h) (reorderMatrix_orthogonal h)
    (anyTensor_reorder hcg h)

omit hcg in
theorem cgTensor_reorder (h : IsReordering cart cart' π) (i j k : ℕ) :
    cgTensor cart' i j k = cgTensor cart (π i) (π j) (π k) := by
  unfold cgTensor
  rw [(h i).1, (h i).2, (h j).1, (h j).2, (h k).1, (h k).2]

omit hcg in
theorem dMatrix_reorder (h : IsReordering cart cart' π) (R : Fin 3 → Fin 3 → ℝ) (i j : ℕ) :
    dMatrix cart' R i j = dMatrix cart R (π i) (π j) := by
  unfold dMatrix
  rw [(h i).1, (h i).2, (h j).1, (h j).2]

end E3x
