import Verif.Spec.Inertia
import Verif.Lemmas.Inertia
import Verif.Lemmas.Forces
import Mathlib.LinearAlgebra.Matrix.PosDef

/-!
# C66: the example that predicts moment of inertia tensors
-/

namespace E3x

open Spec Finset

/-! ## the target -/

theorem calculate_eq {n : ℕ} (m : Fin n → ℝ) (X : Fin n → Fin 3 → ℝ) : Matrix.of (calculateInertia m X) = inertiaTensor m X := by
  ext a b
  simp only [calculateInertia, inertiaTensor, Matrix.of_apply, Matrix.sum_apply, Matrix.smul_apply, Matrix.sub_apply,
    Matrix.one_apply, Matrix.vecMulVec_apply, smul_eq_mul, dotProduct]
  refine sum_congr rfl fun i _ => ?_
  rw [sum_congr rfl fun k _ => (pow_two (X i k)), mul_comm (X i b)]

/-- **C66 (the target).** `calculate_moment_of_inertia_tensor` returns the tensor `Σᵢ mᵢ (|rᵢ|² 1 - rᵢ rᵢᵀ)`. It is symmetric,
nonnegative if all masses are nonnegative, and follows rotations and reflections of the points. -/
theorem C66_target {n : ℕ} (m : Fin n → ℝ) (X : Fin n → Fin 3 → ℝ) :
    Matrix.of (calculateInertia m X) = inertiaTensor m X ∧
    (Matrix.of (calculateInertia m X)).IsSymm ∧
    ((∀ i, 0 ≤ m i) → ∀ v, 0 ≤ v ⬝ᵥ (Matrix.of (calculateInertia m X)).mulVec v) ∧
    ∀ R, IsOrthogonal R → Matrix.of (calculateInertia m (rotated R X)) =
      (Matrix.of R).transpose * Matrix.of (calculateInertia m X) * Matrix.of R := by
  refine ⟨calculate_eq m X, ?_, fun hm v => ?_, fun R hR => ?_⟩
  · ext a b
    simp only [calculateInertia, Matrix.of_apply, Matrix.transpose_apply]
    refine sum_congr rfl fun i _ => ?_
    rw [mul_comm (X i a) (X i b)]
    simp only [eq_comm]
  · have e : v ⬝ᵥ (Matrix.of (calculateInertia m X)).mulVec v =
        ∑ i, m i * ((∑ k, X i k ^ 2) * (∑ k, v k ^ 2) - (∑ k, X i k * v k) ^ 2) := by
      simp only [dotProduct, Matrix.mulVec, Matrix.of_apply, calculateInertia, sum_mul, mul_sum]
      rw [sum_congr rfl fun a _ => sum_comm, sum_comm]
      refine sum_congr rfl fun i _ => ?_
      simp only [Fin.sum_univ_three]
      simp
      ring
    rw [e]
    refine sum_nonneg fun i _ => mul_nonneg (hm i) (sub_nonneg.2 ?_)
    exact sum_mul_sq_le_sq_mul_sq univ (X i) v
  · have hn : ∀ i, ∑ k, rotated R X i k ^ 2 = ∑ k, X i k ^ 2 := by
      intro i
      have h := orthogonal_transposed hR
      have h00 := h 0 0; have h01 := h 0 1; have h02 := h 0 2; have h11 := h 1 1; have h12 := h 1 2; have h22 := h 2 2
      simp only [transposed, Fin.sum_univ_three] at h00 h01 h02 h11 h12 h22
      simp at h00 h01 h02 h11 h12 h22
      simp only [rotated, vecMul, Fin.sum_univ_three]
      linear_combination X i 0 ^ 2 * h00 + X i 1 ^ 2 * h11 + X i 2 ^ 2 * h22 + 2 * X i 0 * X i 1 * h01 +
        2 * X i 0 * X i 2 * h02 + 2 * X i 1 * X i 2 * h12
    ext a b
    have ho := hR a b
    simp only [Matrix.mul_apply, Matrix.transpose_apply, Matrix.of_apply, calculateInertia, hn, sum_mul, mul_sum]
    rw [sum_congr rfl fun a _ => sum_comm, sum_comm]
    refine sum_congr rfl fun i _ => ?_
    rw [← ho]
    simp only [rotated, vecMul, Fin.sum_univ_three]
    simp
    ring

/-! ## symmetries -/

/-- **C66 (predictions exist).** The model returns a tensor for all parameters, masses and positions. -/
theorem C66_exists (disk : Disk CGCompressed) (hd : ValidDisk (cgKind symClebschGordan) (cgTable symClebschGordan) disk)
    (o : SaveOutcome) (cg : ℕ → ℕ → ℕ → ℝ) (hcg : LibraryCG true cg) (net : InertiaNet) {n : ℕ} (m : Fin n → ℝ)
    (X : Fin n → Fin 3 → ℝ) : ∃ y, PredictsInertia (predictInertia disk o cg net) m X y := by
  rw [libraryCG_eq hcg]
  exact ⟨_, _, predict_eq disk hd o net m X, rfl⟩

theorem predicts_iff {disk : Disk CGCompressed} (hd : ValidDisk (cgKind symClebschGordan) (cgTable symClebschGordan) disk)
    {o : SaveOutcome} {cg : ℕ → ℕ → ℕ → ℝ} (hcg : LibraryCG true cg) {net : InertiaNet} {n : ℕ} {m : Fin n → ℝ}
    {X : Fin n → Fin 3 → ℝ} {y : Matrix (Fin 3) (Fin 3) ℝ} :
    PredictsInertia (predictInertia disk o cg net) m X y ↔ y = ∑ i, pointTensor net (m i) (X i) := by
  unfold PredictsInertia
  rw [libraryCG_eq hcg, predict_eq disk hd o net m X]
  have e : (Matrix.of fun a b => ∑ i, pointTensor net (m i) (X i) a b) = ∑ i, pointTensor net (m i) (X i) := by
    ext a b
    rw [Matrix.sum_apply]; rfl
  constructor
  · rintro ⟨t, h, rfl⟩
    injection h with h
    exact (congrArg Matrix.of h).symm.trans e
  · rintro rfl
    exact ⟨_, rfl, e.symm⟩

/-- **C66 (equivariance).** For every orthogonal matrix `R`, also with determinant -1, the prediction for the points
`rᵢ R` is `Rᵀ y R`, where `y` is the prediction for the points `rᵢ`. -/
theorem C66_rotation (disk : Disk CGCompressed) (hd : ValidDisk (cgKind symClebschGordan) (cgTable symClebschGordan) disk)
    (o o' : SaveOutcome) (cg : ℕ → ℕ → ℕ → ℝ) (hcg : LibraryCG true cg) (net : InertiaNet) {n : ℕ} (m : Fin n → ℝ)
    (X : Fin n → Fin 3 → ℝ) (y : Matrix (Fin 3) (Fin 3) ℝ) (h : PredictsInertia (predictInertia disk o cg net) m X y)
    (R : Fin 3 → Fin 3 → ℝ) (hR : IsOrthogonal R) :
    PredictsInertia (predictInertia disk o' cg net) m (rotated R X) ((Matrix.of R).transpose * y * Matrix.of R) := by
  rw [predicts_iff hd hcg] at h ⊢
  rw [h, Matrix.mul_sum, Matrix.sum_mul]
  exact sum_congr rfl fun i _ => (tensor_orthogonal net (m i) (X i) hR).symm

/-- **C66 (order).** The order of the points does not matter. -/
theorem C66_permutation (disk : Disk CGCompressed) (hd : ValidDisk (cgKind symClebschGordan) (cgTable symClebschGordan) disk)
    (o o' : SaveOutcome) (cg : ℕ → ℕ → ℕ → ℝ) (hcg : LibraryCG true cg) (net : InertiaNet) {n : ℕ} (m : Fin n → ℝ)
    (X : Fin n → Fin 3 → ℝ) (y : Matrix (Fin 3) (Fin 3) ℝ) (h : PredictsInertia (predictInertia disk o cg net) m X y)
    (σ : Equiv.Perm (Fin n)) : PredictsInertia (predictInertia disk o' cg net) (m ∘ σ) (X ∘ σ) y := by
  rw [predicts_iff hd hcg] at h ⊢
  rw [h]
  exact (Equiv.sum_comp σ fun i => pointTensor net (m i) (X i)).symm

/-- **C66 (additivity).** The prediction for the union of two structures is the sum of their predictions. -/
theorem C66_additive (disk : Disk CGCompressed) (hd : ValidDisk (cgKind symClebschGordan) (cgTable symClebschGordan) disk)
    (o o' o'' : SaveOutcome) (cg : ℕ → ℕ → ℕ → ℝ) (hcg : LibraryCG true cg) (net : InertiaNet) {n n' : ℕ} (m : Fin n → ℝ)
    (X : Fin n → Fin 3 → ℝ) (m' : Fin n' → ℝ) (X' : Fin n' → Fin 3 → ℝ) (y y' : Matrix (Fin 3) (Fin 3) ℝ)
    (h : PredictsInertia (predictInertia disk o cg net) m X y)
    (h' : PredictsInertia (predictInertia disk o' cg net) m' X' y') :
    PredictsInertia (predictInertia disk o'' cg net) (Fin.append m m') (Fin.append X X') (y + y') := by
  rw [predicts_iff hd hcg] at h h' ⊢
  rw [h, h', Fin.sum_univ_add]
  simp

theorem pointTensor_symm (net : InertiaNet) (m : ℝ) (r : Fin 3 → ℝ) : (pointTensor net m r).IsSymm := by
  obtain ⟨R, hR, hr⟩ := exists_orth r
  have hR' : IsOrthogonal R := by
    intro i j
    have := hR i j
    simp only [toC] at this
    have h2 := congrArg Complex.re this
    rw [Complex.re_sum] at h2
    simp only [← Complex.ofReal_mul, Complex.ofReal_re] at h2
    rw [h2]
    split <;> simp
  set ρ := Real.sqrt (∑ k, r k ^ 2)
  have e : r = vecMul ![0, 0, ρ] (transposed R) := by
    funext i
    rw [hr i]
    simp [vecMul, transposed, Fin.sum_univ_three]
  have hd : ∀ a b : Fin 3, a ≠ b → pointTensor net m ![0, 0, ρ] a b = 0 := by
    intro a b hab
    have key : ∀ c : Fin 3, c ≠ 2 → pointTensor net m ![0, 0, ρ] a b * (if a = c then -1 else 1) * (if b = c then -1 else 1) =
        pointTensor net m ![0, 0, ρ] a b := by
      intro c hc
      have h1 := tensor_orthogonal net m ![0, 0, ρ]
        (signedPerm_orthogonal (Equiv.refl _) (fun j => if j = c then -1 else 1) fun j => by split <;> norm_num)
      have h2 : vecMul ![0, 0, ρ] (signedPerm (Equiv.refl _) fun j => if j = c then -1 else 1) = ![0, 0, ρ] := by
        funext k
        revert hc
        fin_cases c <;> fin_cases k <;> simp [vecMul, signedPerm, Fin.sum_univ_three]
      rw [h2] at h1
      have h3 := congrFun (congrFun h1 a) b
      have h4 : Matrix.of (signedPerm (Equiv.refl _) fun j => if j = c then -1 else 1) =
          Matrix.diagonal fun j => if j = c then -1 else 1 := by
        ext k l
        rw [Matrix.diagonal_apply]
        by_cases h : k = l
        · subst h; simp [signedPerm]
        · simp [signedPerm, h]
      rw [h4, Matrix.diagonal_transpose, Matrix.mul_diagonal, Matrix.diagonal_mul] at h3
      conv_rhs => rw [h3]
      ring
    obtain ⟨c, hc, hc'⟩ : ∃ c : Fin 3, c ≠ 2 ∧ ((c = a ∧ c ≠ b) ∨ (c ≠ a ∧ c = b)) := by
      clear key; revert a b; decide
    have := key c hc
    rcases hc' with ⟨rfl, h⟩ | ⟨h, rfl⟩
    · rw [if_pos rfl, if_neg (Ne.symm h)] at this; linarith
    · rw [if_pos rfl, if_neg (Ne.symm h)] at this; linarith
  have hs : (pointTensor net m ![0, 0, ρ]).transpose = pointTensor net m ![0, 0, ρ] := by
    ext a b
    rw [Matrix.transpose_apply]
    by_cases h : a = b
    · rw [h]
    · rw [hd a b h, hd b a (Ne.symm h)]
  rw [e, tensor_orthogonal net m _ (orthogonal_transposed hR'), Matrix.IsSymm, Matrix.transpose_mul, Matrix.transpose_mul, hs,
    Matrix.transpose_transpose, Matrix.mul_assoc]

/-- **C66 (symmetry of predictions).** Predicted tensors are symmetric for all parameters: the irrep of degree 1 needs not be
set to zero. -/
theorem C66_symmetric (disk : Disk CGCompressed) (hd : ValidDisk (cgKind symClebschGordan) (cgTable symClebschGordan) disk)
    (o : SaveOutcome) (cg : ℕ → ℕ → ℕ → ℝ) (hcg : LibraryCG true cg) (net : InertiaNet) {n : ℕ} (m : Fin n → ℝ)
    (X : Fin n → Fin 3 → ℝ) (y : Matrix (Fin 3) (Fin 3) ℝ) (h : PredictsInertia (predictInertia disk o cg net) m X y) :
    y.IsSymm := by
  rw [predicts_iff hd hcg] at h
  rw [h, Matrix.IsSymm, Matrix.transpose_sum]
  exact sum_congr rfl fun i _ => pointTensor_symm net (m i) (X i)

/-! ## expressiveness -/

theorem tensorDense_comp (features : Option ℕ) (useBias : Bool) (cfg : TensorCfg) (P : DenseParams) (K : TensorKernel)
    (cg : ℕ → ℕ → ℕ → ℝ) (x z : Feat) (hz : tensorDense features useBias cfg P (.tensor K) cg x = .ok z) {r n f : ℕ}
    (hr : r < 2) (hn : n < (z.L + 1) ^ 2) (hp : z.pseudo = true) :
    comp z r n f = ∑ p ∈ range 2, ∑ q ∈ range 2, if (p + q) % 2 = r then
      ∑ l ∈ range ((x.L + 1) ^ 2), ∑ m ∈ range ((x.L + 1) ^ 2),
        comp (dense (2 * features.getD x.F) useBias P x) p l f *
          comp (dense (2 * features.getD x.F) useBias P x) q m (features.getD x.F + f) *
          K (slot x.pseudo p) (deg l) (slot x.pseudo q) (deg m) r (deg n) f * cg l m n else 0 := by
  have hok := (C17_tensor_dense_ok features useBias cfg P (.tensor K) cg x).1 ⟨z, hz⟩
  rw [tensorDense_eq] at hz
  obtain ⟨h2, h1, -, -⟩ := C12_dense (2 * features.getD x.F) useBias P x
  obtain ⟨z', e, -, -, -, c⟩ := C15_tensor cfg K cg
    (slice 0 (features.getD x.F) (dense (2 * features.getD x.F) useBias P x))
    (slice (features.getD x.F) (features.getD x.F) (dense (2 * features.getD x.F) useBias P x))
    (by simp only [slice, h1, max_self]; omega) rfl
  simp only [anyTensor] at hz
  rw [hz] at e
  injection e with e
  subst e
  rw [c, if_pos ⟨hr, hn, Or.inl hp⟩]
  have es : ∀ s p i f, comp (slice s (features.getD x.F) (dense (2 * features.getD x.F) useBias P x)) p i f =
      comp (dense (2 * features.getD x.F) useBias P x) p i (s + f) := fun _ _ _ _ => rfl
  unfold coupled
  simp only [es, zero_add, hp]
  simp only [slice, h1, h2]
  rfl

/-- Parameters for which the prediction is exact. -/
noncomputable def exactNet (F : ℕ) : InertiaNet where
  features := F
  dense0 := ⟨fun p l _ o => if p = 0 ∧ l = 0 then (if o = 0 then 1 else 0) else if p = 1 ∧ l = 1 then 1 else 0,
    fun o => if o = 1 then 1 else 0⟩
  dense1 := ⟨fun _ _ f o => if o = f ∨ o = F + f then 1 else 0, fun _ => 0⟩
  tensor1 := .tensor fun _ l _ m r n _ => if l = 0 ∧ m = 1 ∧ r = 1 ∧ n = 1 then cgTensor true 0 1 1 else 0
  dense2 := ⟨fun _ _ f o => if f = o then 1 else 0, fun _ => 0⟩
  tensor2 := .tensor fun p l q m r n _ => if p = 1 ∧ l = 1 ∧ q = 1 ∧ m = 1 ∧ r = 0 then
    (if n = 0 then 2 else if n = 1 then 0 else -1) else 0

theorem dg_vec (a : Fin 3) : deg (1 + a) = 1 := deg_vec a

theorem sum_two (g : ℕ → ℝ) : ∑ i ∈ range 2, g i = g 0 + g 1 := by simp [sum_range_succ]

theorem complete_vec (a b i j : Fin 3) : ∑ n ∈ range 9, cgTensor true (1 + a) (1 + b) n * cgTensor true (1 + i) (1 + j) n =
    if a = i ∧ b = j then 1 else 0 := by
  have h := cgTensor_complete true 2 (1 + a) (1 + i) (1 + b) (1 + j) (by rw [deg_vec, deg_vec]) (by rw [deg_vec, deg_vec])
    (le_of_eq (by rw [deg_vec, deg_vec]))
  rw [show ((2 : ℕ) + 1) ^ 2 = 9 from rfl] at h
  rw [h]
  simp only [Nat.add_left_cancel_iff, Fin.val_inj]

theorem dg_zero : deg 0 = 0 := by decide +kernel

theorem exact_even {F : ℕ} (hF : 2 ≤ F) (m : ℝ) (r : Fin 3 → ℝ) {n : ℕ} (hn : n < 9) :
    pointEven (cgTensor true) (exactNet F) m r n =
      (if deg n = 0 then 2 else if deg n = 1 then 0 else -1) *
        ∑ a : Fin 3, ∑ b : Fin 3, m * r a * r b * cgTensor true (1 + a) (1 + b) n := by
  set net := exactNet F with hnet
  obtain ⟨z2, hz2, p2, L2, F2⟩ := pointIrreps_ok (cgTensor true) net m r
  have hz2' := hz2
  unfold pointIrreps at hz2'
  dsimp only at hz2'
  set x0 := dense net.features true net.dense0 (pointFeatures m r) with hx0
  obtain ⟨a1, a2, a3, a4⟩ := C12_dense net.features true net.dense0 (pointFeatures m r)
  rw [← hx0] at a1 a2 a3 a4
  have a1 : x0.pseudo = false := a1
  have a2 : x0.L = 1 := a2
  have a3 : x0.F = F := a3
  -- the components of the first features
  have c0 : ∀ o, comp x0 0 0 o = (if o = 0 then m else 0) + if o = 1 then 1 else 0 := by
    intro o
    rw [a4]
    simp [pointFeatures, comp, net, exactNet, dg_zero]
  have c1 : ∀ o, comp x0 1 0 o = 0 := by
    intro o
    rw [a4]
    simp [pointFeatures, comp, dg_zero]
  have c2 : ∀ (a : Fin 3) o, comp x0 0 (1 + a) o = 0 := by
    intro a o
    rw [a4]
    have : ¬ (4 ≤ 1 + (a : ℕ)) := by have := a.2; omega
    simp [pointFeatures, comp, dg_vec]
  have c3 : ∀ (a : Fin 3) o, comp x0 1 (1 + a) o = r a := by
    intro a o
    rw [a4]
    have h4 : ¬ (4 ≤ 1 + (a : ℕ)) := by have := a.2; omega
    simp [pointFeatures, comp, net, exactNet, dg_vec, h4]
  cases h1 : tensorDense none true ⟨some 1, true⟩ net.dense1 net.tensor1 (cgTensor true) x0 with
  | error e => rw [h1] at hz2'; cases hz2'
  | ok x1 =>
    rw [h1] at hz2'
    change tensorDense (some 1) true ⟨some 2, true⟩ net.dense2 net.tensor2 (cgTensor true) x1 = .ok z2 at hz2'
    obtain ⟨b1, b2, b3⟩ := tensorDense_hdr h1
    have b1 : x1.L = 1 := b1
    have b2 : x1.F = F := b2.trans a3
    have b3 : x1.pseudo = true := b3.2 ⟨rfl, by rw [a2]; simp⟩
    have d1 : ∀ p i f, f < F → comp (dense (2 * F) true net.dense1 x0) p i f = comp x0 p i f ∧
        comp (dense (2 * F) true net.dense1 x0) p i (F + f) = comp x0 p i f := by
      intro p i f hf
      have h := (C12_dense (2 * F) true net.dense1 x0).2.2.2
      constructor
      · rw [h, a3, sum_eq_single f]
        · simp [net, exactNet]
        · intro g _ hg
          rw [show net.dense1.kernel p (deg i) g f = 0 from if_neg (by omega), mul_zero]
        · intro hc; exact absurd (mem_range.2 hf) hc
      · rw [h, a3, sum_eq_single f]
        · simp [net, exactNet]
        · intro g hg' hg
          rw [mem_range] at hg'
          rw [show net.dense1.kernel p (deg i) g (F + f) = 0 from if_neg (by omega), mul_zero]
        · intro hc; exact absurd (mem_range.2 hf) hc
    have e1 : ∀ (a : Fin 3) f, f < F → comp x1 1 (1 + a) f = ((if f = 0 then m else 0) + if f = 1 then 1 else 0) * r a := by
      intro a f hf
      rw [tensorDense_comp _ _ _ _ _ _ _ _ h1 (by decide) (by rw [b1]; have := a.2; omega) b3]
      simp only [Option.getD_none, a3, a2, show ((1 : ℕ) + 1) ^ 2 = 4 from rfl]
      simp only [(d1 _ _ f hf).1, (d1 _ _ f hf).2, sum_four, sum_two, dg_vec, dg_zero, c0, c1, c2, c3]
      simp [cg_scalar_vec_vec]
      linear_combination ((if f = 0 then m else 0) + if f = 1 then 1 else 0) * r a * cg_scalar_vec_sq
    have d2 : ∀ p i o, o < 2 → comp (dense (2 * 1) true net.dense2 x1) p i o = comp x1 p i o := by
      intro p i o ho
      rw [(C12_dense (2 * 1) true net.dense2 x1).2.2.2, b2, sum_eq_single o]
      · simp [net, exactNet]
      · intro g _ hg
        rw [show net.dense2.kernel p (deg i) g o = 0 from if_neg hg, mul_zero]
      · intro hc; exact absurd (mem_range.2 (by omega)) hc
    have ev : pointEven (cgTensor true) net m r n = comp z2 0 n 0 := by
      unfold pointEven comp
      rw [hz2]
      dsimp only
      rw [L2, p2, if_neg (by omega), if_pos rfl]
    rw [ev, tensorDense_comp _ _ _ _ _ _ _ _ hz2' (by decide) (by rw [L2]; exact hn) p2]
    simp only [Option.getD_some, b1, b3, show ((1 : ℕ) + 1) ^ 2 = 4 from rfl, d2 _ _ 0 (by decide), d2 _ _ (1 + 0) (by decide)]
    simp only [sum_four, sum_two, dg_vec, dg_zero, slot, if_true, e1 _ 0 (by omega), e1 _ (1 + 0) (by omega)]
    simp only [mul_sum]
    simp
    rw [sum_congr rfl fun a _ => sum_congr rfl fun b _ => show m * r a * r b * 2 * cgTensor true (1 + a) (1 + b) n =
      2 * (m * r a * r b * cgTensor true (1 + a) (1 + b) n) by ring]

theorem exact_point {F : ℕ} (hF : 2 ≤ F) (m : ℝ) (r : Fin 3 → ℝ) :
    pointTensor (exactNet F) m r = m • ((r ⬝ᵥ r) • (1 : Matrix (Fin 3) (Fin 3) ℝ) - Matrix.vecMulVec r r) := by
  ext i j
  simp only [pointTensor, Matrix.of_apply]
  rw [sum_congr rfl fun n hn => by rw [exact_even hF m r (mem_range.1 hn)]]
  set G : ℕ → ℝ := fun n => (∑ a : Fin 3, ∑ b : Fin 3, m * r a * r b * cgTensor true (1 + a) (1 + b) n) *
    cgTensor true (1 + i) (1 + j) n with hG
  have h1 : ∑ n ∈ range 9, G n = m * r i * r j := by
    have e : ∀ n ∈ range 9, G n = ∑ a : Fin 3, ∑ b : Fin 3, m * r a * r b *
        (cgTensor true (1 + a) (1 + b) n * cgTensor true (1 + i) (1 + j) n) := by
      intro n _
      simp only [hG, sum_mul]
      exact sum_congr rfl fun a _ => sum_congr rfl fun b _ => by ring
    rw [sum_congr rfl e, sum_comm, sum_congr rfl fun a _ => sum_comm]
    simp only [← mul_sum, complete_vec]
    rw [sum_eq_single i, sum_eq_single j]
    · simp
    · intro b _ hb; simp [hb]
    · simp
    · intro a _ ha; simp [ha]
    · simp
  have h2 : ∀ c : Fin 3, G (1 + c) = 0 := by
    intro c
    have e : ∑ a : Fin 3, ∑ b : Fin 3, m * r a * r b * cgTensor true (1 + a) (1 + b) (1 + c) =
        -∑ a : Fin 3, ∑ b : Fin 3, m * r a * r b * cgTensor true (1 + a) (1 + b) (1 + c) := by
      conv_lhs => rw [sum_comm]
      rw [← sum_neg_distrib]
      refine sum_congr rfl fun a _ => ?_
      rw [← sum_neg_distrib]
      refine sum_congr rfl fun b _ => ?_
      rw [cg_vec_antisymm a b c]
      ring
    have : ∑ a : Fin 3, ∑ b : Fin 3, m * r a * r b * cgTensor true (1 + a) (1 + b) (1 + c) = 0 := by linarith
    simp only [hG, this, zero_mul]
  have h3 : 3 * G 0 = m * (∑ a, r a * r a) * if i = j then 1 else 0 := by
    simp only [hG, cg_vec_vec_scalar]
    simp only [Fin.sum_univ_three]
    by_cases h : i = j
    · simp [h]
      linear_combination m * (r 0 * r 0 + r 1 * r 1 + r 2 * r 2) * cg_vec_vec_scalar_sq
    · simp [h]
  have e0 : deg 0 = 0 := by decide +kernel
  have e1 : deg 1 = 1 := by decide +kernel
  have e2 : deg 2 = 1 := by decide +kernel
  have e3 : deg 3 = 1 := by decide +kernel
  have e4 : deg 4 = 2 := by decide +kernel
  have e5 : deg 5 = 2 := by decide +kernel
  have e6 : deg 6 = 2 := by decide +kernel
  have e7 : deg 7 = 2 := by decide +kernel
  have e8 : deg 8 = 2 := by decide +kernel
  have h20 := h2 0
  have h21 := h2 1
  have h22 := h2 2
  simp only [Fin.val_zero, Fin.val_one, Fin.val_two, add_zero, Nat.reduceAdd] at h20 h21 h22
  have e : ∑ n ∈ range 9, (if deg n = 0 then 2 else if deg n = 1 then 0 else -1) *
      (∑ a : Fin 3, ∑ b : Fin 3, m * r a * r b * cgTensor true (1 + a) (1 + b) n) * cgTensor true (1 + i) (1 + j) n =
      3 * G 0 - ∑ n ∈ range 9, G n := by
    rw [sum_congr rfl fun n _ => mul_assoc _ _ _]
    change ∑ n ∈ range 9, (if deg n = 0 then (2 : ℝ) else if deg n = 1 then 0 else -1) * G n = _
    simp only [sum_range_succ, sum_range_zero, e0, e1, e2, e3, e4, e5, e6, e7, e8, h20, h21, h22]
    norm_num
    ring
  rw [e, h1, h3]
  simp only [Matrix.smul_apply, Matrix.sub_apply, Matrix.one_apply, Matrix.vecMulVec_apply, smul_eq_mul, dotProduct]
  ring

/-- **C66 (expressiveness).** With at least two features there are parameters for which the model predicts exactly the moment
of inertia tensor, for all numbers of points, masses and positions. -/
theorem C66_exact (cg : ℕ → ℕ → ℕ → ℝ) (hcg : LibraryCG true cg) (F : ℕ) (hF : 2 ≤ F) :
    ∃ net : InertiaNet, net.features = F ∧ ∀ (disk : Disk CGCompressed),
      ValidDisk (cgKind symClebschGordan) (cgTable symClebschGordan) disk → ∀ (o : SaveOutcome) (n : ℕ) (m : Fin n → ℝ)
        (X : Fin n → Fin 3 → ℝ), PredictsInertia (predictInertia disk o cg net) m X (inertiaTensor m X) := by
  refine ⟨exactNet F, rfl, fun disk hd o n m X => ?_⟩
  rw [predicts_iff hd hcg, inertiaTensor]
  exact sum_congr rfl fun i _ => (exact_point hF (m i) (X i)).symm

-- Two points with masses 1 and 2 on the first and the second axis: eight features, as in the example, are enough to predict
-- their tensor, and the prediction follows the exchange of these axes (a reflection).
example : ∃ net : InertiaNet, net.features = 8 ∧
    PredictsInertia (predictInertia (noFiles _) .success (cgTensor true) net) ![1, 2] ![![1, 0, 0], ![0, 1, 0]]
      !![2, 0, 0; 0, 1, 0; 0, 0, 3] ∧
    PredictsInertia (predictInertia (noFiles _) .success (cgTensor true) net) ![1, 2] ![![0, 1, 0], ![1, 0, 0]]
      !![1, 0, 0; 0, 2, 0; 0, 0, 3] := by
  obtain ⟨net, hF, h⟩ := C66_exact (cgTensor true) (libraryCG_cgTensor true) 8 (by norm_num)
  have h1 := h (noFiles _) (noFiles_valid _ _) .success 2 ![1, 2] ![![1, 0, 0], ![0, 1, 0]]
  have e : inertiaTensor ![1, 2] ![![1, 0, 0], ![0, 1, 0]] = !![2, 0, 0; 0, 1, 0; 0, 0, 3] := by
    ext a b
    fin_cases a <;> fin_cases b <;> simp [inertiaTensor, Matrix.vecMulVec, dotProduct, Fin.sum_univ_three, Matrix.sum_apply] <;>
      norm_num
  rw [e] at h1
  refine ⟨net, hF, h1, ?_⟩
  have hR : IsOrthogonal (signedPerm (Equiv.swap 0 1) fun _ => 1) := signedPerm_orthogonal _ _ fun _ => by norm_num
  have h2 := C66_rotation (noFiles _) (noFiles_valid _ _) .success .success (cgTensor true) (libraryCG_cgTensor true) net _ _ _ h1 _ hR
  have e1 : rotated (signedPerm (Equiv.swap 0 1) fun _ => 1) (![![1, 0, 0], ![0, 1, 0]] : Fin 2 → Fin 3 → ℝ) =
      ![![0, 1, 0], ![1, 0, 0]] := by
    funext i k
    fin_cases i <;> fin_cases k <;> simp [rotated, vecMul, signedPerm, Fin.sum_univ_three, Equiv.swap_apply_def]
  have e2 : (Matrix.of (signedPerm (Equiv.swap 0 1) fun _ => 1)).transpose * !![2, 0, 0; 0, 1, 0; 0, 0, 3] *
      Matrix.of (signedPerm (Equiv.swap 0 1) fun _ => 1) = (!![1, 0, 0; 0, 2, 0; 0, 0, 3] : Matrix (Fin 3) (Fin 3) ℝ) := by
    ext a b
    fin_cases a <;> fin_cases b <;>
      simp [Matrix.mul_apply, signedPerm, Fin.sum_univ_three, Equiv.swap_apply_def]
  rwa [e1, e2] at h2

-- Any parameters: the prediction for a point and its mirror image together is symmetric.
example (net : InertiaNet) (m : ℝ) (r : Fin 3 → ℝ) : ∃ y, y.IsSymm ∧
    PredictsInertia (predictInertia (noFiles _) .success (cgTensor true) net) ![m, m] ![r, fun k => -r k] y := by
  obtain ⟨y, hy⟩ := C66_exists (noFiles _) (noFiles_valid _ _) .success (cgTensor true) (libraryCG_cgTensor true) net ![m, m]
    ![r, fun k => -r k]
  exact ⟨y, C66_symmetric (noFiles _) (noFiles_valid _ _) .success (cgTensor true) (libraryCG_cgTensor true) net _ _ y hy, hy⟩

end E3x
