import Verif.Props.Energy
import Verif.Lemmas.CGOrthogonality
import Verif.Model.Inertia

/-!
# Clebsch-Gordan coefficients of degrees 0 and 1, and one point of the moment of inertia example
-/

namespace E3x

open Spec Finset

theorem deg_vec (a : Fin 3) : degreeOf (1 + a) = 1 := by
  have d1 : degreeOf 1 = 1 := by decide +kernel
  have d2 : degreeOf 2 = 1 := by decide +kernel
  have d3 : degreeOf 3 = 1 := by decide +kernel
  fin_cases a
  · exact d1
  · exact d2
  · exact d3

theorem sum_four (g : ℕ → ℝ) : ∑ i ∈ range 4, g i = g 0 + ∑ a : Fin 3, g (1 + a) := by
  rw [sum_range_succ', add_comm, Fin.sum_univ_eq_sum_range (fun i => g (1 + i))]
  exact congrArg _ (sum_congr rfl fun i _ => by rw [add_comm])

theorem dMatrix_zero_vec (R : Fin 3 → Fin 3 → ℝ) (a : Fin 3) : dMatrix true R 0 (1 + a) = 0 := by
  unfold dMatrix
  rw [if_neg]
  rw [deg_vec]
  decide +kernel

theorem dMatrix_vec_zero (R : Fin 3 → Fin 3 → ℝ) (a : Fin 3) : dMatrix true R (1 + a) 0 = 0 := by
  unfold dMatrix
  rw [if_neg]
  rw [deg_vec]
  decide +kernel

theorem couples_vec {R : Fin 3 → Fin 3 → ℝ} (hR : IsOrthogonal R) (L k : ℕ) (hk : degreeOf k ≤ L) (i j : Fin 3) :
    ∑ a : Fin 3, ∑ b : Fin 3, cgTensor true (1 + a) (1 + b) k * R a i * R b j =
      rdet R ^ (2 + degreeOf k) * ∑ c ∈ range ((L + 1) ^ 2), cgTensor true (1 + i) (1 + j) c * dMatrix true R k c := by
  have h := dMatrix_couples (cart := true) hR (L1 := 1) (L2 := 1) (L3 := L) (i := 1 + i) (j := 1 + j) (k := k)
    (le_of_eq (deg_vec i)) (le_of_eq (deg_vec j)) hk
  rw [deg_vec, deg_vec, show ((1 : ℕ) + 1) ^ 2 = 4 from rfl] at h
  rw [← h, sum_four]
  simp only [sum_four, dMatrix_zero_vec, dMatrix_degree_one hR, mul_zero, zero_mul, zero_add, sum_const_zero]

/-- A permutation of the axes combined with changes of sign. -/
def signedPerm (σ : Equiv.Perm (Fin 3)) (s : Fin 3 → ℝ) : Fin 3 → Fin 3 → ℝ := fun a i => if a = σ i then s i else 0

theorem signedPerm_orthogonal (σ : Equiv.Perm (Fin 3)) (s : Fin 3 → ℝ) (hs : ∀ i, s i * s i = 1) :
    IsOrthogonal (signedPerm σ s) := by
  intro i j
  unfold signedPerm
  simp only [ite_mul, zero_mul, sum_ite_eq', mem_univ, if_true]
  by_cases h : i = j
  · subst h; simp [hs]
  · simp [h]

theorem sq_rdet {R : Fin 3 → Fin 3 → ℝ} (hR : IsOrthogonal R) : rdet R ^ 2 = 1 := by
  rw [← det3x3_eq]
  rcases det_sq hR with h | h <;> rw [h] <;> norm_num

theorem dMatrix_scalar {R : Fin 3 → Fin 3 → ℝ} (hR : IsOrthogonal R) (hdet : det3x3 R = 1) : dMatrix true R 0 0 = 1 :=
  (dMatrix_isRotation (cart := true) hR hdet).scalar

theorem cg_vec_scalar_perm (σ : Equiv.Perm (Fin 3)) (s : Fin 3 → ℝ) (hs : ∀ i, s i * s i = 1)
    (hdet : det3x3 (signedPerm σ s) = 1) (i j : Fin 3) :
    cgTensor true (1 + σ i) (1 + σ j) 0 * s i * s j = cgTensor true (1 + i) (1 + j) 0 := by
  have hR := signedPerm_orthogonal σ s hs
  have h := couples_vec hR 0 0 (le_of_eq (by decide +kernel)) i j
  rw [show degreeOf 0 = 0 by decide +kernel, sq_rdet hR, one_mul, show ((0 : ℕ) + 1) ^ 2 = 1 from rfl, sum_range_one, dMatrix_scalar hR hdet, mul_one] at h
  rw [← h]
  unfold signedPerm
  simp

theorem cg_vec_vec_perm (σ : Equiv.Perm (Fin 3)) (s : Fin 3 → ℝ) (hs : ∀ i, s i * s i = 1) (i j k : Fin 3) :
    cgTensor true (1 + σ i) (1 + σ j) (1 + σ k) * s i * s j =
      rdet (signedPerm σ s) ^ 3 * (cgTensor true (1 + i) (1 + j) (1 + k) * s k) := by
  have hR := signedPerm_orthogonal σ s hs
  have h := couples_vec hR 1 (1 + σ k) (le_of_eq (deg_vec _)) i j
  rw [deg_vec, show ((1 : ℕ) + 1) ^ 2 = 4 from rfl, sum_four] at h
  simp only [dMatrix_vec_zero, dMatrix_degree_one hR, mul_zero, zero_add] at h
  have e : ∑ a : Fin 3, ∑ b : Fin 3, cgTensor true (1 + a) (1 + b) (1 + σ k) * signedPerm σ s a i * signedPerm σ s b j =
      cgTensor true (1 + σ i) (1 + σ j) (1 + σ k) * s i * s j := by
    unfold signedPerm
    simp
  rw [e] at h
  rw [h]
  congr 1
  unfold signedPerm
  simp

theorem cg_scalar_vec_perm (σ : Equiv.Perm (Fin 3)) (s : Fin 3 → ℝ) (hs : ∀ i, s i * s i = 1)
    (hdet : det3x3 (signedPerm σ s) = 1) (j k : Fin 3) :
    cgTensor true 0 (1 + σ j) (1 + σ k) * s j = cgTensor true 0 (1 + j) (1 + k) * s k := by
  have hR := signedPerm_orthogonal σ s hs
  have h := dMatrix_couples (cart := true) hR (L1 := 0) (L2 := 1) (L3 := 1) (i := 0) (j := 1 + j) (k := 1 + σ k)
    (le_of_eq (by decide +kernel)) (le_of_eq (deg_vec j)) (le_of_eq (deg_vec _))
  rw [deg_vec, deg_vec, show degreeOf 0 = 0 by decide +kernel, ← det3x3_eq, hdet, show ((1 : ℕ) + 1) ^ 2 = 4 from rfl,
    show ((0 : ℕ) + 1) ^ 2 = 1 from rfl, sum_range_one, dMatrix_scalar hR hdet, sum_four, sum_four] at h
  simp only [dMatrix_zero_vec, dMatrix_vec_zero, dMatrix_degree_one hR, mul_zero, zero_add, mul_one, one_pow, one_mul] at h
  unfold signedPerm at h
  simpa using h

theorem cyc_det : det3x3 (signedPerm (finRotate 3) fun _ => 1) = 1 := by
  have e0 : finRotate 3 0 = 1 := by decide
  have e1 : finRotate 3 1 = 2 := by decide
  have e2 : finRotate 3 2 = 0 := by decide
  simp only [det3x3, signedPerm, e0, e1, e2]
  simp

theorem flip_det (i : Fin 3) : det3x3 (signedPerm (Equiv.refl _) fun j => if j = i then 1 else -1) = 1 := by
  fin_cases i <;> simp [det3x3, signedPerm]

theorem flip_sq (i j : Fin 3) : (if j = i then (1 : ℝ) else -1) * (if j = i then (1 : ℝ) else -1) = 1 := by
  split <;> norm_num

theorem const_of_cyc (g : Fin 3 → ℝ) (h : ∀ i, g (finRotate 3 i) = g i) (i : Fin 3) : g i = g 0 := by
  have h0 := h 0
  have h1 := h 1
  have e0 : finRotate 3 0 = 1 := by decide
  have e1 : finRotate 3 1 = 2 := by decide
  rw [e0] at h0
  rw [e1] at h1
  fin_cases i
  · rfl
  · exact h0
  · exact h1.trans h0

/-- Coupling of two vectors to a scalar. -/
theorem cg_vec_vec_scalar (i j : Fin 3) :
    cgTensor true (1 + i) (1 + j) 0 = if i = j then cgTensor true 1 1 0 else 0 := by
  by_cases h : i = j
  · subst h
    rw [if_pos rfl]
    exact const_of_cyc (fun i => cgTensor true (1 + i) (1 + i) 0) (fun i => by
      have := cg_vec_scalar_perm (finRotate 3) (fun _ => 1) (fun _ => by norm_num) cyc_det i i
      simpa using this) i
  · rw [if_neg h]
    have := cg_vec_scalar_perm (Equiv.refl _) (fun j => if j = i then 1 else -1) (flip_sq i) (flip_det i) i j
    rw [if_pos rfl, if_neg (Ne.symm h)] at this
    simp only [Equiv.refl_apply] at this
    linarith

/-- Coupling of a scalar and a vector. -/
theorem cg_scalar_vec_vec (i j : Fin 3) :
    cgTensor true 0 (1 + i) (1 + j) = if i = j then cgTensor true 0 1 1 else 0 := by
  by_cases h : i = j
  · subst h
    rw [if_pos rfl]
    exact const_of_cyc (fun i => cgTensor true 0 (1 + i) (1 + i)) (fun i => by
      have := cg_scalar_vec_perm (finRotate 3) (fun _ => 1) (fun _ => by norm_num) cyc_det i i
      simpa using this) i
  · rw [if_neg h]
    have := cg_scalar_vec_perm (Equiv.refl _) (fun j => if j = i then 1 else -1) (flip_sq i) (flip_det i) i j
    rw [if_pos rfl, if_neg (Ne.symm h)] at this
    simp only [Equiv.refl_apply] at this
    linarith

theorem swap_rdet {i j : Fin 3} (h : i ≠ j) : rdet (signedPerm (Equiv.swap i j) fun _ => 1) = -1 := by
  fin_cases i <;> fin_cases j <;> simp at h <;> simp [rdet, signedPerm, Equiv.swap_apply_def]

theorem mirror_rdet (i : Fin 3) : rdet (signedPerm (Equiv.refl _) fun j => if j = i then -1 else 1) = -1 := by
  fin_cases i <;> simp [rdet, signedPerm]

theorem cg_vec_mirror (a i j k : Fin 3) : cgTensor true (1 + i) (1 + j) (1 + k) * (if i = a then -1 else 1) *
      (if j = a then -1 else 1) = -(cgTensor true (1 + i) (1 + j) (1 + k) * (if k = a then -1 else 1)) := by
  have h := cg_vec_vec_perm (Equiv.refl _) (fun j => if j = a then -1 else 1) (fun j => by split <;> norm_num) i j k
  rw [mirror_rdet] at h
  simp only [Equiv.refl_apply] at h
  rw [h]; ring

/-- Coupling of two vectors to a vector is antisymmetric. -/
theorem cg_vec_antisymm (i j k : Fin 3) :
    cgTensor true (1 + j) (1 + i) (1 + k) = -cgTensor true (1 + i) (1 + j) (1 + k) := by
  by_cases h : i = j
  · subst h
    obtain ⟨a, h1, h2⟩ : ∃ a : Fin 3, a ≠ i ∧ a ≠ k := by revert i k; decide
    have := cg_vec_mirror a i i k
    rw [if_neg (Ne.symm h1), if_neg (Ne.symm h2)] at this
    linarith
  · by_cases hk : k = i ∨ k = j
    · have e : ∀ i j k : Fin 3, i ≠ j → k = i ∨ k = j → cgTensor true (1 + i) (1 + j) (1 + k) = 0 := by
        intro i j k h hk
        obtain ⟨a, h1, h2⟩ : ∃ a : Fin 3, a ≠ i ∧ a ≠ j := by clear hk h; revert i j; decide
        have := cg_vec_mirror a i j k
        rw [if_neg (Ne.symm h1), if_neg (Ne.symm h2), if_neg (by rcases hk with rfl | rfl <;> exact Ne.symm ‹_›)] at this
        linarith
      rw [e i j k h hk, e j i k (Ne.symm h) hk.symm, neg_zero]
    · push Not at hk
      have := cg_vec_vec_perm (Equiv.swap i j) (fun _ => 1) (fun _ => by norm_num) i j k
      rw [swap_rdet h, Equiv.swap_apply_left, Equiv.swap_apply_right, Equiv.swap_apply_of_ne_of_ne hk.1 hk.2] at this
      linarith

theorem cg_vec_vec_scalar_sq : 3 * cgTensor true 1 1 0 ^ 2 = 1 := by
  have h := cgTensor_orthonormal true 1 1 0 0 (by decide +kernel) (by decide +kernel)
  rw [if_pos rfl, show Ico ((1 : ℕ) ^ 2) ((1 + 1) ^ 2) = {1, 2, 3} by decide] at h
  have e := cg_vec_vec_scalar
  have e' : ∀ i j : Fin 3, cgTensor true (1 + i) (1 + j) 0 * cgTensor true (1 + i) (1 + j) 0 =
      if i = j then cgTensor true 1 1 0 ^ 2 else 0 := by
    intro i j; rw [e]; split <;> ring
  have h00 := e' 0 0; have h01 := e' 0 1; have h02 := e' 0 2; have h10 := e' 1 0; have h11 := e' 1 1; have h12 := e' 1 2
  have h20 := e' 2 0; have h21 := e' 2 1; have h22 := e' 2 2
  simp at h00 h01 h02 h10 h11 h12 h20 h21 h22
  simp [h00, h01, h02, h10, h11, h12, h20, h21, h22] at h
  linarith

theorem cg_scalar_vec_sq : cgTensor true 0 1 1 ^ 2 = 1 := by
  have h := cgTensor_orthonormal true 0 1 1 1 (by decide +kernel) (by decide +kernel)
  rw [if_pos rfl, show Ico ((1 : ℕ) ^ 2) ((1 + 1) ^ 2) = {1, 2, 3} by decide] at h
  have h1 := cg_scalar_vec_vec 1 0
  have h2 := cg_scalar_vec_vec 2 0
  simp at h1 h2
  simp [h1, h2] at h
  linarith

/-! ## one point -/

theorem tensorDense_hdr {features : Option ℕ} {useBias : Bool} {cfg : TensorCfg} {P : DenseParams} {T : TensorParams}
    {cg : ℕ → ℕ → ℕ → ℝ} {x z : Feat} (hz : tensorDense features useBias cfg P T cg x = .ok z) :
    z.L = cfg.maxDegree.getD x.L ∧ z.F = features.getD x.F ∧
      (z.pseudo = true ↔ cfg.includePseudo = true ∧ ¬ (x.pseudo = false ∧ (x.L = 0 ∨ cfg.maxDegree.getD x.L = 0))) := by
  have hok := (C17_tensor_dense_ok features useBias cfg P T cg x).1 ⟨z, hz⟩
  rw [tensorDense_eq] at hz
  have h1 : (dense (2 * features.getD x.F) useBias P x).L = x.L := (C12_dense _ _ _ _).2.1
  have h2 : (dense (2 * features.getD x.F) useBias P x).pseudo = x.pseudo := (C12_dense _ _ _ _).1
  cases T with
  | tensor k =>
    obtain ⟨z', e, a, b, c, _⟩ := C15_tensor cfg k cg
      (slice 0 (features.getD x.F) (dense (2 * features.getD x.F) useBias P x))
      (slice (features.getD x.F) (features.getD x.F) (dense (2 * features.getD x.F) useBias P x))
      (by simp only [slice, h1, max_self]; omega) rfl
    simp only [anyTensor] at hz
    rw [hz] at e
    injection e with e
    subst e
    simp only [slice, h1, h2, max_self] at a b c
    refine ⟨a, b, ?_⟩
    rw [c]
    tauto
  | fused k =>
    obtain ⟨z', e, a, b, c, _⟩ := C16_fused cfg k cg
      (slice 0 (features.getD x.F) (dense (2 * features.getD x.F) useBias P x))
      (slice (features.getD x.F) (features.getD x.F) (dense (2 * features.getD x.F) useBias P x))
      (by simp only [slice, h1, max_self]; omega) rfl
    simp only [anyTensor] at hz
    rw [hz] at e
    injection e with e
    subst e
    simp only [slice, h1, h2, max_self] at a b c
    refine ⟨a, b, ?_⟩
    rw [c]
    tauto

theorem pointIrreps_ok (cg : ℕ → ℕ → ℕ → ℝ) (net : InertiaNet) (m : ℝ) (r : Fin 3 → ℝ) :
    ∃ z, pointIrreps cg net m r = .ok z ∧ z.pseudo = true ∧ z.L = 2 ∧ z.F = 1 := by
  obtain ⟨a1, a2, a3, _⟩ := C12_dense net.features true net.dense0 (pointFeatures m r)
  obtain ⟨x, hx⟩ := (C17_tensor_dense_ok none true ⟨some 1, true⟩ net.dense1 net.tensor1 cg
    (dense net.features true net.dense0 (pointFeatures m r))).2 (by rw [a2]; simp [pointFeatures])
  obtain ⟨b1, b2, b3⟩ := tensorDense_hdr hx
  obtain ⟨z, hz⟩ := (C17_tensor_dense_ok (some 1) true ⟨some 2, true⟩ net.dense2 net.tensor2 cg x).2 (by rw [b1]; simp)
  obtain ⟨c1, c2, c3⟩ := tensorDense_hdr hz
  have hp : x.pseudo = true := b3.2 ⟨rfl, by rw [a1, a2]; simp [pointFeatures]⟩
  refine ⟨z, ?_, c3.2 ⟨rfl, by simp [hp]⟩, c1, c2⟩
  unfold pointIrreps
  simp only [hx]
  exact hz

theorem pointIrreps_tr {cg : ℕ → ℕ → ℕ → ℝ} {A : Feat → Feat} (hA : IsSymmetry cg A) (net : InertiaNet) {m m' : ℝ}
    {r r' : Fin 3 → ℝ} (h : (pointFeatures m' r').Same (A (pointFeatures m r))) {z z' : Feat}
    (hz : pointIrreps cg net m r = .ok z) (hz' : pointIrreps cg net m' r' = .ok z') : z'.Same (A z) := by
  have hS := symFacts_of_isSymmetry hA
  have h0 := (dense_same h net.features true net.dense0).trans (hS.dense net.features true net.dense0 (pointFeatures m r))
  unfold pointIrreps at hz hz'
  dsimp only at hz hz'
  cases h1 : tensorDense none true ⟨some 1, true⟩ net.dense1 net.tensor1 cg
      (dense net.features true net.dense0 (pointFeatures m r)) with
  | error e => rw [h1] at hz; cases hz
  | ok x =>
    rw [h1] at hz
    obtain ⟨x1, e1, s1⟩ := (binOp_tensorDense hS none true ⟨some 1, true⟩ net.dense1 net.tensor1).act (y := x) h1
    obtain ⟨x2, e2, s2⟩ := tensorDense_same none true ⟨some 1, true⟩ net.dense1 net.tensor1 cg h0.symm e1
    rw [e2] at hz'
    have s3 : x2.Same (A x) := s2.symm.trans s1
    change tensorDense (some 1) true ⟨some 2, true⟩ net.dense2 net.tensor2 cg x = .ok z at hz
    change tensorDense (some 1) true ⟨some 2, true⟩ net.dense2 net.tensor2 cg x2 = .ok z' at hz'
    obtain ⟨z1, e3, s4⟩ := (binOp_tensorDense hS (some 1) true ⟨some 2, true⟩ net.dense2 net.tensor2).act (y := x) hz
    obtain ⟨z2, e4, s5⟩ := tensorDense_same (some 1) true ⟨some 2, true⟩ net.dense2 net.tensor2 cg s3.symm e3
    rw [hz'] at e4
    injection e4 with e4
    subst e4
    exact s5.symm.trans s4

/-- The irreps of one point that enter the prediction. -/
noncomputable def pointEven (cg : ℕ → ℕ → ℕ → ℝ) (net : InertiaNet) (m : ℝ) (r : Fin 3 → ℝ) (l : ℕ) : ℝ :=
  match pointIrreps cg net m r with
  | .ok z => z.val 0 l 0
  | .error _ => 0

/-- The contribution of one point. -/
noncomputable def pointTensor (net : InertiaNet) (m : ℝ) (r : Fin 3 → ℝ) : Matrix (Fin 3) (Fin 3) ℝ :=
  Matrix.of fun a b => ∑ l ∈ range 9, pointEven (cgTensor true) net m r l * cgTensor true (1 + a) (1 + b) l

theorem allIrreps_eq (cg : ℕ → ℕ → ℕ → ℝ) (net : InertiaNet) (ps : List (ℝ × (Fin 3 → ℝ))) :
    ∃ xs, allIrreps cg net ps = .ok xs ∧
      ∀ l, (xs.map fun z => z.val 0 l 0).sum = (ps.map fun p => pointEven cg net p.1 p.2 l).sum := by
  induction ps with
  | nil => exact ⟨[], rfl, fun l => rfl⟩
  | cons p ps ih =>
    obtain ⟨xs, h1, h2⟩ := ih
    obtain ⟨z, hz, _⟩ := pointIrreps_ok cg net p.1 p.2
    refine ⟨z :: xs, ?_, fun l => ?_⟩
    · unfold allIrreps
      simp only [hz, h1]
      rfl
    · simp only [List.map_cons, List.sum_cons, h2]
      congr 1
      unfold pointEven
      rw [hz]

theorem predict_eq (disk : Disk CGCompressed) (hd : ValidDisk (cgKind symClebschGordan) (cgTable symClebschGordan) disk)
    (o : SaveOutcome) (net : InertiaNet) {n : ℕ} (m : Fin n → ℝ) (X : Fin n → Fin 3 → ℝ) :
    predictInertia disk o (cgTensor true) net m X = .ok fun a b => ∑ i, pointTensor net (m i) (X i) a b := by
  obtain ⟨xs, h1, h2⟩ := allIrreps_eq (cgTensor true) net (List.ofFn fun i => (m i, X i))
  unfold predictInertia
  have h3 := clebschGordan_eq disk hd o 1 1 2 true
  push_cast at h3
  rw [h1, h3]
  change Except.ok _ = Except.ok _
  congr 1
  funext a b
  simp only [pointTensor, Matrix.of_apply]
  rw [sum_comm]
  refine sum_congr rfl fun l hl => ?_
  rw [h2, List.map_ofFn, List.sum_ofFn, ← sum_mul,
    if_pos ⟨by have := a.2; omega, by have := b.2; omega, by simpa using hl⟩]
  rfl

theorem even_proper (net : InertiaNet) (m : ℝ) (r : Fin 3 → ℝ) {R : Fin 3 → Fin 3 → ℝ} (hR : IsOrthogonal R)
    (hdet : det3x3 R = 1) {k : ℕ} (hk : k < 9) : pointEven (cgTensor true) net m (vecMul r R) k =
      ∑ l ∈ range 9, pointEven (cgTensor true) net m r l * dMatrix true R l k := by
  have hrot := dMatrix_isRotation (cart := true) hR hdet
  obtain ⟨z, hz, a1, a2, a3⟩ := pointIrreps_ok (cgTensor true) net m r
  obtain ⟨z', hz', b1, b2, b3⟩ := pointIrreps_ok (cgTensor true) net m (vecMul r R)
  have hs := pointIrreps_tr (.rotate _ hrot) net (m := m) (m' := m) (r := r) (r' := vecMul r R) ?_ hz hz'
  · unfold pointEven
    rw [hz, hz']
    dsimp only
    have := hs.2.2.2 0 k 0 (by rw [b1]; decide) (by rw [b2]; exact hk) (by rw [b3]; exact Nat.one_pos)
    rw [this]
    simp only [rotate, a2]
    rfl
  · refine ⟨rfl, rfl, rfl, fun p i f hp hi hf => ?_⟩
    have hi : i < 4 := hi
    change _ = ∑ l ∈ range 4, (pointFeatures m r).val p l f * dMatrix true R l i
    rw [sum_four]
    rcases Nat.eq_zero_or_pos i with rfl | hi0
    · simp only [dMatrix_vec_zero, dMatrix_scalar hR hdet, mul_zero, mul_one, sum_const_zero, add_zero]
      rfl
    · obtain ⟨b, rfl⟩ : ∃ b : Fin 3, i = 1 + b := ⟨⟨i - 1, by omega⟩, by simp; omega⟩
      simp only [dMatrix_zero_vec, dMatrix_degree_one hR, mul_zero, zero_add]
      simp [pointFeatures, vecMul]

theorem even_inversion (net : InertiaNet) (m : ℝ) (r : Fin 3 → ℝ) {k : ℕ} (hk : k < 9) :
    pointEven (cgTensor true) net m (fun i => -r i) k = pointEven (cgTensor true) net m r k := by
  obtain ⟨z, hz, a1, a2, a3⟩ := pointIrreps_ok (cgTensor true) net m r
  obtain ⟨z', hz', b1, b2, b3⟩ := pointIrreps_ok (cgTensor true) net m fun i => -r i
  have hs := pointIrreps_tr .reflect net (m := m) (m' := m) (r := r) (r' := fun i => -r i) ?_ hz hz'
  · unfold pointEven
    rw [hz, hz']
    dsimp only
    rw [hs.2.2.2 0 k 0 (by rw [b1]; decide) (by rw [b2]; exact hk) (by rw [b3]; exact Nat.one_pos), reflect_val]
    simp [reflectSign, a1]
  · refine ⟨rfl, rfl, rfl, fun p i f hp hi hf => ?_⟩
    have hi : i < 4 := hi
    rw [reflect_val]
    have h0 : deg 0 ∉ oddDegrees 1 := by decide +kernel
    have h1 : deg 1 ∈ oddDegrees 1 := by decide +kernel
    have h2 : deg 2 ∈ oddDegrees 1 := by decide +kernel
    have h3 : deg 3 ∈ oddDegrees 1 := by decide +kernel
    have : i = 0 ∨ i = 1 ∨ i = 2 ∨ i = 3 := by omega
    rcases this with rfl | rfl | rfl | rfl
    · change m = reflectSign false 1 p (deg 0) * m
      have e : reflectSign false 1 p (deg 0) = 1 := by
        unfold reflectSign
        rw [if_neg (by decide), if_neg h0]
      rw [e, one_mul]
    all_goals simp [pointFeatures, reflectSign, h1, h2, h3]

theorem tensor_proper (net : InertiaNet) (m : ℝ) (r : Fin 3 → ℝ) {R : Fin 3 → Fin 3 → ℝ} (hR : IsOrthogonal R)
    (hdet : det3x3 R = 1) : pointTensor net m (vecMul r R) = (Matrix.of R).transpose * pointTensor net m r * Matrix.of R := by
  ext i j
  have e1 : ((Matrix.of R).transpose * pointTensor net m r * Matrix.of R) i j =
      ∑ l ∈ range 9, pointEven (cgTensor true) net m r l *
        ∑ a : Fin 3, ∑ b : Fin 3, cgTensor true (1 + a) (1 + b) l * R a i * R b j := by
    simp only [Matrix.mul_apply, Matrix.transpose_apply, Matrix.of_apply, pointTensor, mul_sum, sum_mul]
    rw [sum_comm, sum_congr rfl fun a _ => sum_comm, sum_comm]
    exact sum_congr rfl fun l _ => sum_congr rfl fun a _ => sum_congr rfl fun b _ => by ring
  rw [e1]
  simp only [pointTensor, Matrix.of_apply]
  rw [sum_congr rfl fun k hk => by rw [even_proper net m r hR hdet (mem_range.1 hk), sum_mul], sum_comm]
  refine sum_congr rfl fun l hl => ?_
  rw [couples_vec hR 2 l (by rw [degreeOf_eq_deg]; exact deg_le_of_lt (mem_range.1 hl)), ← det3x3_eq, hdet, one_pow, one_mul,
    mul_sum]
  exact sum_congr rfl fun c _ => by ring

theorem tensor_orthogonal (net : InertiaNet) (m : ℝ) (r : Fin 3 → ℝ) {R : Fin 3 → Fin 3 → ℝ} (hR : IsOrthogonal R) :
    pointTensor net m (vecMul r R) = (Matrix.of R).transpose * pointTensor net m r * Matrix.of R := by
  rcases det_sq hR with h | h
  · exact tensor_proper net m r hR h
  · have hR' : IsOrthogonal fun i j => -R i j := fun i j => by
      rw [← hR i j]
      exact sum_congr rfl fun k _ => by ring
    have h1 := tensor_proper net m r hR' (by unfold det3x3 at h ⊢; linarith)
    have h2 : pointTensor net m (vecMul r R) = pointTensor net m (vecMul r fun i j => -R i j) := by
      ext a b
      simp only [pointTensor, Matrix.of_apply]
      refine sum_congr rfl fun l hl => ?_
      rw [← even_inversion net m _ (mem_range.1 hl)]
      congr 2
      funext k
      simp [vecMul]
    rw [h2, h1, show Matrix.of (fun i j => -R i j) = -Matrix.of R from rfl, Matrix.transpose_neg, Matrix.neg_mul,
      Matrix.neg_mul, Matrix.mul_neg, neg_neg]

end E3x
