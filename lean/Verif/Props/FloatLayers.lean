import Verif.Lemmas.FloatLayers
import Verif.Lemmas.SafeFloat
import Verif.Props.Message

/-!
# C79: layers in floating-point arithmetic

Rounding errors of `Dense`, `Tensor`, `FusedTensor` and `MessagePass` for every order of evaluation, and equivariance up to
these errors.
-/

namespace E3x

open FloatFormat Spec
open Finset (range)

variable {F : FloatFormat}

/-! ## What has an evaluation -/

/-- C79: every entry of the output of `Dense` can be computed by additions and multiplications. -/
theorem C79_dense_evaluation (features : ℕ) (useBias ps : Bool) (L Fin p i f : ℕ) :
    ∃ e, Evaluates e (denseEntry features useBias ps L Fin p i f) := by
  have hk : ∀ q l o, HasEval fun v => ∑ g ∈ range Fin, v.input 0 0 q i g * v.dense.kernel o l g f := fun q l o =>
    HasEval.sum fun g => (HasEval.entry (.input 0 0 q i g)).mul (HasEval.entry (.kernel o l g f))
  have hb : ∀ b : Bool, HasEval fun v => match (if b then some v.dense.bias else none) with | some b => b f | none => 0 := by
    intro b
    cases b
    · exact HasEval.zero
    · exact HasEval.entry (.bias f)
  change HasEval _
  unfold denseEntry dense
  cases ps with
  | true =>
    simp only [if_true, concatDegrees, denseSub, nnDense]
    by_cases hp : p = 0
    · simp only [if_pos hp]
      exact (hk 0 _ _).add (hb _)
    · simp only [if_neg hp]
      exact (hk 1 _ _).add HasEval.zero
  | false =>
    simp only [Bool.false_eq_true, if_false, concatDegrees, denseSub, nnDense]
    exact (hk 0 _ _).add (hb _)

theorem dense_hasEval {features : ℕ} {useBias ps : Bool} {L Fin : ℕ} {X : Arrays → Ent} (hX : ∀ p i f, HasEval fun v => X v p i f)
    (p i f : ℕ) : HasEval fun v => (dense features useBias v.dense ⟨ps, L, Fin, X v⟩).val p i f := by
  have hk : ∀ q l o, HasEval fun v => ∑ g ∈ range Fin, X v q i g * v.dense.kernel o l g f := fun q l o =>
    HasEval.sum fun g => (hX q i g).mul (HasEval.entry (.kernel o l g f))
  have hb : ∀ b : Bool, HasEval fun v => match (if b then some v.dense.bias else none) with | some b => b f | none => 0 := by
    intro b
    cases b
    · exact HasEval.zero
    · exact HasEval.entry (.bias f)
  unfold dense
  cases ps with
  | true =>
    simp only [if_true, concatDegrees, denseSub, nnDense]
    by_cases hp : p = 0
    · simp only [if_pos hp]
      exact (hk 0 _ _).add (hb _)
    · simp only [if_neg hp]
      exact (hk 1 _ _).add HasEval.zero
  | false =>
    simp only [Bool.false_eq_true, if_false, concatDegrees, denseSub, nnDense]
    exact (hk 0 _ _).add (hb _)

theorem tensorMask_hasEval (s : MaskShape) (a b c d e f : ℕ) : HasEval fun _ => makeTensorProductMask s a b c d e f := by
  by_cases h : makeTensorProductMask s a b c d e f = 0
  · rw [h]; exact HasEval.zero
  · have : makeTensorProductMask s a b c d e f = 1 := by
      apply (mask_raw _ _ _ _ _ _ _).2
      intro h'
      exact h ((mask_raw _ _ _ _ _ _ _).1 h')
    rw [this]; exact HasEval.one

theorem fusedMask_hasEval (M : ℕ) (odd : Bool) (i : ℕ) : HasEval fun _ => fusedMask M odd i := by
  unfold fusedMask
  exact HasEval.nat _

theorem tensorVal_hasEval {cfg : TensorCfg} {fused ps₁ ps₂ : Bool} {L₁ L₂ F₁ F₂ : ℕ} {X Y : Arrays → Ent}
    (hX : ∀ p i f, HasEval fun v => X v p i f) (hY : ∀ p i f, HasEval fun v => Y v p i f) (p i f : ℕ) :
    HasEval fun v => tensorVal cfg (v.tensorParams fused) v.cg ⟨ps₁, L₁, F₁, X v⟩ ⟨ps₂, L₂, F₂, Y v⟩ p i f := by
  have hcg : ∀ a b c, HasEval fun v => v.cg a b c := fun a b c => HasEval.entry (.cg a b c)
  unfold tensorVal Arrays.tensorParams anyTensor
  cases fused with
  | false =>
    simp only [Bool.false_eq_true, if_false, tensor]
    by_cases h1 : L₁ + L₂ < cfg.maxDegree.getD (max L₁ L₂)
    · have h1' : ∀ v, L₁ + L₂ < outDegree cfg ⟨ps₁, L₁, F₁, X v⟩ ⟨ps₂, L₂, F₂, Y v⟩ := fun _ => h1
      simp only [if_pos (h1' _)]
      exact HasEval.zero
    have h1' : ∀ v, ¬ L₁ + L₂ < outDegree cfg ⟨ps₁, L₁, F₁, X v⟩ ⟨ps₂, L₂, F₂, Y v⟩ := fun _ => h1
    by_cases h2 : F₁ ≠ F₂
    · simp only [if_neg (h1' _), if_pos h2]
      exact HasEval.zero
    simp only [if_neg (h1' _), if_neg h2]
    have hK : ∀ a b c d e g n, HasEval fun v => expandedKernel cfg v.tensor ⟨ps₁, L₁, F₁, X v⟩ ⟨ps₂, L₂, F₂, Y v⟩ a b c d e g n := by
      intro a b c d e g n
      have hm : ∀ v, mixedPaths cfg ⟨ps₁, L₁, F₁, X v⟩ ⟨ps₂, L₂, F₂, Y v⟩ ↔
          mixedPaths cfg ⟨ps₁, L₁, F₁, 0⟩ ⟨ps₂, L₂, F₂, 0⟩ := fun _ => Iff.rfl
      have ho : ∀ v, outDegree cfg ⟨ps₁, L₁, F₁, X v⟩ ⟨ps₂, L₂, F₂, Y v⟩ = outDegree cfg ⟨ps₁, L₁, F₁, 0⟩ ⟨ps₂, L₂, F₂, 0⟩ :=
        fun _ => rfl
      have hq : ∀ v, outPseudo cfg ⟨ps₁, L₁, F₁, X v⟩ ⟨ps₂, L₂, F₂, Y v⟩ = outPseudo cfg ⟨ps₁, L₁, F₁, 0⟩ ⟨ps₂, L₂, F₂, 0⟩ :=
        fun _ => rfl
      unfold expandedKernel
      simp only [hm, ho, hq]
      by_cases h3 : mixedPaths cfg ⟨ps₁, L₁, F₁, 0⟩ ⟨ps₂, L₂, F₂, 0⟩
      · simp only [if_pos h3]
        exact (HasEval.entry (.tensor _ _ _ _ _ _ _)).mul (tensorMask_hasEval _ _ _ _ _ _ _)
      · simp only [if_neg h3]
        exact HasEval.entry (.tensor _ _ _ _ _ _ _)
    have hm : ∀ v, mixedPaths cfg ⟨ps₁, L₁, F₁, X v⟩ ⟨ps₂, L₂, F₂, Y v⟩ ↔
        mixedPaths cfg ⟨ps₁, L₁, F₁, 0⟩ ⟨ps₂, L₂, F₂, 0⟩ := fun _ => Iff.rfl
    simp only [hm]
    by_cases h3 : mixedPaths cfg ⟨ps₁, L₁, F₁, 0⟩ ⟨ps₂, L₂, F₂, 0⟩
    · simp only [if_pos h3, mixedEinsum]
      exact HasEval.sum fun _ => HasEval.sum fun _ => HasEval.sum fun _ => HasEval.sum fun _ =>
        (((hX _ _ _).mul (hY _ _ _)).mul (hK _ _ _ _ _ _ _)).mul (hcg _ _ _)
    · have hc : ∀ a b c, HasEval fun v => coupleSlices (expandedKernel cfg v.tensor ⟨ps₁, L₁, F₁, X v⟩ ⟨ps₂, L₂, F₂, Y v⟩) v.cg
          ⟨ps₁, L₁, F₁, X v⟩ ⟨ps₂, L₂, F₂, Y v⟩ a b c i f := fun a b c => by
        simp only [coupleSlices]
        exact HasEval.sum fun _ => HasEval.sum fun _ => (((hX _ _ _).mul (hY _ _ _)).mul (hK _ _ _ _ _ _ _)).mul (hcg _ _ _)
      simp only [if_neg h3, slicesEinsum]
      by_cases hp : p = 0
      · simp only [if_pos hp]
        exact (hc _ _ _).add (hc _ _ _)
      · simp only [if_neg hp]
        exact (hc _ _ _).add (hc _ _ _)
  | true =>
    simp only [if_true, fusedTensor]
    by_cases h1 : L₁ + L₂ < cfg.maxDegree.getD (max L₁ L₂)
    · have h1' : ∀ v, L₁ + L₂ < outDegree cfg ⟨ps₁, L₁, F₁, X v⟩ ⟨ps₂, L₂, F₂, Y v⟩ := fun _ => h1
      simp only [if_pos (h1' _)]
      exact HasEval.zero
    have h1' : ∀ v, ¬ L₁ + L₂ < outDegree cfg ⟨ps₁, L₁, F₁, X v⟩ ⟨ps₂, L₂, F₂, Y v⟩ := fun _ => h1
    by_cases h2 : F₁ ≠ F₂
    · simp only [if_neg (h1' _), if_pos h2]
      exact HasEval.zero
    simp only [if_neg (h1' _), if_neg h2]
    have hsp : ∀ (M : ℕ) (ps : Bool) (L F : ℕ) (Z : Arrays → Ent), (∀ p i f, HasEval fun v => Z v p i f) → ∀ q n f,
        HasEval fun v => splitParity M ⟨ps, L, F, Z v⟩ q n f := by
      intro M ps L F Z hZ q n f
      unfold splitParity
      cases ps with
      | true => simpa using hZ q n f
      | false =>
        by_cases hq : q = 0
        · simpa [hq] using (hZ 0 n f).mul (fusedMask_hasEval M false n)
        · simpa [hq] using (hZ 0 n f).mul (fusedMask_hasEval M true n)
    have htm : ∀ (lam L : ℕ) (z : Arrays → ℕ → ℕ → ℝ) (k : FusedName), (∀ n f, HasEval fun v => z v n f) → ∀ a b f,
        HasEval fun v => fusedToMatrix (cgSlice v.cg lam) L (z v) (v.fused.get k) a b f := by
      intro lam L z k hz a b f
      exact HasEval.sum fun n => ((hz n f).mul (HasEval.entry (.fused k _ f))).mul (hcg _ _ _)
    have htv : ∀ (lam L : ℕ) (z z' : Arrays → ℕ → ℕ → ℕ → ℝ) (k : FusedName), (∀ a b f, HasEval fun v => z v a b f) →
        (∀ a b f, HasEval fun v => z' v a b f) → ∀ n f,
        HasEval fun v => fusedToVector (cgSlice v.cg lam) lam L (fusedCouple lam (z v) (z' v)) (v.fused.get k) n f := by
      intro lam L z z' k hz hz' n f
      exact HasEval.sum fun a => HasEval.sum fun b =>
        (((HasEval.sum fun c => (hz a c f).mul (hz' c b f))).mul (HasEval.entry (.fused k _ f))).mul (hcg _ _ _)
    have key : ∀ (M lam L : ℕ) (k₁ k₂ k : FusedName) (a b n f : ℕ), HasEval fun v =>
        fusedToVector (cgSlice v.cg lam) lam L
          (fusedCouple lam (fusedToMatrix (cgSlice v.cg lam) L₁ (splitParity M ⟨ps₁, L₁, F₁, X v⟩ a) (v.fused.get k₁))
            (fusedToMatrix (cgSlice v.cg lam) L₂ (splitParity M ⟨ps₂, L₂, F₂, Y v⟩ b) (v.fused.get k₂))) (v.fused.get k) n f := by
      intro M lam L k₁ k₂ k a b n f
      exact htv lam L _ _ k (fun _ _ _ => htm lam L₁ _ k₁ (fun _ _ => hsp M ps₁ L₁ F₁ X hX _ _ _) _ _ _)
        (fun _ _ _ => htm lam L₂ _ k₂ (fun _ _ => hsp M ps₂ L₂ F₂ Y hY _ _ _) _ _ _) n f
    unfold fusedVal
    have hM : ∀ v, fusedM cfg ⟨ps₁, L₁, F₁, X v⟩ ⟨ps₂, L₂, F₂, Y v⟩ = fusedM cfg ⟨ps₁, L₁, F₁, 0⟩ ⟨ps₂, L₂, F₂, 0⟩ := fun _ => rfl
    have hl : ∀ v, matrixDegree cfg ⟨ps₁, L₁, F₁, X v⟩ ⟨ps₂, L₂, F₂, Y v⟩ = matrixDegree cfg ⟨ps₁, L₁, F₁, 0⟩ ⟨ps₂, L₂, F₂, 0⟩ :=
      fun _ => rfl
    have ho : ∀ v, outDegree cfg ⟨ps₁, L₁, F₁, X v⟩ ⟨ps₂, L₂, F₂, Y v⟩ = outDegree cfg ⟨ps₁, L₁, F₁, 0⟩ ⟨ps₂, L₂, F₂, 0⟩ :=
      fun _ => rfl
    have hq : ∀ v, outPseudo cfg ⟨ps₁, L₁, F₁, X v⟩ ⟨ps₂, L₂, F₂, Y v⟩ = outPseudo cfg ⟨ps₁, L₁, F₁, 0⟩ ⟨ps₂, L₂, F₂, 0⟩ :=
      fun _ => rfl
    simp only [hM, hl, ho, hq]
    set M := fusedM cfg ⟨ps₁, L₁, F₁, 0⟩ ⟨ps₂, L₂, F₂, 0⟩
    set lam := matrixDegree cfg ⟨ps₁, L₁, F₁, 0⟩ ⟨ps₂, L₂, F₂, 0⟩
    set L₃ := outDegree cfg ⟨ps₁, L₁, F₁, 0⟩ ⟨ps₂, L₂, F₂, 0⟩
    have k1 := key M lam L₃ .e1 .e2 .eee 0 0 i f
    have k2 := key M lam L₃ .o1 .o2 .ooe 1 1 i f
    have k3 := key M lam L₃ .e1 .o2 .eoo 0 1 i f
    have k4 := key M lam L₃ .o1 .e2 .oeo 1 0 i f
    simp only [FusedKernels.get] at k1 k2 k3 k4
    cases outPseudo cfg ⟨ps₁, L₁, F₁, 0⟩ ⟨ps₂, L₂, F₂, 0⟩ with
    | true =>
      simp only [if_true]
      by_cases hp : p = 0
      · simp only [if_pos hp]
        exact k1.add k2
      · simp only [if_neg hp]
        exact k3.add k4
    | false =>
      simp only [Bool.false_eq_true, if_false]
      exact ((k1.add k2).mul (fusedMask_hasEval _ _ _)).add ((k3.add k4).mul (fusedMask_hasEval _ _ _))

/-- C79: every entry of the output of `Tensor` and `FusedTensor` can be computed by additions and multiplications. -/
theorem C79_tensor_evaluation (cfg : TensorCfg) (fused ps₁ ps₂ : Bool) (L₁ L₂ Fin p i f : ℕ) :
    ∃ e, Evaluates e (tensorEntry cfg fused ps₁ ps₂ L₁ L₂ Fin p i f) :=
  tensorVal_hasEval (fun p i f => HasEval.entry (.input 0 0 p i f)) (fun p i f => HasEval.entry (.input 1 0 p i f)) p i f

/-! ## Errors -/

/-- C79: whatever the order of evaluation, a finite result differs from the exact one by at most the error bound. The entries
may be rounded themselves. -/
theorem C79_error (hF : F.Accurate) {e : Arith Entry} {g : Arrays → ℝ} (he : Evaluates e g) (v : Arrays) (w : Entry → FloatVal)
    (hw : ∀ k, Rounded F (w k) (v.get k)) (r : ℝ) (hr : e.float F w = .num r) :
    |r - g v| ≤ errorBound F (roundings e) g v := by
  have h := (arith_error (by have := hF.precision; omega) v.get w hw e r hr).err
  have e1 : ∀ φ : ℝ → ℝ, (e.value fun k => φ (v.get k)) = g (mapArrays φ v) := by
    intro φ
    rw [← he]
    congr 1
    funext k
    rw [get_map]
  rw [he v, e1 fun a => |a|, e1 fun a => max 1 |a|] at h
  exact h

/-- C79: the size of the error bound. -/
theorem C79_bound {e : Arith Entry} {g : Arrays → ℝ} (he : Evaluates e g) (v : Arrays) (n : ℕ) (hu : n * F.unit ≤ 1)
    (ht : n * F.tiny ≤ 1) :
    errorBound F n g v ≤ 2 * n * F.unit * g (mapArrays (fun a => |a|) v) + 6 * n * F.tiny * g (mapArrays (fun a => max 1 |a|) v) := by
  have u0 := unit_pos (F := F)
  have t0 := tiny_pos (F := F)
  have pow : ∀ a : ℝ, 0 < a → n * a ≤ 1 → (1 + a) ^ n ≤ 1 + 2 * (n * a) := by
    intro a ha hn
    have h1 : (1 + a) ^ n ≤ Real.exp (n * a) := by
      rw [Real.exp_nat_mul]
      refine pow_le_pow_left₀ (by linarith) ?_ n
      have := Real.add_one_le_exp a
      linarith
    have hna : 0 ≤ n * a := mul_nonneg (Nat.cast_nonneg n) ha.le
    have h2 := Real.abs_exp_sub_one_le (x := n * a) (by rw [abs_of_nonneg hna]; exact hn)
    rw [abs_of_nonneg hna, abs_le] at h2
    linarith
  have h1 := pow F.unit u0 hu
  have h2 := pow F.tiny t0 ht
  have nonneg : ∀ φ : ℝ → ℝ, (∀ a, 0 ≤ φ a) → 0 ≤ g (mapArrays φ v) := by
    intro φ hφ
    rw [← he]
    refine value_nonneg (fun k => ?_) e
    rw [get_map]
    exact hφ _
  have g1 := nonneg (fun a => |a|) fun a => abs_nonneg a
  have g2 := nonneg (fun a => max 1 |a|) fun a => zero_le_one.trans (le_max_left _ _)
  have w1 := ErrBound.pow_tiny (F := F) n
  have nt : 0 ≤ n * F.tiny := mul_nonneg (Nat.cast_nonneg n) t0.le
  unfold errorBound
  refine add_le_add (mul_le_mul_of_nonneg_right (by linarith) g1) (mul_le_mul_of_nonneg_right ?_ g2)
  calc (1 + F.unit) ^ n * ((1 + F.tiny) ^ n - 1) ≤ 3 * (2 * (n * F.tiny)) :=
        mul_le_mul (by linarith) (by linarith) (by linarith) (by norm_num)
    _ = 6 * n * F.tiny := by ring

/-- C79: the result is finite if the numbers are not too large. -/
theorem C79_finite (hF : F.Accurate) (e : Arith Entry) (v : Arrays) (w : Entry → FloatVal)
    (hw : ∀ k, Rounded F (w k) (v.get k))
    (h : ((1 + F.unit) * (1 + F.tiny)) ^ roundings e * unmasked (fun k => max 1 |v.get k|) e ≤ F.maxFinite) :
    ∃ r, e.float F w = .num r :=
  arith_finite hF.proper v.get w hw e h

/-- C79: rotated input. If a layer is equivariant in exact arithmetic (`heq`), the results for input which is rotated
and then rounded are the rotated results for rounded input, up to rounding errors. -/
theorem C79_equivariance (hF : F.Accurate) {n : ℕ} {e : ℕ → Arith Entry} {g : ℕ → Arrays → ℝ} (he : ∀ i < n, Evaluates (e i) (g i))
    (D : ℕ → ℕ → ℝ) (v v' : Arrays) (heq : ∀ i < n, g i v' = ∑ j ∈ range n, g j v * D j i) (w w' : Entry → FloatVal)
    (hw : ∀ k, Rounded F (w k) (v.get k)) (hw' : ∀ k, Rounded F (w' k) (v'.get k)) (r r' : ℕ → ℝ)
    (hr : ∀ i < n, (e i).float F w = .num (r i)) (hr' : ∀ i < n, (e i).float F w' = .num (r' i)) {i : ℕ} (hi : i < n) :
    |r' i - ∑ j ∈ range n, r j * D j i| ≤
      errorBound F (roundings (e i)) (g i) v' + ∑ j ∈ range n, errorBound F (roundings (e j)) (g j) v * |D j i| := by
  have h1 := C79_error hF (he i hi) v' w' hw' (r' i) (hr' i hi)
  have h2 : |∑ j ∈ range n, g j v * D j i - ∑ j ∈ range n, r j * D j i| ≤
      ∑ j ∈ range n, errorBound F (roundings (e j)) (g j) v * |D j i| := by
    rw [← Finset.sum_sub_distrib]
    refine (Finset.abs_sum_le_sum_abs _ _).trans (Finset.sum_le_sum fun j hj => ?_)
    have hj := Finset.mem_range.1 hj
    rw [← sub_mul, abs_mul, abs_sub_comm]
    exact mul_le_mul_of_nonneg_right (C79_error hF (he j hj) v w hw (r j) (hr j hj)) (abs_nonneg _)
  have h3 := abs_sub_le (r' i) (g i v') (∑ j ∈ range n, r j * D j i)
  rw [heq i hi] at h3 h1
  linarith

/-! ## Rotations -/

theorem dense_rotated {D : ℕ → ℕ → ℝ} {cg : ℕ → ℕ → ℕ → ℝ} (hD : IsRotation cg D) (features : ℕ) (useBias ps : Bool) (L Fin : ℕ)
    {v v' : Arrays} (hv : SameParameters v v') (hx : RotatedArgument D 0 L v v') {p i f : ℕ} (hp : p < chan ps)
    (hi : i < (L + 1) ^ 2) (hf : f < features) :
    denseEntry features useBias ps L Fin p i f v' =
      ∑ j ∈ range ((L + 1) ^ 2), denseEntry features useBias ps L Fin p j f v * D j i := by
  have hA := symFacts_rotate cg D hD
  have h := hA.dense features useBias v.dense ⟨ps, L, Fin, v.input 0 0⟩
  obtain ⟨h1, h2, h3, -⟩ := C12_dense features useBias v.dense ⟨ps, L, Fin, v.input 0 0⟩
  have e : rotate ⟨ps, L, Fin, v.input 0 0⟩ D = ⟨ps, L, Fin, v'.input 0 0⟩ := by
    unfold rotate
    congr 1
    funext p i f
    exact (hx 0 p i f).symm
  obtain ⟨k1, k2, k3, -⟩ := C12_dense features useBias v.dense ⟨ps, L, Fin, v'.input 0 0⟩
  have := h.2.2.2 p i f
  rw [e, k1, k2, k3] at this
  have := this hp hi hf
  unfold denseEntry
  rw [hv.1, this]
  unfold rotate
  dsimp only
  rw [h2]

/-- C79: `Dense` is equivariant up to rounding errors. -/
theorem C79_dense (hF : F.Accurate) {D : ℕ → ℕ → ℝ} {cg : ℕ → ℕ → ℕ → ℝ} (hD : IsRotation cg D) (features : ℕ) (useBias ps : Bool)
    (L Fin p f : ℕ) (hp : p < chan ps) (hf : f < features) (v v' : Arrays) (hv : SameParameters v v')
    (hx : RotatedArgument D 0 L v v') {e : ℕ → Arith Entry}
    (he : ∀ i < (L + 1) ^ 2, Evaluates (e i) (denseEntry features useBias ps L Fin p i f)) (w w' : Entry → FloatVal)
    (hw : ∀ k, Rounded F (w k) (v.get k)) (hw' : ∀ k, Rounded F (w' k) (v'.get k)) (r r' : ℕ → ℝ)
    (hr : ∀ i < (L + 1) ^ 2, (e i).float F w = .num (r i)) (hr' : ∀ i < (L + 1) ^ 2, (e i).float F w' = .num (r' i)) {i : ℕ}
    (hi : i < (L + 1) ^ 2) :
    |r' i - ∑ j ∈ range ((L + 1) ^ 2), r j * D j i| ≤
      errorBound F (roundings (e i)) (denseEntry features useBias ps L Fin p i f) v' + ∑ j ∈ range ((L + 1) ^ 2),
        errorBound F (roundings (e j)) (denseEntry features useBias ps L Fin p j f) v * |D j i| :=
  C79_equivariance hF he D v v' (fun _ hi => dense_rotated hD features useBias ps L Fin hv hx hp hi hf) w w' hw hw' r r' hr hr' hi

theorem tensor_rotated {D : ℕ → ℕ → ℝ} {v v' : Arrays} (hD : IsRotation v.cg D) (cfg : TensorCfg) (fused ps₁ ps₂ : Bool)
    (L₁ L₂ Fin : ℕ) (hv : SameParameters v v') (hx : RotatedArgument D 0 L₁ v v')
    (hy : RotatedArgument D 1 L₂ v v') (hL : cfg.maxDegree.getD (max L₁ L₂) ≤ L₁ + L₂) {p i f : ℕ}
    (hp : p < chan (cfg.includePseudo && !(!ps₁ && !ps₂ && (L₁ == 0 || L₂ == 0 || cfg.maxDegree.getD (max L₁ L₂) == 0))))
    (hi : i < (cfg.maxDegree.getD (max L₁ L₂) + 1) ^ 2) (hf : f < Fin) :
    tensorEntry cfg fused ps₁ ps₂ L₁ L₂ Fin p i f v' = ∑ j ∈ range ((cfg.maxDegree.getD (max L₁ L₂) + 1) ^ 2),
      tensorEntry cfg fused ps₁ ps₂ L₁ L₂ Fin p j f v * D j i := by
  have hA := symFacts_rotate v.cg D hD
  have eT : v'.tensorParams fused = v.tensorParams fused := by
    unfold Arrays.tensorParams
    rw [hv.2.1, hv.2.2.1]
  have rot : ∀ ps L a, RotatedArgument D a L v v' → rotate ⟨ps, L, Fin, v.input a 0⟩ D = ⟨ps, L, Fin, v'.input a 0⟩ := by
    intro ps L a h
    unfold rotate
    congr 1
    funext p i f
    exact (h 0 p i f).symm
  have ex : ∃ z, anyTensor cfg (v.tensorParams fused) v.cg ⟨ps₁, L₁, Fin, v.input 0 0⟩ ⟨ps₂, L₂, Fin, v.input 1 0⟩ = .ok z ∧
      z.L = cfg.maxDegree.getD (max L₁ L₂) ∧ z.F = Fin ∧ (z.pseudo = true ↔ cfg.includePseudo = true ∧
        ¬ (ps₁ = false ∧ ps₂ = false ∧ (L₁ = 0 ∨ L₂ = 0 ∨ cfg.maxDegree.getD (max L₁ L₂) = 0))) := by
    cases fused with
    | false =>
      obtain ⟨z, h0, h1, h2, h3, -⟩ := C15_tensor cfg v.tensor v.cg ⟨ps₁, L₁, Fin, v.input 0 0⟩ ⟨ps₂, L₂, Fin, v.input 1 0⟩ hL rfl
      exact ⟨z, h0, h1, h2, h3⟩
    | true =>
      obtain ⟨z, h0, h1, h2, h3, -⟩ := C16_fused cfg v.fused v.cg ⟨ps₁, L₁, Fin, v.input 0 0⟩ ⟨ps₂, L₂, Fin, v.input 1 0⟩ hL rfl
      exact ⟨z, h0, h1, h2, h3⟩
  obtain ⟨z, hz, z1, z2, z3⟩ := ex
  obtain ⟨z', hz', hs⟩ := hA.tensor cfg _ _ _ z hz
  rw [rot ps₁ L₁ 0 hx, rot ps₂ L₂ 1 hy] at hz'
  have hps : z.pseudo = (cfg.includePseudo && !(!ps₁ && !ps₂ && (L₁ == 0 || L₂ == 0 || cfg.maxDegree.getD (max L₁ L₂) == 0))) := by
    rw [Bool.eq_iff_iff, z3]
    cases cfg.includePseudo <;> cases ps₁ <;> cases ps₂ <;> simp [and_assoc]
  obtain ⟨s1, s2, s3, s4⟩ := hs
  obtain ⟨k1, k2, k3⟩ := hA.hdr z
  have := s4 p i f (by rw [s1, k1, hps]; exact hp) (by rw [s2, k2, z1]; exact hi) (by rw [s3, k3, z2]; exact hf)
  unfold tensorEntry tensorVal
  rw [eT, hv.2.2.2, hz', hz]
  dsimp only
  rw [this]
  unfold rotate
  dsimp only
  rw [z1]

/-- C79: `Tensor` and `FusedTensor` are equivariant up to rounding errors, including those of the Clebsch-Gordan
coefficients. -/
theorem C79_tensor (hF : F.Accurate) {D : ℕ → ℕ → ℝ} {v v' : Arrays} (hD : IsRotation v.cg D) (cfg : TensorCfg) (fused ps₁ ps₂ : Bool)
    (L₁ L₂ L Fin p f : ℕ) (hL : L = cfg.maxDegree.getD (max L₁ L₂)) (hL' : L ≤ L₁ + L₂)
    (hp : p < chan (cfg.includePseudo && !(!ps₁ && !ps₂ && (L₁ == 0 || L₂ == 0 || L == 0)))) (hf : f < Fin)
    (hv : SameParameters v v') (hx : RotatedArgument D 0 L₁ v v') (hy : RotatedArgument D 1 L₂ v v') {e : ℕ → Arith Entry}
    (he : ∀ i < (L + 1) ^ 2, Evaluates (e i) (tensorEntry cfg fused ps₁ ps₂ L₁ L₂ Fin p i f)) (w w' : Entry → FloatVal)
    (hw : ∀ k, Rounded F (w k) (v.get k)) (hw' : ∀ k, Rounded F (w' k) (v'.get k)) (r r' : ℕ → ℝ)
    (hr : ∀ i < (L + 1) ^ 2, (e i).float F w = .num (r i)) (hr' : ∀ i < (L + 1) ^ 2, (e i).float F w' = .num (r' i)) {i : ℕ}
    (hi : i < (L + 1) ^ 2) :
    |r' i - ∑ j ∈ range ((L + 1) ^ 2), r j * D j i| ≤
      errorBound F (roundings (e i)) (tensorEntry cfg fused ps₁ ps₂ L₁ L₂ Fin p i f) v' + ∑ j ∈ range ((L + 1) ^ 2),
        errorBound F (roundings (e j)) (tensorEntry cfg fused ps₁ ps₂ L₁ L₂ Fin p j f) v * |D j i| := by
  subst hL
  exact C79_equivariance hF he D v v' (fun _ hi => tensor_rotated hD cfg fused ps₁ ps₂ L₁ L₂ Fin hv hx hy hL' hp hi hf)
    w w' hw hw' r r' hr hr' hi

/-! ## Message passing -/

theorem feat_of_header {x : Feat} {ps : Bool} {L F : ℕ} (h1 : x.pseudo = ps) (h2 : x.L = L) (h3 : x.F = F) :
    x = ⟨ps, L, F, x.val⟩ := by
  subst h1 h2 h3
  rfl


/-- C79: every entry of the output of `MessagePass` (sparse index lists) can be computed by additions and multiplications. -/
theorem C79_message_evaluation (cfg : ConvCfg) (fused : Bool) (s : MessageShape) (dst src : List ℕ)
    (hrows : s.rows = .vec (List.range dst.length)) (hs : src.length = dst.length) (hn : 0 < s.n) (num : Option ℕ) (j p i f : ℕ) :
    ∃ e, Evaluates e (messageEntry cfg fused s { dst := some dst, src := some src, num := num } j p i f) := by
  change HasEval _
  let E : Arrays → List Edge := fun v => (List.range dst.length).map fun k =>
    ⟨dst.getD k 0, src.getD k 0, v.input 1 k, if s.weights then v.input 2 k else fun _ _ _ => 1⟩
  have range_map : ∀ l : List ℕ, l.length = dst.length → (List.range dst.length).map (fun k => l.getD k 0) = l := by
    intro l hl
    apply List.ext_getElem
    · simp [hl]
    · intro k h1 h2
      simp [List.getD_eq_getElem?_getD, h2]
  have hlayer : ∀ v, messageLayer cfg fused s { dst := some dst, src := some src, num := num } v =
      messagePass cfg ⟨v.dense, v.tensorParams fused⟩ v.cg ⟨s.ps, s.L, s.F, (List.range s.n).map (v.input 0)⟩
        ⟨s.bps, s.bL, s.bF, .vec ((E v).map Edge.basis)⟩ (if s.weights then some (.vec ((E v).map Edge.weight)) else none)
        { dst := some ((E v).map Edge.dst), src := some ((E v).map Edge.src), num := num } := by
    intro v
    unfold messageLayer
    have e1 : (E v).map Edge.dst = dst := by
      simp only [E, List.map_map, Function.comp_def]
      exact range_map dst rfl
    have e2 : (E v).map Edge.src = src := by
      simp only [E, List.map_map, Function.comp_def]
      exact range_map src hs
    have e3 : (E v).map Edge.basis = (List.range dst.length).map (v.input 1) := by
      simp only [E, List.map_map, Function.comp_def]
    have e4 : s.weights = true → (E v).map Edge.weight = (List.range dst.length).map (v.input 2) := by
      intro h
      simp only [E, List.map_map, Function.comp_def, h, if_true]
    rw [e1, e2, e3, hrows]
    cases h : s.weights with
    | true => simp only [if_true, Lead.map, e4 h]
    | false => simp [Lead.map]
  have hw : ∀ v, WeightsOf (if s.weights then some (.vec ((E v).map Edge.weight)) else none) (.vec ((E v).map Edge.weight)) (E v) := by
    intro v
    cases h : s.weights with
    | true => exact .inl (by simp)
    | false =>
      refine .inr ⟨by simp, fun e he => ?_⟩
      obtain ⟨k, -, rfl⟩ := List.mem_map.1 he
      simp [h]
  have key := fun v => messagePass_sparse cfg ⟨v.dense, v.tensorParams fused⟩ v.cg
    ⟨s.ps, s.L, s.F, (List.range s.n).map (v.input 0)⟩ s.bps s.bL s.bF (E v) _ (hw v) num (by simpa using hn)
  by_cases hdeg : s.bL + s.L < cfg.tens.maxDegree.getD (max s.bL s.L)
  · have : messageEntry cfg fused s { dst := some dst, src := some src, num := num } j p i f = fun _ => 0 := by
      funext v
      unfold messageEntry
      rw [hlayer, (key v).1 hdeg]
    rw [this]
    exact HasEval.zero
  by_cases hj : j < num.getD s.n
  swap
  · have : messageEntry cfg fused s { dst := some dst, src := some src, num := num } j p i f = fun _ => 0 := by
      funext v
      obtain ⟨ps, -, h⟩ := (key v).2 (by simpa using hdeg)
      unfold messageEntry
      rw [hlayer, h]
      dsimp only
      rw [List.getD_eq_getElem?_getD, List.getElem?_eq_none (by rw [segmentReduce_length]; simpa using hj)]
      rfl
    rw [this]
    exact HasEval.zero
  have hsum : messageEntry cfg fused s { dst := some dst, src := some src, num := num } j p i f = fun v =>
      (((List.range dst.length).filter fun k => dst.getD k 0 = j).map fun k =>
        tensorVal cfg.tens (v.tensorParams fused) v.cg (dense s.F cfg.useBasisBias v.dense ⟨s.bps, s.bL, s.bF, v.input 1 k⟩)
          ⟨s.ps, s.L, s.F, fun p i f => v.input 0 (min (src.getD k 0) (s.n - 1)) p i f *
            (if s.weights then v.input 2 k else fun _ _ _ => 1) p i f⟩ p i f).sum := by
    funext v
    obtain ⟨ps, -, h⟩ := (key v).2 (by simpa using hdeg)
    unfold messageEntry
    rw [hlayer, h]
    dsimp only
    rw [List.getD_eq_getElem?_getD, C03_segment_sum _ _ _ _ (by simpa using hj), Option.getD_some, List.zip_map', List.filter_map,
      List.map_map]
    have app : ∀ l : List Ent, l.sum p i f = (l.map fun a => a p i f).sum := by
      intro l
      induction l with
      | nil => rfl
      | cons a l ih => simp [ih]
    rw [app, List.map_map]
    simp only [E, List.filter_map, List.map_map, Function.comp_def]
    congr 1
    apply List.map_congr_left
    intro k _
    unfold message tensorVal clampEdge Nodes.feat
    have hlt : min (src.getD k 0) (s.n - 1) < s.n := by omega
    rw [List.getD_eq_getElem?_getD] at hlt
    simp only [List.getD_eq_getElem?_getD, List.length_map, List.length_range, List.getElem?_map, List.getElem?_range hlt,
      Option.map_some, Option.getD_some]
    rfl
  rw [hsum]
  refine HasEval.listSum _ fun k _ => ?_
  have hd : ∀ v : Arrays, dense s.F cfg.useBasisBias v.dense ⟨s.bps, s.bL, s.bF, v.input 1 k⟩ =
      ⟨s.bps, s.bL, s.F, (dense s.F cfg.useBasisBias v.dense ⟨s.bps, s.bL, s.bF, v.input 1 k⟩).val⟩ := by
    intro v
    obtain ⟨h1, h2, h3, -⟩ := C12_dense s.F cfg.useBasisBias v.dense ⟨s.bps, s.bL, s.bF, v.input 1 k⟩
    exact feat_of_header h1 h2 h3
  have : (fun v : Arrays => tensorVal cfg.tens (v.tensorParams fused) v.cg
      (dense s.F cfg.useBasisBias v.dense ⟨s.bps, s.bL, s.bF, v.input 1 k⟩)
          ⟨s.ps, s.L, s.F, fun p i f => v.input 0 (min (src.getD k 0) (s.n - 1)) p i f *
            (if s.weights then v.input 2 k else fun _ _ _ => 1) p i f⟩ p i f) = fun v : Arrays =>
      tensorVal cfg.tens (v.tensorParams fused) v.cg
      ⟨s.bps, s.bL, s.F, (dense s.F cfg.useBasisBias v.dense ⟨s.bps, s.bL, s.bF, v.input 1 k⟩).val⟩
          ⟨s.ps, s.L, s.F, fun p i f => v.input 0 (min (src.getD k 0) (s.n - 1)) p i f *
            (if s.weights then v.input 2 k else fun _ _ _ => 1) p i f⟩ p i f := by
    funext v
    rw [← hd]
  rw [this]
  refine tensorVal_hasEval (dense_hasEval fun p i f => HasEval.entry (.input 1 k p i f)) (fun p i f => ?_) p i f
  refine (HasEval.entry (.input 0 _ p i f)).mul ?_
  cases s.weights with
  | true => exact HasEval.entry (.input 2 k p i f)
  | false => exact HasEval.one

theorem message_rotated {D : ℕ → ℕ → ℝ} {v v' : Arrays} (hD : IsRotation v.cg D) (cfg : ConvCfg) (fused : Bool)
    (s : MessageShape) (ix : IndexArgs) (hv : SameParameters v v') (hx : RotatedArgument D 0 s.L v v')
    (hy : RotatedArgument D 1 s.bL v v') (hw : v'.input 2 = v.input 2) (hw' : ∀ k p i f, v.input 2 k p i f = v.input 2 k 0 0 f)
    {z : Nodes} (hz : messageLayer cfg fused s ix v = .ok z) {j p i f : ℕ} (hp : p < chan z.pseudo) (hi : i < (z.L + 1) ^ 2)
    (hf : f < z.F) :
    messageEntry cfg fused s ix j p i f v' = ∑ l ∈ range ((z.L + 1) ^ 2), messageEntry cfg fused s ix j p l f v * D l i := by
  have hA := symFacts_rotate v.cg D hD
  have eT : v'.tensorParams fused = v.tensorParams fused := by
    unfold Arrays.tensorParams
    rw [hv.2.1, hv.2.2.1]
  have tr : ∀ ps L F a, RotatedArgument D a L v v' → ∀ k, Tr (fun x => rotate x D) ps L F (v.input a k) (v'.input a k) := by
    intro ps L F a h k
    refine ⟨rfl, rfl, rfl, fun p i f _ _ _ => ?_⟩
    exact h k p i f
  have trl : ∀ ps L F a, RotatedArgument D a L v v' → ∀ l : List ℕ,
      List.Forall₂ (Tr (fun x => rotate x D) ps L F) (l.map (v.input a)) (l.map (v'.input a)) := by
    intro ps L F a h l
    induction l with
    | nil => exact .nil
    | cons k l ih => exact .cons (tr ps L F a h k) ih
  have hN : NodesTr (fun x => rotate x D) ⟨s.ps, s.L, s.F, (List.range s.n).map (v.input 0)⟩
      ⟨s.ps, s.L, s.F, (List.range s.n).map (v'.input 0)⟩ := ⟨rfl, rfl, rfl, trl _ _ _ 0 hx _⟩
  have hE : EdgesTr (fun x => rotate x D) ⟨s.bps, s.bL, s.bF, s.rows.map (v.input 1)⟩
      ⟨s.bps, s.bL, s.bF, s.rows.map (v'.input 1)⟩ := by
    refine ⟨rfl, rfl, rfl, ?_⟩
    dsimp only
    cases s.rows with
    | vec l => exact .vec (trl _ _ _ 1 hy l)
    | mat l =>
      refine .mat ?_
      induction l with
      | nil => exact .nil
      | cons k l ih => exact .cons (trl _ _ _ 1 hy k) ih
  have hS : ScalarWeights (if s.weights then some (s.rows.map (v.input 2)) else none) := by
    intro l hl
    have self : ∀ l : List ℕ, List.Forall₂ (fun u u' : Ent => u = u' ∧ ∀ p i f, u p i f = u 0 0 f) (l.map (v.input 2))
        (l.map (v.input 2)) := by
      intro l
      induction l with
      | nil => exact .nil
      | cons k l ih => exact .cons ⟨rfl, hw' k⟩ ih
    split_ifs at hl
    injection hl with hl
    subst hl
    cases s.rows with
    | vec l => exact .vec (self l)
    | mat l =>
      refine .mat ?_
      induction l with
      | nil => exact .nil
      | cons k l ih => exact .cons (self k) ih
  have h := messagePass_tr hA cfg ⟨v.dense, v.tensorParams fused⟩ hN hE _ hS ix
  have hz' := hz
  unfold messageLayer at hz'
  rw [hz'] at h
  have hl' : messageLayer cfg fused s ix v' = messagePass cfg ⟨v.dense, v.tensorParams fused⟩ v.cg
      ⟨s.ps, s.L, s.F, (List.range s.n).map (v'.input 0)⟩ ⟨s.bps, s.bL, s.bF, s.rows.map (v'.input 1)⟩
      (if s.weights then some (s.rows.map (v.input 2)) else none) ix := by
    unfold messageLayer
    rw [eT, hv.1, hv.2.2.2, hw]
  rw [← hl'] at h
  unfold messageEntry
  rw [hz]
  generalize messageLayer cfg fused s ix v' = u at h
  cases h with
  | ok h =>
    rename_i z'
    obtain ⟨h1, h2, h3, h4⟩ := h
    dsimp only
    by_cases hj : j < z.rows.length
    · have hj' : j < z'.rows.length := h4.length_eq ▸ hj
      have hr := h4.get hj hj'
      have := hr.2.2.2 p i f hp hi hf
      rw [List.getD_eq_getElem?_getD, List.getD_eq_getElem?_getD, List.getElem?_eq_getElem hj, List.getElem?_eq_getElem hj']
      simpa [rotate] using this
    · have hj' : ¬ j < z'.rows.length := h4.length_eq ▸ hj
      rw [List.getD_eq_getElem?_getD, List.getD_eq_getElem?_getD, List.getElem?_eq_none (by omega),
        List.getElem?_eq_none (by omega)]
      simp

/-- C79: `MessagePass` is equivariant up to rounding errors, for sparse and dense index lists. -/
theorem C79_message (hF : F.Accurate) {D : ℕ → ℕ → ℝ} {v v' : Arrays} (hD : IsRotation v.cg D) (cfg : ConvCfg) (fused : Bool)
    (s : MessageShape) (ix : IndexArgs) (hv : SameParameters v v') (hx : RotatedArgument D 0 s.L v v')
    (hy : RotatedArgument D 1 s.bL v v') (hw2 : v'.input 2 = v.input 2)
    (hw2' : ∀ k p i f, v.input 2 k p i f = v.input 2 k 0 0 f) {z : Nodes} (hz : messageLayer cfg fused s ix v = .ok z) {j p f : ℕ}
    (hp : p < chan z.pseudo) (hf : f < z.F) {e : ℕ → Arith Entry}
    (he : ∀ i < (z.L + 1) ^ 2, Evaluates (e i) (messageEntry cfg fused s ix j p i f)) (w w' : Entry → FloatVal)
    (hw : ∀ k, Rounded F (w k) (v.get k)) (hw' : ∀ k, Rounded F (w' k) (v'.get k)) (r r' : ℕ → ℝ)
    (hr : ∀ i < (z.L + 1) ^ 2, (e i).float F w = .num (r i)) (hr' : ∀ i < (z.L + 1) ^ 2, (e i).float F w' = .num (r' i)) {i : ℕ}
    (hi : i < (z.L + 1) ^ 2) :
    |r' i - ∑ l ∈ range ((z.L + 1) ^ 2), r l * D l i| ≤
      errorBound F (roundings (e i)) (messageEntry cfg fused s ix j p i f) v' + ∑ l ∈ range ((z.L + 1) ^ 2),
        errorBound F (roundings (e l)) (messageEntry cfg fused s ix j p l f) v * |D l i| :=
  C79_equivariance hF he D v v' (fun _ hi => message_rotated hD cfg fused s ix hv hx hy hw2 hw2' hz hp hi hf)
    w w' hw hw' r r' hr hr' hi

/-! ## Examples -/

/-- A dense layer with one feature and a bias, with a fused multiplication and addition: three roundings. -/
example : ∃ e : Arith Entry, Evaluates e (denseEntry 1 true false 0 1 0 0 0) ∧ roundings e = 3 := by
  refine ⟨.fma (.entry (.input 0 0 0 0 0)) (.entry (.kernel 0 0 0 0)) (.entry (.bias 0)), fun v => ?_, rfl⟩
  simp [Arith.value, Arrays.get, denseEntry, dense, concatDegrees, denseSub, nnDense, deg]

/-- Numbers of a format are rounded to themselves. -/
example (a : ℝ) : Rounded F (.num a) a := ⟨a, rfl, by
  have := mul_nonneg (unit_pos (F := F)).le (abs_nonneg a)
  have := tiny_pos (F := F)
  simp only [sub_self, abs_zero]
  linarith⟩

/-- Rounding is meant by `Rounded`. -/
example (hF : F.Accurate) (a : ℝ) (h : |a| ≤ F.maxFinite) : Rounded F (F.round a) a := by
  obtain ⟨r, hr, h, -⟩ := round_spec hF.proper h
  exact ⟨r, hr, h⟩

/-- The hypothesis of `C79_finite` for this layer and entries one. -/
example : ((1 + float32.unit) * (1 + float32.tiny)) ^ 3 * unmasked (fun _ : Entry => max 1 |(1 : ℝ)|)
    (.fma (.entry (.input 0 0 0 0 0)) (.entry (.kernel 0 0 0 0)) (.entry (.bias 0))) ≤ float32.maxFinite := by
  have h1 : float32.unit ≤ 1 := by
    unfold FloatFormat.unit float32
    norm_num
  have h2 : float32.tiny ≤ 1 := by
    unfold FloatFormat.tiny float32
    norm_num
  have u0 := unit_pos (F := float32)
  have t0 := tiny_pos (F := float32)
  have h3 : ((1 + float32.unit) * (1 + float32.tiny)) ^ 3 ≤ 4 ^ 3 :=
    pow_le_pow_left₀ (by positivity) (by nlinarith) 3
  have h4 : (128 : ℝ) ≤ float32.maxFinite := by
    unfold FloatFormat.maxFinite float32
    norm_num
  simp only [unmasked, abs_one, max_self]
  linarith

end E3x
