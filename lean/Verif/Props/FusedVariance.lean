import Mathlib.Probability.Independence.Integration
import Verif.Lemmas.FusedBasis
import Verif.Lemmas.Variance
import Verif.Props.Variance
import Verif.Spec.FusedVariance

/-!
# C85: the variance of the outputs of a FusedTensor layer at initialisation
-/

namespace E3x

noncomputable section

open Finset Spec MeasureTheory ProbabilityTheory

/-! ## The layer as a bilinear form -/

theorem fusedStrength_eq (cart : Bool) (lam i j n : ℕ) : fusedStrength cart lam i j n =
    ∑ a ∈ range (2 * lam + 1), ∑ b ∈ range (2 * lam + 1), (∑ c ∈ range (2 * lam + 1),
      cgTensor cart (lam ^ 2 + a) (lam ^ 2 + c) i * cgTensor cart (lam ^ 2 + c) (lam ^ 2 + b) j) *
        cgTensor cart (lam ^ 2 + a) (lam ^ 2 + b) n := by
  unfold fusedStrength
  simp only [Finset.sum_range, Matrix.trace, Matrix.diag, Matrix.mul_apply, Matrix.transpose_apply, basisMatrix, Matrix.of_apply]

/-- sums over the parities which are stored -/
theorem sum_parities (x y : Feat) (f : ℕ) (G : ℕ → ℕ → ℕ → ℕ → ℝ) :
    ∑ P ∈ range 2, ∑ Q ∈ range 2, ∑ l ∈ range ((x.L + 1) ^ 2), ∑ m ∈ range ((y.L + 1) ^ 2),
      comp x P l f * (comp y Q m f * G P l Q m) =
    ∑ p ∈ range (chan x.pseudo), ∑ l ∈ range ((x.L + 1) ^ 2), ∑ q ∈ range (chan y.pseudo), ∑ m ∈ range ((y.L + 1) ^ 2),
      x.val p l f * y.val q m f * G (parOf x.pseudo p l) l (parOf y.pseudo q m) m := by
  have e2 : ∀ P ∈ range 2, ∑ Q ∈ range 2, ∑ l ∈ range ((x.L + 1) ^ 2), ∑ m ∈ range ((y.L + 1) ^ 2),
      comp x P l f * (comp y Q m f * G P l Q m) =
      ∑ l ∈ range ((x.L + 1) ^ 2), comp x P l f * ∑ q ∈ range (chan y.pseudo), ∑ m ∈ range ((y.L + 1) ^ 2),
        y.val q m f * G P l (parOf y.pseudo q m) m := by
    intro P _
    rw [sum_comm]
    refine sum_congr rfl fun l _ => ?_
    rw [sum_comm, sum_comm (s := range (chan y.pseudo)), mul_sum]
    refine sum_congr rfl fun m hm => ?_
    rw [← mul_sum, sum_comp y f (mem_range.1 hm) (fun Q => G P l Q m)]
  rw [sum_congr rfl e2, sum_comm, sum_comm (s := range (chan x.pseudo))]
  refine sum_congr rfl fun l hl => ?_
  rw [sum_comp x f (mem_range.1 hl) (fun P => ∑ q ∈ range (chan y.pseudo), ∑ m ∈ range ((y.L + 1) ^ 2),
        y.val q m f * G P l (parOf y.pseudo q m) m)]
  refine sum_congr rfl fun p _ => ?_
  rw [mul_sum]
  refine sum_congr rfl fun q _ => ?_
  rw [mul_sum]
  exact sum_congr rfl fun m _ => by ring

/-- the fused product in terms of coupling strengths -/
theorem fusedCoupled_eq (cart : Bool) (w1 w2 : ℕ → ℕ → ℝ) (w3 : ℕ → ℕ → ℕ → ℝ) (lam : ℕ) (x y : Feat) (r n f : ℕ) :
    fusedCoupled w1 w2 w3 (cgTensor cart) lam x y r n f =
    ∑ p ∈ range (chan x.pseudo), ∑ l ∈ range ((x.L + 1) ^ 2), ∑ q ∈ range (chan y.pseudo), ∑ m ∈ range ((y.L + 1) ^ 2),
      x.val p l f * y.val q m f * (if (parOf x.pseudo p l + parOf y.pseudo q m) % 2 = r then
        w1 (parOf x.pseudo p l) (deg l) * w2 (parOf y.pseudo q m) (deg m) *
          w3 (parOf x.pseudo p l) (parOf y.pseudo q m) (deg n) * fusedStrength cart lam l m n else 0) := by
  rw [← sum_parities x y f (fun P l Q m => if (P + Q) % 2 = r then w1 P (deg l) * w2 Q (deg m) * w3 P Q (deg n) *
    fusedStrength cart lam l m n else 0)]
  unfold fusedCoupled
  refine sum_congr rfl fun p _ => sum_congr rfl fun q _ => ?_
  by_cases h : (p + q) % 2 = r
  swap
  · simp [h]
  simp only [if_pos h]
  set R := range (2 * lam + 1) with hR
  set c := cgTensor cart with hc
  have e : ∀ a b, w3 p q (deg n) * (∑ k ∈ R, toMatrix (w1 p) c lam x p f a k * toMatrix (w2 q) c lam y q f k b) *
      c (lam ^ 2 + a) (lam ^ 2 + b) n = ∑ l ∈ range ((x.L + 1) ^ 2), ∑ m ∈ range ((y.L + 1) ^ 2),
        comp x p l f * (comp y q m f * (w1 p (deg l) * w2 q (deg m) * w3 p q (deg n) *
          ((∑ k ∈ R, c (lam ^ 2 + a) (lam ^ 2 + k) l * c (lam ^ 2 + k) (lam ^ 2 + b) m) * c (lam ^ 2 + a) (lam ^ 2 + b) n))) := by
    intro a b
    have e1 : ∑ k ∈ R, toMatrix (w1 p) c lam x p f a k * toMatrix (w2 q) c lam y q f k b =
        ∑ l ∈ range ((x.L + 1) ^ 2), ∑ m ∈ range ((y.L + 1) ^ 2), ∑ k ∈ R,
          w1 p (deg l) * comp x p l f * (w2 q (deg m) * comp y q m f) *
            (c (lam ^ 2 + a) (lam ^ 2 + k) l * c (lam ^ 2 + k) (lam ^ 2 + b) m) := by
      unfold toMatrix
      have : ∀ k ∈ R, (∑ n ∈ range ((x.L + 1) ^ 2), w1 p (deg n) * comp x p n f * c (lam ^ 2 + a) (lam ^ 2 + k) n) *
          (∑ n ∈ range ((y.L + 1) ^ 2), w2 q (deg n) * comp y q n f * c (lam ^ 2 + k) (lam ^ 2 + b) n) =
          ∑ l ∈ range ((x.L + 1) ^ 2), ∑ m ∈ range ((y.L + 1) ^ 2),
          w1 p (deg l) * comp x p l f * (w2 q (deg m) * comp y q m f) *
            (c (lam ^ 2 + a) (lam ^ 2 + k) l * c (lam ^ 2 + k) (lam ^ 2 + b) m) := by
        intro k _
        rw [sum_mul_sum]
        exact sum_congr rfl fun _ _ => sum_congr rfl fun _ _ => by ring
      rw [sum_congr rfl this, sum_comm]
      exact sum_congr rfl fun _ _ => sum_comm
    rw [e1, mul_sum, sum_mul]
    refine sum_congr rfl fun l _ => ?_
    rw [mul_sum, sum_mul]
    refine sum_congr rfl fun m _ => ?_
    rw [← mul_sum]
    ring
  simp only [e]
  have sw : ∀ g : ℕ → ℕ → ℕ → ℕ → ℝ, ∑ a ∈ R, ∑ b ∈ R, ∑ l ∈ range ((x.L + 1) ^ 2), ∑ m ∈ range ((y.L + 1) ^ 2), g a b l m =
      ∑ l ∈ range ((x.L + 1) ^ 2), ∑ m ∈ range ((y.L + 1) ^ 2), ∑ a ∈ R, ∑ b ∈ R, g a b l m := by
    intro g
    have e1 : ∀ a ∈ R, ∑ b ∈ R, ∑ l ∈ range ((x.L + 1) ^ 2), ∑ m ∈ range ((y.L + 1) ^ 2), g a b l m =
        ∑ l ∈ range ((x.L + 1) ^ 2), ∑ m ∈ range ((y.L + 1) ^ 2), ∑ b ∈ R, g a b l m := by
      intro a _
      rw [sum_comm]
      exact sum_congr rfl fun _ _ => sum_comm
    rw [sum_congr rfl e1, sum_comm]
    exact sum_congr rfl fun _ _ => sum_comm
  rw [sw]
  refine sum_congr rfl fun l _ => sum_congr rfl fun m _ => ?_
  rw [fusedStrength_eq, mul_sum, mul_sum, mul_sum]
  refine sum_congr rfl fun a _ => ?_
  rw [mul_sum, mul_sum, mul_sum]

/-! ## The parameters -/

theorem fusedInitArray_eq (distribution : String) (hd : distribution ∈ ["truncated_normal", "normal", "uniform"])
    (draws : String → ℕ → ℕ → ℝ) (scale : ℕ → ℝ) (mask : ℕ → Bool) :
    fusedInitArray distribution draws scale mask = .ok fun l f =>
      if mask l then Real.sqrt (scale l) * (unitFactor distribution * draws distribution l f) else 0 := by
  unfold fusedInitArray fusedTensorInit
  simp only [randomEntry_eq distribution _ _ hd]

/-- the initialised parameters -/
theorem fusedInit_eq (distribution : String) (hd : distribution ∈ ["truncated_normal", "normal", "uniform"])
    (draws : String → String → ℕ → ℕ → ℝ) (cfg : TensorCfg) (x y : Feat) :
    ∃ K, fusedInit distribution draws cfg x y = .ok K ∧ ∀ l f,
      let u := fun name => unitFactor distribution * draws name distribution l f
      let s := Real.sqrt (fusedVarIn x.L y.L (matrixDegree cfg x y))
      let t := Real.sqrt (fusedVarOut (chan x.pseudo) (chan y.pseudo) x.L y.L l)
      K.e1 l f = (if fusedMaskIn (chan x.pseudo) false l then s * u "kernel_e1" else 0) ∧
      K.o1 l f = (if fusedMaskIn (chan x.pseudo) true l then s * u "kernel_o1" else 0) ∧
      K.e2 l f = (if fusedMaskIn (chan y.pseudo) false l then s * u "kernel_e2" else 0) ∧
      K.o2 l f = (if fusedMaskIn (chan y.pseudo) true l then s * u "kernel_o2" else 0) ∧
      K.eee l f = t * u "kernel_eee" ∧ K.ooe l f = t * u "kernel_ooe" ∧
      K.eoo l f = (if fusedMaskOut (chan x.pseudo) (chan y.pseudo) l then t * u "kernel_eoo" else 0) ∧
      K.oeo l f = (if fusedMaskOut (chan x.pseudo) (chan y.pseudo) l then t * u "kernel_oeo" else 0) := by
  unfold fusedInit
  simp only [fusedInitArray_eq distribution hd]
  exact ⟨_, rfl, fun l f => ⟨rfl, rfl, rfl, rfl, by simp, by simp, rfl, rfl⟩⟩

/-- names of parameters -/
def name1 (p : ℕ) : String := if p = 0 then "kernel_e1" else "kernel_o1"
def name2 (q : ℕ) : String := if q = 0 then "kernel_e2" else "kernel_o2"
def name3 (p q : ℕ) : String :=
  if p = 0 then (if q = 0 then "kernel_eee" else "kernel_eoo") else (if q = 0 then "kernel_oeo" else "kernel_ooe")

theorem names_ne (p q : ℕ) : name1 p ≠ name2 q ∧ name1 p ≠ name3 p q ∧ name2 q ≠ name3 p q := by
  unfold name1 name2 name3
  split_ifs <;> decide

/-- the mask of a component which is stored -/
theorem fusedMaskIn_parOf {ps : Bool} {p : ℕ} (hp : p < chan ps) (l : ℕ) (b : Bool) (hb : b = decide (parOf ps p l ≠ 0)) :
    fusedMaskIn (chan ps) b (deg l) = true := by
  unfold fusedMaskIn parOf at *
  cases ps
  · simp only [chan, Bool.false_eq_true, if_false] at hb ⊢
    subst hb
    rcases Nat.mod_two_eq_zero_or_one (deg l) with h | h <;> simp [h] <;> omega
  · simp [chan]

/-! ## Moments -/

/-- the product of three independent random numbers -/
theorem product_moments {Ω ι : Type*} [MeasurableSpace Ω] {P : Measure Ω} [IsProbabilityMeasure P] (c : ℝ) (d : Ω → ι → ℝ)
    (hm : ∀ k, Measurable fun ω => d ω k) (hi : iIndepFun (fun k ω => d ω k) P)
    (hd : ∀ k, Integrable (fun ω => (c * d ω k) ^ 2) P ∧ ∫ ω, c * d ω k ∂P = 0 ∧ ∫ ω, (c * d ω k) ^ 2 ∂P = 1)
    {i j k : ι} (hij : i ≠ j) (hik : i ≠ k) (hjk : j ≠ k) :
    MemLp (fun ω => c * d ω i * (c * d ω j) * (c * d ω k)) 2 P ∧ ∫ ω, c * d ω i * (c * d ω j) * (c * d ω k) ∂P = 0 ∧
      ∫ ω, (c * d ω i * (c * d ω j) * (c * d ω k)) ^ 2 ∂P = 1 := by
  set u : ι → Ω → ℝ := fun k ω => c * d ω k with hu
  have um : ∀ k, Measurable (u k) := fun k => (hm k).const_mul c
  have ui : iIndepFun u P := hi.comp (fun _ => fun x => c * x) (fun _ => by fun_prop)
  have hL : ∀ k, MemLp (u k) 2 P := fun k => by
    rw [memLp_two_iff_integrable_sq (um k).aestronglyMeasurable]
    exact (hd k).1
  have hint : ∀ k, Integrable (u k) P := fun k => (hL k).integrable (by norm_num)
  have h2 : IndepFun (u i) (u j) P := ui.indepFun hij
  have h3 : IndepFun (fun ω => (u i ω, u j ω)) (u k) P := ui.indepFun_prodMk um i j k hik hjk
  have h3a : IndepFun (fun ω => u i ω * u j ω) (u k) P :=
    h3.comp (φ := fun x : ℝ × ℝ => x.1 * x.2) (ψ := fun x => x) (by fun_prop) measurable_id'
  have h2s : IndepFun (fun ω => u i ω ^ 2) (fun ω => u j ω ^ 2) P :=
    h2.comp (φ := fun x : ℝ => x ^ 2) (ψ := fun x : ℝ => x ^ 2) (by fun_prop) (by fun_prop)
  have h3s : IndepFun (fun ω => u i ω ^ 2 * u j ω ^ 2) (fun ω => u k ω ^ 2) P :=
    h3.comp (φ := fun x : ℝ × ℝ => x.1 ^ 2 * x.2 ^ 2) (ψ := fun x : ℝ => x ^ 2) (by fun_prop) (by fun_prop)
  have s2 : Integrable (fun ω => u i ω ^ 2 * u j ω ^ 2) P := h2s.integrable_mul (hd i).1 (hd j).1
  have s3 : Integrable (fun ω => u i ω ^ 2 * u j ω ^ 2 * u k ω ^ 2) P := h3s.integrable_mul s2 (hd k).1
  have es : (fun ω => (u i ω * u j ω * u k ω) ^ 2) = fun ω => u i ω ^ 2 * u j ω ^ 2 * u k ω ^ 2 := by
    funext ω; ring
  have m3 : Measurable fun ω => u i ω * u j ω * u k ω := ((um i).mul (um j)).mul (um k)
  refine ⟨?_, ?_, ?_⟩
  · rw [memLp_two_iff_integrable_sq m3.aestronglyMeasurable]
    change Integrable (fun ω => (u i ω * u j ω * u k ω) ^ 2) P
    rw [es]
    exact s3
  · change ∫ ω, u i ω * u j ω * u k ω ∂P = 0
    rw [h3a.integral_fun_mul_eq_mul_integral ((um i).mul (um j)).aestronglyMeasurable (um k).aestronglyMeasurable, (hd k).2.1, mul_zero]
  · change ∫ ω, (u i ω * u j ω * u k ω) ^ 2 ∂P = 1
    rw [es, h3s.integral_fun_mul_eq_mul_integral s2.1 (hd k).1.1, h2s.integral_fun_mul_eq_mul_integral (hd i).1.1 (hd j).1.1]
    have g : ∀ k, ∫ ω, u k ω ^ 2 ∂P = 1 := fun k => (hd k).2.2
    rw [g, g, g]
    norm_num

/-- the strength of all couplings which contribute to a component of the output -/
def pathStrength (cart : Bool) (lam : ℕ) (ps : Bool) (L : ℕ) (qs : Bool) (M R n : ℕ) : ℝ :=
  ∑ p ∈ range (chan ps), ∑ l ∈ range ((L + 1) ^ 2), ∑ q ∈ range (chan qs), ∑ m ∈ range ((M + 1) ^ 2),
    if (parOf ps p l + parOf qs q m) % 2 = R then fusedStrength cart lam l m n ^ 2 else 0

theorem fusedVarIn_nonneg (L M lam : ℕ) : 0 ≤ fusedVarIn L M lam := by
  unfold fusedVarIn
  positivity

theorem fusedVarOut_nonneg (a b L M l : ℕ) : 0 ≤ fusedVarOut a b L M l := by
  unfold fusedVarOut
  split_ifs <;> norm_num

variable {Ω : Type*} [MeasurableSpace Ω] {P : Measure Ω} [IsProbabilityMeasure P] {cart : Bool} {cg : ℕ → ℕ → ℕ → ℝ}
  {cfg : TensorCfg} {distribution : String} {ps : Bool} {L : ℕ} {qs : Bool} {M F : ℕ} {v w : Ω → ℕ → ℕ → ℕ → ℝ}
  {d : Ω → String × ℕ × ℕ → ℝ} {Z : Ω → Feat}

/-- the moments of a component of the output -/
theorem fused_moments (hcg : LibraryCG cart cg) (hd : distribution ∈ ["truncated_normal", "normal", "uniform"])
    (h : FusedAtInit P cg cfg distribution ps L qs M F v w d Z) {L' : ℕ} (hL' : cfg.maxDegree.getD (max L M) = L') :
    L' ≤ L + M ∧ ∃ ps' : Bool, (∀ ω, (Z ω).pseudo = ps' ∧ (Z ω).L = L' ∧ (Z ω).F = F) ∧
      (ps' = true → ps = false → qs = false → L ≠ 0 ∧ M ≠ 0) ∧
      ∀ r < chan ps', ∀ n < (L' + 1) ^ 2, ∀ f < F,
        Integrable (fun ω => ((Z ω).val r n f) ^ 2) P ∧ ∫ ω, (Z ω).val r n f ∂P = 0 ∧
        ∫ ω, ((Z ω).val r n f) ^ 2 ∂P =
          if ps = false ∧ qs = false ∧ n = 0 ∧ r = 1 then 0 else
          fusedVarIn L M ((max (max L M) L' + 1) / 2) ^ 2 * fusedVarOut (chan ps) (chan qs) L M (deg n) *
            pathStrength cart ((max (max L M) L' + 1) / 2) ps L qs M (parOf ps' r n) n := by
  have hcg' := libraryCG_eq hcg
  subst hcg'
  choose K hK hZ using h.output
  set ps' : Bool := outPseudo cfg ⟨ps, L, F, fun _ _ _ => 0⟩ ⟨qs, M, F, fun _ _ _ => 0⟩ with hps'
  have hne : Nonempty Ω := by
    by_contra hn
    rw [not_nonempty_iff] at hn
    have h1 : P Set.univ = 1 := measure_univ
    rw [Set.univ_eq_empty_iff.2 hn] at h1
    simp at h1
  have hL : L' ≤ L + M := by
    have := (fused_ok (hZ hne.some)).1
    rw [← hL']
    exact this
  set lam := (max (max L M) L' + 1) / 2 with hlam
  have hlam' : ∀ ω, matrixDegree cfg ⟨ps, L, F, v ω⟩ ⟨qs, M, F, w ω⟩ = lam := by
    intro ω
    unfold matrixDegree fusedM outDegree
    simp only [hL', hlam]
  set s := Real.sqrt (fusedVarIn L M lam) with hs
  have hK' : ∀ ω l f,
      let u := fun name => unitFactor distribution * d ω (name, l, f)
      let t := Real.sqrt (fusedVarOut (chan ps) (chan qs) L M l)
      (K ω).e1 l f = (if fusedMaskIn (chan ps) false l then s * u "kernel_e1" else 0) ∧
      (K ω).o1 l f = (if fusedMaskIn (chan ps) true l then s * u "kernel_o1" else 0) ∧
      (K ω).e2 l f = (if fusedMaskIn (chan qs) false l then s * u "kernel_e2" else 0) ∧
      (K ω).o2 l f = (if fusedMaskIn (chan qs) true l then s * u "kernel_o2" else 0) ∧
      (K ω).eee l f = t * u "kernel_eee" ∧ (K ω).ooe l f = t * u "kernel_ooe" ∧
      (K ω).eoo l f = (if fusedMaskOut (chan ps) (chan qs) l then t * u "kernel_eoo" else 0) ∧
      (K ω).oeo l f = (if fusedMaskOut (chan ps) (chan qs) l then t * u "kernel_oeo" else 0) := by
    intro ω l f
    obtain ⟨K', h1, h2⟩ := fusedInit_eq distribution hd (fun name _ l f => d ω (name, l, f)) cfg ⟨ps, L, F, v ω⟩ ⟨qs, M, F, w ω⟩
    rw [hK ω] at h1
    injection h1 with h1
    subst h1
    have := h2 l f
    rw [hlam'] at this
    exact this
  have hZ' : ∀ ω, (Z ω).pseudo = ps' ∧ (Z ω).L = L' ∧ (Z ω).F = F ∧ ∀ r n f, comp (Z ω) r n f =
        if r < 2 ∧ n < (L' + 1) ^ 2 ∧ (ps' = true ∨ r = deg n % 2) then
          fusedCoupled (fun p l => if p = 0 then (K ω).e1 l f else (K ω).o1 l f)
            (fun q l => if q = 0 then (K ω).e2 l f else (K ω).o2 l f)
            (fun p q l => if p = 0 then (if q = 0 then (K ω).eee l f else (K ω).eoo l f)
              else (if q = 0 then (K ω).oeo l f else (K ω).ooe l f))
            (cgTensor cart) lam ⟨ps, L, F, v ω⟩ ⟨qs, M, F, w ω⟩ r n f
        else 0 := by
    intro ω
    obtain ⟨z, h0, h1, h2, h3, h4⟩ := C16_fused cfg (K ω) (cgTensor cart) ⟨ps, L, F, v ω⟩ ⟨qs, M, F, w ω⟩
      (by rw [hL']; exact hL) rfl
    rw [hZ ω] at h0
    injection h0 with h0
    subst h0
    have hp : (Z ω).pseudo = ps' := by
      rw [Bool.eq_iff_iff, h3, hps', outPseudo_iff]
    have h1' : (Z ω).L = L' := by rw [h1, hL']
    refine ⟨hp, h1', h2, fun r n f => ?_⟩
    rw [h4, hp, h1']
  refine ⟨hL, ps', fun ω => ⟨(hZ' ω).1, (hZ' ω).2.1, (hZ' ω).2.2.1⟩, ?_, ?_⟩
  · intro h1 h2 h3
    rw [hps', outPseudo_iff] at h1
    simp only [h2, h3, true_and, not_or] at h1
    exact ⟨h1.2.1, h1.2.2.1⟩
  intro r hr n hn f hf
  have hchan : ∀ b, chan b = 1 ∨ chan b = 2 := by decide
  set R := parOf ps' r n with hRdef
  have hR2 : R < 2 := parOf_lt hr n
  set t := Real.sqrt (fusedVarOut (chan ps) (chan qs) L M (deg n)) with ht
  set E : Prop := ps = false ∧ qs = false ∧ n = 0 ∧ r = 1 with hE
  set A : Finset (ℕ × ℕ) := range (chan ps) ×ˢ range ((L + 1) ^ 2) with hA
  set B : Finset (ℕ × ℕ) := range (chan qs) ×ˢ range ((M + 1) ^ 2) with hB
  set U : (ℕ × ℕ) × (ℕ × ℕ) → Ω → ℝ := fun k ω =>
    unitFactor distribution * d ω (name1 (parOf ps k.1.1 k.1.2), deg k.1.2, f) *
      (unitFactor distribution * d ω (name2 (parOf qs k.2.1 k.2.2), deg k.2.2, f)) *
      (unitFactor distribution * d ω (name3 (parOf ps k.1.1 k.1.2) (parOf qs k.2.1 k.2.2), deg n, f)) with hU
  set c : ℕ × ℕ → ℕ × ℕ → ℝ := fun a b =>
    if (parOf ps a.1 a.2 + parOf qs b.1 b.2) % 2 = R ∧ ¬ E then s * s * t * fusedStrength cart lam a.2 b.2 n else 0 with hc
  have hdeg0 : deg n = 0 ↔ n = 0 := by
    rw [deg_eq_iff]
    constructor
    · intro h; have := h.2; simp at this; exact this
    · rintro rfl; simp
  have hmaskE : ∀ P Q, (P + Q) % 2 = R → R = 1 → (fusedMaskOut (chan ps) (chan qs) (deg n) = true ↔ ¬ E) := by
    intro P Q hPQ hR1
    have hr1 : n = 0 → r = 1 := by
      intro h0
      subst h0
      rw [hRdef] at hR1
      unfold parOf at hR1
      rw [show deg 0 = 0 by decide +kernel] at hR1
      split_ifs at hR1
      · exact hR1
    unfold fusedMaskOut
    rw [hE]
    cases ps <;> cases qs <;> simp [chan, hdeg0]
    exact ⟨fun h h0 => absurd h0 h, fun h h0 => h h0 (hr1 h0)⟩
  have hval : ∀ ω, (Z ω).val r n f = ∑ a ∈ A, ∑ b ∈ B, v ω a.1 a.2 f * w ω b.1 b.2 f * (c a b * U (a, b) ω) := by
    intro ω
    obtain ⟨z1, z2, z3, z4⟩ := hZ' ω
    rw [val_comp (Z ω) f (by rw [z1]; exact hr) (by rw [z2]; exact hn), z1, z4, if_pos ⟨hR2, hn, by
      unfold parOf
      cases ps' <;> simp⟩, fusedCoupled_eq, hA, hB, sum_product]
    refine sum_congr rfl fun p hp => sum_congr rfl fun l hl => ?_
    rw [sum_product]
    refine sum_congr rfl fun q hq => sum_congr rfl fun m hm => ?_
    rw [mem_range] at hp hl hq hm
    dsimp only at hp hq hl hm ⊢
    congr 1
    simp only [hc, hU]
    have hP2 := parOf_lt hp l
    have hQ2 := parOf_lt hq m
    by_cases hPQ : (parOf ps p l + parOf qs q m) % 2 = R
    swap
    · rw [if_neg hPQ, if_neg (fun h => hPQ h.1), zero_mul]
    rw [if_pos hPQ]
    have k1 : (if parOf ps p l = 0 then (K ω).e1 (deg l) f else (K ω).o1 (deg l) f) =
        s * (unitFactor distribution * d ω (name1 (parOf ps p l), deg l, f)) := by
      have hk := hK' ω (deg l) f
      by_cases h0 : parOf ps p l = 0
      · rw [if_pos h0, hk.1, if_pos (fusedMaskIn_parOf hp l false (by simp [h0]))]
        simp [name1, h0]
      · rw [if_neg h0, hk.2.1, if_pos (fusedMaskIn_parOf hp l true (by simp [h0]))]
        simp [name1, h0]
    have k2 : (if parOf qs q m = 0 then (K ω).e2 (deg m) f else (K ω).o2 (deg m) f) =
        s * (unitFactor distribution * d ω (name2 (parOf qs q m), deg m, f)) := by
      have hk := hK' ω (deg m) f
      by_cases h0 : parOf qs q m = 0
      · rw [if_pos h0, hk.2.2.1, if_pos (fusedMaskIn_parOf hq m false (by simp [h0]))]
        simp [name2, h0]
      · rw [if_neg h0, hk.2.2.2.1, if_pos (fusedMaskIn_parOf hq m true (by simp [h0]))]
        simp [name2, h0]
    have k3 : (if parOf ps p l = 0 then (if parOf qs q m = 0 then (K ω).eee (deg n) f else (K ω).eoo (deg n) f)
        else (if parOf qs q m = 0 then (K ω).oeo (deg n) f else (K ω).ooe (deg n) f)) =
        if E then 0 else t * (unitFactor distribution * d ω (name3 (parOf ps p l) (parOf qs q m), deg n, f)) := by
      have hk := hK' ω (deg n) f
      have hr1 : E → R = 1 := by
        intro hE'
        obtain ⟨_, _, _, hr'⟩ := hE'
        subst hr'
        rw [hRdef]
        unfold parOf
        cases hps'' : ps'
        · rw [hps''] at hr
          simp [chan] at hr
        · simp
      by_cases h0 : parOf ps p l = 0 <;> by_cases h1 : parOf qs q m = 0
      · rw [if_pos h0, if_pos h1, if_neg (fun hE' => by have := hr1 hE'; omega), hk.2.2.2.2.1]
        simp [name3, h0, h1, ht]
      · rw [if_pos h0, if_neg h1, hk.2.2.2.2.2.2.1]
        have hm' := hmaskE _ _ hPQ (by omega)
        by_cases hE' : E
        · rw [if_pos hE', if_neg (fun h => (hm'.1 h) hE')]
        · rw [if_neg hE', if_pos (hm'.2 hE')]
          simp [name3, h0, h1, ht]
      · rw [if_neg h0, if_pos h1, hk.2.2.2.2.2.2.2]
        have hm' := hmaskE _ _ hPQ (by omega)
        by_cases hE' : E
        · rw [if_pos hE', if_neg (fun h => (hm'.1 h) hE')]
        · rw [if_neg hE', if_pos (hm'.2 hE')]
          simp [name3, h0, h1, ht]
      · rw [if_neg h0, if_neg h1, if_neg (fun hE' => by have := hr1 hE'; omega), hk.2.2.2.2.2.1]
        simp [name3, h0, h1, ht]
    rw [k1, k2, k3]
    by_cases hE' : E
    · rw [if_pos hE', if_neg (fun h => h.2 hE')]
      ring
    · rw [if_neg hE', if_pos ⟨hPQ, hE'⟩]
      ring
  have hmeas : ∀ k, Measurable (fun ω => d ω k) := fun k => (measurable_pi_apply k).comp h.measurable
  obtain ⟨b1, b2, b3, b4⟩ := bilinear_moments (P := P) A B (fun a ω => v ω a.1 a.2 f) (fun b ω => w ω b.1 b.2 f) U c
    (by
      have hin : ∀ a ∈ A, (a.1, a.2, f) ∈ {t : ℕ × ℕ × ℕ | t.1 < chan ps ∧ t.2.1 < (L + 1) ^ 2 ∧ t.2.2 < F} := by
        intro a ha
        rw [hA, mem_product, mem_range, mem_range] at ha
        exact ⟨ha.1, ha.2, hf⟩
      refine ⟨fun a ha => h.input1.integrable _ (hin a ha), fun a ha => h.input1.mean _ (hin a ha),
        fun a ha b hb => h.input1.integrable_mul _ (hin a ha) _ (hin b hb), fun a ha b hb => ?_⟩
      rw [h.input1.covariance _ (hin a ha) _ (hin b hb)]
      congr 1
      simp [Prod.ext_iff])
    (by
      have hin : ∀ a ∈ B, (a.1, a.2, f) ∈ {t : ℕ × ℕ × ℕ | t.1 < chan qs ∧ t.2.1 < (M + 1) ^ 2 ∧ t.2.2 < F} := by
        intro a ha
        rw [hB, mem_product, mem_range, mem_range] at ha
        exact ⟨ha.1, ha.2, hf⟩
      refine ⟨fun a ha => h.input2.integrable _ (hin a ha), fun a ha => h.input2.mean _ (hin a ha),
        fun a ha b hb => h.input2.integrable_mul _ (hin a ha) _ (hin b hb), fun a ha b hb => ?_⟩
      rw [h.input2.covariance _ (hin a ha) _ (hin b hb)]
      congr 1
      simp [Prod.ext_iff])
    (by
      intro a _ b _
      obtain ⟨n1, n2, n3⟩ := names_ne (parOf ps a.1 a.2) (parOf qs b.1 b.2)
      exact product_moments (unitFactor distribution) d hmeas h.indep_draws h.draws
        (fun e => n1 (congrArg Prod.fst e)) (fun e => n2 (congrArg Prod.fst e)) (fun e => n3 (congrArg Prod.fst e)))
    (h.indep_inputs.comp (φ := fun (x : ℕ → ℕ → ℕ → ℝ) (a : ℕ × ℕ) => x a.1 a.2 f)
      (ψ := fun (x : ℕ → ℕ → ℕ → ℝ) (a : ℕ × ℕ) => x a.1 a.2 f) (by fun_prop) (by fun_prop))
    (h.indep_params.comp (φ := fun (x : (ℕ → ℕ → ℕ → ℝ) × (ℕ → ℕ → ℕ → ℝ)) =>
        ((fun (a : ℕ × ℕ) => x.1 a.1 a.2 f, fun (a : ℕ × ℕ) => x.2 a.1 a.2 f) : (ℕ × ℕ → ℝ) × (ℕ × ℕ → ℝ)))
      (ψ := fun (x : String × ℕ × ℕ → ℝ) (k : (ℕ × ℕ) × (ℕ × ℕ)) =>
        unitFactor distribution * x (name1 (parOf ps k.1.1 k.1.2), deg k.1.2, f) *
        (unitFactor distribution * x (name2 (parOf qs k.2.1 k.2.2), deg k.2.2, f)) *
        (unitFactor distribution * x (name3 (parOf ps k.1.1 k.1.2) (parOf qs k.2.1 k.2.2), deg n, f)))
      (by fun_prop) (by fun_prop))
  simp only [← hval] at b1 b2 b3 b4
  refine ⟨b3, b2, ?_⟩
  rw [b4]
  have hsq : ∀ a b, c a b ^ 2 = if E then 0 else fusedVarIn L M lam ^ 2 * fusedVarOut (chan ps) (chan qs) L M (deg n) *
      (if (parOf ps a.1 a.2 + parOf qs b.1 b.2) % 2 = R then fusedStrength cart lam a.2 b.2 n ^ 2 else 0) := by
    intro a b
    have e1 : s ^ 2 = fusedVarIn L M lam := Real.sq_sqrt (fusedVarIn_nonneg _ _ _)
    have e2 : t ^ 2 = fusedVarOut (chan ps) (chan qs) L M (deg n) := Real.sq_sqrt (fusedVarOut_nonneg _ _ _ _ _)
    simp only [hc]
    by_cases hE' : E
    · rw [if_neg (fun h => h.2 hE'), if_pos hE']
      norm_num
    · rw [if_neg hE']
      by_cases hPQ : (parOf ps a.1 a.2 + parOf qs b.1 b.2) % 2 = R
      · rw [if_pos ⟨hPQ, hE'⟩, if_pos hPQ, ← e1, ← e2]
        ring
      · rw [if_neg (fun h => hPQ h.1), if_neg hPQ]
        norm_num
  simp only [hsq]
  by_cases hE' : E
  · simp only [if_pos hE', sum_const_zero]
    rw [if_pos (show ps = false ∧ qs = false ∧ n = 0 ∧ r = 1 from hE')]
  · simp only [if_neg hE']
    rw [if_neg (show ¬ (ps = false ∧ qs = false ∧ n = 0 ∧ r = 1) from hE')]
    unfold pathStrength
    rw [hA, hB, sum_product, mul_sum]
    refine sum_congr rfl fun p _ => ?_
    rw [mul_sum]
    refine sum_congr rfl fun l _ => ?_
    rw [sum_product, mul_sum]
    refine sum_congr rfl fun q _ => ?_
    rw [mul_sum]

/-! ## Counting couplings -/

theorem sum_strength (cart : Bool) (lam L M n : ℕ) :
    ∑ l ∈ range ((L + 1) ^ 2), ∑ m ∈ range ((M + 1) ^ 2), fusedStrength cart lam l m n ^ 2 = totalStrength cart lam L M n := by
  rw [sum_by_degree']
  unfold totalStrength degreeStrength
  refine sum_congr rfl fun a _ => ?_
  rw [sum_comm (s := range (M + 1))]
  exact sum_congr rfl fun i _ => sum_by_degree' M _

theorem pathStrength_both (cart : Bool) (lam L M n : ℕ) {R : ℕ} (hR : R < 2) :
    pathStrength cart lam true L true M R n = 2 * totalStrength cart lam L M n := by
  unfold pathStrength
  rw [← sum_strength]
  simp only [parOf, chan, if_true, sum_range_succ, sum_range_zero, zero_add]
  obtain rfl | rfl : R = 0 ∨ R = 1 := by omega
  · norm_num
    ring
  · norm_num
    ring

theorem pathStrength_one (cart : Bool) (lam L M n : ℕ) {R : ℕ} (hR : R < 2) (ps : Bool) :
    pathStrength cart lam ps L (!ps) M R n = totalStrength cart lam L M n := by
  unfold pathStrength
  rw [← sum_strength]
  have key : ∀ k : ℕ, ∀ T : ℝ, (if (0 + k % 2) % 2 = R then T else 0) + (if (1 + k % 2) % 2 = R then T else 0) = T := by
    intro k T
    rcases Nat.mod_two_eq_zero_or_one k with h | h <;> obtain rfl | rfl : R = 0 ∨ R = 1 := by omega
    all_goals rw [h]; norm_num
  have key' : ∀ k : ℕ, ∀ T : ℝ, (if (k % 2 + 0) % 2 = R then T else 0) + (if (k % 2 + 1) % 2 = R then T else 0) = T := by
    intro k T
    simp only [add_comm (k % 2)]
    exact key k T
  cases ps
  · simp only [parOf, chan, Bool.not_false, if_true, Bool.false_eq_true, if_false, sum_range_succ, sum_range_zero, zero_add]
    refine sum_congr rfl fun l _ => ?_
    rw [← sum_add_distrib]
    exact sum_congr rfl fun m _ => key' _ _
  · simp only [parOf, chan, Bool.not_true, if_true, Bool.false_eq_true, if_false, sum_range_succ, sum_range_zero, zero_add]
    rw [← sum_add_distrib]
    refine sum_congr rfl fun l _ => ?_
    rw [← sum_add_distrib]
    refine sum_congr rfl fun m _ => ?_
    have := key (deg m) (fusedStrength cart lam l m n ^ 2)
    rwa [zero_add] at this

theorem pathStrength_none (cart : Bool) (lam L M n : ℕ) {R : ℕ} (hR : R < 2) :
    pathStrength cart lam false L false M R n = (totalStrength cart lam L M n + (-1) ^ R * signedStrength cart lam L M n) / 2 := by
  unfold pathStrength
  have hs : ∑ l ∈ range ((L + 1) ^ 2), ∑ m ∈ range ((M + 1) ^ 2), (-1 : ℝ) ^ (deg l + deg m) * fusedStrength cart lam l m n ^ 2 =
      signedStrength cart lam L M n := by
    rw [sum_by_degree']
    unfold signedStrength degreeStrength
    refine sum_congr rfl fun a _ => ?_
    simp only [mul_sum]
    rw [sum_comm (s := range (M + 1))]
    refine sum_congr rfl fun i hi => ?_
    rw [sum_by_degree']
    refine sum_congr rfl fun b _ => sum_congr rfl fun j hj => ?_
    rw [show deg i = a from degreeOf_Ico.1 hi, show deg j = b from degreeOf_Ico.1 hj]
  rw [← sum_strength, ← hs, mul_sum, ← sum_add_distrib, sum_div]
  simp only [parOf, chan, Bool.false_eq_true, if_false, sum_range_one]
  refine sum_congr rfl fun l _ => ?_
  rw [mul_sum, ← sum_add_distrib, sum_div]
  refine sum_congr rfl fun m _ => ?_
  have hk : (-1 : ℝ) ^ (deg l + deg m) = if (deg l % 2 + deg m % 2) % 2 = 0 then 1 else -1 := by
    rw [← Nat.add_mod]
    rcases Nat.even_or_odd (deg l + deg m) with h | h
    · rw [h.neg_one_pow, if_pos (Nat.even_iff.1 h)]
    · rw [h.neg_one_pow, if_neg (by rw [Nat.odd_iff.1 h]; norm_num)]
  rw [hk]
  have h2 : (deg l % 2 + deg m % 2) % 2 < 2 := Nat.mod_lt _ (by norm_num)
  generalize (deg l % 2 + deg m % 2) % 2 = k at h2 ⊢
  obtain rfl | rfl : R = 0 ∨ R = 1 := by omega
  all_goals obtain rfl | rfl : k = 0 ∨ k = 1 := by omega
  all_goals norm_num

theorem fusedVarIn_sq (L M lam : ℕ) : fusedVarIn L M lam ^ 2 * (((min L M : ℕ) + 1) ^ 2 / (2 * lam + 1)) = 1 := by
  unfold fusedVarIn
  have h1 : (0 : ℝ) < 2 * lam + 1 := by positivity
  have h2 : ((min (L + 1) (M + 1) : ℕ) : ℝ) = (min L M : ℕ) + 1 := by
    rw [← Nat.cast_succ]
    congr 1
    omega
  have h3 : (0 : ℝ) < (min L M : ℕ) + 1 := by positivity
  simp only [h2]
  rw [mul_pow, div_pow, Real.sq_sqrt h1.le, div_pow]
  field_simp

theorem deg_le_lam {L M L' n : ℕ} (hn : n < (L' + 1) ^ 2) : deg n ≤ 2 * ((max (max L M) L' + 1) / 2) := by
  have := (deg_le_iff n L').2 hn
  have h2 : L' ≤ max (max L M) L' := le_max_right _ _
  omega

theorem le_lam (L M L' : ℕ) : L ≤ 2 * ((max (max L M) L' + 1) / 2) ∧ M ≤ 2 * ((max (max L M) L' + 1) / 2) := by
  have h1 : L ≤ max (max L M) L' := le_trans (le_max_left _ _) (le_max_left _ _)
  have h2 : M ≤ max (max L M) L' := le_trans (le_max_right _ _) (le_max_left _ _)
  omega

theorem pathStrength_pseudo (cart : Bool) (lam L M n l : ℕ) {R : ℕ} (hR : R < 2) {ps qs : Bool} (h : ps = true ∨ qs = true) :
    fusedVarOut (chan ps) (chan qs) L M l * pathStrength cart lam ps L qs M R n = totalStrength cart lam L M n := by
  cases ps <;> cases qs
  · simp at h
  · have := pathStrength_one cart lam L M n hR false
    rw [Bool.not_false] at this
    rw [this]
    simp [fusedVarOut, chan]
  · have := pathStrength_one cart lam L M n hR true
    rw [Bool.not_true] at this
    rw [this]
    simp [fusedVarOut, chan]
  · rw [pathStrength_both _ _ _ _ _ hR]
    simp [fusedVarOut, chan]

/-- the output has a fixed type -/
theorem fused_type (hcg : LibraryCG cart cg) (hd : distribution ∈ ["truncated_normal", "normal", "uniform"])
    (h : FusedAtInit P cg cfg distribution ps L qs M F v w d Z) :
    cfg.maxDegree.getD (max L M) ≤ L + M ∧ ∃ ps', ∀ ω, (Z ω).pseudo = ps' := by
  obtain ⟨h1, ps', h2, _⟩ := fused_moments hcg hd h rfl
  exact ⟨h1, ps', fun ω => (h2 ω).1⟩

/-- the variance of a component, if one of the inputs contains pseudotensors -/
theorem fused_variance_pseudo (hcg : LibraryCG cart cg) (hd : distribution ∈ ["truncated_normal", "normal", "uniform"])
    (h : FusedAtInit P cg cfg distribution ps L qs M F v w d Z) (ps' : Bool) (hps : ∀ ω, (Z ω).pseudo = ps') {L' : ℕ}
    (hL' : cfg.maxDegree.getD (max L M) = L') (hpq : ps = true ∨ qs = true) {r n f : ℕ} (hr : r < chan ps')
    (hn : n < (L' + 1) ^ 2) (hf : f < F) :
    Integrable (fun ω => ((Z ω).val r n f) ^ 2) P ∧ ∫ ω, (Z ω).val r n f ∂P = 0 ∧
    ∫ ω, ((Z ω).val r n f) ^ 2 ∂P = fusedVarIn L M ((max (max L M) L' + 1) / 2) ^ 2 *
      totalStrength cart ((max (max L M) L' + 1) / 2) L M n := by
  obtain ⟨h1, ps'', h2, _, h3⟩ := fused_moments hcg hd h hL'
  have hne : Nonempty Ω := by
    by_contra hn
    rw [not_nonempty_iff] at hn
    have h1 : P Set.univ = 1 := measure_univ
    rw [Set.univ_eq_empty_iff.2 hn] at h1
    simp at h1
  have e : ps'' = ps' := (h2 hne.some).1.symm.trans (hps hne.some)
  subst e
  obtain ⟨g1, g2, g3⟩ := h3 r hr n hn f hf
  refine ⟨g1, g2, ?_⟩
  rw [g3, if_neg (by rintro ⟨a, b, _⟩; subst a b; simp at hpq), mul_assoc, pathStrength_pseudo _ _ _ _ _ _ (parOf_lt hr n) hpq]

/-- the variance of a component, if no input contains pseudotensors -/
theorem fused_variance_none (hcg : LibraryCG cart cg) (hd : distribution ∈ ["truncated_normal", "normal", "uniform"])
    (h : FusedAtInit P cg cfg distribution ps L qs M F v w d Z) (ps' : Bool) (hps : ∀ ω, (Z ω).pseudo = ps') {L' : ℕ}
    (hL' : cfg.maxDegree.getD (max L M) = L') (hpq : ps = false ∧ qs = false) {r n f : ℕ} (hr : r < chan ps')
    (hn : n < (L' + 1) ^ 2) (hf : f < F) :
    (ps' = true → L ≠ 0 ∧ M ≠ 0) ∧ Integrable (fun ω => ((Z ω).val r n f) ^ 2) P ∧ ∫ ω, (Z ω).val r n f ∂P = 0 ∧
    ∫ ω, ((Z ω).val r n f) ^ 2 ∂P = if n = 0 ∧ r = 1 then 0 else
      (if L = 0 ∨ M = 0 then 1 else if n = 0 then 1 else 2) * (fusedVarIn L M ((max (max L M) L' + 1) / 2) ^ 2 *
        ((totalStrength cart ((max (max L M) L' + 1) / 2) L M n +
          (-1) ^ parOf ps' r n * signedStrength cart ((max (max L M) L' + 1) / 2) L M n) / 2)) := by
  obtain ⟨h1, ps'', h2, h2', h3⟩ := fused_moments hcg hd h hL'
  have hne : Nonempty Ω := by
    by_contra hn
    rw [not_nonempty_iff] at hn
    have h1 : P Set.univ = 1 := measure_univ
    rw [Set.univ_eq_empty_iff.2 hn] at h1
    simp at h1
  have e : ps'' = ps' := (h2 hne.some).1.symm.trans (hps hne.some)
  subst e
  obtain ⟨g1, g2, g3⟩ := h3 r hr n hn f hf
  obtain ⟨rfl, rfl⟩ := hpq
  refine ⟨fun hp => h2' hp rfl rfl, g1, g2, ?_⟩
  have hdeg0 : deg n = 0 ↔ n = 0 := by
    rw [deg_eq_iff]
    constructor
    · intro h; have := h.2; simp at this; exact this
    · rintro rfl; simp
  rw [g3, pathStrength_none _ _ _ _ _ (parOf_lt hr n)]
  simp only [true_and]
  refine if_congr Iff.rfl rfl ?_
  rw [show fusedVarOut (chan false) (chan false) L M (deg n) = if L = 0 ∨ M = 0 then 1 else if n = 0 then 1 else 2 by
    unfold fusedVarOut
    simp [chan, hdeg0]]
  ring

theorem neg_one_pow_parity (b : ℝ) (k : ℕ) (h : k < 2) : (-1) ^ k * b = b ∨ (-1) ^ k * b = -b := by
  obtain rfl | rfl : k = 0 ∨ k = 1 := by omega
  · left; ring
  · right; ring

theorem abs_signedStrength_le (cart : Bool) (lam L M n : ℕ) : |signedStrength cart lam L M n| ≤ totalStrength cart lam L M n := by
  unfold signedStrength totalStrength
  refine (abs_sum_le_sum_abs _ _).trans (sum_le_sum fun a _ => (abs_sum_le_sum_abs _ _).trans (sum_le_sum fun b _ => ?_))
  rw [abs_mul, abs_pow, abs_neg, abs_one, one_pow, one_mul, abs_of_nonneg (degreeStrength_nonneg _ _ _)]

/-- **C85 (mean and bound).** A FusedTensor layer with its default initialisation is applied to random features with mean zero and
unit variance, which are not correlated. Then all components of its output have mean zero, and their variance is at most `1`
if one of the inputs contains pseudotensors, at most `2` otherwise. -/
theorem C85_bound (hcg : LibraryCG cart cg) (hd : distribution ∈ ["truncated_normal", "normal", "uniform"])
    (h : FusedAtInit P cg cfg distribution ps L qs M F v w d Z) (ps' : Bool) (hps : ∀ ω, (Z ω).pseudo = ps') :
    ∀ r < chan ps', ∀ n < (cfg.maxDegree.getD (max L M) + 1) ^ 2, ∀ f < F,
      Integrable (fun ω => ((Z ω).val r n f) ^ 2) P ∧ ∫ ω, (Z ω).val r n f ∂P = 0 ∧
      ∫ ω, ((Z ω).val r n f) ^ 2 ∂P ≤ if ps = true ∨ qs = true then 1 else 2 := by
  intro r hr n hn f hf
  obtain ⟨L', hL'⟩ : ∃ L', cfg.maxDegree.getD (max L M) = L' := ⟨_, rfl⟩
  rw [hL'] at hn
  set lam := (max (max L M) L' + 1) / 2 with hlam
  have hle := le_lam L M L'
  have hT : fusedVarIn L M lam ^ 2 * totalStrength cart lam L M n ≤ 1 := by
    rw [← fusedVarIn_sq L M lam]
    exact mul_le_mul_of_nonneg_left (totalStrength_le hle.1 hle.2 (deg_le_lam hn)) (sq_nonneg _)
  by_cases hpq : ps = true ∨ qs = true
  · obtain ⟨g1, g2, g3⟩ := fused_variance_pseudo hcg hd h ps' hps hL' hpq hr hn hf
    refine ⟨g1, g2, ?_⟩
    rw [if_pos hpq, g3]
    exact hT
  · have hpq' : ps = false ∧ qs = false := by simpa using hpq
    obtain ⟨_, g1, g2, g3⟩ := fused_variance_none hcg hd h ps' hps hL' hpq' hr hn hf
    refine ⟨g1, g2, ?_⟩
    rw [if_neg hpq, g3]
    have hab := abs_le.1 (abs_signedStrength_le cart lam L M n)
    have hS : (totalStrength cart lam L M n + (-1) ^ parOf ps' r n * signedStrength cart lam L M n) / 2 ≤
        totalStrength cart lam L M n := by
      rcases neg_one_pow_parity (signedStrength cart lam L M n) _ (parOf_lt hr n) with e | e <;> rw [e] <;> linarith
    have hV : fusedVarIn L M lam ^ 2 * ((totalStrength cart lam L M n +
        (-1) ^ parOf ps' r n * signedStrength cart lam L M n) / 2) ≤ 1 :=
      (mul_le_mul_of_nonneg_left hS (sq_nonneg _)).trans hT
    split_ifs <;> linarith

/-- **C85 (scalars).** The scalars among the outputs have variance `1`, for all maximum degrees. So have the pseudoscalars, if
one of the inputs contains pseudotensors; otherwise they are zero. -/
theorem C85_scalars (hcg : LibraryCG cart cg) (hd : distribution ∈ ["truncated_normal", "normal", "uniform"])
    (h : FusedAtInit P cg cfg distribution ps L qs M F v w d Z) (ps' : Bool) (hps : ∀ ω, (Z ω).pseudo = ps') :
    ∀ r < chan ps', ∀ f < F, ∫ ω, ((Z ω).val r 0 f) ^ 2 ∂P = if r = 0 ∨ ps = true ∨ qs = true then 1 else 0 := by
  intro r hr f hf
  obtain ⟨L', hL'⟩ : ∃ L', cfg.maxDegree.getD (max L M) = L' := ⟨_, rfl⟩
  have hn : 0 < (L' + 1) ^ 2 := by positivity
  set lam := (max (max L M) L' + 1) / 2 with hlam
  have hle := le_lam L M L'
  by_cases hpq : ps = true ∨ qs = true
  · obtain ⟨g1, g2, g3⟩ := fused_variance_pseudo hcg hd h ps' hps hL' hpq hr hn hf
    rw [if_pos (Or.inr hpq), g3, totalStrength_scalar hle.1 hle.2, fusedVarIn_sq]
  · have hpq' : ps = false ∧ qs = false := by simpa using hpq
    obtain ⟨_, g1, g2, g3⟩ := fused_variance_none hcg hd h ps' hps hL' hpq' hr hn hf
    rw [g3]
    have hr2 : r < 2 := lt_of_lt_of_le hr (by cases ps' <;> simp [chan])
    by_cases hr0 : r = 0
    · subst hr0
      rw [if_neg (by norm_num), if_pos (Or.inl rfl), signedStrength_scalar hle.1 hle.2,
        show parOf ps' 0 0 = 0 by unfold parOf; rw [show deg 0 = 0 by decide +kernel]; simp, pow_zero, one_mul, add_self_div_two,
        totalStrength_scalar hle.1 hle.2, fusedVarIn_sq]
      simp
    · rw [if_pos ⟨rfl, by omega⟩, if_neg (by tauto)]

/-- **C85 (exact, with pseudotensors).** If one of the inputs contains pseudotensors, the larger one of the two maximum degrees
of the inputs is even, and the maximum degree of the output does not exceed it, then all components of the output have
variance `1`. -/
theorem C85_pseudotensors (hcg : LibraryCG cart cg) (hd : distribution ∈ ["truncated_normal", "normal", "uniform"])
    (h : FusedAtInit P cg cfg distribution ps L qs M F v w d Z) (ps' : Bool) (hps : ∀ ω, (Z ω).pseudo = ps')
    (hpq : ps = true ∨ qs = true) (heven : Even (max L M)) (hL' : cfg.maxDegree.getD (max L M) ≤ max L M) :
    ∀ r < chan ps', ∀ n < (cfg.maxDegree.getD (max L M) + 1) ^ 2, ∀ f < F, ∫ ω, ((Z ω).val r n f) ^ 2 ∂P = 1 := by
  intro r hr n hn f hf
  have hlam : max L M = 2 * ((max (max L M) (cfg.maxDegree.getD (max L M)) + 1) / 2) := by
    rw [max_eq_left hL']
    obtain ⟨k, hk⟩ := heven
    omega
  rw [(fused_variance_pseudo hcg hd h ps' hps rfl hpq hr hn hf).2.2, totalStrength_max hlam (deg_le_lam hn), fusedVarIn_sq]

/-- **C85 (exact, without pseudotensors).** If no input contains pseudotensors, both have the same even maximum degree, and the
maximum degree of the output does not exceed it, then all components of the output except for pseudoscalars have variance
`1`. -/
theorem C85_tensors (hcg : LibraryCG cart cg) (hd : distribution ∈ ["truncated_normal", "normal", "uniform"])
    (h : FusedAtInit P cg cfg distribution false L false L F v w d Z) (ps' : Bool) (hps : ∀ ω, (Z ω).pseudo = ps')
    (heven : Even L) (hL0 : L ≠ 0) (hL' : cfg.maxDegree.getD (max L L) ≤ L) :
    ∀ r < chan ps', ∀ n < (cfg.maxDegree.getD (max L L) + 1) ^ 2, ∀ f < F,
      ∫ ω, ((Z ω).val r n f) ^ 2 ∂P = if n = 0 ∧ r = 1 then 0 else 1 := by
  intro r hr n hn f hf
  have hlam : max L L = 2 * ((max (max L L) (cfg.maxDegree.getD (max L L)) + 1) / 2) := by
    rw [max_self] at hL' ⊢
    rw [max_eq_left hL']
    obtain ⟨k, hk⟩ := heven
    omega
  have hd' := deg_le_lam (L := L) (M := L) hn
  rw [(fused_variance_none hcg hd h ps' hps rfl ⟨rfl, rfl⟩ hr hn hf).2.2.2, totalStrength_max hlam hd']
  refine if_ctx_congr Iff.rfl (fun _ => rfl) fun hnr => ?_
  have hV := fusedVarIn_sq L L ((max (max L L) (cfg.maxDegree.getD (max L L)) + 1) / 2)
  have hS : signedStrength cart ((max (max L L) (cfg.maxDegree.getD (max L L)) + 1) / 2) L L n =
      if n = 0 then ((2 * ((max (max L L) (cfg.maxDegree.getD (max L L)) + 1) / 2 : ℕ) + 1 : ℝ)) else 0 := by
    rw [← degreeStrength_signs (cart := cart) hd', ← hlam, max_self]
    rfl
  have hLL : ((min L L : ℕ) + 1 : ℝ) = 2 * ((max (max L L) (cfg.maxDegree.getD (max L L)) + 1) / 2 : ℕ) + 1 := by
    rw [min_self]
    rw [max_self] at hlam
    have := congrArg (Nat.cast (R := ℝ)) hlam
    rw [max_self, this]
    push_cast
    rfl
  rw [if_neg (by tauto)]
  by_cases h0 : n = 0
  · subst h0
    have hr0 : r = 0 := by
      have hr2 : r < 2 := lt_of_lt_of_le hr (by cases ps' <;> simp [chan])
      have : r ≠ 1 := fun h => hnr ⟨rfl, h⟩
      omega
    subst hr0
    rw [hS, if_pos rfl, if_pos rfl, show parOf ps' 0 0 = 0 by unfold parOf; rw [show deg 0 = 0 by decide +kernel]; simp, pow_zero,
      one_mul, one_mul]
    rw [hLL] at hV ⊢
    rw [sq (2 * _ + 1 : ℝ), mul_div_assoc, div_self (by positivity), mul_one] at hV ⊢
    rw [add_self_div_two]
    exact hV
  · rw [hS, if_neg h0, if_neg h0, mul_zero, add_zero]
    linarith

/-- **C85 (exact, scalar inputs).** If one of the inputs has maximum degree `0`, then all components of the output have variance
`1`. -/
theorem C85_scalar_input (hcg : LibraryCG cart cg) (hd : distribution ∈ ["truncated_normal", "normal", "uniform"])
    (h : FusedAtInit P cg cfg distribution ps L qs M F v w d Z) (ps' : Bool) (hps : ∀ ω, (Z ω).pseudo = ps')
    (h0 : L = 0 ∨ M = 0) :
    ∀ r < chan ps', ∀ n < (cfg.maxDegree.getD (max L M) + 1) ^ 2, ∀ f < F, ∫ ω, ((Z ω).val r n f) ^ 2 ∂P = 1 := by
  intro r hr n hn f hf
  obtain ⟨L', hL'⟩ : ∃ L', cfg.maxDegree.getD (max L M) = L' := ⟨_, rfl⟩
  have hLM := (fused_type hcg hd h).1
  rw [hL'] at hn hLM
  have hdn := (deg_le_iff n L').2 hn
  set lam := (max (max L M) L' + 1) / 2 with hlam
  have hle := le_lam L M L'
  have hV := fusedVarIn_sq L M lam
  have hmin : min L M = 0 := by omega
  rw [hmin] at hV
  have hT : totalStrength cart lam L M n = 1 / (2 * lam + 1) := by
    rcases h0 with rfl | rfl
    · exact totalStrength_zero hle.2 (by omega)
    · rw [totalStrength_swap]
      exact totalStrength_zero hle.1 (by omega)
  have hS : signedStrength cart lam L M n = (-1) ^ deg n / (2 * lam + 1) := by
    rcases h0 with rfl | rfl
    · exact signedStrength_zero hle.2 (by omega)
    · rw [signedStrength_swap]
      exact signedStrength_zero hle.1 (by omega)
  norm_num at hV
  by_cases hpq : ps = true ∨ qs = true
  · rw [(fused_variance_pseudo hcg hd h ps' hps hL' hpq hr hn hf).2.2, hT, one_div]
    exact hV
  · have hpq' : ps = false ∧ qs = false := by simpa using hpq
    obtain ⟨g0, g1, g2, g3⟩ := fused_variance_none hcg hd h ps' hps hL' hpq' hr hn hf
    have hp' : ps' = false := by
      by_contra hp
      have := g0 (by simpa using hp)
      tauto
    subst hp'
    have hr0 : r = 0 := by simpa [chan] using hr
    subst hr0
    rw [g3, if_neg (by norm_num), if_pos h0, hT, hS, show parOf false 0 n = deg n % 2 from rfl]
    have e : (-1 : ℝ) ^ (deg n % 2) * ((-1) ^ deg n / (2 * lam + 1)) = 1 / (2 * lam + 1) := by
      rw [← neg_one_pow_eq_pow_mod_two, ← mul_div_assoc, ← mul_pow]
      norm_num
    rw [e, add_self_div_two, one_mul, one_div]
    exact hV

/-- **C85 (not exact).** The variance of the features is not preserved in general: it is `11 / 16` for vectors if both inputs
and the output have maximum degree `1` and one of the inputs contains pseudotensors. If none does, it is `1` for (proper)
vectors, but `3 / 8` for pseudovectors. -/
theorem C85_vectors (hcg : LibraryCG cart cg) (hd : distribution ∈ ["truncated_normal", "normal", "uniform"])
    (h : FusedAtInit P cg cfg distribution ps 1 qs 1 F v w d Z) (ps' : Bool) (hps : ∀ ω, (Z ω).pseudo = ps')
    (hL' : cfg.maxDegree.getD (max 1 1) = 1) :
    ∀ r < chan ps', ∀ n, degreeOf n = 1 → ∀ f < F, ∫ ω, ((Z ω).val r n f) ^ 2 ∂P =
      if ps = true ∨ qs = true then 11 / 16 else if ps' = true ∧ r = 0 then 3 / 8 else 1 := by
  intro r hr n hn1 f hf
  have hdn : deg n = 1 := hn1
  have hn : n < (1 + 1) ^ 2 := (deg_le_iff n 1).1 (by omega)
  obtain ⟨s1, s2⟩ := strength_one (cart := cart) hdn
  have hlam : (max (max 1 1) 1 + 1) / 2 = 1 := by norm_num
  have hV := fusedVarIn_sq 1 1 1
  norm_num at hV
  have hV' : fusedVarIn 1 1 1 ^ 2 = 3 / 4 := by linarith
  have hn0 : n ≠ 0 := by rintro rfl; revert hdn; decide +kernel
  by_cases hpq : ps = true ∨ qs = true
  · rw [if_pos hpq, (fused_variance_pseudo hcg hd h ps' hps hL' hpq hr hn hf).2.2, hlam, s1, hV']
    norm_num
  · have hpq' : ps = false ∧ qs = false := by simpa using hpq
    rw [if_neg hpq, (fused_variance_none hcg hd h ps' hps hL' hpq' hr hn hf).2.2.2, hlam, s1, s2, hV', if_neg (fun h => hn0 h.1),
      if_neg (by norm_num), if_neg hn0]
    unfold parOf
    rw [hdn]
    have hr2 : r < 2 := lt_of_lt_of_le hr (by cases ps' <;> simp [chan])
    cases ps'
    · norm_num
    · obtain rfl | rfl : r = 0 ∨ r = 1 := by omega
      · norm_num
      · norm_num

/-- The hypotheses are met for all sizes for which the layer is defined: by independent standard normal random numbers. -/
example (cart : Bool) (cfg : TensorCfg) (ps : Bool) (L : ℕ) (qs : Bool) (M F : ℕ) (hL : cfg.maxDegree.getD (max L M) ≤ L + M) :
    ∃ (Ω : Type) (_ : MeasurableSpace Ω) (P : Measure Ω) (_ : IsProbabilityMeasure P) (v w : Ω → ℕ → ℕ → ℕ → ℝ)
      (d : Ω → String × ℕ × ℕ → ℝ) (Z : Ω → Feat),
      FusedAtInit P (cgTensor cart) cfg "normal" ps L qs M F v w d Z := by
  set A : Measure (ℕ × ℕ × ℕ → ℝ) := Measure.infinitePi fun _ => gaussianReal 0 1 with hA
  set B : Measure (String × ℕ × ℕ → ℝ) := Measure.infinitePi fun _ => gaussianReal 0 1 with hB
  have hu : unitFactor "normal" = 1 := by unfold unitFactor; simp
  have sA := fun s => isStandard_gaussian (ℕ × ℕ × ℕ) s
  have sB := isStandard_gaussian (String × ℕ × ℕ) Set.univ
  have p1 : MeasurePreserving (fun ω : ((ℕ × ℕ × ℕ → ℝ) × (ℕ × ℕ × ℕ → ℝ)) × (String × ℕ × ℕ → ℝ) => ω.1.1)
      ((A.prod A).prod B) A := measurePreserving_fst.comp measurePreserving_fst
  have p2 : MeasurePreserving (fun ω : ((ℕ × ℕ × ℕ → ℝ) × (ℕ × ℕ × ℕ → ℝ)) × (String × ℕ × ℕ → ℝ) => ω.1.2)
      ((A.prod A).prod B) A := measurePreserving_snd.comp measurePreserving_fst
  have p3 : MeasurePreserving (fun ω : ((ℕ × ℕ × ℕ → ℝ) × (ℕ × ℕ × ℕ → ℝ)) × (String × ℕ × ℕ → ℝ) => ω.2)
      ((A.prod A).prod B) B := measurePreserving_snd
  have s3 := IsStandard.comp sB p3 (fun i => measurable_pi_apply i)
  have out : ∀ ω : ((ℕ × ℕ × ℕ → ℝ) × (ℕ × ℕ × ℕ → ℝ)) × (String × ℕ × ℕ → ℝ), ∃ K z,
      fusedInit "normal" (fun name _ l f => ω.2 (name, l, f)) cfg ⟨ps, L, F, fun p l f => ω.1.1 (p, l, f)⟩
        ⟨qs, M, F, fun p l f => ω.1.2 (p, l, f)⟩ = .ok K ∧
      fusedTensor cfg K (cgTensor cart) ⟨ps, L, F, fun p l f => ω.1.1 (p, l, f)⟩ ⟨qs, M, F, fun p l f => ω.1.2 (p, l, f)⟩ = .ok z := by
    intro ω
    obtain ⟨K, hK, _⟩ := fusedInit_eq "normal" (by simp) (fun name _ l f => ω.2 (name, l, f)) cfg
      ⟨ps, L, F, fun p l f => ω.1.1 (p, l, f)⟩ ⟨qs, M, F, fun p l f => ω.1.2 (p, l, f)⟩
    obtain ⟨z, hz, _⟩ := C16_fused cfg K (cgTensor cart) ⟨ps, L, F, fun p l f => ω.1.1 (p, l, f)⟩
      ⟨qs, M, F, fun p l f => ω.1.2 (p, l, f)⟩ hL rfl
    exact ⟨K, z, hK, hz⟩
  choose K Z hK hZ using out
  refine ⟨((ℕ × ℕ × ℕ → ℝ) × (ℕ × ℕ × ℕ → ℝ)) × (String × ℕ × ℕ → ℝ), inferInstance, (A.prod A).prod B,
    inferInstance, fun ω p l f => ω.1.1 (p, l, f), fun ω p l f => ω.1.2 (p, l, f), fun ω => ω.2, Z,
    IsStandard.comp (sA _) p1 (fun i => measurable_pi_apply i), IsStandard.comp (sA _) p2 (fun i => measurable_pi_apply i),
    fun k => ?_, ?_, ?_, ?_, measurable_snd, fun ω => ⟨K ω, hK ω, hZ ω⟩⟩
  · simp only [hu, one_mul, sq]
    refine ⟨s3.integrable_mul _ trivial _ trivial, s3.mean _ trivial, ?_⟩
    rw [s3.covariance _ trivial _ trivial, if_pos rfl]
  · have h : IndepFun (fun (ω : (ℕ × ℕ × ℕ → ℝ) × (ℕ × ℕ × ℕ → ℝ)) p l f => ω.1 (p, l, f))
        (fun (ω : (ℕ × ℕ × ℕ → ℝ) × (ℕ × ℕ × ℕ → ℝ)) p l f => ω.2 (p, l, f)) (A.prod A) :=
      indepFun_prod (μ := A) (ν := A) (X := fun (x : ℕ × ℕ × ℕ → ℝ) p l f => x (p, l, f))
        (Y := fun (x : ℕ × ℕ × ℕ → ℝ) p l f => x (p, l, f)) (by fun_prop) (by fun_prop)
    rw [indepFun_iff_measure_inter_preimage_eq_mul] at h ⊢
    intro s t hs ht
    have hpre : ∀ S : Set ((ℕ × ℕ × ℕ → ℝ) × (ℕ × ℕ × ℕ → ℝ)), MeasurableSet S →
        ((A.prod A).prod B) (Prod.fst ⁻¹' S) = (A.prod A) S := fun S hS =>
      (measurePreserving_fst (μ := A.prod A) (ν := B)).measure_preimage hS.nullMeasurableSet
    have m1 : Measurable (fun (ω : (ℕ × ℕ × ℕ → ℝ) × (ℕ × ℕ × ℕ → ℝ)) p l f => ω.1 (p, l, f)) := by fun_prop
    have m2 : Measurable (fun (ω : (ℕ × ℕ × ℕ → ℝ) × (ℕ × ℕ × ℕ → ℝ)) p l f => ω.2 (p, l, f)) := by fun_prop
    have h' := h s t hs ht
    rw [← hpre _ ((m1 hs).inter (m2 ht)), ← hpre _ (m1 hs), ← hpre _ (m2 ht)] at h'
    exact h'
  · exact indepFun_prod (μ := A.prod A) (ν := B) (X := fun (x : (ℕ × ℕ × ℕ → ℝ) × (ℕ × ℕ × ℕ → ℝ)) =>
      ((fun p l f => x.1 (p, l, f), fun p l f => x.2 (p, l, f)) : (ℕ → ℕ → ℕ → ℝ) × (ℕ → ℕ → ℕ → ℝ)))
      (Y := fun x => x) (by fun_prop) measurable_id'
  · refine (iIndepFun_iff_map_fun_eq_infinitePi_map (fun k => (measurable_pi_apply k).comp p3.measurable)).2 ?_
    refine Eq.trans p3.map_eq ?_
    rw [hB]
    congr 1
    funext k
    have := (measurePreserving_eval_infinitePi (fun _ : String × ℕ × ℕ => gaussianReal 0 1) k).comp p3
    exact this.map_eq.symm

end

end E3x
