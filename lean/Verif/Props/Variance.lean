import Verif.Lemmas.Variance
import Verif.Props.Universal
import Verif.Props.Initializers

/-!
# C74: Tensor layers with the default initialisation preserve the variance of features
-/

namespace E3x

noncomputable section

open Finset Spec MeasureTheory ProbabilityTheory

theorem parityOf_eq (ps : Bool) (p l : ℕ) : parityOf (chan ps) p (deg l) = parOf ps p l := by
  unfold parityOf chan parOf
  cases ps <;> simp

/-- the entries of the output of a Tensor layer -/
theorem tensor_val (cfg : TensorCfg) (K : TensorKernel) (cg : ℕ → ℕ → ℕ → ℝ) (ps : Bool) (L : ℕ) (qs : Bool) (M F : ℕ)
    (v w : ℕ → ℕ → ℕ → ℝ) (hL : cfg.maxDegree.getD (max L M) ≤ L + M) :
    ∃ z, tensor cfg K cg ⟨ps, L, F, v⟩ ⟨qs, M, F, w⟩ = .ok z ∧ z.pseudo = outPseudo cfg ⟨ps, L, F, v⟩ ⟨qs, M, F, w⟩ ∧
      z.L = cfg.maxDegree.getD (max L M) ∧ z.F = F ∧
      ∀ r < chan z.pseudo, ∀ n < (z.L + 1) ^ 2, ∀ f, z.val r n f =
        ∑ p ∈ range (chan ps), ∑ l ∈ range ((L + 1) ^ 2), ∑ q ∈ range (chan qs), ∑ m ∈ range ((M + 1) ^ 2),
          v p l f * w q m f * (if (parOf ps p l + parOf qs q m) % 2 = parOf z.pseudo r n then
            K p (deg l) q (deg m) r (deg n) f * cg l m n else 0) := by
  obtain ⟨z, hz, zL, zF, zP, zc⟩ := C15_tensor cfg K cg ⟨ps, L, F, v⟩ ⟨qs, M, F, w⟩ hL rfl
  refine ⟨z, hz, ?_, zL, zF, fun r hr n hn f => ?_⟩
  · rw [Bool.eq_iff_iff, zP, outPseudo_iff]
  rw [val_comp _ f hr hn, zc, if_pos ⟨parOf_lt hr n, hn, by
    unfold parOf
    cases z.pseudo <;> simp⟩]
  unfold coupled
  dsimp only
  rw [slot_parOf hr]
  set R := parOf z.pseudo r n with hR
  set G : ℕ → ℕ → ℕ → ℕ → ℝ := fun P l Q m => if (P + Q) % 2 = R then
    K (slot ps P) (deg l) (slot qs Q) (deg m) r (deg n) f * cg l m n else 0 with hG
  have e1 : ∀ P ∈ range 2, ∀ Q ∈ range 2, (if (P + Q) % 2 = R then
      ∑ l ∈ range ((L + 1) ^ 2), ∑ m ∈ range ((M + 1) ^ 2), comp ⟨ps, L, F, v⟩ P l f * comp ⟨qs, M, F, w⟩ Q m f *
        K (slot ps P) (deg l) (slot qs Q) (deg m) r (deg n) f * cg l m n else 0) =
      ∑ l ∈ range ((L + 1) ^ 2), ∑ m ∈ range ((M + 1) ^ 2), comp ⟨ps, L, F, v⟩ P l f * (comp ⟨qs, M, F, w⟩ Q m f *
        G P l Q m) := by
    intro P _ Q _
    by_cases h : (P + Q) % 2 = R
    · rw [if_pos h]
      refine sum_congr rfl fun l _ => sum_congr rfl fun m _ => ?_
      simp only [hG, if_pos h]
      ring
    · rw [if_neg h]
      symm
      refine sum_eq_zero fun l _ => sum_eq_zero fun m _ => ?_
      simp only [hG, if_neg h, mul_zero]
  rw [sum_congr rfl fun P hP => sum_congr rfl fun Q hQ => e1 P hP Q hQ]
  have e2 : ∀ P ∈ range 2, ∑ Q ∈ range 2, ∑ l ∈ range ((L + 1) ^ 2), ∑ m ∈ range ((M + 1) ^ 2),
      comp ⟨ps, L, F, v⟩ P l f * (comp ⟨qs, M, F, w⟩ Q m f * G P l Q m) =
      ∑ l ∈ range ((L + 1) ^ 2), comp ⟨ps, L, F, v⟩ P l f * ∑ q ∈ range (chan qs), ∑ m ∈ range ((M + 1) ^ 2),
        w q m f * G P l (parOf qs q m) m := by
    intro P _
    rw [sum_comm]
    refine sum_congr rfl fun l _ => ?_
    rw [sum_comm, sum_comm (s := range (chan qs)), mul_sum]
    refine sum_congr rfl fun m hm => ?_
    rw [← mul_sum, sum_comp ⟨qs, M, F, w⟩ f (mem_range.1 hm) (fun Q => G P l Q m)]
  rw [sum_congr rfl e2, sum_comm, sum_comm (s := range (chan ps))]
  refine sum_congr rfl fun l hl => ?_
  rw [sum_comp ⟨ps, L, F, v⟩ f (mem_range.1 hl) (fun P => ∑ q ∈ range (chan qs), ∑ m ∈ range ((M + 1) ^ 2),
        w q m f * G P l (parOf qs q m) m)]
  refine sum_congr rfl fun p hp => ?_
  rw [mul_sum]
  refine sum_congr rfl fun q hq => ?_
  rw [mul_sum]
  refine sum_congr rfl fun m hm => ?_
  simp only [hG]
  rw [slot_parOf (mem_range.1 hp), slot_parOf (mem_range.1 hq)]
  ring

/-- a sum over all components, degree by degree -/
theorem sum_by_degree (L : ℕ) (g : ℕ → ℕ → ℝ) :
    ∑ l ∈ range ((L + 1) ^ 2), g (deg l) l = ∑ a ∈ range (L + 1), ∑ l ∈ Ico (a ^ 2) ((a + 1) ^ 2), g a l := by
  induction L with
  | zero =>
    rw [show (0 + 1) ^ 2 = 1 from rfl, sum_range_one, sum_range_one]
    rw [show Ico (0 ^ 2) ((0 + 1) ^ 2) = {0} by decide, sum_singleton]
    rfl
  | succ L ih =>
    rw [sum_range_succ _ (L + 1), ← ih, ← sum_range_add_sum_Ico _ (show (L + 1) ^ 2 ≤ (L + 1 + 1) ^ 2 by gcongr; omega)]
    congr 1
    refine sum_congr rfl fun l hl => ?_
    rw [mem_Ico] at hl
    have : deg l = L + 1 := by
      have h1 := (deg_le_iff l (L + 1)).2 hl.2
      have h2 : ¬ deg l ≤ L := fun h => by
        have := (deg_le_iff l L).1 h
        omega
      omega
    rw [this]

/-- **C74 (variance of features).** Suppose that the components of both inputs of a Tensor layer are random with mean zero
and unit variance and not correlated, and that its kernel is initialised by `tensor_variance_scaling` with mode `fan_in`
(as `tensor_lecun_normal`, the default, and `tensor_he_normal` do) from random numbers which are independent of the
inputs. Then every component of the output has mean zero. Its variance is `scale`, no matter how many degrees, parities
and components contribute to it (or zero, if no coupling leads to this component). -/
theorem C74_tensor {Ω : Type*} [MeasurableSpace Ω] (P : Measure Ω) [IsProbabilityMeasure P] (cart : Bool)
    (cg : ℕ → ℕ → ℕ → ℝ) (hcg : LibraryCG cart cg) (cfg : TensorCfg) (ps : Bool) (L : ℕ) (qs : Bool) (M F L' : ℕ)
    (hL' : cfg.maxDegree.getD (max L M) = L') (hL : L' ≤ L + M) (scale : ℝ) (hs : 0 ≤ scale) (distribution : String)
    (hd : distribution ∈ ["truncated_normal", "normal", "uniform"])
    (v w : Ω → ℕ → ℕ → ℕ → ℝ) (d : Ω → ℕ × ℕ × ℕ × ℕ × ℕ × ℕ × ℕ → ℝ)
    (hv : IsStandard P {t : ℕ × ℕ × ℕ | t.1 < chan ps ∧ t.2.1 < (L + 1) ^ 2 ∧ t.2.2 < F} fun t ω => v ω t.1 t.2.1 t.2.2)
    (hw : IsStandard P {t : ℕ × ℕ × ℕ | t.1 < chan qs ∧ t.2.1 < (M + 1) ^ 2 ∧ t.2.2 < F} fun t ω => w ω t.1 t.2.1 t.2.2)
    (hk : ∀ p1 < chan ps, ∀ l1 ≤ L, ∀ p2 < chan qs, ∀ l2 ≤ M, ∀ p3 < 2, ∀ l3 ≤ L', ∀ f < F,
      Integrable (fun ω => (unitFactor distribution * d ω (p1, l1, p2, l2, p3, l3, f)) ^ 2) P ∧
      ∫ ω, unitFactor distribution * d ω (p1, l1, p2, l2, p3, l3, f) ∂P = 0 ∧
      ∫ ω, (unitFactor distribution * d ω (p1, l1, p2, l2, p3, l3, f)) ^ 2 ∂P = 1)
    (hind : IndepFun v w P) (hind' : IndepFun (fun ω => (v ω, w ω)) d P) (hdm : Measurable d) :
    ∃ (ps' : Bool) (Z : Ω → Feat), (∀ ω, ∃ K,
        tensorVarianceScaling scale "fan_in" distribution (fun _ p1 l1 p2 l2 p3 l3 f => d ω (p1, l1, p2, l2, p3, l3, f))
          [chan ps, L + 1, chan qs, M + 1, chan ps', L' + 1, F] = .ok K ∧
        tensor cfg K cg ⟨ps, L, F, v ω⟩ ⟨qs, M, F, w ω⟩ = .ok (Z ω) ∧ (Z ω).pseudo = ps' ∧ (Z ω).L = L') ∧
      ∀ r < chan ps', ∀ n < (L' + 1) ^ 2, ∀ f < F,
        Integrable (fun ω => ((Z ω).val r n f) ^ 2) P ∧ ∫ ω, (Z ω).val r n f ∂P = 0 ∧
        ∫ ω, ((Z ω).val r n f) ^ 2 ∂P =
          if 0 < inputPaths (chan ps) (L + 1) (chan qs) (M + 1) (chan ps') r (degreeOf n) then scale else 0 := by
  have hcg' := libraryCG_eq hcg
  subst hcg'
  have hchan : ∀ b, chan b = 1 ∨ chan b = 2 := by decide
  set ps' := outPseudo cfg ⟨ps, L, F, fun _ _ _ => 0⟩ ⟨qs, M, F, fun _ _ _ => 0⟩ with hps'
  have hK := fun ω => C40_variance_scaling (chan ps) (L + 1) (chan qs) (M + 1) (chan ps') (L' + 1) F (hchan _) (hchan _)
    (hchan _) scale "fan_in" distribution (by simp) hd (fun _ p1 l1 p2 l2 p3 l3 f => d ω (p1, l1, p2, l2, p3, l3, f))
  choose K hK1 hK2 using hK
  have hZ := fun ω => tensor_val cfg (K ω) (cgTensor cart) ps L qs M F (v ω) (w ω) (by rw [hL']; exact hL)
  choose Z hZ1 hZ2 hZ3 hZ4 hZ5 using hZ
  have hZ2' : ∀ ω, (Z ω).pseudo = ps' := hZ2
  refine ⟨ps', Z, fun ω => ⟨K ω, hK1 ω, hZ1 ω, hZ2' ω, by rw [hZ3, hL']⟩, fun r hr n hn f hf => ?_⟩
  set fan : ℕ := inputPaths (chan ps) (L + 1) (chan qs) (M + 1) (chan ps') r (degreeOf n) with hfan
  set A : Finset (ℕ × ℕ) := range (chan ps) ×ˢ range ((L + 1) ^ 2) with hA
  set B : Finset (ℕ × ℕ) := range (chan qs) ×ˢ range ((M + 1) ^ 2) with hB
  set U : (ℕ × ℕ) × (ℕ × ℕ) → Ω → ℝ := fun k ω =>
    unitFactor distribution * d ω (k.1.1, deg k.1.2, k.2.1, deg k.2.2, r, deg n, f) with hU
  set c : ℕ × ℕ → ℕ × ℕ → ℝ := fun a b =>
    if AllowedCoupling (chan ps) (chan qs) (chan ps') a.1 (deg a.2) b.1 (deg b.2) r (deg n) then
      Real.sqrt (scale / fan) * cgTensor cart a.2 b.2 n else 0 with hc
  have hdn : deg n < L' + 1 := degreeOf_lt hn
  have hval : ∀ ω, (Z ω).val r n f = ∑ a ∈ A, ∑ b ∈ B, v ω a.1 a.2 f * w ω b.1 b.2 f * (c a b * U (a, b) ω) := by
    intro ω
    rw [hZ5 ω r (by rw [hZ2']; exact hr) n (by rw [hZ3, hL']; exact hn) f, hA, hB, sum_product]
    refine sum_congr rfl fun p hp => sum_congr rfl fun l hl => ?_
    rw [sum_product]
    refine sum_congr rfl fun q hq => sum_congr rfl fun m hm => ?_
    rw [mem_range] at hp hl hq hm
    congr 1
    obtain ⟨k1, k2⟩ := hK2 ω p hp (deg l) (degreeOf_lt hl) q hq (deg m) (degreeOf_lt hm) r hr (deg n) hdn f
    rw [hZ2', ← parityOf_eq, ← parityOf_eq, ← parityOf_eq]
    simp only [hc, hU]
    by_cases ha : AllowedCoupling (chan ps) (chan qs) (chan ps') p (deg l) q (deg m) r (deg n)
    · rw [if_pos ha, if_pos ha.1, (k2 ha).2]
      have : fanOf "fan_in" (inputPaths (chan ps) (L + 1) (chan qs) (M + 1) (chan ps') r (deg n))
          (outputPaths (chan ps) (chan qs) (chan ps') (L' + 1) p (deg l) q (deg m)) = (fan : ℝ) := by
        unfold fanOf
        rfl
      rw [this]
      ring
    · rw [if_neg ha, k1 ha]
      simp
  have hmeas : ∀ k, Measurable (fun ω => d ω k) := fun k => (measurable_pi_apply k).comp hdm
  obtain ⟨b1, b2, b3, b4⟩ := bilinear_moments (P := P) A B (fun a ω => v ω a.1 a.2 f) (fun b ω => w ω b.1 b.2 f) U c
    (by
      have hin : ∀ a ∈ A, (a.1, a.2, f) ∈ {t : ℕ × ℕ × ℕ | t.1 < chan ps ∧ t.2.1 < (L + 1) ^ 2 ∧ t.2.2 < F} := by
        intro a ha
        rw [hA, mem_product, mem_range, mem_range] at ha
        exact ⟨ha.1, ha.2, hf⟩
      refine ⟨fun a ha => hv.integrable _ (hin a ha), fun a ha => hv.mean _ (hin a ha),
        fun a ha b hb => hv.integrable_mul _ (hin a ha) _ (hin b hb), fun a ha b hb => ?_⟩
      rw [hv.covariance _ (hin a ha) _ (hin b hb)]
      congr 1
      simp [Prod.ext_iff])
    (by
      have hin : ∀ a ∈ B, (a.1, a.2, f) ∈ {t : ℕ × ℕ × ℕ | t.1 < chan qs ∧ t.2.1 < (M + 1) ^ 2 ∧ t.2.2 < F} := by
        intro a ha
        rw [hB, mem_product, mem_range, mem_range] at ha
        exact ⟨ha.1, ha.2, hf⟩
      refine ⟨fun a ha => hw.integrable _ (hin a ha), fun a ha => hw.mean _ (hin a ha),
        fun a ha b hb => hw.integrable_mul _ (hin a ha) _ (hin b hb), fun a ha b hb => ?_⟩
      rw [hw.covariance _ (hin a ha) _ (hin b hb)]
      congr 1
      simp [Prod.ext_iff])
    (by
      intro a ha b hb
      rw [hA, mem_product, mem_range, mem_range] at ha
      rw [hB, mem_product, mem_range, mem_range] at hb
      have hr2 : r < 2 := by rcases hchan ps' with h | h <;> omega
      obtain ⟨g1, g2, g3⟩ := hk a.1 ha.1 (deg a.2) (Nat.lt_succ_iff.1 (degreeOf_lt ha.2)) b.1 hb.1 (deg b.2)
        (Nat.lt_succ_iff.1 (degreeOf_lt hb.2)) r hr2 (deg n) (Nat.lt_succ_iff.1 hdn) f hf
      refine ⟨?_, g2, g3⟩
      rw [memLp_two_iff_integrable_sq ((hmeas _).const_mul _).aestronglyMeasurable]
      exact g1)
    (hind.comp (φ := fun (x : ℕ → ℕ → ℕ → ℝ) (a : ℕ × ℕ) => x a.1 a.2 f)
      (ψ := fun (x : ℕ → ℕ → ℕ → ℝ) (a : ℕ × ℕ) => x a.1 a.2 f) (by fun_prop) (by fun_prop))
    (hind'.comp (φ := fun (x : (ℕ → ℕ → ℕ → ℝ) × (ℕ → ℕ → ℕ → ℝ)) =>
        ((fun (a : ℕ × ℕ) => x.1 a.1 a.2 f, fun (a : ℕ × ℕ) => x.2 a.1 a.2 f) : (ℕ × ℕ → ℝ) × (ℕ × ℕ → ℝ)))
      (ψ := fun (x : ℕ × ℕ × ℕ × ℕ × ℕ × ℕ × ℕ → ℝ) (k : (ℕ × ℕ) × (ℕ × ℕ)) =>
        unitFactor distribution * x (k.1.1, deg k.1.2, k.2.1, deg k.2.2, r, deg n, f)) (by fun_prop) (by fun_prop))
  simp only [← hval] at b1 b2 b3 b4
  refine ⟨b3, b2, ?_⟩
  rw [b4]
  have hsq : ∀ a b, c a b ^ 2 = if AllowedCoupling (chan ps) (chan qs) (chan ps') a.1 (deg a.2) b.1 (deg b.2) r (deg n) then
      scale / fan * (cgTensor cart a.2 b.2 n * cgTensor cart a.2 b.2 n) else 0 := by
    intro a b
    simp only [hc]
    split_ifs
    · rw [mul_pow, Real.sq_sqrt (by positivity)]
      ring
    · ring
  simp only [hsq]
  have hpaths : ∀ t : ℝ, ∑ a ∈ A, ∑ b ∈ B, (if AllowedCoupling (chan ps) (chan qs) (chan ps') a.1 (deg a.2) b.1 (deg b.2) r (deg n) then
      t * (cgTensor cart a.2 b.2 n * cgTensor cart a.2 b.2 n) else 0) = fan * t := by
    intro t
    have hf' : (fan : ℝ) = ∑ p ∈ range (chan ps), ∑ a ∈ range (L + 1), ∑ q ∈ range (chan qs), ∑ b ∈ range (M + 1),
        if AllowedCoupling (chan ps) (chan qs) (chan ps') p a q b r (deg n) then 1 else 0 := by
      rw [hfan]
      unfold inputPaths
      rw [card_filter]
      simp only [sum_product]
      push_cast
      rfl
    rw [hf', hA, hB, sum_product, sum_mul]
    refine sum_congr rfl fun p _ => ?_
    rw [sum_by_degree L (fun a l => ∑ b ∈ range (chan qs) ×ˢ range ((M + 1) ^ 2),
      if AllowedCoupling (chan ps) (chan qs) (chan ps') p a b.1 (deg b.2) r (deg n) then
      t * (cgTensor cart l b.2 n * cgTensor cart l b.2 n) else 0), sum_mul]
    refine sum_congr rfl fun a _ => ?_
    simp only [sum_product]
    rw [sum_comm, sum_mul]
    refine sum_congr rfl fun q _ => ?_
    have e : ∀ l, ∑ m ∈ range ((M + 1) ^ 2), (if AllowedCoupling (chan ps) (chan qs) (chan ps') p a q (deg m) r (deg n) then
        t * (cgTensor cart l m n * cgTensor cart l m n) else 0) =
        ∑ b ∈ range (M + 1), ∑ m ∈ Ico (b ^ 2) ((b + 1) ^ 2),
          if AllowedCoupling (chan ps) (chan qs) (chan ps') p a q b r (deg n) then
            t * (cgTensor cart l m n * cgTensor cart l m n) else 0 :=
      fun l => sum_by_degree M (fun b m => if AllowedCoupling (chan ps) (chan qs) (chan ps') p a q b r (deg n) then
        t * (cgTensor cart l m n * cgTensor cart l m n) else 0)
    simp only [e]
    rw [sum_comm, sum_mul]
    refine sum_congr rfl fun b _ => ?_
    by_cases ha : AllowedCoupling (chan ps) (chan qs) (chan ps') p a q b r (deg n)
    · have h := cgTensor_orthonormal cart a b n n ha.2 ha.2
      rw [if_pos rfl] at h
      simp only [if_pos ha, ← mul_sum]
      rw [h]
      ring
    · simp only [if_neg ha, sum_const_zero, zero_mul]
  rw [hpaths]
  by_cases h0 : 0 < fan
  · rw [if_pos h0]
    have : (fan : ℝ) ≠ 0 := by positivity
    field_simp
  · rw [if_neg h0]
    have : fan = 0 := by omega
    rw [this]
    simp

/-- The hypotheses of `C74_tensor` are met for all sizes: by independent standard normal random numbers. -/
example (ps : Bool) (L : ℕ) (qs : Bool) (M F L' : ℕ) :
    ∃ (Ω : Type) (_ : MeasurableSpace Ω) (P : Measure Ω) (_ : IsProbabilityMeasure P) (v w : Ω → ℕ → ℕ → ℕ → ℝ)
      (d : Ω → ℕ × ℕ × ℕ × ℕ × ℕ × ℕ × ℕ → ℝ),
      (IsStandard P {t : ℕ × ℕ × ℕ | t.1 < chan ps ∧ t.2.1 < (L + 1) ^ 2 ∧ t.2.2 < F} fun t ω => v ω t.1 t.2.1 t.2.2) ∧
      (IsStandard P {t : ℕ × ℕ × ℕ | t.1 < chan qs ∧ t.2.1 < (M + 1) ^ 2 ∧ t.2.2 < F} fun t ω => w ω t.1 t.2.1 t.2.2) ∧
      (∀ p1 < chan ps, ∀ l1 ≤ L, ∀ p2 < chan qs, ∀ l2 ≤ M, ∀ p3 < 2, ∀ l3 ≤ L', ∀ f < F,
        Integrable (fun ω => (unitFactor "normal" * d ω (p1, l1, p2, l2, p3, l3, f)) ^ 2) P ∧
        ∫ ω, unitFactor "normal" * d ω (p1, l1, p2, l2, p3, l3, f) ∂P = 0 ∧
        ∫ ω, (unitFactor "normal" * d ω (p1, l1, p2, l2, p3, l3, f)) ^ 2 ∂P = 1) ∧
      IndepFun v w P ∧ IndepFun (fun ω => (v ω, w ω)) d P ∧ Measurable d := by
  set A : Measure (ℕ × ℕ × ℕ → ℝ) := Measure.infinitePi fun _ => gaussianReal 0 1 with hA
  set B : Measure (ℕ × ℕ × ℕ × ℕ × ℕ × ℕ × ℕ → ℝ) := Measure.infinitePi fun _ => gaussianReal 0 1 with hB
  haveI : DecidableEq (ℕ × ℕ × ℕ × ℕ × ℕ × ℕ × ℕ) := Classical.decEq _
  have hu : unitFactor "normal" = 1 := by unfold unitFactor; simp
  have sA := fun s => isStandard_gaussian (ℕ × ℕ × ℕ) s
  have sB := isStandard_gaussian (ℕ × ℕ × ℕ × ℕ × ℕ × ℕ × ℕ) Set.univ
  have p1 : MeasurePreserving (fun ω : ((ℕ × ℕ × ℕ → ℝ) × (ℕ × ℕ × ℕ → ℝ)) × (ℕ × ℕ × ℕ × ℕ × ℕ × ℕ × ℕ → ℝ) => ω.1.1)
      ((A.prod A).prod B) A := measurePreserving_fst.comp measurePreserving_fst
  have p2 : MeasurePreserving (fun ω : ((ℕ × ℕ × ℕ → ℝ) × (ℕ × ℕ × ℕ → ℝ)) × (ℕ × ℕ × ℕ × ℕ × ℕ × ℕ × ℕ → ℝ) => ω.1.2)
      ((A.prod A).prod B) A := measurePreserving_snd.comp measurePreserving_fst
  have p3 : MeasurePreserving (fun ω : ((ℕ × ℕ × ℕ → ℝ) × (ℕ × ℕ × ℕ → ℝ)) × (ℕ × ℕ × ℕ × ℕ × ℕ × ℕ × ℕ → ℝ) => ω.2)
      ((A.prod A).prod B) B := measurePreserving_snd
  have s3 := IsStandard.comp sB p3 (fun i => measurable_pi_apply i)
  refine ⟨((ℕ × ℕ × ℕ → ℝ) × (ℕ × ℕ × ℕ → ℝ)) × (ℕ × ℕ × ℕ × ℕ × ℕ × ℕ × ℕ → ℝ), inferInstance, (A.prod A).prod B,
    inferInstance, fun ω p l f => ω.1.1 (p, l, f), fun ω p l f => ω.1.2 (p, l, f), fun ω => ω.2,
    IsStandard.comp (sA _) p1 (fun i => measurable_pi_apply i), IsStandard.comp (sA _) p2 (fun i => measurable_pi_apply i),
    fun p1 _ l1 _ p2 _ l2 _ p3 _ l3 _ f _ => ?_, ?_, ?_, measurable_snd⟩
  · simp only [hu, one_mul, sq]
    refine ⟨s3.integrable_mul _ trivial _ trivial, s3.mean _ trivial, ?_⟩
    rw [s3.covariance _ trivial _ trivial, if_pos rfl]
  · have h : IndepFun (fun (ω : (ℕ × ℕ × ℕ → ℝ) × (ℕ × ℕ × ℕ → ℝ)) p l f => ω.1 (p, l, f))
        (fun (ω : (ℕ × ℕ × ℕ → ℝ) × (ℕ × ℕ × ℕ → ℝ)) p l f => ω.2 (p, l, f)) (A.prod A) :=
      indepFun_prod (μ := A) (ν := A) (X := fun (x : ℕ × ℕ × ℕ → ℝ) p l f => x (p, l, f))
        (Y := fun (x : ℕ × ℕ × ℕ → ℝ) p l f => x (p, l, f)) (by fun_prop) (by fun_prop)
    rw [indepFun_iff_measure_inter_preimage_eq_mul] at h ⊢
    intro s t hs ht
    have hpre : ∀ S : Set ((ℕ × ℕ × ℕ → ℝ) × (ℕ × ℕ × ℕ → ℝ)), MeasurableSet S →
        ((A.prod A).prod B) (Prod.fst ⁻¹' S) = (A.prod A) S := fun S hS =>
      (measurePreserving_fst (μ := A.prod A) (ν := B)).measure_preimage hS.nullMeasurableSet
    have m1 : Measurable (fun (ω : (ℕ × ℕ × ℕ → ℝ) × (ℕ × ℕ × ℕ → ℝ)) p l f => ω.1 (p, l, f)) := by fun_prop
    have m2 : Measurable (fun (ω : (ℕ × ℕ × ℕ → ℝ) × (ℕ × ℕ × ℕ → ℝ)) p l f => ω.2 (p, l, f)) := by fun_prop
    have h' := h s t hs ht
    rw [← hpre _ ((m1 hs).inter (m2 ht)), ← hpre _ (m1 hs), ← hpre _ (m2 ht)] at h'
    exact h'
  · exact indepFun_prod (μ := A.prod A) (ν := B) (X := fun (x : (ℕ × ℕ × ℕ → ℝ) × (ℕ × ℕ × ℕ → ℝ)) =>
      ((fun p l f => x.1 (p, l, f), fun p l f => x.2 (p, l, f)) : (ℕ → ℕ → ℕ → ℝ) × (ℕ → ℕ → ℕ → ℝ)))
      (Y := fun x => x) (by fun_prop) measurable_id'

end

end E3x
