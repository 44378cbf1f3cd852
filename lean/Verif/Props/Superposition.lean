import Verif.Props.Message
import Verif.Spec.Superposition

/-!
# C96: message passing steps add up
-/

namespace E3x

open Spec
open Finset (range)

/-! ## Tensor products are linear in each input -/

theorem coupled_lin_right (W : ℕ → ℕ → ℕ → ℕ → ℕ → ℕ → ℝ) (cg : ℕ → ℕ → ℕ → ℝ) (x y y1 y2 : Feat) (a b : ℝ)
    (h1 : y1.L = y.L) (h2 : y2.L = y.L) (hc : ∀ p i f, comp y p i f = a * comp y1 p i f + b * comp y2 p i f)
    (r n f : ℕ) : coupled W cg x y r n f = a * coupled W cg x y1 r n f + b * coupled W cg x y2 r n f := by
  unfold coupled
  rw [h1, h2]
  simp only [hc, Finset.mul_sum, mul_ite, mul_zero, ← Finset.sum_add_distrib]
  refine Finset.sum_congr rfl fun p _ => Finset.sum_congr rfl fun q _ => ?_
  by_cases h : (p + q) % 2 = r
  · simp only [if_pos h]
    simp only [← Finset.sum_add_distrib]
    refine Finset.sum_congr rfl fun p _ => Finset.sum_congr rfl fun q _ => ?_
    ring
  · simp only [if_neg h, add_zero]

theorem coupled_lin_left (W : ℕ → ℕ → ℕ → ℕ → ℕ → ℕ → ℝ) (cg : ℕ → ℕ → ℕ → ℝ) (x x1 x2 y : Feat) (a b : ℝ)
    (h1 : x1.L = x.L) (h2 : x2.L = x.L) (hc : ∀ p i f, comp x p i f = a * comp x1 p i f + b * comp x2 p i f)
    (r n f : ℕ) : coupled W cg x y r n f = a * coupled W cg x1 y r n f + b * coupled W cg x2 y r n f := by
  unfold coupled
  rw [h1, h2]
  simp only [hc, Finset.mul_sum, mul_ite, mul_zero, ← Finset.sum_add_distrib]
  refine Finset.sum_congr rfl fun p _ => Finset.sum_congr rfl fun q _ => ?_
  by_cases h : (p + q) % 2 = r
  · simp only [if_pos h]
    simp only [← Finset.sum_add_distrib]
    refine Finset.sum_congr rfl fun p _ => Finset.sum_congr rfl fun q _ => ?_
    ring
  · simp only [if_neg h, add_zero]

theorem toMatrix_lin (w : ℕ → ℝ) (cg : ℕ → ℕ → ℕ → ℝ) (lam : ℕ) (y y1 y2 : Feat) (a b : ℝ)
    (h1 : y1.L = y.L) (h2 : y2.L = y.L) (hc : ∀ p i f, comp y p i f = a * comp y1 p i f + b * comp y2 p i f)
    (p f c d : ℕ) :
    toMatrix w cg lam y p f c d = a * toMatrix w cg lam y1 p f c d + b * toMatrix w cg lam y2 p f c d := by
  unfold toMatrix
  rw [h1, h2]
  simp only [hc, Finset.mul_sum, ← Finset.sum_add_distrib]
  refine Finset.sum_congr rfl fun p _ => ?_
  ring

theorem fused_lin_right (w1 w2 : ℕ → ℕ → ℝ) (w3 : ℕ → ℕ → ℕ → ℝ) (cg : ℕ → ℕ → ℕ → ℝ) (lam : ℕ)
    (x y y1 y2 : Feat) (a b : ℝ)
    (h1 : y1.L = y.L) (h2 : y2.L = y.L) (hc : ∀ p i f, comp y p i f = a * comp y1 p i f + b * comp y2 p i f)
    (r n f : ℕ) : fusedCoupled w1 w2 w3 cg lam x y r n f =
      a * fusedCoupled w1 w2 w3 cg lam x y1 r n f + b * fusedCoupled w1 w2 w3 cg lam x y2 r n f := by
  unfold fusedCoupled
  simp only [toMatrix_lin _ cg lam y y1 y2 a b h1 h2 hc]
  generalize toMatrix = T
  simp only [Finset.mul_sum, mul_ite, mul_zero, ← Finset.sum_add_distrib]
  refine Finset.sum_congr rfl fun p _ => Finset.sum_congr rfl fun q _ => ?_
  by_cases h : (p + q) % 2 = r
  · simp only [if_pos h]
    simp only [← Finset.sum_add_distrib]
    refine Finset.sum_congr rfl fun c _ => Finset.sum_congr rfl fun d _ => ?_
    simp only [Finset.mul_sum, Finset.sum_mul, ← Finset.sum_add_distrib]
    refine Finset.sum_congr rfl fun e _ => ?_
    ring
  · simp only [if_neg h, add_zero]

theorem fused_lin_left (w1 w2 : ℕ → ℕ → ℝ) (w3 : ℕ → ℕ → ℕ → ℝ) (cg : ℕ → ℕ → ℕ → ℝ) (lam : ℕ)
    (x x1 x2 y : Feat) (a b : ℝ)
    (h1 : x1.L = x.L) (h2 : x2.L = x.L) (hc : ∀ p i f, comp x p i f = a * comp x1 p i f + b * comp x2 p i f)
    (r n f : ℕ) : fusedCoupled w1 w2 w3 cg lam x y r n f =
      a * fusedCoupled w1 w2 w3 cg lam x1 y r n f + b * fusedCoupled w1 w2 w3 cg lam x2 y r n f := by
  unfold fusedCoupled
  simp only [toMatrix_lin _ cg lam x x1 x2 a b h1 h2 hc]
  generalize toMatrix = T
  simp only [Finset.mul_sum, mul_ite, mul_zero, ← Finset.sum_add_distrib]
  refine Finset.sum_congr rfl fun p _ => Finset.sum_congr rfl fun q _ => ?_
  by_cases h : (p + q) % 2 = r
  · simp only [if_pos h]
    simp only [← Finset.sum_add_distrib]
    refine Finset.sum_congr rfl fun c _ => Finset.sum_congr rfl fun d _ => ?_
    simp only [Finset.mul_sum, Finset.sum_mul, ← Finset.sum_add_distrib]
    refine Finset.sum_congr rfl fun e _ => ?_
    ring
  · simp only [if_neg h, add_zero]

/-- Entries of an array are components, whichever the parity. -/
theorem exists_comp (ps : Bool) (L F p n f : ℕ) (hp : p < chan ps) (hn : n < (L + 1) ^ 2) (hf : f < F) :
    ∃ r, ∀ y : Feat, y.pseudo = ps → y.L = L → comp y r n f = y.val p n f := by
  cases ps with
  | true =>
    refine ⟨p, fun y y1 y2 => ?_⟩
    unfold comp
    simp [y1, y2, chan] at hp ⊢
    omega
  | false =>
    refine ⟨deg n % 2, fun y y1 y2 => ?_⟩
    have : p = 0 := by simp [chan] at hp; exact hp
    subst this
    unfold comp
    simp [y1, y2]
    intro h
    omega

/-- Two features of the same type, degree and size. -/
def SameHeader (x y : Feat) : Prop := x.pseudo = y.pseudo ∧ x.L = y.L ∧ x.F = y.F

/-- A tensor product of features whose components are linear combinations. -/
theorem anyTensor_lin (cfg : TensorCfg) (T : TensorParams) (cg : ℕ → ℕ → ℕ → ℝ) (x x1 x2 y y1 y2 : Feat) (a b : ℝ)
    (hL : cfg.maxDegree.getD (max x.L y.L) ≤ x.L + y.L) (hF : x.F = y.F)
    (hx1 : SameHeader x1 x) (hx2 : SameHeader x2 x) (hy1 : SameHeader y1 y) (hy2 : SameHeader y2 y)
    (hc : (x1 = x ∧ x2 = x ∧ ∀ p i f, comp y p i f = a * comp y1 p i f + b * comp y2 p i f) ∨
      (y1 = y ∧ y2 = y ∧ ∀ p i f, comp x p i f = a * comp x1 p i f + b * comp x2 p i f)) :
    ∃ z z1 z2, anyTensor cfg T cg x y = .ok z ∧ anyTensor cfg T cg x1 y1 = .ok z1 ∧ anyTensor cfg T cg x2 y2 = .ok z2 ∧
      SameHeader z1 z ∧ SameHeader z2 z ∧
      (z.pseudo = true ↔ cfg.includePseudo = true ∧ ¬ (x.pseudo = false ∧ y.pseudo = false ∧
        (x.L = 0 ∨ y.L = 0 ∨ cfg.maxDegree.getD (max x.L y.L) = 0))) ∧
      z.L = cfg.maxDegree.getD (max x.L y.L) ∧ z.F = x.F ∧
      ∀ r n f, comp z r n f = a * comp z1 r n f + b * comp z2 r n f := by
  obtain ⟨p1, l1, f1⟩ := hx1
  obtain ⟨p2, l2, f2⟩ := hx2
  obtain ⟨q1, m1, g1⟩ := hy1
  obtain ⟨q2, m2, g2⟩ := hy2
  cases T with
  | tensor k =>
    obtain ⟨z, a0, a1, a2, a3, a4⟩ := C15_tensor cfg k cg x y hL hF
    obtain ⟨z1, b0, b1, b2, b3, b4⟩ := C15_tensor cfg k cg x1 y1 (by rw [l1, m1]; exact hL) (by rw [f1, g1]; exact hF)
    obtain ⟨z2, c0, c1, c2, c3, c4⟩ := C15_tensor cfg k cg x2 y2 (by rw [l2, m2]; exact hL) (by rw [f2, g2]; exact hF)
    rw [p1, q1, l1, m1] at b3
    rw [p2, q2, l2, m2] at c3
    rw [l1, m1, ← a1] at b1
    rw [l2, m2, ← a1] at c1
    have e1 : z1.pseudo = z.pseudo := Bool.eq_iff_iff.2 (b3.trans a3.symm)
    have e2 : z2.pseudo = z.pseudo := Bool.eq_iff_iff.2 (c3.trans a3.symm)
    refine ⟨z, z1, z2, a0, b0, c0, ⟨e1, b1, by rw [b2, a2, f1]⟩, ⟨e2, c1, by rw [c2, a2, f2]⟩, a3, a1, a2, ?_⟩
    intro r n f
    rw [a4, b4, c4, e1, e2, b1, c1, p1, p2, q1, q2]
    by_cases h : r < 2 ∧ n < (z.L + 1) ^ 2 ∧ (z.pseudo = true ∨ r = deg n % 2)
    swap
    · rw [if_neg h, if_neg h, if_neg h]; ring
    rw [if_pos h, if_pos h, if_pos h]
    rcases hc with ⟨rfl, rfl, hc⟩ | ⟨rfl, rfl, hc⟩
    · exact coupled_lin_right _ cg _ y y1 y2 a b m1 m2 hc r n f
    · exact coupled_lin_left _ cg x x1 x2 _ a b l1 l2 hc r n f
  | fused k =>
    obtain ⟨z, a0, a1, a2, a3, a4⟩ := C16_fused cfg k cg x y hL hF
    obtain ⟨z1, b0, b1, b2, b3, b4⟩ := C16_fused cfg k cg x1 y1 (by rw [l1, m1]; exact hL) (by rw [f1, g1]; exact hF)
    obtain ⟨z2, c0, c1, c2, c3, c4⟩ := C16_fused cfg k cg x2 y2 (by rw [l2, m2]; exact hL) (by rw [f2, g2]; exact hF)
    rw [p1, q1, l1, m1] at b3
    rw [p2, q2, l2, m2] at c3
    rw [l1, m1, ← a1] at b1
    rw [l2, m2, ← a1] at c1
    have e1 : z1.pseudo = z.pseudo := Bool.eq_iff_iff.2 (b3.trans a3.symm)
    have e2 : z2.pseudo = z.pseudo := Bool.eq_iff_iff.2 (c3.trans a3.symm)
    refine ⟨z, z1, z2, a0, b0, c0, ⟨e1, b1, by rw [b2, a2, f1]⟩, ⟨e2, c1, by rw [c2, a2, f2]⟩, a3, a1, a2, ?_⟩
    intro r n f
    rw [a4, b4, c4, e1, e2, b1, c1, l1, l2, m1, m2]
    by_cases h : r < 2 ∧ n < (z.L + 1) ^ 2 ∧ (z.pseudo = true ∨ r = deg n % 2)
    swap
    · rw [if_neg h, if_neg h, if_neg h]; ring
    rw [if_pos h, if_pos h, if_pos h]
    rcases hc with ⟨rfl, rfl, hc⟩ | ⟨rfl, rfl, hc⟩
    · exact fused_lin_right _ _ _ cg _ _ y y1 y2 a b m1 m2 hc r n f
    · exact fused_lin_left _ _ _ cg _ x x1 x2 _ a b l1 l2 hc r n f

/-! ## Edges -/

/-- **C96 (edges, sparse format).** Edges can be handled in parts: if the edge list is split in two, then the step for all
edges succeeds iff the steps for the parts do, and its result is the sum of their results. -/
theorem C96_edges (cfg : ConvCfg) (P : ConvParams) (cg : ℕ → ℕ → ℕ → ℝ) (x : Nodes) (bp : Bool) (bL bF : ℕ)
    (E E' : List Edge) (w w' u : Option (Lead Ent)) (hw : WeightsOf w (.vec (E.map Edge.weight)) E)
    (hw' : WeightsOf w' (.vec (E'.map Edge.weight)) E')
    (hu : WeightsOf u (.vec ((E ++ E').map Edge.weight)) (E ++ E')) (num : Option ℕ) (hn : 0 < x.rows.length)
    (hE : ∀ e ∈ E ++ E', e.dst < num.getD x.rows.length → e.src < x.rows.length) :
    (∃ z z' s, messagePass cfg P cg x ⟨bp, bL, bF, .vec (E.map Edge.basis)⟩ w
        { dst := some (E.map Edge.dst), src := some (E.map Edge.src), num := num } = .ok z ∧
      messagePass cfg P cg x ⟨bp, bL, bF, .vec (E'.map Edge.basis)⟩ w'
        { dst := some (E'.map Edge.dst), src := some (E'.map Edge.src), num := num } = .ok z' ∧
      messagePass cfg P cg x ⟨bp, bL, bF, .vec ((E ++ E').map Edge.basis)⟩ u
        { dst := some ((E ++ E').map Edge.dst), src := some ((E ++ E').map Edge.src), num := num } = .ok s ∧
      IsCombination 1 1 z z' s) ∨
    (messagePass cfg P cg x ⟨bp, bL, bF, .vec (E.map Edge.basis)⟩ w
        { dst := some (E.map Edge.dst), src := some (E.map Edge.src), num := num } = .error .valueError ∧
      messagePass cfg P cg x ⟨bp, bL, bF, .vec (E'.map Edge.basis)⟩ w'
        { dst := some (E'.map Edge.dst), src := some (E'.map Edge.src), num := num } = .error .valueError ∧
      messagePass cfg P cg x ⟨bp, bL, bF, .vec ((E ++ E').map Edge.basis)⟩ u
        { dst := some ((E ++ E').map Edge.dst), src := some ((E ++ E').map Edge.src), num := num } =
          .error .valueError) := by
  obtain ⟨h1, h2⟩ := C18_sparse cfg P cg x bp bL bF E w hw num hn fun e he => hE e (by simp [he])
  obtain ⟨h1', h2'⟩ := C18_sparse cfg P cg x bp bL bF E' w' hw' num hn fun e he => hE e (by simp [he])
  obtain ⟨g1, g2⟩ := C18_sparse cfg P cg x bp bL bF (E ++ E') u hu num hn hE
  by_cases h : cfg.tens.maxDegree.getD (max bL x.L) ≤ bL + x.L
  swap
  · exact Or.inr ⟨h1 (by omega), h1' (by omega), g1 (by omega)⟩
  obtain ⟨z, a0, a1, a2, a3, a4, a5⟩ := h2 h
  obtain ⟨z', b0, b1, b2, b3, b4, b5⟩ := h2' h
  obtain ⟨s, c0, c1, c2, c3, c4, c5⟩ := g2 h
  refine Or.inl ⟨z, z', s, a0, b0, c0, ⟨Bool.eq_iff_iff.2 (c1.trans a1.symm), c2.trans a2.symm, c3.trans a3.symm,
    c4.trans a4.symm⟩, ⟨Bool.eq_iff_iff.2 (c1.trans b1.symm), c2.trans b2.symm, c3.trans b3.symm, c4.trans b4.symm⟩, ?_⟩
  intro i hi p _ n _ f _
  rw [c4] at hi
  simp only [List.getD_eq_getElem?_getD, a5 i hi, b5 i hi, c5 i hi, Option.getD_some, one_mul]
  unfold edgesInto
  rw [List.filter_append, List.map_append, List.sum_append]
  rfl

/-- **C96 (no edges).** A node without incoming edges gets zeros. -/
theorem C96_no_edges (cfg : ConvCfg) (P : ConvParams) (cg : ℕ → ℕ → ℕ → ℝ) (x : Nodes) (bp : Bool) (bL bF : ℕ)
    (E : List Edge) (w : Option (Lead Ent)) (hw : WeightsOf w (.vec (E.map Edge.weight)) E) (num : Option ℕ)
    (hn : 0 < x.rows.length) (hE : ∀ e ∈ E, e.dst < num.getD x.rows.length → e.src < x.rows.length)
    (z : Nodes) (hz : messagePass cfg P cg x ⟨bp, bL, bF, .vec (E.map Edge.basis)⟩ w
        { dst := some (E.map Edge.dst), src := some (E.map Edge.src), num := num } = .ok z)
    (i : ℕ) (hi : i < num.getD x.rows.length) (hno : ∀ e ∈ E, e.dst ≠ i) :
    z.rows[i]? = some fun _ _ _ => 0 := by
  obtain ⟨h1, h2⟩ := C18_sparse cfg P cg x bp bL bF E w hw num hn hE
  by_cases h : cfg.tens.maxDegree.getD (max bL x.L) ≤ bL + x.L
  swap
  · rw [h1 (by omega)] at hz; cases hz
  obtain ⟨y, a0, -, -, -, -, a5⟩ := h2 h
  rw [hz] at a0; injection a0 with a0; subst a0
  rw [a5 i hi]
  have : edgesInto E i = [] := by
    unfold edgesInto
    rw [List.filter_eq_nil_iff]
    intro e he
    simpa using hno e he
  rw [this]
  rfl

/-! ## Features -/

theorem comp_lin_val (a b : ℝ) (ps : Bool) (L F : ℕ) (u v : Ent) (p i f : ℕ) :
    comp ⟨ps, L, F, fun p i f => a * u p i f + b * v p i f⟩ p i f = a * comp ⟨ps, L, F, u⟩ p i f + b * comp ⟨ps, L, F, v⟩ p i f := by
  unfold comp
  dsimp only
  split_ifs <;> ring

theorem sum_lin {α : Type} (l : List α) (g g1 g2 : α → Ent) (a b : ℝ) (p n f : ℕ)
    (h : ∀ e ∈ l, g e p n f = a * g1 e p n f + b * g2 e p n f) :
    (l.map g).sum p n f = a * (l.map g1).sum p n f + b * (l.map g2).sum p n f := by
  induction l with
  | nil => simp
  | cons e l ih =>
    have := ih fun e he => h e (by simp [he])
    have h0 := h e (by simp)
    simp only [List.map_cons, List.sum_cons, Pi.add_apply]
    rw [this, h0]
    ring

/-- **C96 (superposition of features).** The step is linear in the features of the nodes: for `a * x + b * y` it gives
`a` times the result for `x` plus `b` times the result for `y`. -/
theorem C96_features (cfg : ConvCfg) (P : ConvParams) (cg : ℕ → ℕ → ℕ → ℝ) (x y : Nodes) (hxy : SameNodeShape x y) (a b : ℝ)
    (bp : Bool) (bL bF : ℕ)
    (E : List Edge) (w : Option (Lead Ent)) (hw : WeightsOf w (.vec (E.map Edge.weight)) E) (num : Option ℕ)
    (hn : 0 < x.rows.length) (hE : ∀ e ∈ E, e.dst < num.getD x.rows.length → e.src < x.rows.length)
    (zx zy : Nodes) (hzx : messagePass cfg P cg x ⟨bp, bL, bF, .vec (E.map Edge.basis)⟩ w
        { dst := some (E.map Edge.dst), src := some (E.map Edge.src), num := num } = .ok zx)
    (hzy : messagePass cfg P cg y ⟨bp, bL, bF, .vec (E.map Edge.basis)⟩ w
        { dst := some (E.map Edge.dst), src := some (E.map Edge.src), num := num } = .ok zy) :
    ∃ z, messagePass cfg P cg (combineNodes a b x y) ⟨bp, bL, bF, .vec (E.map Edge.basis)⟩ w
        { dst := some (E.map Edge.dst), src := some (E.map Edge.src), num := num } = .ok z ∧
      IsCombination a b zx zy z := by
  obtain ⟨s1, s2, s3, s4⟩ := hxy
  have hlen : (combineNodes a b x y).rows.length = x.rows.length := by
    simp [combineNodes, ← s4]
  obtain ⟨h1, h2⟩ := C18_sparse cfg P cg x bp bL bF E w hw num hn hE
  obtain ⟨k1, k2⟩ := C18_sparse cfg P cg y bp bL bF E w hw num (by omega) (by rw [← s4]; exact hE)
  obtain ⟨g1, g2⟩ := C18_sparse cfg P cg (combineNodes a b x y) bp bL bF E w hw num (by omega) (by rw [hlen]; exact hE)
  by_cases h : cfg.tens.maxDegree.getD (max bL x.L) ≤ bL + x.L
  swap
  · rw [h1 (by omega)] at hzx; cases hzx
  obtain ⟨z', a0, a1, a2, a3, a4, a5⟩ := h2 h
  rw [hzx] at a0; injection a0 with a0; subst a0
  obtain ⟨z', b0, b1, b2, b3, b4, b5⟩ := k2 (by rw [← s2]; exact h)
  rw [hzy] at b0; injection b0 with b0; subst b0
  obtain ⟨z, c0, c1, c2, c3, c4, c5⟩ := g2 h
  rw [← s1, ← s2] at b1
  rw [← s2] at b2
  rw [← s3] at b3
  rw [← s4] at b4 b5
  rw [hlen] at c4 c5
  change z.pseudo = true ↔ cfg.tens.includePseudo = true ∧ ¬ (bp = false ∧ x.pseudo = false ∧
        (bL = 0 ∨ x.L = 0 ∨ cfg.tens.maxDegree.getD (max bL x.L) = 0)) at c1
  change z.L = cfg.tens.maxDegree.getD (max bL x.L) at c2
  change z.F = x.F at c3
  refine ⟨z, c0, ⟨Bool.eq_iff_iff.2 (c1.trans a1.symm), c2.trans a2.symm, c3.trans a3.symm,
    c4.trans a4.symm⟩, ⟨Bool.eq_iff_iff.2 (c1.trans b1.symm), c2.trans b2.symm, c3.trans b3.symm, c4.trans b4.symm⟩, ?_⟩
  intro i hi p hp n hnn f hf
  rw [c4] at hi
  simp only [List.getD_eq_getElem?_getD, a5 i hi, b5 i hi, c5 i hi, Option.getD_some]
  apply sum_lin
  intro e he
  have hs : e.src < x.rows.length := by
    unfold edgesInto at he
    rw [List.mem_filter] at he
    exact hE e he.1 (by have := he.2; simp only [decide_eq_true_eq] at this; omega)
  obtain ⟨d1, d2, d3, -⟩ := C12_dense x.F cfg.useBasisBias P.filter ⟨bp, bL, bF, e.basis⟩
  obtain ⟨v, v1, v2, t0, t1, t2, ⟨r1, r2, r3⟩, ⟨q1, q2, q3⟩, t3, t4, t5, t6⟩ := anyTensor_lin cfg.tens P.tens cg
    (dense x.F cfg.useBasisBias P.filter ⟨bp, bL, bF, e.basis⟩)
    (dense x.F cfg.useBasisBias P.filter ⟨bp, bL, bF, e.basis⟩)
    (dense x.F cfg.useBasisBias P.filter ⟨bp, bL, bF, e.basis⟩)
    ((combineNodes a b x y).feat fun p i f => (combineNodes a b x y).rows.getD e.src 0 p i f * e.weight p i f)
    (x.feat fun p i f => x.rows.getD e.src 0 p i f * e.weight p i f)
    (y.feat fun p i f => y.rows.getD e.src 0 p i f * e.weight p i f) a b (by rw [d2]; exact h) d3
    ⟨rfl, rfl, rfl⟩ ⟨rfl, rfl, rfl⟩ ⟨rfl, rfl, rfl⟩ ⟨s1.symm, s2.symm, s3.symm⟩
    (Or.inl ⟨rfl, rfl, by
      intro p i f
      have : (fun p i f => (combineNodes a b x y).rows.getD e.src 0 p i f * e.weight p i f) =
          fun p i f => a * (x.rows.getD e.src 0 p i f * e.weight p i f) +
            b * (y.rows.getD e.src 0 p i f * e.weight p i f) := by
        funext p i f
        have hs' : e.src < y.rows.length := by omega
        simp only [combineNodes, List.getD_eq_getElem?_getD, List.getElem?_zipWith,
          List.getElem?_eq_getElem hs, List.getElem?_eq_getElem hs', Option.getD_some]
        ring
      rw [this]
      unfold Nodes.feat
      rw [← s1, ← s2, ← s3]
      exact comp_lin_val a b _ _ _ _ _ p i f⟩)
  rw [d1, d2] at t3
  rw [d2] at t4
  have hv : v.pseudo = z.pseudo := Bool.eq_iff_iff.2 (t3.trans c1.symm)
  have hvL : v.L = z.L := t4.trans c2.symm
  obtain ⟨r, hr⟩ := exists_comp z.pseudo z.L z.F p n f hp hnn hf
  have := t6 r n f
  rw [hr v hv hvL, hr v1 (r1.trans hv) (r2.trans hvL), hr v2 (q1.trans hv) (q2.trans hvL)] at this
  unfold message
  rw [← s3]
  change (match anyTensor cfg.tens P.tens cg (dense x.F cfg.useBasisBias P.filter ⟨bp, bL, bF, e.basis⟩)
    ((combineNodes a b x y).feat fun p i f => (combineNodes a b x y).rows.getD e.src 0 p i f * e.weight p i f) with
    | .ok z => z.val
    | .error _ => 0) p n f = _
  rw [t0, t1, t2]
  exact this

/-- **C96 (superposition of basis functions).** Without a bias in the filters, the step is linear in the basis functions
of the edges. -/
theorem C96_basis (cfg : ConvCfg) (hbias : cfg.useBasisBias = false) (P : ConvParams) (cg : ℕ → ℕ → ℕ → ℝ) (x : Nodes)
    (a b : ℝ) (bp : Bool) (bL bF : ℕ) (E : List Edge) (B : Edge → Ent) (w : Option (Lead Ent))
    (hw : WeightsOf w (.vec (E.map Edge.weight)) E) (num : Option ℕ) (hn : 0 < x.rows.length)
    (hE : ∀ e ∈ E, e.dst < num.getD x.rows.length → e.src < x.rows.length) (z1 z2 : Nodes)
    (hz1 : messagePass cfg P cg x ⟨bp, bL, bF, .vec (E.map Edge.basis)⟩ w
        { dst := some (E.map Edge.dst), src := some (E.map Edge.src), num := num } = .ok z1)
    (hz2 : messagePass cfg P cg x ⟨bp, bL, bF, .vec (E.map B)⟩ w
        { dst := some (E.map Edge.dst), src := some (E.map Edge.src), num := num } = .ok z2) :
    ∃ z, messagePass cfg P cg x ⟨bp, bL, bF, .vec (E.map fun e p i f => a * e.basis p i f + b * B e p i f)⟩ w
        { dst := some (E.map Edge.dst), src := some (E.map Edge.src), num := num } = .ok z ∧
      IsCombination a b z1 z2 z := by
  have mapw : ∀ g : Edge → Ent, WeightsOf w (.vec ((E.map fun e => { e with basis := g e }).map Edge.weight))
      (E.map fun e => { e with basis := g e }) := by
    intro g
    rcases hw with h | ⟨h, h'⟩
    · left; rw [h, List.map_map]; rfl
    · refine Or.inr ⟨h, ?_⟩
      intro e he
      obtain ⟨e', he', rfl⟩ := List.mem_map.1 he
      exact h' e' he'
  have mapE : ∀ g : Edge → Ent, ∀ e ∈ E.map (fun e => { e with basis := g e }), e.dst < num.getD x.rows.length →
      e.src < x.rows.length := by
    intro g e he
    obtain ⟨e', he', rfl⟩ := List.mem_map.1 he
    exact hE e' he'
  have into : ∀ (g : Edge → Ent) i, edgesInto (E.map fun e => { e with basis := g e }) i =
      (edgesInto E i).map fun e => { e with basis := g e } := by
    intro g i
    unfold edgesInto
    rw [List.filter_map]
    rfl
  obtain ⟨h1, h2⟩ := C18_sparse cfg P cg x bp bL bF E w hw num hn hE
  obtain ⟨-, k2⟩ := C18_sparse cfg P cg x bp bL bF _ w (mapw B) num hn (mapE B)
  obtain ⟨-, g2⟩ := C18_sparse cfg P cg x bp bL bF _ w (mapw fun e p i f => a * e.basis p i f + b * B e p i f) num hn
    (mapE _)
  by_cases h : cfg.tens.maxDegree.getD (max bL x.L) ≤ bL + x.L
  swap
  · rw [h1 (by omega)] at hz1; cases hz1
  obtain ⟨z', a0, a1, a2, a3, a4, a5⟩ := h2 h
  rw [hz1] at a0; injection a0 with a0; subst a0
  obtain ⟨z', b0, b1, b2, b3, b4, b5⟩ := k2 h
  obtain ⟨z, c0, c1, c2, c3, c4, c5⟩ := g2 h
  simp only [List.map_map, Function.comp_def] at b0 c0
  rw [hz2] at b0; injection b0 with b0; subst b0
  refine ⟨z, c0, ⟨Bool.eq_iff_iff.2 (c1.trans a1.symm), c2.trans a2.symm, c3.trans a3.symm,
    c4.trans a4.symm⟩, ⟨Bool.eq_iff_iff.2 (c1.trans b1.symm), c2.trans b2.symm, c3.trans b3.symm, c4.trans b4.symm⟩, ?_⟩
  intro i hi p hp n hnn f hf
  rw [c4] at hi
  simp only [List.getD_eq_getElem?_getD, a5 i hi, b5 i hi, c5 i hi, Option.getD_some, into, List.map_map]
  apply sum_lin
  intro e _
  simp only [Function.comp_def]
  obtain ⟨d1, d2, d3, -⟩ := C12_dense x.F cfg.useBasisBias P.filter
    ⟨bp, bL, bF, fun p i f => a * e.basis p i f + b * B e p i f⟩
  obtain ⟨m1, m2, m3, -⟩ := C12_dense x.F cfg.useBasisBias P.filter ⟨bp, bL, bF, e.basis⟩
  obtain ⟨n1, n2, n3, -⟩ := C12_dense x.F cfg.useBasisBias P.filter ⟨bp, bL, bF, B e⟩
  obtain ⟨v, v1, v2, t0, t1, t2, ⟨r1, r2, r3⟩, ⟨q1, q2, q3⟩, t3, t4, t5, t6⟩ := anyTensor_lin cfg.tens P.tens cg
    (dense x.F cfg.useBasisBias P.filter ⟨bp, bL, bF, fun p i f => a * e.basis p i f + b * B e p i f⟩)
    (dense x.F cfg.useBasisBias P.filter ⟨bp, bL, bF, e.basis⟩)
    (dense x.F cfg.useBasisBias P.filter ⟨bp, bL, bF, B e⟩)
    (x.feat fun p i f => x.rows.getD e.src 0 p i f * e.weight p i f)
    (x.feat fun p i f => x.rows.getD e.src 0 p i f * e.weight p i f)
    (x.feat fun p i f => x.rows.getD e.src 0 p i f * e.weight p i f) a b (by rw [d2]; exact h) d3
    ⟨m1.trans d1.symm, m2.trans d2.symm, m3.trans d3.symm⟩ ⟨n1.trans d1.symm, n2.trans d2.symm, n3.trans d3.symm⟩
    ⟨rfl, rfl, rfl⟩ ⟨rfl, rfl, rfl⟩
    (Or.inr ⟨rfl, rfl, by
      intro p i f
      rw [hbias]
      exact C12_dense_linear x.F P.filter ⟨bp, bL, bF, e.basis⟩ ⟨bp, bL, bF, B e⟩ a b rfl rfl rfl p i f⟩)
  rw [d1, d2] at t3
  rw [d2] at t4
  have hv : v.pseudo = z.pseudo := Bool.eq_iff_iff.2 (t3.trans c1.symm)
  have hvL : v.L = z.L := t4.trans c2.symm
  obtain ⟨r, hr⟩ := exists_comp z.pseudo z.L z.F p n f hp hnn hf
  have := t6 r n f
  rw [hr v hv hvL, hr v1 (r1.trans hv) (r2.trans hvL), hr v2 (q1.trans hv) (q2.trans hvL)] at this
  unfold message
  rw [t0, t1, t2]
  exact this

/-- **C96 (edges, dense format).** Adjacency lists can be handled in parts: if every row is split in two, the step for all
edges gives the sum of the steps for the parts. -/
theorem C96_edges_dense (cfg : ConvCfg) (P : ConvParams) (cg : ℕ → ℕ → ℕ → ℝ) (x : Nodes) (bp : Bool) (bL bF : ℕ)
    (G : List (List Edge × List Edge)) (w w' u : Option (Lead Ent))
    (hw : WeightsOf w (.mat (G.map fun r => r.1.map Edge.weight)) (G.map Prod.fst).flatten)
    (hw' : WeightsOf w' (.mat (G.map fun r => r.2.map Edge.weight)) (G.map Prod.snd).flatten)
    (hu : WeightsOf u (.mat (G.map fun r => (r.1 ++ r.2).map Edge.weight)) (G.map fun r => r.1 ++ r.2).flatten)
    (num : Option ℕ) (hn : 0 < x.rows.length) (z z' : Nodes)
    (hz : messagePass cfg P cg x ⟨bp, bL, bF, .mat (G.map fun r => r.1.map Edge.basis)⟩ w
        { adj := some (G.map fun r => r.1.map Edge.src), num := num } = .ok z)
    (hz' : messagePass cfg P cg x ⟨bp, bL, bF, .mat (G.map fun r => r.2.map Edge.basis)⟩ w'
        { adj := some (G.map fun r => r.2.map Edge.src), num := num } = .ok z') :
    ∃ s, messagePass cfg P cg x ⟨bp, bL, bF, .mat (G.map fun r => (r.1 ++ r.2).map Edge.basis)⟩ u
        { adj := some (G.map fun r => (r.1 ++ r.2).map Edge.src), num := num } = .ok s ∧ IsCombination 1 1 z z' s := by
  obtain ⟨h1, h2⟩ := C18_dense cfg P cg x bp bL bF (G.map Prod.fst) w (by rw [List.map_map]; exact hw) num hn
  obtain ⟨-, k2⟩ := C18_dense cfg P cg x bp bL bF (G.map Prod.snd) w' (by rw [List.map_map]; exact hw') num hn
  obtain ⟨-, g2⟩ := C18_dense cfg P cg x bp bL bF (G.map fun r => r.1 ++ r.2) u (by rw [List.map_map]; exact hu) num hn
  simp only [List.map_map, Function.comp_def] at h1 h2 k2 g2
  by_cases h : cfg.tens.maxDegree.getD (max bL x.L) ≤ bL + x.L
  swap
  · rw [h1 (by omega)] at hz; cases hz
  obtain ⟨y, a0, a1, a2, a3, a4, a5⟩ := h2 h
  rw [hz] at a0; injection a0 with a0; subst a0
  obtain ⟨y, b0, b1, b2, b3, b4, b5⟩ := k2 h
  rw [hz'] at b0; injection b0 with b0; subst b0
  obtain ⟨s, c0, c1, c2, c3, c4, c5⟩ := g2 h
  simp only [List.length_map] at a4 b4 c4 a5 b5 c5
  refine ⟨s, c0, ⟨Bool.eq_iff_iff.2 (c1.trans a1.symm), c2.trans a2.symm, c3.trans a3.symm,
    c4.trans a4.symm⟩, ⟨Bool.eq_iff_iff.2 (c1.trans b1.symm), c2.trans b2.symm, c3.trans b3.symm, c4.trans b4.symm⟩, ?_⟩
  intro i hi p _ n _ f _
  rw [c4] at hi
  simp only [List.getD_eq_getElem?_getD, a5 i hi, b5 i hi, c5 i hi, Option.getD_some, one_mul, List.getElem_map]
  rw [List.filter_append, List.map_append, List.sum_append]
  rfl

/-- **C96 (bias of filters).** With a bias in the filters the step is not linear in the basis functions: an edge with basis
functions zero sends a message. -/
theorem C96_basis_bias : ∃ (cfg : ConvCfg) (P : ConvParams) (cg : ℕ → ℕ → ℕ → ℝ) (x z : Nodes),
    cfg.useBasisBias = true ∧
    messagePass cfg P cg x ⟨false, 0, 1, .vec [0]⟩ none { dst := some [0], src := some [0] } = .ok z ∧
    0 < z.F ∧ 0 < z.rows.length ∧ z.rows.getD 0 0 0 0 0 ≠ 0 := by
  let cfg : ConvCfg := ⟨⟨none, false⟩, true⟩
  let P : ConvParams := ⟨⟨fun _ _ _ _ => 0, fun _ => 1⟩, .tensor fun _ _ _ _ _ _ _ => 1⟩
  let x : Nodes := ⟨false, 0, 1, [fun _ _ _ => 1]⟩
  obtain ⟨-, h⟩ := C18_sparse cfg P (fun _ _ _ => 1) x false 0 1 [⟨0, 0, 0, fun _ _ _ => 1⟩] none
    (Or.inr ⟨rfl, by simp⟩) none (by simp [x]) (by simp [x])
  obtain ⟨z, a0, a1, a2, a3, a4, a5⟩ := h (by simp [cfg])
  refine ⟨cfg, P, fun _ _ _ => 1, x, z, rfl, a0, by rw [a3]; simp [x], by rw [a4]; simp [x], ?_⟩
  have := a5 0 (by simp [x])
  rw [List.getD_eq_getElem?_getD, this]
  simp only [Option.getD_some, edgesInto, List.filter_cons, decide_true, if_true, List.filter_nil, List.map_cons,
    List.map_nil, List.sum_cons, List.sum_nil, add_zero]
  obtain ⟨d1, d2, d3, d4⟩ := C12_dense x.F cfg.useBasisBias P.filter ⟨false, 0, 1, 0⟩
  obtain ⟨v, v0, v1, v2, v3, v4⟩ := C15_tensor cfg.tens (fun _ _ _ _ _ _ _ => 1) (fun _ _ _ => 1)
    (dense x.F cfg.useBasisBias P.filter ⟨false, 0, 1, 0⟩) (x.feat fun p i f => x.rows.getD 0 0 p i f * 1)
    (by rw [d2]; simp [cfg, x, Nodes.feat]) d3
  have hv : v.pseudo = false := by
    rw [Bool.eq_false_iff, Ne, v3]
    simp [cfg]
  have hL : v.L = 0 := by rw [v1, d2]; simp [cfg, x, Nodes.feat]
  have hval : v.val 0 0 0 = comp v 0 0 0 := by
    unfold comp
    simp [hv, hL]
  unfold message
  dsimp only
  change (match tensor cfg.tens (fun _ _ _ _ _ _ _ => 1) (fun _ _ _ => 1)
    (dense x.F cfg.useBasisBias P.filter ⟨false, 0, 1, 0⟩) (x.feat fun p i f => x.rows.getD 0 0 p i f * 1) with
    | .ok z => z.val
    | .error _ => 0) 0 0 0 ≠ 0
  rw [v0]
  dsimp only
  rw [hval, v4, hL, hv, if_pos ⟨by norm_num, by norm_num, Or.inr rfl⟩]
  unfold coupled
  rw [d2]
  simp only [d4, Finset.sum_range_succ, Finset.sum_range_zero, zero_add]
  simp [comp, x, cfg, P, Nodes.feat]

-- Non-vacuity of `C96_edges`, `C96_no_edges`, `C96_features`: three nodes, two parts with an edge each, two of them into node
-- zero, none into node two.
example (v w : Ent) : ∃ E E' : List Edge, E.length = 1 ∧ E'.length = 1 ∧
    (∀ e ∈ E ++ E', e.dst < 3 → e.src < 3) ∧ (edgesInto (E ++ E') 0).length = 2 ∧ ∀ e ∈ E ++ E', e.dst ≠ 2 :=
  ⟨[⟨0, 1, v, w⟩], [⟨0, 2, w, v⟩], rfl, rfl, by simp, by simp [edgesInto], by simp⟩
example : SameNodeShape ⟨false, 1, 1, [0, 0, 0]⟩ ⟨false, 1, 1, [1, 2, 3]⟩ := ⟨rfl, rfl, rfl, rfl⟩

end E3x
