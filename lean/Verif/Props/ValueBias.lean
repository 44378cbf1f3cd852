import Verif.Props.Heads
import Verif.Props.KeyBias

/-!
# C100: biases of the values
-/

namespace E3x

open Spec
open Finset (range)

/-- The output layer whose bias takes over the bias of the values. -/
def absorbBias (F : ℕ) (b : ℕ → ℝ) (P : DenseParams) : DenseParams :=
  { kernel := P.kernel, bias := fun o => P.bias o + ∑ f ∈ range F, b f * P.kernel 0 0 f o }

theorem dense_value_bias (F : ℕ) (P : DenseParams) (x : Feat) (p n f : ℕ) :
    (dense F true P x).val p n f =
      (dense F false P x).val p n f + if (x.pseudo = false ∨ p = 0) ∧ deg n = 0 then P.bias f else 0 := by
  unfold dense concatDegrees denseSub nnDense
  cases hx : x.pseudo <;> by_cases hp : p = 0 <;> by_cases hd : deg n = 0 <;> simp [hp, hd]

theorem dense_absorb (F' F L : ℕ) (ps : Bool) (P : DenseParams) (u : Ent) (b : ℕ → ℝ) :
    (dense F' true P ⟨ps, L, F, fun p n f => u p n f + if (ps = false ∨ p = 0) ∧ deg n = 0 then b f else 0⟩).val =
      (dense F' true (absorbBias F b P) ⟨ps, L, F, u⟩).val := by
  funext p n o
  unfold dense concatDegrees denseSub nnDense absorbBias
  cases ps <;> by_cases hp : p = 0 <;> by_cases hd : deg n = 0 <;>
    simp [hp, hd, add_mul, Finset.sum_add_distrib] <;> ring

/-- **C100 (bias of the values).** Without relative positional encodings of the values, a bias of the values does nothing that the
bias of the output layer cannot do: on every node that receives an edge, the layer gives what the layer without the bias of the
values gives, if the bias of the values, sent through the output layer, is added to the bias of the output. -/
theorem C100_value_bias (lo ninf : ℝ) (cfg : AttnCfg) (hrel : cfg.relV = false) (hv : cfg.vBias = true)
    (ho : cfg.oBias = true) (P : AttnParams) (cg : ℕ → ℕ → ℕ → ℝ) (q kv : Nodes) (bp : Bool) (bL bF : ℕ)
    (E : List AttnEdge) (b : Option Edges) (hb : BasisOf cfg b ⟨bp, bL, bF, .vec (E.map AttnEdge.basis)⟩)
    (c : Option (Lead ℝ)) (hc : CutoffOf c (.vec (E.map AttnEdge.cut)) E) (hpos : ∀ e ∈ E, 0 < e.cut)
    (hq : 0 < q.rows.length) (hk : 0 < kv.rows.length) (num : Option ℕ) (hN : 0 < num.getD q.rows.length)
    (hE : ∀ e ∈ E, e.dst < num.getD q.rows.length → e.dst < q.rows.length ∧ e.src < kv.rows.length) (z : Nodes)
    (hz : attention lo ninf cfg P cg q kv b c
      { dst := some (E.map AttnEdge.dst), src := some (E.map AttnEdge.src), num := num } = .ok z) :
    ∃ z', attention lo ninf { cfg with vBias := false }
        { P with out := absorbBias (cfg.qkvFeatures.getD q.F) P.value.bias P.out } cg q kv b c
        { dst := some (E.map AttnEdge.dst), src := some (E.map AttnEdge.src), num := num } = .ok z' ∧
      z'.pseudo = z.pseudo ∧ z'.L = z.L ∧ z'.F = z.F ∧ z'.rows.length = z.rows.length ∧
      ∀ i < num.getD q.rows.length, (∃ e ∈ E, e.dst = i) → z'.rows[i]? = z.rows[i]? := by
  obtain ⟨a1, -, a3⟩ := C19_sparse lo ninf cfg P cg q kv bp bL bF E b hb c hc hq hk num hN hE _ rfl
  obtain ⟨-, -, b3⟩ := C19_sparse lo ninf { cfg with vBias := false }
    { P with out := absorbBias (cfg.qkvFeatures.getD q.F) P.value.bias P.out } cg q kv bp bL bF E b hb c hc hq hk num hN hE _ rfl
  by_cases h1 : cfg.numHeads = 0 ∨ cfg.qkvFeatures.getD q.F % cfg.numHeads ≠ 0
  · rw [a1 h1] at hz; cases hz
  push Not at h1
  have hr : cfg.relV = true → cfg.conv.tens.maxDegree.getD (max bL kv.L) ≤ bL + kv.L := by rw [hrel]; intro h; cases h
  obtain ⟨y, e1, p1, p2, p3, p4, e2⟩ := a3 h1.1 h1.2 hr
  obtain ⟨y', f1, q1, q2, q3, q4, f2⟩ := b3 h1.1 h1.2 hr
  rw [hz] at e1; injection e1 with e1; subst e1
  refine ⟨y', f1, by rw [p1, q1]; rfl, by rw [p2, q2]; rfl, by rw [p3, q3], by rw [p4, q4], fun i hi hin => ?_⟩
  rw [e2 i hi, f2 i hi]
  symm
  have hL : attnOutL cfg kv bL = kv.L := by unfold attnOutL; rw [hrel]; rfl
  have hP : attnOutPseudo cfg kv bp bL = kv.pseudo := by unfold attnOutPseudo; rw [hrel]; rfl
  have hL' : attnOutL { cfg with vBias := false } kv bL = kv.L := hL
  have hP' : attnOutPseudo { cfg with vBias := false } kv bp bL = kv.pseudo := hP
  rw [hL, hP, hL', hP']
  dsimp only
  rw [ho, ← dense_absorb]
  congr 4
  funext p n f
  rw [ent_sum_apply, ent_sum_apply]
  have hw := (C19_normalised cfg P (cfg.qkvFeatures.getD q.F) q kv bF E hpos i hin
    (f / (cfg.qkvFeatures.getD q.F / cfg.numHeads))).1
  have hsplit : ∀ e ∈ attnInto E i,
      attnMessage cfg P cg (cfg.qkvFeatures.getD q.F) kv bp bL bF
        (attnWeight cfg P (cfg.qkvFeatures.getD q.F) q kv bF E e) e p n f =
      attnMessage { cfg with vBias := false }
        { P with out := absorbBias (cfg.qkvFeatures.getD q.F) P.value.bias P.out } cg (cfg.qkvFeatures.getD q.F) kv bp bL bF
        (attnWeight { cfg with vBias := false }
          { P with out := absorbBias (cfg.qkvFeatures.getD q.F) P.value.bias P.out } (cfg.qkvFeatures.getD q.F) q kv bF E e) e
        p n f +
      attnWeight cfg P (cfg.qkvFeatures.getD q.F) q kv bF E e (f / (cfg.qkvFeatures.getD q.F / cfg.numHeads)) *
        (if (kv.pseudo = false ∨ p = 0) ∧ deg n = 0 then P.value.bias f else 0) := by
    intro e _
    unfold attnMessage
    simp only [hrel, hv, Bool.false_eq_true, if_false]
    rw [dense_value_bias, mul_add]
    rfl
  rw [List.map_congr_left hsplit, List.sum_map_add, List.sum_map_mul_right, hw, one_mul, ho]

/-- **C100 (nodes without edges).** With or without positional encodings, a node that receives no edge gets the bias of the
output layer in its scalar (even) features, and zeros elsewhere; neither its own features nor any other parameters matter. -/
theorem C100_no_edges (lo ninf : ℝ) (cfg : AttnCfg) (P : AttnParams) (cg : ℕ → ℕ → ℕ → ℝ) (q kv : Nodes) (bp : Bool)
    (bL bF : ℕ) (E : List AttnEdge) (b : Option Edges)
    (hb : BasisOf cfg b ⟨bp, bL, bF, .vec (E.map AttnEdge.basis)⟩)
    (c : Option (Lead ℝ)) (hc : CutoffOf c (.vec (E.map AttnEdge.cut)) E)
    (hq : 0 < q.rows.length) (hk : 0 < kv.rows.length) (num : Option ℕ) (hN : 0 < num.getD q.rows.length)
    (hE : ∀ e ∈ E, e.dst < num.getD q.rows.length → e.dst < q.rows.length ∧ e.src < kv.rows.length) (z : Nodes)
    (hz : attention lo ninf cfg P cg q kv b c
      { dst := some (E.map AttnEdge.dst), src := some (E.map AttnEdge.src), num := num } = .ok z)
    (i : ℕ) (hi : i < num.getD q.rows.length) (hno : ∀ e ∈ E, e.dst ≠ i) :
    ∃ v, z.rows[i]? = some v ∧ ∀ p < chan z.pseudo, ∀ n o, v p n o =
      if cfg.oBias = true ∧ p = 0 ∧ n = 0 then P.out.bias o else 0 := by
  obtain ⟨a1, a2, a3⟩ := C19_sparse lo ninf cfg P cg q kv bp bL bF E b hb c hc hq hk num hN hE _ rfl
  by_cases h1 : cfg.numHeads = 0 ∨ cfg.qkvFeatures.getD q.F % cfg.numHeads ≠ 0
  · rw [a1 h1] at hz; cases hz
  by_cases h2 : cfg.relV = true ∧ bL + kv.L < cfg.conv.tens.maxDegree.getD (max bL kv.L)
  · rw [a2 h2.1 h2.2] at hz; cases hz
  push Not at h1 h2
  obtain ⟨y, e1, e3, -, -, -, e2⟩ := a3 h1.1 h1.2 h2
  rw [hz] at e1; injection e1 with e1; subst e1
  have h0 : attnInto E i = [] := List.filter_eq_nil_iff.2 fun e he => by simpa using hno e he
  refine ⟨_, e2 i hi, fun p hp n o => ?_⟩
  rw [h0, List.map_nil, List.sum_nil]
  rw [e3] at hp
  have hdeg : deg n = 0 ↔ n = 0 := by
    unfold deg
    rw [Nat.sqrt_eq_zero]
  unfold dense concatDegrees denseSub nnDense
  cases hx : attnOutPseudo cfg kv bp bL
  · have hp0 : p = 0 := by rw [hx] at hp; simp [chan] at hp; omega
    subst hp0
    by_cases hn : n = 0 <;> cases cfg.oBias <;> simp [hdeg, hn]
  · by_cases hp0 : p = 0 <;> by_cases hn : n = 0 <;> cases cfg.oBias <;> simp [hdeg, hn, hp0]

-- Non-vacuity: a layer with biases of the values and of the output, and a node with two edges.
example : ∃ cfg : AttnCfg, cfg.relV = false ∧ cfg.vBias = true ∧ cfg.oBias = true ∧ cfg.numHeads ≠ 0 :=
  ⟨{ biasCfg with relV := false, vBias := true, oBias := true, numHeads := 1 }, rfl, rfl, rfl, by decide⟩

example (v w : Ent) : ∃ E : List AttnEdge, (∀ e ∈ E, e.dst < 2 → e.dst < 2 ∧ e.src < 2) ∧ (∀ e ∈ E, 0 < e.cut) ∧
    (attnInto E 0).length = 2 ∧ (∃ e ∈ E, e.dst = 0) ∧ ∀ e ∈ E, e.dst ≠ 1 :=
  ⟨[⟨0, 1, v, 1 / 2⟩, ⟨0, 0, w, 1⟩], by simp, by simp, by simp [attnInto], by simp, by simp⟩

end E3x
