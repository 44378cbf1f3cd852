import Verif.Props.AttentionLogit
import Verif.Props.Heads

/-!
# C97: attention without queries
-/

namespace E3x

open Spec
open Finset (range)

theorem projection_zero (useBias : Bool) (P : DenseParams) (hk : ∀ p l f o, P.kernel p l f o = 0)
    (hb : useBias = true → ∀ o, P.bias o = 0) (x : Feat) (p i o : ℕ) : projection useBias P x p i o = 0 := by
  unfold projection
  rw [Finset.sum_eq_zero fun f _ => by rw [hk, mul_zero], zero_add]
  split_ifs with h
  · exact hb h.1 o
  · rfl

theorem attnWeight_uniform (cfg : AttnCfg) (P : AttnParams) (F : ℕ) (q kv : Nodes) (bF : ℕ)
    (hk : ∀ p l f o, P.query.kernel p l f o = 0) (hb : cfg.qBias = true → ∀ o, P.query.bias o = 0)
    (E : List AttnEdge) (e : AttnEdge) (he : e ∈ E)
    (hE : ∀ e' ∈ E, e'.dst = e.dst → e'.dst < q.rows.length ∧ e'.src < kv.rows.length) (h : ℕ) :
    attnWeight cfg P F q kv bF E e h = e.cut / ((attnInto E e.dst).map AttnEdge.cut).sum := by
  have hl : ∀ e' ∈ attnInto E e.dst, attnLogit cfg P F q kv bF e' h = 0 := by
    intro e' he'
    obtain ⟨m1, m2⟩ := List.mem_filter.1 he'
    obtain ⟨i1, i2⟩ := hE e' m1 (by simpa using m2)
    rw [C19_logit _ _ _ _ _ _ _ _ i1 i2]
    unfold documentedLogit
    simp only [projection_zero cfg.qBias P.query hk hb, zero_mul, Finset.sum_const_zero, ite_self, zero_div]
  unfold attnWeight softmaxValue
  rw [hl e (List.mem_filter.2 ⟨he, by simp⟩), List.map_map]
  have hs : (attnInto E e.dst).map ((fun q : ℝ × ℝ => Real.exp q.1 * q.2) ∘
      fun e' => (attnLogit cfg P F q kv bF e' h, e'.cut)) = (attnInto E e.dst).map AttnEdge.cut :=
    List.map_congr_left fun e' he' => by
      simp only [Function.comp_apply, hl e' he', Real.exp_zero, one_mul]
  rw [hs, Real.exp_zero, one_mul]

/-- **C97 (no queries).** If the query layer gives zero, and values are used without positional encoding, an attention layer
applies the output layer to the mean of the values of the neighbours, weighted with the cutoff values of the edges. -/
theorem C97_uniform (lo ninf : ℝ) (cfg : AttnCfg) (hrel : cfg.relV = false) (P : AttnParams)
    (hk0 : ∀ p l f o, P.query.kernel p l f o = 0) (hb0 : cfg.qBias = true → ∀ o, P.query.bias o = 0)
    (cg : ℕ → ℕ → ℕ → ℝ) (q kv : Nodes) (bp : Bool) (bL bF : ℕ) (E : List AttnEdge) (b : Option Edges)
    (hb : BasisOf cfg b ⟨bp, bL, bF, .vec (E.map AttnEdge.basis)⟩)
    (c : Option (Lead ℝ)) (hc : CutoffOf c (.vec (E.map AttnEdge.cut)) E)
    (hq : 0 < q.rows.length) (hk : 0 < kv.rows.length) (num : Option ℕ) (hN : 0 < num.getD q.rows.length)
    (hE : ∀ e ∈ E, e.dst < num.getD q.rows.length → e.dst < q.rows.length ∧ e.src < kv.rows.length) (z : Nodes)
    (hz : attention lo ninf cfg P cg q kv b c
      { dst := some (E.map AttnEdge.dst), src := some (E.map AttnEdge.src), num := num } = .ok z)
    (i : ℕ) (hi : i < num.getD q.rows.length) :
    z.rows[i]? = some (dense (cfg.outFeatures.getD q.F) cfg.oBias P.out
      ⟨kv.pseudo, kv.L, cfg.qkvFeatures.getD q.F, fun p n f => ((attnInto E i).map fun e =>
        e.cut / ((attnInto E i).map AttnEdge.cut).sum *
          (dense (cfg.qkvFeatures.getD q.F) cfg.vBias P.value (kv.feat (kv.rows.getD e.src 0))).val p n f).sum⟩).val := by
  obtain ⟨a1, -, a3⟩ := C19_sparse lo ninf cfg P cg q kv bp bL bF E b hb c hc hq hk num hN hE _ rfl
  by_cases h1 : cfg.numHeads = 0 ∨ cfg.qkvFeatures.getD q.F % cfg.numHeads ≠ 0
  · rw [a1 h1] at hz; cases hz
  push Not at h1
  obtain ⟨y, e1, -, -, -, -, e2⟩ := a3 h1.1 h1.2 (by rw [hrel]; intro h; cases h)
  rw [hz] at e1; injection e1 with e1; subst e1
  rw [e2 i hi]
  have hL : attnOutL cfg kv bL = kv.L := by unfold attnOutL; rw [hrel]; rfl
  have hP : attnOutPseudo cfg kv bp bL = kv.pseudo := by unfold attnOutPseudo; rw [hrel]; rfl
  rw [hL, hP]
  congr 4
  funext p n f
  rw [ent_sum_apply]
  congr 1
  refine List.map_congr_left fun e he => ?_
  obtain ⟨m1, m2⟩ := List.mem_filter.1 he
  have hdst : e.dst = i := by simpa using m2
  have hw := attnWeight_uniform cfg P (cfg.qkvFeatures.getD q.F) q kv bF hk0 hb0 E e m1
    (fun e' he' h' => hE e' he' (by rw [h', hdst]; exact hi))
  unfold attnMessage
  rw [hrel]
  simp only [Bool.false_eq_true, if_false]
  rw [hw, hdst]

-- Non-vacuity: a node with two neighbours at different distances.
example (v w : Ent) : ∃ E : List AttnEdge, (∀ e ∈ E, e.dst < 2 → e.dst < 2 ∧ e.src < 2) ∧ (attnInto E 0).length = 2 ∧
    ((attnInto E 0).map AttnEdge.cut).sum = 3 / 2 :=
  ⟨[⟨0, 1, v, 1 / 2⟩, ⟨0, 0, w, 1⟩], by simp, by simp [attnInto], by norm_num [attnInto]⟩

end E3x
