import Verif.Props.Heads
import Verif.Props.KeyBias

/-!
# C100: scales of the values
-/

namespace E3x

open Spec
open Finset (range)

/-- A dense layer with input features divided by `s p l f`. -/
noncomputable def unscaleInputs (s : ℕ → ℕ → ℕ → ℝ) (P : DenseParams) : DenseParams :=
  { kernel := fun p l f o => P.kernel p l f o / s p l f, bias := P.bias }

/-- The submodule that handles an entry: without pseudotensors, the parity is that of the degree. -/
def partParity (ps : Bool) (p n : ℕ) : ℕ := if ps then (if p = 0 then 0 else 1) else deg n % 2

theorem dense_scale_part (s : ℕ → ℕ → ℕ → ℝ) (F : ℕ) (useBias : Bool) (P : DenseParams) (x : Feat) (p n f : ℕ) :
    (dense F useBias (scaleDense s P) x).val p n f =
      s (partParity x.pseudo p n) (deg n) f * (dense F useBias P x).val p n f := by
  unfold dense concatDegrees denseSub nnDense scaleDense partParity
  cases hx : x.pseudo <;> by_cases hp : p = 0 <;> by_cases hd : deg n = 0 <;> cases useBias <;>
    simp [hp, hd, mul_add, Finset.mul_sum] <;> exact Finset.sum_congr rfl fun _ _ => by ring

theorem dense_unscale_part (s : ℕ → ℕ → ℕ → ℝ) (hs0 : ∀ p l o, s p l o ≠ 0) (F' F L : ℕ) (ps useBias : Bool) (P : DenseParams)
    (u : Ent) :
    (dense F' useBias (unscaleInputs s P) ⟨ps, L, F, fun p n f => s (partParity ps p n) (deg n) f * u p n f⟩).val =
      (dense F' useBias P ⟨ps, L, F, u⟩).val := by
  funext p n o
  have key : ∀ a b c : ℕ, ∀ x y : ℝ, s a b c * x * (y / s a b c) = x * y := fun a b c x y => by
    have := hs0 a b c
    field_simp
  unfold dense concatDegrees denseSub nnDense unscaleInputs partParity
  cases ps <;> by_cases hp : p = 0 <;> simp [hp, key]

/-- **C100 (scales of the values).** Without relative positional encodings of the values, multiplying the parameters of the values
by non-zero factors, one for every parity, degree and feature, and dividing the kernels of the output layer by the same factors,
changes nothing. -/
theorem C100_value_scale (lo ninf : ℝ) (cfg : AttnCfg) (hrel : cfg.relV = false) (P : AttnParams) (s : ℕ → ℕ → ℕ → ℝ)
    (hs0 : ∀ p l o, s p l o ≠ 0) (cg : ℕ → ℕ → ℕ → ℝ) (q kv : Nodes) (bp : Bool) (bL bF : ℕ)
    (E : List AttnEdge) (b : Option Edges) (hb : BasisOf cfg b ⟨bp, bL, bF, .vec (E.map AttnEdge.basis)⟩)
    (c : Option (Lead ℝ)) (hc : CutoffOf c (.vec (E.map AttnEdge.cut)) E)
    (hq : 0 < q.rows.length) (hk : 0 < kv.rows.length) (num : Option ℕ) (hN : 0 < num.getD q.rows.length)
    (hE : ∀ e ∈ E, e.dst < num.getD q.rows.length → e.dst < q.rows.length ∧ e.src < kv.rows.length) :
    attention lo ninf cfg { P with value := scaleDense s P.value, out := unscaleInputs s P.out } cg q kv b c
      { dst := some (E.map AttnEdge.dst), src := some (E.map AttnEdge.src), num := num } =
    attention lo ninf cfg P cg q kv b c
      { dst := some (E.map AttnEdge.dst), src := some (E.map AttnEdge.src), num := num } := by
  obtain ⟨a1, -, a3⟩ := C19_sparse lo ninf cfg P cg q kv bp bL bF E b hb c hc hq hk num hN hE _ rfl
  obtain ⟨b1, -, b3⟩ := C19_sparse lo ninf cfg { P with value := scaleDense s P.value, out := unscaleInputs s P.out } cg q kv
    bp bL bF E b hb c hc hq hk num hN hE _ rfl
  by_cases h1 : cfg.numHeads = 0 ∨ cfg.qkvFeatures.getD q.F % cfg.numHeads ≠ 0
  · rw [a1 h1, b1 h1]
  push Not at h1
  have hr : cfg.relV = true → cfg.conv.tens.maxDegree.getD (max bL kv.L) ≤ bL + kv.L := by rw [hrel]; intro h; cases h
  obtain ⟨z, e1, e2⟩ := a3 h1.1 h1.2 hr
  obtain ⟨z', f1, g1, g2, g3, g4, f2⟩ := b3 h1.1 h1.2 hr
  rw [e1, f1]
  congr 1
  refine isAttention_unique ⟨g1, g2, g3, g4, fun i hi => ?_⟩ e2
  rw [f2 i hi]
  have hP : attnOutPseudo cfg kv bp bL = kv.pseudo := by unfold attnOutPseudo; rw [hrel]; rfl
  rw [hP, ← dense_unscale_part s hs0 _ _ _ _ _ P.out]
  congr 4
  funext p n f
  rw [ent_sum_apply, ent_sum_apply, ← List.sum_map_mul_left]
  congr 1
  refine List.map_congr_left fun e _ => ?_
  unfold attnMessage
  simp only [hrel, Bool.false_eq_true, if_false]
  rw [dense_scale_part, mul_left_comm]
  rfl

-- Non-vacuity: factors that depend on the parity, the degree and the feature, none of them zero.
example : ∃ s : ℕ → ℕ → ℕ → ℝ, (∀ p l o, s p l o ≠ 0) ∧ s 0 1 2 = 4 ∧ s 1 1 2 = 5 :=
  ⟨fun p l o => p + l + o + 1, fun p l o => by positivity, by norm_num, by norm_num⟩

end E3x
