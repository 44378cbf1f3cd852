import Verif.Props.Attention
import Verif.Spec.AttentionLogit
import Mathlib.Algebra.BigOperators.Field

/-!
# C19: the dot products of attention layers
-/

namespace E3x

open Spec
open Finset (range)

/-- The entries of a projection, read off the components of its input. -/
theorem projection_entry (F : ℕ) (useBias : Bool) (P : DenseParams) (x : Feat) (L : ℕ) (ps : Bool)
    (hL : L ≤ x.L) (p i o : ℕ) (hp : p < chan ps) (hi : i < (L + 1) ^ 2) :
    (dense F useBias P (changeMaxDegreeOrType x (some L) (some ps))).val p i o =
      projection useBias P x (if ps then p else deg i % 2) i o := by
  have hc := C08_change x (some L) (some ps)
  simp only [Option.getD_some] at hc
  obtain ⟨c1, c2, c3, c4⟩ := hc
  obtain ⟨d1, d2, d3, d4⟩ := C12_dense F useBias P (changeMaxDegreeOrType x (some L) (some ps))
  have hval : (dense F useBias P (changeMaxDegreeOrType x (some L) (some ps))).val p i o =
      comp (dense F useBias P (changeMaxDegreeOrType x (some L) (some ps))) (if ps then p else deg i % 2) i o := by
    unfold comp
    rw [d1, d2, c1, c2]
    cases ps with
    | true =>
      simp only [chan, if_true] at hp
      rw [if_neg (by simp only [if_true]; omega), if_pos rfl]
      rfl
    | false =>
      have : p = 0 := by simp [chan] at hp; exact hp
      subst this
      rw [if_neg (by simp only [Bool.false_eq_true, if_false]; omega), if_neg (by simp), if_pos (by simp)]
  rw [hval, d4, c3]
  unfold projection
  congr 1
  refine Finset.sum_congr rfl fun f _ => ?_
  rw [c4, if_pos]
  refine ⟨hi, ?_⟩
  cases ps <;> simp

/-- **C19 (dot products).** The number an edge contributes to the softmax in a head is the dot product of the projected
features of its ends over the components that both have, with factors from its basis functions if relative positional
encodings are used, divided by the square root of the number of terms. -/
theorem C19_logit (cfg : AttnCfg) (P : AttnParams) (F : ℕ) (q kv : Nodes) (bF : ℕ) (e : AttnEdge) (h : ℕ)
    (hd : e.dst < q.rows.length) (hs : e.src < kv.rows.length) :
    attnLogit cfg P F q kv bF e h = documentedLogit cfg P F q kv bF e h := by
  unfold attnLogit documentedLogit attnDot
  have hq : (attnQuery cfg P F q kv).getD e.dst 0 = fun p i f =>
      (dense F cfg.qBias P.query (qkInputs kv q (q.feat (q.rows.getD e.dst 0)))).val p i f /
        Real.sqrt ((chan (q.pseudo && kv.pseudo) * (min q.L kv.L + 1) ^ 2 * (F / cfg.numHeads) : ℕ) : ℝ) := by
    unfold attnQuery
    simp [List.getD_eq_getElem?_getD, hd]
  have hk : (attnKey cfg P F q kv).getD e.src 0 =
      (dense F cfg.kBias P.key (qkInputs q kv (kv.feat (kv.rows.getD e.src 0)))).val := by
    unfold attnKey
    simp [List.getD_eq_getElem?_getD, hs]
  rw [hq, hk]
  dsimp only
  have hden : ((chan (q.pseudo && kv.pseudo) * (min q.L kv.L + 1) ^ 2 * (F / cfg.numHeads) : ℕ) : ℝ) =
      (if (q.pseudo && kv.pseudo) = true then 2 else 1) * (((min q.L kv.L : ℕ) : ℝ) + 1) ^ 2 *
        ((F / cfg.numHeads : ℕ) : ℝ) := by
    unfold chan
    push_cast
    split_ifs <;> rfl
  rw [hden]
  generalize Real.sqrt _ = d
  -- the terms
  have hterm : ∀ p i f, p < chan (q.pseudo && kv.pseudo) → i < (min q.L kv.L + 1) ^ 2 →
      (dense F cfg.qBias P.query (qkInputs kv q (q.feat (q.rows.getD e.dst 0)))).val p i f / d *
        (dense F cfg.kBias P.key (qkInputs q kv (kv.feat (kv.rows.getD e.src 0)))).val p i f *
        (if cfg.relQK then relPos cfg.conv.useBasisBias P bF (min q.L kv.L) F e.basis else fun _ _ _ => 1) p i f =
      (projection cfg.qBias P.query (q.feat (q.rows.getD e.dst 0)) (if (q.pseudo && kv.pseudo) then p else deg i % 2) i f *
        projection cfg.kBias P.key (kv.feat (kv.rows.getD e.src 0)) (if (q.pseudo && kv.pseudo) then p else deg i % 2) i f *
        positionFactor cfg P (q.pseudo && kv.pseudo) bF (min q.L kv.L) F e.basis
          (if (q.pseudo && kv.pseudo) then p else deg i % 2) i f) / d := by
    intro p i f hp hi
    have e1 : (dense F cfg.qBias P.query (qkInputs kv q (q.feat (q.rows.getD e.dst 0)))).val p i f =
        projection cfg.qBias P.query (q.feat (q.rows.getD e.dst 0)) (if (q.pseudo && kv.pseudo) then p else deg i % 2) i f := by
      unfold qkInputs
      exact projection_entry F cfg.qBias P.query _ _ _ (min_le_left _ _) p i f hp hi
    have e2 : (dense F cfg.kBias P.key (qkInputs q kv (kv.feat (kv.rows.getD e.src 0)))).val p i f =
        projection cfg.kBias P.key (kv.feat (kv.rows.getD e.src 0)) (if (q.pseudo && kv.pseudo) then p else deg i % 2) i f := by
      unfold qkInputs
      rw [Bool.and_comm kv.pseudo, min_comm kv.L]
      exact projection_entry F cfg.kBias P.key _ _ _ (min_le_right _ _) p i f hp hi
    have e3 : (if cfg.relQK then relPos cfg.conv.useBasisBias P bF (min q.L kv.L) F e.basis else fun _ _ _ => 1) p i f =
        positionFactor cfg P (q.pseudo && kv.pseudo) bF (min q.L kv.L) F e.basis
          (if (q.pseudo && kv.pseudo) then p else deg i % 2) i f := by
      unfold positionFactor
      cases cfg.relQK with
      | false => rfl
      | true =>
        rw [if_pos rfl, if_pos rfl]
        unfold relPos nnDense
        have hslot : slot (q.pseudo && kv.pseudo) (if (q.pseudo && kv.pseudo) then p else deg i % 2) = p := by
          unfold slot
          cases hb : (q.pseudo && kv.pseudo) with
          | true => rfl
          | false => rw [hb] at hp; simp [chan] at hp; simp [hp]
        rw [dup_eq hi, hslot]
        congr 1
        cases cfg.conv.useBasisBias <;> rfl
    rw [e1, e2, e3]
    ring
  cases hb : (q.pseudo && kv.pseudo) with
  | true =>
    rw [hb] at hterm
    rw [Finset.sum_div]
    refine Finset.sum_congr rfl fun p hp => ?_
    rw [Finset.sum_div]
    refine Finset.sum_congr rfl fun i hi => ?_
    rw [if_pos (Or.inl rfl), Finset.sum_div]
    refine Finset.sum_congr rfl fun f _ => ?_
    exact hterm p i _ (Finset.mem_range.1 hp) (Finset.mem_range.1 hi)
  | false =>
    rw [hb] at hterm
    rw [show chan false = 1 from rfl, Finset.sum_range_one, Finset.sum_comm (s := range 2), Finset.sum_div]
    refine Finset.sum_congr rfl fun i hi => ?_
    have hone : ∀ g : ℕ → ℝ, (∑ p ∈ range 2, if false = true ∨ p = deg i % 2 then g p else 0) = g (deg i % 2) := by
      intro g
      simp only [Bool.false_eq_true, false_or]
      rw [Finset.sum_ite_eq' (range 2), if_pos (by simp; omega)]
    rw [hone, Finset.sum_div]
    refine Finset.sum_congr rfl fun f _ => ?_
    exact hterm 0 i _ (by simp [chan]) (Finset.mem_range.1 hi)

-- Non-vacuity: an edge between two nodes, one with vectors and one with scalars only.
example : (⟨0, 1, 0, 1⟩ : AttnEdge).dst < (⟨true, 1, 2, [0, 0]⟩ : Nodes).rows.length ∧
    (⟨0, 1, 0, 1⟩ : AttnEdge).src < (⟨false, 0, 3, [0, 0]⟩ : Nodes).rows.length := by simp

end E3x
