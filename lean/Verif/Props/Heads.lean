import Verif.Props.Attention
import Verif.Spec.Heads

/-!
# C98: the heads of attention layers are independent
-/

namespace E3x

open Spec
open Finset (range)

/-- An output feature of a dense layer depends on the parameters of this feature. -/
theorem dense_column {S : ℕ → Prop} {P P' : DenseParams} (hP : SameColumns S P P') (F : ℕ) (useBias : Bool) (x : Feat)
    (p i o : ℕ) (ho : S o) : (dense F useBias P' x).val p i o = (dense F useBias P x).val p i o := by
  obtain ⟨hk, hb⟩ := hP o ho
  have hsub : ∀ u pr l row, denseSub x.F P' u pr l row o = denseSub x.F P u pr l row o := by
    intro u pr l row
    unfold denseSub nnDense
    simp only [hk]
    congr 1
    cases hu : (u && l == 0)
    · rfl
    · exact hb
  unfold dense
  split_ifs
  · simp only [concatDegrees, hsub]
  · simp only [concatDegrees, hsub]

/-- Dense layers do not see features with zero columns. -/
theorem dense_reads (P : DenseParams) (F : ℕ) (useBias : Bool) (x y : Feat) (hp : x.pseudo = y.pseudo) (hL : x.L = y.L)
    (hF : x.F = y.F)
    (h : ∀ f < x.F, (∀ p i, x.val p i f = y.val p i f) ∨ ∀ p l o, P.kernel p l f o = 0) :
    (dense F useBias P x).val = (dense F useBias P y).val := by
  have hsub : ∀ u pr l c i o, denseSub x.F P u pr l (fun f => x.val c i f) o =
      denseSub y.F P u pr l (fun f => y.val c i f) o := by
    intro u pr l c i o
    unfold denseSub nnDense
    rw [← hF]
    congr 1
    refine Finset.sum_congr rfl fun f hf => ?_
    dsimp only
    rcases h f (Finset.mem_range.1 hf) with h | h
    · rw [h]
    · rw [h, mul_zero, mul_zero]
  unfold dense
  rw [← hp]
  split_ifs
  · simp only [concatDegrees, hsub]
  · simp only [concatDegrees, hsub]

/-- The dot products of a head. -/
theorem attnLogit_head (cfg : AttnCfg) {P P' : AttnParams} {F h : ℕ} (hP : SameHead cfg.numHeads F h P P')
    (hh : h < cfg.numHeads) (q kv : Nodes) (bF : ℕ) (e : AttnEdge) :
    attnLogit cfg P' F q kv bF e h = attnLogit cfg P F q kv bF e h := by
  have hmod : ∀ f, (f * cfg.numHeads + h) % cfg.numHeads = h := by
    intro f
    rw [Nat.add_comm, Nat.add_mul_mod_self_right, Nat.mod_eq_of_lt hh]
  unfold attnLogit attnDot
  refine Finset.sum_congr rfl fun p _ => Finset.sum_congr rfl fun i _ => Finset.sum_congr rfl fun f _ => ?_
  have hq : ((attnQuery cfg P' F q kv).getD e.dst 0) p i (f * cfg.numHeads + h) =
      ((attnQuery cfg P F q kv).getD e.dst 0) p i (f * cfg.numHeads + h) := by
    unfold attnQuery
    by_cases hd : e.dst < q.rows.length
    · simp only [List.getD_eq_getElem?_getD, List.getElem?_map, List.getElem?_eq_getElem hd, Option.map_some,
        Option.getD_some, dense_column hP.query F cfg.qBias _ p i _ (hmod f)]
    · simp [List.getD_eq_getElem?_getD, hd]
  have hk : ((attnKey cfg P' F q kv).getD e.src 0) p i (f * cfg.numHeads + h) =
      ((attnKey cfg P F q kv).getD e.src 0) p i (f * cfg.numHeads + h) := by
    unfold attnKey
    by_cases hd : e.src < kv.rows.length
    · simp only [List.getD_eq_getElem?_getD, List.getElem?_map, List.getElem?_eq_getElem hd, Option.map_some,
        Option.getD_some, dense_column hP.key F cfg.kBias _ p i _ (hmod f)]
    · simp [List.getD_eq_getElem?_getD, hd]
  have hr : (if cfg.relQK then relPos cfg.conv.useBasisBias P' bF (min q.L kv.L) F e.basis else fun _ _ _ => 1)
      p i (f * cfg.numHeads + h) =
      (if cfg.relQK then relPos cfg.conv.useBasisBias P bF (min q.L kv.L) F e.basis else fun _ _ _ => 1)
      p i (f * cfg.numHeads + h) := by
    split_ifs
    · obtain ⟨r1, r2⟩ := hP.rel (p * (min q.L kv.L + 1) + dup (min q.L kv.L) i) _ (hmod f)
      unfold relPos nnDense
      simp only [r1]
      congr 1
      cases cfg.conv.useBasisBias
      · rfl
      · exact r2
    · rfl
  rw [hq, hk, hr]

/-- The weights of a head. -/
theorem attnWeight_head (cfg : AttnCfg) {P P' : AttnParams} {F h : ℕ} (hP : SameHead cfg.numHeads F h P P')
    (hh : h < cfg.numHeads) (q kv : Nodes) (bF : ℕ) (E : List AttnEdge) (e : AttnEdge) :
    attnWeight cfg P' F q kv bF E e h = attnWeight cfg P F q kv bF E e h := by
  unfold attnWeight
  simp only [attnLogit_head cfg hP hh]

/-- Every feature of a tensor product depends on the same feature of its arguments only. -/
theorem anyTensor_feature (cfg : TensorCfg) (T : TensorParams) (cg : ℕ → ℕ → ℕ → ℝ) (ps ps' : Bool) (L L' F F' : ℕ)
    (u u' v v' : Ent) (f : ℕ) (hu : ∀ p i, u' p i f = u p i f) (hv : ∀ p i, v' p i f = v p i f) (p i : ℕ) :
    (match anyTensor cfg T cg ⟨ps, L, F, u'⟩ ⟨ps', L', F', v'⟩ with | .ok z => z.val | .error _ => 0) p i f =
      (match anyTensor cfg T cg ⟨ps, L, F, u⟩ ⟨ps', L', F', v⟩ with | .ok z => z.val | .error _ => 0) p i f := by
  have hou : outDegree cfg ⟨ps, L, F, u'⟩ ⟨ps', L', F', v'⟩ = outDegree cfg ⟨ps, L, F, u⟩ ⟨ps', L', F', v⟩ := rfl
  cases T with
  | tensor k =>
    simp only [anyTensor, tensor]
    rw [hou]
    by_cases h1 : L + L' < outDegree cfg ⟨ps, L, F, u⟩ ⟨ps', L', F', v⟩
    · rw [if_pos h1, if_pos h1]
    by_cases h2 : F ≠ F'
    · rw [if_neg h1, if_neg h1, if_pos h2, if_pos h2]
    rw [if_neg h1, if_neg h1, if_neg h2, if_neg h2]
    dsimp only
    have hk : expandedKernel cfg k ⟨ps, L, F, u'⟩ ⟨ps', L', F', v'⟩ =
      expandedKernel cfg k ⟨ps, L, F, u⟩ ⟨ps', L', F', v⟩ := rfl
    rw [hk]
    by_cases hm : mixedPaths cfg ⟨ps, L, F, u⟩ ⟨ps', L', F', v⟩
    · have hm' : mixedPaths cfg ⟨ps, L, F, u'⟩ ⟨ps', L', F', v'⟩ := hm
      rw [if_pos hm, if_pos hm']
      simp only [mixedEinsum, hu, hv]
    · have hm' : ¬ mixedPaths cfg ⟨ps, L, F, u'⟩ ⟨ps', L', F', v'⟩ := hm
      rw [if_neg hm, if_neg hm']
      simp only [slicesEinsum, coupleSlices, hu, hv]
  | fused K =>
    simp only [anyTensor, fusedTensor]
    rw [hou]
    by_cases h1 : L + L' < outDegree cfg ⟨ps, L, F, u⟩ ⟨ps', L', F', v⟩
    · rw [if_pos h1, if_pos h1]
    by_cases h2 : F ≠ F'
    · rw [if_neg h1, if_neg h1, if_pos h2, if_pos h2]
    rw [if_neg h1, if_neg h1, if_neg h2, if_neg h2]
    dsimp only
    have hsu : ∀ M p n, splitParity M ⟨ps, L, F, u'⟩ p n f = splitParity M ⟨ps, L, F, u⟩ p n f := by
      intro M p n
      unfold splitParity
      split_ifs <;> simp only [hu]
    have hsv : ∀ M p n, splitParity M ⟨ps', L', F', v'⟩ p n f = splitParity M ⟨ps', L', F', v⟩ p n f := by
      intro M p n
      unfold splitParity
      split_ifs <;> simp only [hv]
    have hpo : outPseudo cfg ⟨ps, L, F, u'⟩ ⟨ps', L', F', v'⟩ = outPseudo cfg ⟨ps, L, F, u⟩ ⟨ps', L', F', v⟩ := rfl
    have hM : fusedM cfg ⟨ps, L, F, u'⟩ ⟨ps', L', F', v'⟩ = fusedM cfg ⟨ps, L, F, u⟩ ⟨ps', L', F', v⟩ := rfl
    have hlam : matrixDegree cfg ⟨ps, L, F, u'⟩ ⟨ps', L', F', v'⟩ = matrixDegree cfg ⟨ps, L, F, u⟩ ⟨ps', L', F', v⟩ := rfl
    unfold fusedVal
    dsimp only
    rw [hpo, hM, hlam, hou]
    split_ifs
    · simp only [fusedToVector, fusedCouple, fusedToMatrix, hsu, hsv]
    · simp only [fusedToVector, fusedCouple, fusedToMatrix, hsu, hsv]

/-- Entries of sums of messages. -/
theorem ent_sum_apply {α : Type} (l : List α) (g : α → Ent) (p i f : ℕ) :
    (l.map g).sum p i f = (l.map fun e => g e p i f).sum := by
  induction l with
  | nil => rfl
  | cons a l ih => simp only [List.map_cons, List.sum_cons, Pi.add_apply, ih]

/-- **C98 (heads are independent).** If the output layer reads only the features
of one head, the result depends only on the parameters of this head. These are the parameters of every `H`-th query, key and
positional encoding feature, but of a block of consecutive value features (and filters). -/
theorem C98_heads (lo ninf : ℝ) (cfg : AttnCfg) (P P' : AttnParams) (cg : ℕ → ℕ → ℕ → ℝ)
    (q kv : Nodes) (bp : Bool) (bL bF : ℕ) (E : List AttnEdge) (b : Option Edges)
    (hb : BasisOf cfg b ⟨bp, bL, bF, .vec (E.map AttnEdge.basis)⟩)
    (c : Option (Lead ℝ)) (hc : CutoffOf c (.vec (E.map AttnEdge.cut)) E)
    (hq : 0 < q.rows.length) (hk : 0 < kv.rows.length) (num : Option ℕ) (hN : 0 < num.getD q.rows.length)
    (hE : ∀ e ∈ E, e.dst < num.getD q.rows.length → e.dst < q.rows.length ∧ e.src < kv.rows.length)
    (h : ℕ) (hh : h < cfg.numHeads) (hP : SameHead cfg.numHeads (cfg.qkvFeatures.getD q.F) h P P')
    (hout : ReadsHead cfg.numHeads (cfg.qkvFeatures.getD q.F) h P.out) :
    attention lo ninf cfg P' cg q kv b c
      { dst := some (E.map AttnEdge.dst), src := some (E.map AttnEdge.src), num := num } =
    attention lo ninf cfg P cg q kv b c
      { dst := some (E.map AttnEdge.dst), src := some (E.map AttnEdge.src), num := num } := by
  obtain ⟨a1, a2, a3⟩ := C19_sparse lo ninf cfg P cg q kv bp bL bF E b hb c hc hq hk num hN hE _ rfl
  obtain ⟨b1, b2, b3⟩ := C19_sparse lo ninf cfg P' cg q kv bp bL bF E b hb c hc hq hk num hN hE _ rfl
  by_cases h1 : cfg.numHeads = 0 ∨ cfg.qkvFeatures.getD q.F % cfg.numHeads ≠ 0
  · rw [a1 h1, b1 h1]
  by_cases h2 : cfg.relV = true ∧ bL + kv.L < cfg.conv.tens.maxDegree.getD (max bL kv.L)
  · rw [a2 h2.1 h2.2, b2 h2.1 h2.2]
  push Not at h1 h2
  obtain ⟨z, e1, e2⟩ := a3 h1.1 h1.2 h2
  obtain ⟨z', f1, g1, g2, g3, g4, g5⟩ := b3 h1.1 h1.2 h2
  rw [e1, f1]
  congr 1
  refine isAttention_unique ⟨g1, g2, g3, g4, ?_⟩ e2
  intro i hi
  rw [g5 i hi, hP.out]
  congr 1
  refine dense_reads P.out _ cfg.oBias _ _ rfl rfl rfl fun f hf => ?_
  by_cases hfh : f / (cfg.qkvFeatures.getD q.F / cfg.numHeads) = h
  · left
    intro p n
    dsimp only
    rw [ent_sum_apply, ent_sum_apply]
    congr 1
    refine List.map_congr_left fun e _ => ?_
    have hval : ∀ p n, attnWeight cfg P' (cfg.qkvFeatures.getD q.F) q kv bF E e
          (f / (cfg.qkvFeatures.getD q.F / cfg.numHeads)) *
          (dense (cfg.qkvFeatures.getD q.F) cfg.vBias P'.value (kv.feat (kv.rows.getD e.src 0))).val p n f =
        attnWeight cfg P (cfg.qkvFeatures.getD q.F) q kv bF E e (f / (cfg.qkvFeatures.getD q.F / cfg.numHeads)) *
          (dense (cfg.qkvFeatures.getD q.F) cfg.vBias P.value (kv.feat (kv.rows.getD e.src 0))).val p n f := by
      intro p n
      rw [hfh, attnWeight_head cfg hP hh, dense_column hP.value _ cfg.vBias _ p n f hfh]
    unfold attnMessage
    cases cfg.relV with
    | false => exact hval p n
    | true =>
      rw [if_pos rfl, if_pos rfl, hP.tens]
      have hd : ∀ D : DenseParams, dense (cfg.qkvFeatures.getD q.F) cfg.conv.useBasisBias D ⟨bp, bL, bF, e.basis⟩ =
          ⟨bp, bL, cfg.qkvFeatures.getD q.F,
            (dense (cfg.qkvFeatures.getD q.F) cfg.conv.useBasisBias D ⟨bp, bL, bF, e.basis⟩).val⟩ := by
        intro D
        cases bp <;> rfl
      rw [hd P'.conv.filter, hd P.conv.filter]
      exact anyTensor_feature _ _ cg _ _ _ _ _ _ _ _ _ _ f
        (fun p i => dense_column hP.filter _ _ _ p i f hfh) hval p n
  · exact Or.inr (hout f hf hfh)

/-- **C98 (features of a head).** The features that decide how strongly a head attends to a neighbour are not the features
that it collects: with two heads and four features, the result of a layer that reads value features 0 and 1 only (head 0) does
not change with the query and key parameters of feature 1, although feature 1 is among those it collects. -/
theorem C98_interleaved (lo ninf : ℝ) (cfg : AttnCfg) (hH : cfg.numHeads = 2)
    (hF : cfg.qkvFeatures = some 4) (P : AttnParams) (hout : ∀ p l o, P.out.kernel p l 2 o = 0 ∧ P.out.kernel p l 3 o = 0)
    (k k' : ℕ → ℕ → ℕ → ℝ) (cg : ℕ → ℕ → ℕ → ℝ)
    (q kv : Nodes) (bp : Bool) (bL bF : ℕ) (E : List AttnEdge) (b : Option Edges)
    (hb : BasisOf cfg b ⟨bp, bL, bF, .vec (E.map AttnEdge.basis)⟩)
    (c : Option (Lead ℝ)) (hc : CutoffOf c (.vec (E.map AttnEdge.cut)) E)
    (hq : 0 < q.rows.length) (hk : 0 < kv.rows.length)
    (hE : ∀ e ∈ E, e.dst < q.rows.length → e.src < kv.rows.length) :
    attention lo ninf cfg
      { P with
        query := { P.query with kernel := fun p l f o => if o = 1 then k p l f else P.query.kernel p l f o }
        key := { P.key with kernel := fun p l f o => if o = 1 then k' p l f else P.key.kernel p l f o } }
      cg q kv b c { dst := some (E.map AttnEdge.dst), src := some (E.map AttnEdge.src) } =
    attention lo ninf cfg P cg q kv b c { dst := some (E.map AttnEdge.dst), src := some (E.map AttnEdge.src) } := by
  refine C98_heads lo ninf cfg P _ cg q kv bp bL bF E b hb c hc hq hk none hq (fun e he hd => ⟨hd, hE e he hd⟩) 0
    (by omega) ?_ ?_
  · rw [hH, hF]
    refine ⟨?_, ?_, fun _ _ _ => ⟨fun _ => rfl, rfl⟩, fun _ _ => ⟨fun _ _ _ => rfl, rfl⟩,
      fun _ _ => ⟨fun _ _ _ => rfl, rfl⟩, rfl, rfl⟩
    · intro o ho
      refine ⟨fun p l f => ?_, rfl⟩
      dsimp only
      rw [if_neg (by omega)]
    · intro o ho
      refine ⟨fun p l f => ?_, rfl⟩
      dsimp only
      rw [if_neg (by omega)]
  · rw [hH, hF]
    intro f hf hfh p l o
    simp only [Option.getD_some] at hf hfh
    have : f = 2 ∨ f = 3 := by omega
    rcases this with rfl | rfl
    · exact (hout p l o).1
    · exact (hout p l o).2

-- Non-vacuity: output layers that read one head only, and different layers that agree in it.
example : ∃ P : DenseParams, ReadsHead 2 4 0 P ∧ P.kernel 0 0 1 0 = 1 :=
  ⟨⟨fun _ _ f _ => if f = 1 then 1 else 0, 0⟩, by intro f hf h p l o; dsimp only; rw [if_neg (by omega)], rfl⟩

example (P : AttnParams) (hP : P.query.bias 1 = 0) : ∃ P', SameHead 2 4 0 P P' ∧ P' ≠ P :=
  ⟨{ P with query := { P.query with bias := fun o => if o = 1 then 1 else P.query.bias o } },
    ⟨fun o ho => ⟨fun _ _ _ => rfl, by dsimp only; rw [if_neg (by omega)]⟩, fun _ _ => ⟨fun _ _ _ => rfl, rfl⟩,
      fun _ _ _ => ⟨fun _ => rfl, rfl⟩, fun _ _ => ⟨fun _ _ _ => rfl, rfl⟩,
      fun _ _ => ⟨fun _ _ _ => rfl, rfl⟩, rfl, rfl⟩, by
      intro h
      have := congrArg (fun P => P.query.bias 1) h
      simp [hP] at this⟩

end E3x
