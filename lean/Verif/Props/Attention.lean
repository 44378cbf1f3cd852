import Verif.Props.Message

/-!
# C19: attention
-/

namespace E3x

open Spec
open Finset (range)

section

variable {cg cg' : ℕ → ℕ → ℕ → ℝ} {A : Feat → Feat} (hA : SymFacts cg cg' A)

/-- Dense layer after a change of degree and type. -/
def denseChange (F : ℕ) (b : Bool) (P : DenseParams) (L : ℕ) (ps : Bool) (z : Feat) : Feat :=
  dense F b P (changeMaxDegreeOrType z (some L) (some ps))

theorem denseChange_hdr (F : ℕ) (b : Bool) (P : DenseParams) (L : ℕ) (ps : Bool) (z : Feat) :
    (denseChange F b P L ps z).pseudo = ps ∧ (denseChange F b P L ps z).L = L ∧ (denseChange F b P L ps z).F = F := by
  obtain ⟨a1, a2, a3, _⟩ := C12_dense F b P (changeMaxDegreeOrType z (some L) (some ps))
  obtain ⟨b1, b2, b3, _⟩ := C08_change z (some L) (some ps)
  exact ⟨a1.trans b2, a2.trans b1, a3⟩

include hA in
theorem denseChange_tr (F : ℕ) (b : Bool) (P : DenseParams) (L : ℕ) (ps : Bool) {ps' : Bool} {L' F' : ℕ} {v v' : Ent}
    (h : Tr A ps' L' F' v v') :
    Tr A ps L F (denseChange F b P L ps ⟨ps', L', F', v⟩).val (denseChange F b P L ps ⟨ps', L', F', v'⟩).val := by
  have hd := denseChange_hdr F b P L ps
  have := Tr.apply (A := A) (g := denseChange F b P L ps)
    (fun x => (dense_same (hA.change x _ _) F b P).trans (hA.dense F b P _))
    (fun h => dense_same (change_same h _ _) F b P)
    (fun ps L F v w => by
      obtain ⟨a1, a2, a3⟩ := hd ⟨ps, L, F, v⟩
      obtain ⟨b1, b2, b3⟩ := hd ⟨ps, L, F, w⟩
      exact ⟨a1.trans b1.symm, a2.trans b2.symm, a3.trans b3.symm⟩) h
  obtain ⟨a1, a2, a3⟩ := hd ⟨ps', L', F', 0⟩
  rw [a1, a2, a3] at this
  exact this

include hA in
theorem attnQuery_tr (cfg : AttnCfg) (P : AttnParams) (F : ℕ) {q q' kv kv' : Nodes} (hq : NodesTr A q q')
    (hk : NodesTr A kv kv') :
    List.Forall₂ (Tr A (q.pseudo && kv.pseudo) (min q.L kv.L) F) (attnQuery cfg P F q kv) (attnQuery cfg P F q' kv') := by
  obtain ⟨q1, q2, q3, q4⟩ := hq
  obtain ⟨k1, k2, k3, k4⟩ := hk
  unfold attnQuery
  simp only [← q1, ← q2, ← k1, ← k2]
  refine forall2_map q4 fun v v' hv => ?_
  have h := denseChange_tr hA F cfg.qBias P.query (min q.L kv.L) (q.pseudo && kv.pseudo) hv
  have := Tr.scale hA (fun _ => 1 / Real.sqrt ((chan (q.pseudo && kv.pseudo) * (min q.L kv.L + 1) ^ 2 * (F / cfg.numHeads) : ℕ) : ℝ))
    (fun _ => 1 / Real.sqrt ((chan (q.pseudo && kv.pseudo) * (min q.L kv.L + 1) ^ 2 * (F / cfg.numHeads) : ℕ) : ℝ))
    (fun _ _ => rfl) h
  unfold qkInputs Nodes.feat
  rw [← q1, ← q2, ← q3, ← k1, ← k2]
  unfold denseChange at this
  simp only [one_div, inv_mul_eq_div] at this
  exact this

include hA in
theorem attnKey_tr (cfg : AttnCfg) (P : AttnParams) (F : ℕ) {q q' kv kv' : Nodes} (hq : NodesTr A q q')
    (hk : NodesTr A kv kv') :
    List.Forall₂ (Tr A (q.pseudo && kv.pseudo) (min q.L kv.L) F) (attnKey cfg P F q kv) (attnKey cfg P F q' kv') := by
  obtain ⟨q1, q2, q3, q4⟩ := hq
  obtain ⟨k1, k2, k3, k4⟩ := hk
  unfold attnKey
  refine forall2_map k4 fun v v' hv => ?_
  have h := denseChange_tr hA F cfg.kBias P.key (min q.L kv.L) (q.pseudo && kv.pseudo) hv
  unfold qkInputs Nodes.feat
  rw [← q1, ← q2, ← k1, ← k2, ← k3]
  unfold denseChange at h
  rw [min_comm q.L kv.L, Bool.and_comm q.pseudo] at h ⊢
  exact h

include hA in
/-- Dot products are invariant. -/
theorem attnDot_tr (ps : Bool) (L F H : ℕ) {u u' v v' rel rel' : Ent} (hu : Tr A ps L F u u') (hv : Tr A ps L F v v')
    (r : ℕ → ℕ → ℕ → ℝ) (hr : ∀ p i f, i < (L + 1) ^ 2 → rel p i f = r p (deg i) f)
    (hr' : ∀ p i f, i < (L + 1) ^ 2 → rel' p i f = r p (deg i) f) (h : ℕ) (hh : h < H) :
    attnDot (chan ps) L F H u v rel h = attnDot (chan ps) L F H u' v' rel' h := by
  have swap : ∀ g : ℕ → ℕ → ℕ → ℝ, ∑ p ∈ range (chan ps), ∑ i ∈ range ((L + 1) ^ 2), ∑ f ∈ range (F / H), g p i f =
      ∑ f ∈ range (F / H), ∑ p ∈ range (chan ps), ∑ i ∈ range ((L + 1) ^ 2), g p i f := by
    intro g
    rw [Finset.sum_comm (s := range (F / H))]
    refine Finset.sum_congr rfl fun p _ => ?_
    rw [Finset.sum_comm]
  unfold attnDot
  rw [swap, swap]
  refine Finset.sum_congr rfl fun f hf => ?_
  have hF : f * H + h < F := by
    have h1 : f + 1 ≤ F / H := Finset.mem_range.1 hf
    have h2 : (f + 1) * H ≤ F / H * H := Nat.mul_le_mul_right _ h1
    have h3 := Nat.div_mul_le_self F H
    have h4 : (f + 1) * H = f * H + H := by ring
    omega
  have := hA.dot ps L F u v (fun p d => r p d (f * H + h)) (f * H + h)
  rw [show (∑ p ∈ range (chan ps), ∑ i ∈ range ((L + 1) ^ 2), u p i (f * H + h) * v p i (f * H + h) * rel p i (f * H + h)) =
    ∑ p ∈ range (chan ps), ∑ i ∈ range ((L + 1) ^ 2), u p i (f * H + h) * v p i (f * H + h) * r p (deg i) (f * H + h) from
      Finset.sum_congr rfl fun p _ => Finset.sum_congr rfl fun i hi => by rw [hr _ _ _ (Finset.mem_range.1 hi)], ← this]
  refine Finset.sum_congr rfl fun p hp => Finset.sum_congr rfl fun i hi => ?_
  rw [hr' _ _ _ (Finset.mem_range.1 hi)]
  have e1 := hu.2.2.2 p i (f * H + h) (Finset.mem_range.1 hp) (Finset.mem_range.1 hi) hF
  have e2 := hv.2.2.2 p i (f * H + h) (Finset.mem_range.1 hp) (Finset.mem_range.1 hi) hF
  simp only at e1 e2
  rw [e1, e2]

/-- Equality for the first `H` heads. -/
def HeadsEq (H : ℕ) (d d' : ℕ → ℝ) : Prop := ∀ h < H, d h = d' h

include hA in
theorem relPos_tr (ub : Bool) (P : AttnParams) {ps : Bool} {Lb nB : ℕ} {b b' : Ent} (hb : Tr A ps Lb nB b b') (L F : ℕ) :
    relPos ub P nB L F b' = relPos ub P nB L F b := by
  funext p i f
  unfold relPos nnDense
  have : ∀ k ∈ range nB, b' 0 0 k = b 0 0 k := fun k hk => Tr.scalar hA hb (Finset.mem_range.1 hk)
  congr 1
  refine Finset.sum_congr rfl fun k hk => ?_
  dsimp only
  rw [this k hk]

theorem relPos_deg (ub : Bool) (P : AttnParams) (nB L F : ℕ) (b : Ent) : ∃ r : ℕ → ℕ → ℕ → ℝ,
    ∀ p i f, i < (L + 1) ^ 2 → relPos ub P nB L F b p i f = r p (deg i) f := by
  refine ⟨fun p d f => nnDense nB P.relKernel (if ub then some P.relBias else none) (fun k => b 0 0 k)
    ((p * (L + 1) + d) * F + f), ?_⟩
  intro p i f hi
  unfold relPos
  rw [dup_eq hi]

include hA in
theorem attnDots_tr (cfg : AttnCfg) (P : AttnParams) (F : ℕ) {q q' kv kv' : Nodes} {b b' : Option Edges}
    (hq : NodesTr A q q') (hk : NodesTr A kv kv') (hb : OptRel (EdgesTr A) b b') (ix : IndexArgs) :
    ExRel (Lead.Rel (HeadsEq cfg.numHeads)) (attnDots cfg P F q kv b ix) (attnDots cfg P F q' kv' b' ix) := by
  unfold attnDots
  have g1 := gatherDst_rel (attnQuery_tr hA cfg P F hq hk) ix
  have g2 := gatherSrc_rel (attnKey_tr hA cfg P F hq hk) ix
  obtain ⟨q1, q2, q3, q4⟩ := hq
  obtain ⟨k1, k2, k3, k4⟩ := hk
  simp only [← q1, ← q2, ← k1, ← k2]
  generalize gatherDst (attnQuery cfg P F q kv) ix = u at g1
  generalize gatherDst (attnQuery cfg P F q' kv') ix = u' at g1
  generalize gatherSrc (attnKey cfg P F q kv) ix = w at g2
  generalize gatherSrc (attnKey cfg P F q' kv') ix = w' at g2
  cases g1 with
  | error e => exact .error _
  | ok g1 =>
    cases g2 with
    | error e => exact .error _
    | ok g2 =>
      rename_i gq gq' gk gk'
      dsimp only
      have hz := zipWith?_rel (f := Prod.mk) (f' := Prod.mk)
        (T := fun a a' : Ent × Ent => Tr A (q.pseudo && kv.pseudo) (min q.L kv.L) F a.1 a'.1 ∧
          Tr A (q.pseudo && kv.pseudo) (min q.L kv.L) F a.2 a'.2) (fun _ _ _ _ h h' => ⟨h, h'⟩) g1 g2
      generalize Lead.zipWith? Prod.mk gq gk = t at hz
      generalize Lead.zipWith? Prod.mk gq' gk' = t' at hz
      cases hz with
      | none => exact .error _
      | some hz =>
        rename_i qk qk'
        dsimp only
        have hone : ExRel (Lead.Rel (HeadsEq cfg.numHeads))
            (Except.ok (qk.map fun qk => attnDot (chan (q.pseudo && kv.pseudo)) (min q.L kv.L) F cfg.numHeads qk.1 qk.2
              fun _ _ _ => 1) : Except Err _)
            (Except.ok (qk'.map fun qk => attnDot (chan (q.pseudo && kv.pseudo)) (min q.L kv.L) F cfg.numHeads qk.1 qk.2
              fun _ _ _ => 1)) :=
          .ok (hz.map fun a a' h => fun hd hh => attnDot_tr hA _ _ _ _ h.1 h.2 (fun _ _ _ => 1) (fun _ _ _ _ => rfl)
            (fun _ _ _ _ => rfl) hd hh)
        cases hrel : cfg.relQK with
        | false => exact hone
        | true =>
          cases hb with
          | none => exact hone
          | some hb =>
            rename_i b b'
            obtain ⟨b1, b2, b3, b4⟩ := hb
            dsimp only
            have hz2 := zipWith?_rel (T := HeadsEq cfg.numHeads)
              (f := fun (qk : Ent × Ent) c => attnDot (chan (q.pseudo && kv.pseudo)) (min q.L kv.L) F cfg.numHeads
                qk.1 qk.2 (relPos cfg.conv.useBasisBias P b.F (min q.L kv.L) F c))
              (f' := fun (qk : Ent × Ent) c => attnDot (chan (q.pseudo && kv.pseudo)) (min q.L kv.L) F cfg.numHeads
                qk.1 qk.2 (relPos cfg.conv.useBasisBias P b'.F (min q.L kv.L) F c)) ?_ hz b4
            · revert hz2
              generalize Lead.zipWith? _ qk b.rows = t
              generalize Lead.zipWith? _ qk' b'.rows = t'
              intro hz2
              cases hz2 with
              | none => exact .error _
              | some h => exact .ok h
            · intro a a' c c' ha hc hd hh
              obtain ⟨r, hr⟩ := relPos_deg cfg.conv.useBasisBias P b.F (min q.L kv.L) F c
              refine attnDot_tr hA _ _ _ _ ha.1 ha.2 r hr ?_ hd hh
              rw [← b3, relPos_tr hA _ _ hc]
              exact hr

theorem headsEq_map {H : ℕ} {d d' : Lead (ℕ → ℝ)} (hd : Lead.Rel (HeadsEq H) d d') {h : ℕ} (hh : h < H) :
    d.map (· h) = d'.map (· h) := by
  have hl : ∀ l l' : List (ℕ → ℝ), List.Forall₂ (HeadsEq H) l l' → l.map (· h) = l'.map (· h) := by
    intro l l' hf
    induction hf with
    | nil => rfl
    | cons a _ ih => rw [List.map_cons, List.map_cons, ih, a h hh]
  cases hd with
  | vec hd => unfold Lead.map; dsimp only; rw [hl _ _ hd]
  | mat hd =>
    unfold Lead.map; dsimp only
    congr 1
    induction hd with
    | nil => rfl
    | cons a _ ih => rw [List.map_cons, List.map_cons, ih, hl _ _ a]

theorem mapIdx_rel {α β γ δ : Type} {R : α → β → Prop} {T : γ → δ → Prop} {l : List α} {l' : List β} (h : List.Forall₂ R l l')
    (g : ℕ → α → γ) (g' : ℕ → β → δ) (hg : ∀ k a b, R a b → T (g k a) (g' k b)) :
    List.Forall₂ T (l.mapIdx g) (l'.mapIdx g') := by
  induction h generalizing g g' with
  | nil => exact .nil
  | cons a _ ih =>
    rw [List.mapIdx_cons, List.mapIdx_cons]
    exact .cons (hg _ _ _ a) (ih _ _ fun k a b h => hg _ _ _ h)

theorem vmapHeads_rel {H : ℕ} (hH : 0 < H) {d d' : Lead (ℕ → ℝ)} (hd : Lead.Rel (HeadsEq H) d d')
    (f : Lead ℝ → Except Err (Lead ℝ)) : ExRel (Lead.Rel (HeadsEq H)) (vmapHeads f d) (vmapHeads f d') := by
  have hm := fun h (hh : h < H) => headsEq_map hd hh
  unfold vmapHeads
  rw [hm 0 hH]
  generalize f (d'.map (· 0)) = t
  cases t with
  | error e => exact .error _
  | ok _ =>
    refine .ok ?_
    have hT : ∀ pos : ℕ × ℕ, HeadsEq H
        ((fun (pos : ℕ × ℕ) h => match f (d.map (· h)) with | .ok y => (y.at? pos).getD 0 | .error _ => (0 : ℝ)) pos)
        ((fun (pos : ℕ × ℕ) h => match f (d'.map (· h)) with | .ok y => (y.at? pos).getD 0 | .error _ => (0 : ℝ)) pos) := by
      intro pos h hh
      dsimp only
      rw [hm h hh]
    generalize (fun (pos : ℕ × ℕ) h => match f (d.map (· h)) with | .ok y => (y.at? pos).getD 0 | .error _ => (0 : ℝ)) = g at hT
    generalize (fun (pos : ℕ × ℕ) h => match f (d'.map (· h)) with | .ok y => (y.at? pos).getD 0 | .error _ => (0 : ℝ)) = g' at hT
    cases hd with
    | vec hd => exact .vec (mapIdx_rel hd _ _ fun k _ _ _ => hT _)
    | mat hd => exact .mat (mapIdx_rel hd _ _ fun k _ _ h => mapIdx_rel h _ _ fun k' _ _ _ => hT _)

include hA in
theorem attnWeights_tr (lo ninf : ℝ) (cfg : AttnCfg) (P : AttnParams) (F : ℕ) {q q' kv kv' : Nodes} {b b' : Option Edges}
    (hH : 0 < cfg.numHeads) (hq : NodesTr A q q') (hk : NodesTr A kv kv') (hb : OptRel (EdgesTr A) b b')
    (cutoff : Option (Lead ℝ)) (ix : IndexArgs) :
    ExRel (Lead.Rel (HeadsEq cfg.numHeads)) (attnWeights lo ninf cfg P F q kv b cutoff ix)
      (attnWeights lo ninf cfg P F q' kv' b' cutoff ix) := by
  have h := attnDots_tr hA cfg P F hq hk hb ix
  unfold attnWeights
  rw [hq.2.2.2.length_eq, hk.2.2.2.length_eq]
  generalize attnDots cfg P F q kv b ix = u at h
  generalize attnDots cfg P F q' kv' b' ix = u' at h
  cases h with
  | error e => exact .error _
  | ok h => exact vmapHeads_rel hH h _

include hA in
theorem attention_tr (lo ninf : ℝ) (cfg : AttnCfg) (P : AttnParams) {q q' kv kv' : Nodes} {b b' : Option Edges}
    (hq : NodesTr A q q') (hk : NodesTr A kv kv') (hb : OptRel (EdgesTr A) b b') (cutoff : Option (Lead ℝ))
    (ix : IndexArgs) :
    ExRel (NodesTr A) (attention lo ninf cfg P cg q kv b cutoff ix) (attention lo ninf cfg P cg' q' kv' b' cutoff ix) := by
  have hb0 : b.isNone = b'.isNone := by cases hb <;> rfl
  unfold attention
  simp only [← hb0, ← hq.2.2.1]
  by_cases h1 : ((cfg.relQK || cfg.relV) && b.isNone) = true
  · rw [if_pos h1, if_pos h1]; exact .error _
  rw [if_neg h1, if_neg h1]
  generalize hF : cfg.qkvFeatures.getD q.F = F
  generalize cfg.outFeatures.getD q.F = oF
  by_cases h2 : cfg.numHeads = 0 ∨ F % cfg.numHeads ≠ 0
  · rw [if_pos h2, if_pos h2]; exact .error _
  rw [if_neg h2, if_neg h2]
  push Not at h2
  have hH : 0 < cfg.numHeads := by omega
  have hw := attnWeights_tr hA lo ninf cfg P F hH hq hk hb cutoff ix
  have hlen : autoIndexArgs ix q.rows.length kv.rows.length = autoIndexArgs ix q'.rows.length kv'.rows.length := by
    rw [hq.2.2.2.length_eq, hk.2.2.2.length_eq]
  rw [hlen]
  generalize attnWeights lo ninf cfg P F q kv b cutoff ix = w at hw
  generalize attnWeights lo ninf cfg P F q' kv' b' cutoff ix = w' at hw
  cases hw with
  | error e => exact .error _
  | ok hw =>
    rename_i w w'
    dsimp only
    have hv := nodesApply_tr (hA.dense F cfg.vBias P.value) (fun h => dense_same h _ _ _) (dense_hdr F cfg.vBias P.value) hk
    have hvF : (kv.apply (dense F cfg.vBias P.value)).F = F := (C12_dense F cfg.vBias P.value (kv.feat 0)).2.2.1
    generalize kv.apply (dense F cfg.vBias P.value) = value at hv hvF
    generalize kv'.apply (dense F cfg.vBias P.value) = value' at hv
    obtain ⟨v1, v2, v3, v4⟩ := hv
    have hg := gatherSrc_rel v4 ix
    generalize gatherSrc value.rows ix = g at hg
    generalize gatherSrc value'.rows ix = g' at hg
    cases hg with
    | error e => exact .error _
    | ok hg =>
      rename_i g g'
      dsimp only
      have hz := zipWith?_rel (T := Tr A value.pseudo value.L value.F)
        (f := fun (w : ℕ → ℝ) (v : Ent) p i f => w (f / (F / cfg.numHeads)) * v p i f)
        (f' := fun (w : ℕ → ℝ) (v : Ent) p i f => w (f / (F / cfg.numHeads)) * v p i f) ?_ hw hg
      · generalize Lead.zipWith? (fun (w : ℕ → ℝ) (v : Ent) p i f => w (f / (F / cfg.numHeads)) * v p i f) w g = t at hz
        generalize Lead.zipWith? (fun (w : ℕ → ℝ) (v : Ent) p i f => w (f / (F / cfg.numHeads)) * v p i f) w' g' = t' at hz
        cases hz with
        | none => exact .error _
        | some hz =>
          rename_i t t'
          dsimp only
          have hbb : OptRel (EdgesTr A) (if cfg.relV = true then b else none) (if cfg.relV = true then b' else none) := by
            split
            · exact hb
            · exact .none
          have hc := conv_tr hA cfg.conv P.conv (x := ⟨value.pseudo, value.L, value.F, t⟩)
            (x' := ⟨value'.pseudo, value'.L, value'.F, t'⟩) ⟨v1, v2, v3, hz⟩ hbb
            (autoIndexArgs ix q'.rows.length kv'.rows.length)
          revert hc
          generalize conv cfg.conv P.conv cg ⟨value.pseudo, value.L, value.F, t⟩ _ _ = s
          generalize conv cfg.conv P.conv cg' ⟨value'.pseudo, value'.L, value'.F, t'⟩ _ _ = s'
          intro hc
          cases hc with
          | error e => exact .error _
          | ok hc =>
            exact .ok (nodesApply_tr (hA.dense oF cfg.oBias P.out) (fun h => dense_same h _ _ _)
              (dense_hdr oF cfg.oBias P.out) hc)
      · intro a a' c c' ha hc
        refine Tr.scale hA (fun f => a (f / (F / cfg.numHeads))) (fun f => a' (f / (F / cfg.numHeads))) ?_ hc
        intro f hf
        apply ha
        rw [hvF] at hf
        have hFd : cfg.numHeads * (F / cfg.numHeads) = F := Nat.mul_div_cancel' (Nat.dvd_of_mod_eq_zero h2.2)
        exact Nat.div_lt_of_lt_mul (by rw [Nat.mul_comm, hFd]; exact hf)

end

/-- **C19 (rotations, reflections).** Transforming all inputs of an attention layer by a rotation or a reflection
transforms its output; exceptions are the same. -/
theorem C19_attention {cg : ℕ → ℕ → ℕ → ℝ} {A : Feat → Feat} (hA : IsSymmetry cg A) (lo ninf : ℝ) (cfg : AttnCfg)
    (P : AttnParams) (q kv : Nodes) (b : Option Edges) (cutoff : Option (Lead ℝ)) (ix : IndexArgs) :
    (∀ z, attention lo ninf cfg P cg q kv b cutoff ix = .ok z →
      ∃ z', attention lo ninf cfg P cg (actNodes A q) (actNodes A kv) (b.map (actEdges A)) cutoff ix = .ok z' ∧
        SameNodes z' (actNodes A z)) ∧
    (∀ e, attention lo ninf cfg P cg q kv b cutoff ix = .error e →
      attention lo ninf cfg P cg (actNodes A q) (actNodes A kv) (b.map (actEdges A)) cutoff ix = .error e) := by
  have hA := symFacts_of_isSymmetry hA
  have hb : OptRel (EdgesTr A) b (b.map (actEdges A)) := by
    cases b with
    | none => exact .none
    | some b => exact .some (edgesTr_act hA b)
  have h := attention_tr hA lo ninf cfg P (nodesTr_act hA q) (nodesTr_act hA kv) hb cutoff ix
  generalize attention lo ninf cfg P cg q kv b cutoff ix = u at h
  generalize attention lo ninf cfg P cg (actNodes A q) (actNodes A kv) (b.map (actEdges A)) cutoff ix = u' at h
  cases h with
  | ok h =>
    refine ⟨?_, by intro e he; cases he⟩
    intro z hz
    injection hz with hz; subst hz
    exact ⟨_, rfl, sameNodes_of_tr hA h⟩
  | error e =>
    refine ⟨?_, ?_⟩
    · intro z hz; cases hz
    · intro e' he; exact he

/-- **C19 (attention weights).** The attention weights are the same for transformed inputs. -/
theorem C19_weights_invariant {cg : ℕ → ℕ → ℕ → ℝ} {A : Feat → Feat} (hA : IsSymmetry cg A) (lo ninf : ℝ) (cfg : AttnCfg)
    (P : AttnParams) (F : ℕ) (q kv : Nodes) (b : Option Edges) (cutoff : Option (Lead ℝ)) (ix : IndexArgs)
    (hH : 0 < cfg.numHeads) (w : Lead (ℕ → ℝ)) (hw : attnWeights lo ninf cfg P F q kv b cutoff ix = .ok w) :
    ∃ w', attnWeights lo ninf cfg P F (actNodes A q) (actNodes A kv) (b.map (actEdges A)) cutoff ix = .ok w' ∧
      ∀ h < cfg.numHeads, w'.map (· h) = w.map (· h) := by
  have hA := symFacts_of_isSymmetry hA
  have hb : OptRel (EdgesTr A) b (b.map (actEdges A)) := by
    cases b with
    | none => exact .none
    | some b => exact .some (edgesTr_act hA b)
  have h := attnWeights_tr hA lo ninf cfg P F hH (nodesTr_act hA q) (nodesTr_act hA kv) hb cutoff ix
  rw [hw] at h
  generalize attnWeights lo ninf cfg P F (actNodes A q) (actNodes A kv) (b.map (actEdges A)) cutoff ix = u' at h
  cases h with
  | ok h => exact ⟨_, rfl, fun i hi => (headsEq_map h hi).symm⟩

/-! ## Meaning on graphs -/

theorem getD_clamp {α : Type} (d : α) (l : List α) (i : ℕ) : (l[min i (l.length - 1)]?).getD d = l.getD (min i (l.length - 1)) d :=
  (List.getD_eq_getElem?_getD).symm

/-- The closed form of the sparse softmax, edge by edge. -/
theorem softmaxSparse_edges (ninf : ℝ) (E : List AttnEdge) (x : AttnEdge → ℝ) (mult : Option (List ℝ))
    (hm : mult = some (E.map AttnEdge.cut) ∨ (mult = none ∧ ∀ e ∈ E, e.cut = 1)) (num : ℕ) (hnum : 0 < num) :
    ∃ ω : AttnEdge → ℝ, softmaxSparse ninf (E.map x) mult (E.map AttnEdge.dst) num = some (E.map ω) ∧
      ∀ e ∈ E, e.dst < num → ω e = softmaxValue ((attnInto E e.dst).map fun e' => (x e', e'.cut)) (x e, e.cut) := by
  have hne : ∀ (op : ℝ → ℝ → ℝ) init l, segmentReduce op init l (E.map AttnEdge.dst) num ≠ [] := by
    intro op init l h
    have := congrArg List.length h
    rw [segmentReduce_length] at this; simp at this; omega
  have happ : ∀ g : AttnEdge → ℝ, applyMult mult (E.map g) = E.map fun e => g e * e.cut := by
    intro g
    rcases hm with rfl | ⟨rfl, h⟩
    · unfold applyMult
      dsimp only
      rw [List.zipWith_map, List.zipWith_self]
    · unfold applyMult
      dsimp only
      apply List.map_congr_left
      intro e he
      rw [h e he, mul_one]
  obtain ⟨M, hM⟩ : ∃ M : ℕ → ℝ, gatherSparse (segmentReduce max ninf (E.map x) (E.map AttnEdge.dst) num)
      (E.map AttnEdge.dst) = some (E.map fun e => M e.dst) := by
    rw [gatherSparse_eq 0 _ (hne _ _ _), List.map_map]
    generalize segmentReduce max ninf (E.map x) (E.map AttnEdge.dst) num = l
    exact ⟨fun i => (l[min i (l.length - 1)]?).getD 0, rfl⟩
  unfold softmaxSparse
  rw [hM]
  simp only [Option.bind_eq_bind, Option.bind_some]
  rw [List.zipWith_map, List.zipWith_self, happ]
  rw [gatherSparse_eq 0 _ (hne _ _ _)]
  simp only [Option.bind_some]
  rw [List.map_map, List.zipWith_map, List.zipWith_self]
  refine ⟨_, rfl, ?_⟩
  intro e he hd
  dsimp only [Function.comp]
  rw [segmentReduce_length, show min e.dst (num - 1) = e.dst by omega, C03_segment_sum _ _ _ _ hd, Option.getD_some]
  have := softmax_shift_div (M e.dst) ((attnInto E e.dst).map fun e' => (x e', e'.cut)) (x e, e.cut)
  rw [← this]
  congr 2
  rw [List.zip_map', List.filter_map, List.map_map, List.map_map]
  show (E.filter fun e' => decide (e'.dst = e.dst)).map _ = _
  unfold attnInto
  apply List.map_congr_left
  intro e' he'
  simp only [List.mem_filter, decide_eq_true_eq] at he'
  simp only [Function.comp]
  rw [he'.2]

/-- An edge whose indices are clamped. -/
def clampAttn (n m : ℕ) (e : AttnEdge) : AttnEdge := { e with dst := min e.dst (n - 1), src := min e.src (m - 1) }

theorem clampAttn_of_lt {n m : ℕ} {e : AttnEdge} (h : e.dst < n) (h' : e.src < m) : clampAttn n m e = e := by
  unfold clampAttn
  have h1 : min e.dst (n - 1) = e.dst := by omega
  have h2 : min e.src (m - 1) = e.src := by omega
  rw [h1, h2]

/-- The basis argument for a graph. -/
def BasisOf (cfg : AttnCfg) (b : Option Edges) (arr : Edges) : Prop :=
  b = some arr ∨ (b = none ∧ cfg.relQK = false ∧ cfg.relV = false)

/-- The cutoff argument for a graph. -/
def CutoffOf (c : Option (Lead ℝ)) (arr : Lead ℝ) (all : List AttnEdge) : Prop :=
  c = some arr ∨ (c = none ∧ ∀ e ∈ all, e.cut = 1)

theorem attnDots_sparse (cfg : AttnCfg) (P : AttnParams) (F : ℕ) (q kv : Nodes) (bp : Bool) (bL bF : ℕ)
    (E : List AttnEdge) (b : Option Edges) (hb : BasisOf cfg b ⟨bp, bL, bF, .vec (E.map AttnEdge.basis)⟩)
    (hq : 0 < q.rows.length) (hk : 0 < kv.rows.length) (num : Option ℕ) :
    attnDots cfg P F q kv b { dst := some (E.map AttnEdge.dst), src := some (E.map AttnEdge.src), num := num } =
      .ok (.vec (E.map fun e => attnLogit cfg P F q kv bF (clampAttn q.rows.length kv.rows.length e))) := by
  have lq : (attnQuery cfg P F q kv).length = q.rows.length := by unfold attnQuery; simp
  have lk : (attnKey cfg P F q kv).length = kv.rows.length := by unfold attnKey; simp
  have nq : attnQuery cfg P F q kv ≠ [] := List.ne_nil_of_length_pos (lq ▸ hq)
  have nk : attnKey cfg P F q kv ≠ [] := List.ne_nil_of_length_pos (lk ▸ hk)
  unfold attnDots gatherDst gatherSrc
  simp only [determineIndexType, Option.map_none, Option.map_some, Option.isSome_none, Option.isSome_some,
    Bool.or_false, Bool.false_or, Bool.not_true, Bool.false_and, Bool.and_false, if_false, Bool.or_true, Bool.true_or,
    Bool.false_eq_true, gatherSparse_eq (0 : Ent) _ nq, gatherSparse_eq (0 : Ent) _ nk]
  have hz : Lead.zipWith? Prod.mk
      (.vec ((E.map AttnEdge.dst).map fun i => ((attnQuery cfg P F q kv)[min i ((attnQuery cfg P F q kv).length - 1)]?).getD 0))
      (.vec ((E.map AttnEdge.src).map fun i => ((attnKey cfg P F q kv)[min i ((attnKey cfg P F q kv).length - 1)]?).getD 0)) =
      some (.vec (E.map fun e => ((attnQuery cfg P F q kv).getD (min e.dst (q.rows.length - 1)) 0,
        (attnKey cfg P F q kv).getD (min e.src (kv.rows.length - 1)) 0))) := by
    unfold Lead.zipWith?
    dsimp only
    rw [if_pos (by simp), List.map_map, List.map_map, List.zipWith_map, List.zipWith_self, lq, lk]
    simp only [Function.comp, List.getD_eq_getElem?_getD]
  rw [hz]
  dsimp only
  cases hr : cfg.relQK with
  | false =>
    unfold Lead.map
    dsimp only
    rw [List.map_map]
    unfold attnLogit
    rw [hr]
    rfl
  | true =>
    rcases hb with rfl | ⟨_, h, _⟩
    · dsimp only
      unfold Lead.zipWith?
      dsimp only
      rw [if_pos (by simp), List.zipWith_map, List.zipWith_self]
      unfold attnLogit
      rw [hr]
      rfl
    · rw [hr] at h; cases h

theorem softmaxLead_vec (lo ninf : ℝ) (x : List ℝ) (w : Option (List ℝ)) (hw : ∀ l, w = some l → l.length = x.length)
    (ix : IndexArgs) (d : List ℕ) (n : ℕ) (ha : ix.adj = none)
    (hd : ix.dst = some d) (hnum : ix.num = some n) (hl : d.length = x.length) (y : List ℝ)
    (hy : softmaxSparse ninf x w d n = some y) :
    softmaxLead lo ninf (.vec x) (w.map Lead.vec) ix = .ok (.vec y) := by
  unfold softmaxLead
  rw [ha, hd]
  cases w with
  | none => simp [determineIndexType, hnum, hl, hy]
  | some l => simp [determineIndexType, hnum, hl, hy, hw l rfl]

theorem attnWeights_sparse (lo ninf : ℝ) (cfg : AttnCfg) (P : AttnParams) (F : ℕ) (q kv : Nodes) (bp : Bool) (bL bF : ℕ)
    (E : List AttnEdge) (b : Option Edges) (hb : BasisOf cfg b ⟨bp, bL, bF, .vec (E.map AttnEdge.basis)⟩)
    (c : Option (Lead ℝ)) (hc : CutoffOf c (.vec (E.map AttnEdge.cut)) E)
    (hq : 0 < q.rows.length) (hk : 0 < kv.rows.length) (num : Option ℕ) (hN : 0 < num.getD q.rows.length)
    (hE : ∀ e ∈ E, e.dst < num.getD q.rows.length → e.dst < q.rows.length ∧ e.src < kv.rows.length) :
    ∃ W : AttnEdge → ℕ → ℝ, attnWeights lo ninf cfg P F q kv b c
        { dst := some (E.map AttnEdge.dst), src := some (E.map AttnEdge.src), num := num } = .ok (.vec (E.map W)) ∧
      ∀ e ∈ E, e.dst < num.getD q.rows.length → ∀ h, W e h = attnWeight cfg P F q kv bF E e h := by
  have hmult : ∃ w : Option (List ℝ), c = w.map Lead.vec ∧ (w = some (E.map AttnEdge.cut) ∨ (w = none ∧ ∀ e ∈ E, e.cut = 1)) := by
    rcases hc with rfl | ⟨rfl, h⟩
    · exact ⟨some (E.map AttnEdge.cut), rfl, Or.inl rfl⟩
    · exact ⟨none, rfl, Or.inr ⟨rfl, h⟩⟩
  obtain ⟨w, rfl, hw⟩ := hmult
  have hs := fun h => softmaxSparse_edges ninf E
    (fun e => attnLogit cfg P F q kv bF (clampAttn q.rows.length kv.rows.length e) h) w hw (num.getD q.rows.length) hN
  choose ω hω hω' using hs
  refine ⟨fun e h => ω h e, ?_, ?_⟩
  · unfold attnWeights
    rw [attnDots_sparse cfg P F q kv bp bL bF E b hb hq hk num]
    dsimp only
    have hl : ∀ h, softmaxLead lo ninf
        ((Lead.vec (E.map fun e => attnLogit cfg P F q kv bF (clampAttn q.rows.length kv.rows.length e))).map (· h))
        (w.map Lead.vec) (autoIndexArgs { dst := some (E.map AttnEdge.dst), src := some (E.map AttnEdge.src), num := num }
          q.rows.length kv.rows.length) = .ok (.vec (E.map (ω h))) := by
      intro h
      unfold Lead.map
      dsimp only
      rw [List.map_map]
      refine softmaxLead_vec lo ninf _ w ?_ _ (E.map AttnEdge.dst) (num.getD q.rows.length) rfl rfl rfl (by simp) _ (hω h)
      intro l hl
      rcases hw with rfl | ⟨rfl, _⟩
      · injection hl with hl; subst hl; simp
      · cases hl
    unfold vmapHeads
    simp only [hl]
    congr 1
    unfold Lead.mapPos
    dsimp only
    congr 1
    apply List.ext_getElem
    · simp
    · intro k h1 h2
      rw [List.getElem_mapIdx]
      simp only [List.length_map] at h2
      funext h
      simp [Lead.at?, List.getElem?_eq_getElem h2]
  · intro e he hd h
    dsimp only
    rw [hω' h e he hd]
    unfold attnWeight
    have hcl : ∀ e' ∈ attnInto E e.dst, clampAttn q.rows.length kv.rows.length e' = e' := by
      intro e' he'
      simp only [attnInto, List.mem_filter, decide_eq_true_eq] at he'
      obtain ⟨h1, h2⟩ := hE e' he'.1 (by omega)
      exact clampAttn_of_lt h1 h2
    rw [hcl e (by simp [attnInto, he])]
    congr 1
    apply List.map_congr_left
    intro e' he'
    rw [hcl e' he']

/-- A graph in one of the two formats. -/
inductive AttnGraph where
  | sparse (E : List AttnEdge)
  | dense (G : List (List AttnEdge))

/-- The array with one value per edge. -/
def AttnGraph.arr {γ : Type} (A : AttnGraph) (f : AttnEdge → γ) : Lead γ :=
  match A with
  | .sparse E => .vec (E.map f)
  | .dense G => .mat (G.map fun r => r.map f)

theorem AttnGraph.zip (A : AttnGraph) {α β γ : Type} (op : α → β → γ) (f : AttnEdge → α) (g : AttnEdge → β) :
    Lead.zipWith? op (A.arr f) (A.arr g) = some (A.arr fun e => op (f e) (g e)) := by
  cases A with
  | sparse E =>
    unfold AttnGraph.arr Lead.zipWith?
    dsimp only
    rw [if_pos (by simp), List.zipWith_map, List.zipWith_self]
  | dense G =>
    unfold AttnGraph.arr Lead.zipWith?
    dsimp only
    rw [if_pos (by simp), List.zipWith_map, List.zipWith_self]
    congr 2
    apply List.map_congr_left
    intro r _
    rw [List.zipWith_map, List.zipWith_self]

theorem AttnGraph.map (A : AttnGraph) {α β : Type} (g : α → β) (f : AttnEdge → α) :
    (A.arr f).map g = A.arr fun e => g (f e) := by
  cases A with
  | sparse E =>
    unfold AttnGraph.arr Lead.map
    dsimp only
    rw [List.map_map]; rfl
  | dense G =>
    unfold AttnGraph.arr Lead.map
    dsimp only
    rw [List.map_map]
    congr 1
    apply List.map_congr_left
    intro r _
    simp only [Function.comp_def, List.map_map]

/-- The products of `_Conv`, and their extents. -/
theorem convProducts_arr (cfg : ConvCfg) (P : ConvParams) (cg : ℕ → ℕ → ℕ → ℝ) (kv : Nodes) (F : ℕ) (bp : Bool)
    (bL bF : ℕ) (A : AttnGraph) (u basis : AttnEdge → Ent) :
    (bL + kv.L < cfg.tens.maxDegree.getD (max bL kv.L) →
      convProducts cfg P cg ⟨kv.pseudo, kv.L, F, A.arr u⟩ (some ⟨bp, bL, bF, A.arr basis⟩) = .error .valueError) ∧
    (cfg.tens.maxDegree.getD (max bL kv.L) ≤ bL + kv.L →
      convProducts cfg P cg ⟨kv.pseudo, kv.L, F, A.arr u⟩ (some ⟨bp, bL, bF, A.arr basis⟩) =
        .ok ⟨cfg.tens.includePseudo && !(!bp && !kv.pseudo &&
          (bL == 0 || kv.L == 0 || cfg.tens.maxDegree.getD (max bL kv.L) == 0)), cfg.tens.maxDegree.getD (max bL kv.L), F,
          A.arr fun e => tensorVal cfg.tens P.tens cg (dense F cfg.useBasisBias P.filter ⟨bp, bL, bF, basis e⟩)
            ⟨kv.pseudo, kv.L, F, u e⟩⟩) := by
  obtain ⟨p1, p2⟩ := tensor_possible cfg P cg ⟨kv.pseudo, kv.L, F, []⟩ bp bL bF (A.arr basis)
  have hh := fun v => filterFeat_hdr cfg P F ⟨bp, bL, bF, A.arr basis⟩ v
  have hz2 : Lead.zipWith? (fun a b => tensorVal cfg.tens P.tens cg
      (((⟨bp, bL, bF, A.arr basis⟩ : Edges).apply (dense F cfg.useBasisBias P.filter)).feat a)
      ((⟨kv.pseudo, kv.L, F, A.arr u⟩ : Edges).feat b))
      ((⟨bp, bL, bF, A.arr basis⟩ : Edges).apply (dense F cfg.useBasisBias P.filter)).rows (A.arr u) =
      some (A.arr fun e => tensorVal cfg.tens P.tens cg (dense F cfg.useBasisBias P.filter ⟨bp, bL, bF, basis e⟩)
            ⟨kv.pseudo, kv.L, F, u e⟩) := by
    have e1 : ((⟨bp, bL, bF, A.arr basis⟩ : Edges).apply (dense F cfg.useBasisBias P.filter)).rows =
        A.arr fun e => (dense F cfg.useBasisBias P.filter ⟨bp, bL, bF, basis e⟩).val := A.map _ _
    rw [e1, A.zip]
    congr 2
    funext e
    have := hh (basis e)
    unfold Edges.feat at this ⊢
    dsimp only at this ⊢
    rw [this]
  unfold convProducts
  dsimp only
  rw [A.zip]
  unfold tensorRows
  dsimp only
  rw [hz2]
  unfold Nodes.feat at p1 p2
  unfold Edges.feat at p1 p2 ⊢
  dsimp only at p1 p2 ⊢
  generalize anyTensor cfg.tens P.tens cg _ _ = t at p1 p2
  cases t with
  | error e =>
    obtain ⟨rfl, h⟩ := p1 e rfl
    exact ⟨fun _ => rfl, fun h' => by omega⟩
  | ok z =>
    obtain ⟨h, hL, hF, hps⟩ := p2 z rfl
    refine ⟨fun h' => by omega, fun _ => ?_⟩
    dsimp only
    rw [hL, hF]
    congr 2
    rw [Bool.eq_iff_iff, hps]
    cases cfg.tens.includePseudo <;> cases bp <;> cases kv.pseudo <;> simp [and_assoc]

/-- What is common to both formats: from the attention weights to the result. -/
theorem attention_of_weights (lo ninf : ℝ) (cfg : AttnCfg) (P : AttnParams) (cg : ℕ → ℕ → ℕ → ℝ) (q kv : Nodes) (bp : Bool)
    (bL bF : ℕ) (A : AttnGraph) (E : List AttnEdge) (b : Option Edges) (c : Option (Lead ℝ)) (ix : IndexArgs)
    (W : AttnEdge → ℕ → ℝ) (n : ℕ)
    (hb : BasisOf cfg b ⟨bp, bL, bF, A.arr AttnEdge.basis⟩)
    (hW : attnWeights lo ninf cfg P (cfg.qkvFeatures.getD q.F) q kv b c ix = .ok (A.arr W))
    (hW' : ∀ e ∈ E, e.dst < n → ∀ h, W e h = attnWeight cfg P (cfg.qkvFeatures.getD q.F) q kv bF E e h)
    (hsrc : ∀ e ∈ E, e.dst < n → e.src < kv.rows.length)
    (hg : gatherSrc (kv.apply (dense (cfg.qkvFeatures.getD q.F) cfg.vBias P.value)).rows ix =
      .ok (A.arr fun e => (dense (cfg.qkvFeatures.getD q.F) cfg.vBias P.value
        (kv.feat (kv.rows.getD (min e.src (kv.rows.length - 1)) 0))).val))
    (hsum : ∀ f : AttnEdge → Ent, ∃ r, indexedSum (A.arr f) (autoIndexArgs ix q.rows.length kv.rows.length) = .ok r ∧
      r.length = n ∧ ∀ i < n, r[i]? = some ((attnInto E i).map f).sum) :
    (cfg.numHeads = 0 ∨ cfg.qkvFeatures.getD q.F % cfg.numHeads ≠ 0 →
      attention lo ninf cfg P cg q kv b c ix = .error .valueError) ∧
    (cfg.relV = true → bL + kv.L < cfg.conv.tens.maxDegree.getD (max bL kv.L) →
      attention lo ninf cfg P cg q kv b c ix = .error .valueError) ∧
    (cfg.numHeads ≠ 0 → cfg.qkvFeatures.getD q.F % cfg.numHeads = 0 →
      (cfg.relV = true → cfg.conv.tens.maxDegree.getD (max bL kv.L) ≤ bL + kv.L) →
      ∃ z, attention lo ninf cfg P cg q kv b c ix = .ok z ∧ IsAttention cfg P cg q kv bp bL bF E n z) := by
  have hb0 : ¬ ((cfg.relQK || cfg.relV) && b.isNone) = true := by
    rcases hb with rfl | ⟨rfl, h1, h2⟩
    · simp
    · simp [h1, h2]
  unfold attention IsAttention
  simp only
  rw [if_neg hb0]
  generalize cfg.qkvFeatures.getD q.F = F at *
  generalize cfg.outFeatures.getD q.F = oF at *
  by_cases hH : cfg.numHeads = 0 ∨ F % cfg.numHeads ≠ 0
  · rw [if_pos hH]
    refine ⟨fun _ => rfl, fun _ _ => rfl, fun h1 h2 => ?_⟩
    rcases hH with h | h
    · exact absurd h h1
    · exact absurd h2 h
  rw [if_neg hH, hW]
  have hvF : (kv.apply (dense F cfg.vBias P.value)).F = F := (C12_dense F cfg.vBias P.value (kv.feat 0)).2.2.1
  have hvp : (kv.apply (dense F cfg.vBias P.value)).pseudo = kv.pseudo := (C12_dense F cfg.vBias P.value (kv.feat 0)).1
  have hvL : (kv.apply (dense F cfg.vBias P.value)).L = kv.L := (C12_dense F cfg.vBias P.value (kv.feat 0)).2.1
  dsimp only
  rw [hg]
  dsimp only
  rw [A.zip, hvF, hvp, hvL]
  dsimp only
  refine ⟨fun h => absurd h hH, ?_⟩
  -- the result of the convolution, if there is one
  have fin : ∀ (ps : Bool) (L : ℕ) (f : AttnEdge → Ent) (z0 : Nodes) (r : List Ent), r.length = n →
      (∀ i < n, r[i]? = some ((attnInto E i).map f).sum) → z0 = ⟨ps, L, F, r⟩ →
      ps = attnOutPseudo cfg kv bp bL → L = attnOutL cfg kv bL →
      (∀ e ∈ E, e.dst < n → f e = attnMessage cfg P cg F kv bp bL bF (attnWeight cfg P F q kv bF E e) e) →
      ∃ z, (Except.ok (z0.apply (dense oF cfg.oBias P.out)) : Except Err Nodes) = .ok z ∧
        z.pseudo = attnOutPseudo cfg kv bp bL ∧ z.L = attnOutL cfg kv bL ∧ z.F = oF ∧ z.rows.length = n ∧
        ∀ i < n, z.rows[i]? = some (dense oF cfg.oBias P.out
          ⟨attnOutPseudo cfg kv bp bL, attnOutL cfg kv bL, F,
            ((attnInto E i).map fun e => attnMessage cfg P cg F kv bp bL bF
              (attnWeight cfg P F q kv bF E e) e).sum⟩).val := by
    rintro ps L f z0 r hr hr' rfl rfl rfl hf
    obtain ⟨d1, d2, d3, _⟩ := C12_dense oF cfg.oBias P.out ⟨attnOutPseudo cfg kv bp bL, attnOutL cfg kv bL, F, 0⟩
    refine ⟨_, rfl, d1, d2, d3, ?_, ?_⟩
    · unfold Nodes.apply
      simp only [List.length_map, hr]
    · intro i hi
      unfold Nodes.apply
      dsimp only
      rw [List.getElem?_map, hr' i hi, Option.map_some]
      unfold Nodes.feat
      congr 5
      apply List.map_congr_left
      intro e he
      simp only [attnInto, List.mem_filter, decide_eq_true_eq] at he
      exact hf e he.1 (by omega)
  have hval : ∀ e ∈ E, e.dst < n → (fun (p i f : ℕ) => W e (f / (F / cfg.numHeads)) * (dense F cfg.vBias P.value
        (kv.feat (kv.rows.getD (min e.src (kv.rows.length - 1)) 0))).val p i f) =
      fun p i f => attnWeight cfg P F q kv bF E e (f / (F / cfg.numHeads)) * (dense F cfg.vBias P.value
        (kv.feat (kv.rows.getD e.src 0))).val p i f := by
    intro e he hd
    have := hsrc e he hd
    funext p i f
    rw [show min e.src (kv.rows.length - 1) = e.src by omega, hW' e he hd]
  unfold conv
  cases hr : cfg.relV with
  | true =>
    have hbs : b = some ⟨bp, bL, bF, A.arr AttnEdge.basis⟩ := by
      rcases hb with rfl | ⟨_, _, h⟩
      · rfl
      · rw [hr] at h; cases h
    subst hbs
    rw [if_pos rfl]
    obtain ⟨c1, c2⟩ := convProducts_arr cfg.conv P.conv cg kv F bp bL bF A
      (fun e p i f => W e (f / (F / cfg.numHeads)) * (dense F cfg.vBias P.value
        (kv.feat (kv.rows.getD (min e.src (kv.rows.length - 1)) 0))).val p i f) AttnEdge.basis
    refine ⟨fun _ h => ?_, fun _ _ h => ?_⟩
    · rw [c1 h]
    · rw [c2 (h rfl)]
      dsimp only
      obtain ⟨r, h1, h2, h3⟩ := hsum _
      rw [h1]
      dsimp only
      refine fin _ _ _ _ r h2 h3 rfl ?_ ?_ ?_
      · unfold attnOutPseudo; rw [hr]; rfl
      · unfold attnOutL; rw [hr]; rfl
      · intro e he hd
        unfold attnMessage tensorVal
        rw [hr, hval e he hd]
        rfl
  | false =>
    rw [if_neg (by simp)]
    unfold convProducts
    dsimp only
    refine ⟨fun h => by simp at h, fun _ _ _ => ?_⟩
    obtain ⟨r, h1, h2, h3⟩ := hsum (fun e p i f => W e (f / (F / cfg.numHeads)) * (dense F cfg.vBias P.value
        (kv.feat (kv.rows.getD (min e.src (kv.rows.length - 1)) 0))).val p i f)
    rw [h1]
    dsimp only
    refine fin _ _ _ _ r h2 h3 rfl ?_ ?_ ?_
    · unfold attnOutPseudo; rw [hr]; rfl
    · unfold attnOutL; rw [hr]; rfl
    · intro e he hd
      unfold attnMessage
      rw [hr, hval e he hd]
      rfl

/-- Values of the sources of all edges. -/
theorem gather_values {f : Ent → Ent} (kv : Nodes) (rows : List Ent) (hrows : rows = kv.rows.map f)
    (hk : 0 < kv.rows.length) (E : List AttnEdge) (num : Option ℕ) :
    gatherSrc rows { dst := some (E.map AttnEdge.dst), src := some (E.map AttnEdge.src), num := num } =
      .ok (.vec (E.map fun e => f (kv.rows.getD (min e.src (kv.rows.length - 1)) 0))) ∧
    ∀ G : List (List AttnEdge), gatherSrc rows { adj := some (G.map fun r => r.map AttnEdge.src), num := num } =
      .ok (.mat (G.map fun r => r.map fun e => f (kv.rows.getD (min e.src (kv.rows.length - 1)) 0))) := by
  have hl : rows.length = kv.rows.length := by rw [hrows]; simp
  have hne : rows ≠ [] := List.ne_nil_of_length_pos (hl ▸ hk)
  have hv : ∀ i, (rows[min i (rows.length - 1)]?).getD 0 = f (kv.rows.getD (min i (kv.rows.length - 1)) 0) := by
    intro i
    rw [hl]
    have : min i (kv.rows.length - 1) < kv.rows.length := by omega
    simp only [hrows, List.getElem?_map, List.getElem?_eq_getElem this, Option.map_some, Option.getD_some,
      List.getD_eq_getElem?_getD]
  constructor
  · unfold gatherSrc
    simp only [determineIndexType, Option.map_none, Option.map_some, Option.isSome_none, Option.isSome_some,
      Bool.or_false, Bool.or_true, Bool.not_true, Bool.false_and, if_false, Bool.false_eq_true, gatherSparse_eq (0 : Ent) _ hne]
    congr 2
    rw [List.map_map]
    apply List.map_congr_left
    intro e _
    exact hv _
  · intro G
    unfold gatherSrc
    simp only [determineIndexType, Option.map_none, Option.map_some, Option.isSome_none, Option.isSome_some,
      Bool.or_false, Bool.not_true, Bool.and_false, if_false, if_true, Bool.false_eq_true,
      gatherDense_eq (0 : Ent) _ hne]
    congr 2
    rw [List.map_map]
    apply List.map_congr_left
    intro r _
    simp only [Function.comp]
    rw [List.map_map]
    apply List.map_congr_left
    intro e _
    exact hv _

/-- **C19 (meaning, sparse format).** If the number of features is a multiple of the number of heads (and the requested
degree is possible), the layer succeeds; the output of node `i` is the output layer applied to the sum of the messages of
the edges that end in `i`, weighted with the softmax (over these edges) of their logits. Otherwise it raises
`ValueError`. -/
theorem C19_sparse (lo ninf : ℝ) (cfg : AttnCfg) (P : AttnParams) (cg : ℕ → ℕ → ℕ → ℝ) (q kv : Nodes) (bp : Bool)
    (bL bF : ℕ) (E : List AttnEdge) (b : Option Edges) (hb : BasisOf cfg b ⟨bp, bL, bF, .vec (E.map AttnEdge.basis)⟩)
    (c : Option (Lead ℝ)) (hc : CutoffOf c (.vec (E.map AttnEdge.cut)) E)
    (hq : 0 < q.rows.length) (hk : 0 < kv.rows.length) (num : Option ℕ) (hN : 0 < num.getD q.rows.length)
    (hE : ∀ e ∈ E, e.dst < num.getD q.rows.length → e.dst < q.rows.length ∧ e.src < kv.rows.length) (ix : IndexArgs)
    (hix : ix = { dst := some (E.map AttnEdge.dst), src := some (E.map AttnEdge.src), num := num }) :
    (cfg.numHeads = 0 ∨ cfg.qkvFeatures.getD q.F % cfg.numHeads ≠ 0 →
      attention lo ninf cfg P cg q kv b c ix = .error .valueError) ∧
    (cfg.relV = true → bL + kv.L < cfg.conv.tens.maxDegree.getD (max bL kv.L) →
      attention lo ninf cfg P cg q kv b c ix = .error .valueError) ∧
    (cfg.numHeads ≠ 0 → cfg.qkvFeatures.getD q.F % cfg.numHeads = 0 →
      (cfg.relV = true → cfg.conv.tens.maxDegree.getD (max bL kv.L) ≤ bL + kv.L) →
      ∃ z, attention lo ninf cfg P cg q kv b c ix = .ok z ∧
        IsAttention cfg P cg q kv bp bL bF E (num.getD q.rows.length) z) := by
  subst hix
  obtain ⟨W, hW, hW'⟩ := attnWeights_sparse lo ninf cfg P (cfg.qkvFeatures.getD q.F) q kv bp bL bF E b hb c hc hq hk num hN hE
  refine attention_of_weights lo ninf cfg P cg q kv bp bL bF (.sparse E) E b c _ W _ hb hW hW'
    (fun e he hd => (hE e he hd).2) ?_ ?_
  · exact (gather_values (f := fun v => (dense _ cfg.vBias P.value (kv.feat v)).val) kv _ rfl hk E num).1
  · intro f
    refine ⟨_, indexedSum_vec (E.map f) _ (E.map AttnEdge.dst) (num.getD q.rows.length) rfl rfl rfl (by simp),
      segmentReduce_length _ _ _ _ _, ?_⟩
    intro i hi
    rw [C03_segment_sum _ _ _ _ hi, List.zip_map', List.filter_map, List.map_map]
    rfl

/-! ### Dense format -/

/-- The edges of a dense list: slots whose source is a node. -/
def keptEdges (m : ℕ) (G : List (List AttnEdge)) : List AttnEdge := G.flatten.filter fun e => e.src < m

theorem attnInto_kept {m : ℕ} {G : List (List AttnEdge)} (hG : ∀ i (h : i < G.length), ∀ e ∈ G[i], e.dst = i) (i : ℕ)
    (hi : i < G.length) : attnInto (keptEdges m G) i = G[i].filter fun e => e.src < m := by
  unfold attnInto keptEdges
  rw [List.filter_filter]
  have gen : ∀ (G : List (List AttnEdge)) (s : ℕ), (∀ j (h : j < G.length), ∀ e ∈ G[j], e.dst = s + j) → ∀ i,
      (hi : i < G.length) → (G.flatten.filter fun e => decide (e.dst = s + i) && decide (e.src < m)) =
        G[i].filter fun e => e.src < m := by
    intro G
    induction G with
    | nil => intro s _ i hi; simp at hi
    | cons r G ih =>
      intro s hG i hi
      rw [List.flatten_cons, List.filter_append]
      have h0 : ∀ e ∈ r, e.dst = s := fun e he => hG 0 (by simp) e he
      have hs : ∀ j (h : j < G.length), ∀ e ∈ G[j], e.dst = (s + 1) + j := by
        intro j h e he
        have := hG (j + 1) (by simpa using h) e (by simpa using he)
        omega
      cases i with
      | zero =>
        have e1 : (r.filter fun e => decide (e.dst = s + 0) && decide (e.src < m)) = r.filter fun e => e.src < m := by
          apply List.filter_congr
          intro e he
          simp [h0 e he]
        have e2 : (G.flatten.filter fun e => decide (e.dst = s + 0) && decide (e.src < m)) = [] := by
          rw [List.filter_eq_nil_iff]
          intro e he
          obtain ⟨r', hr', he'⟩ := List.mem_flatten.1 he
          obtain ⟨j, hj, rfl⟩ := List.getElem_of_mem hr'
          have := hs j hj e he'
          simp; omega
        rw [e1, e2, List.append_nil]; rfl
      | succ i =>
        have e1 : (r.filter fun e => decide (e.dst = s + (i + 1)) && decide (e.src < m)) = [] := by
          rw [List.filter_eq_nil_iff]
          intro e he
          have := h0 e he
          simp; omega
        rw [e1, List.nil_append]
        have := ih (s + 1) hs i (by simpa using hi)
        rw [List.getElem_cons_succ, ← this]
        apply List.filter_congr
        intro e _
        rw [show s + 1 + i = s + (i + 1) by ring]
  have := gen G 0 (by simpa using hG) i hi
  simpa using this

theorem softmaxRow_edges (lo : ℝ) (m : ℕ) (r : List AttnEdge) (x : AttnEdge → ℝ) (mult : Option (List ℝ))
    (hm : mult = some (r.map AttnEdge.cut) ∨ (mult = none ∧ ∀ e ∈ r, e.cut = 1)) :
    softmaxDenseRow lo (r.map x) mult (r.map fun e => decide (e.src < m)) =
      r.map fun e => softmaxValue ((r.filter fun e => e.src < m).map fun e' => (x e', e'.cut)) (x e, e.cut) := by
  have h := C04_dense lo (r.map x) mult (r.map fun e => decide (e.src < m))
  have hz : (r.map x).zip (weightsOf mult (r.map x).length) = r.map fun e => (x e, e.cut) := by
    rcases hm with rfl | ⟨rfl, hc⟩
    · unfold weightsOf
      rw [Option.getD_some, List.zip_map']
    · unfold weightsOf
      rw [Option.getD_none, List.length_map, show List.replicate r.length (1 : ℝ) = r.map fun _ => 1 by simp, List.zip_map']
      apply List.map_congr_left
      intro e he
      rw [hc e he]
  simp only [hz] at h
  rw [h, List.zip_map', List.map_map, List.filter_map, List.map_map]
  rfl

theorem attnDots_dense (cfg : AttnCfg) (P : AttnParams) (F : ℕ) (q kv : Nodes) (bp : Bool) (bL bF : ℕ)
    (G : List (List AttnEdge)) (b : Option Edges)
    (hb : BasisOf cfg b ⟨bp, bL, bF, .mat (G.map fun r => r.map AttnEdge.basis)⟩)
    (hq : G.length = q.rows.length) (hk : 0 < kv.rows.length) (num : Option ℕ)
    (hG : ∀ i (h : i < G.length), ∀ e ∈ G[i], e.dst = i) :
    attnDots cfg P F q kv b { adj := some (G.map fun r => r.map AttnEdge.src), num := num } =
      .ok (.mat (G.map fun r => r.map fun e =>
        attnLogit cfg P F q kv bF { e with src := min e.src (kv.rows.length - 1) })) := by
  have lq : (attnQuery cfg P F q kv).length = q.rows.length := by unfold attnQuery; simp
  have lk : (attnKey cfg P F q kv).length = kv.rows.length := by unfold attnKey; simp
  have nk : attnKey cfg P F q kv ≠ [] := List.ne_nil_of_length_pos (lk ▸ hk)
  have hqz : List.zipWith (fun x row => row.map fun _ => x) (attnQuery cfg P F q kv) (G.map fun r => r.map AttnEdge.src) =
      G.map fun r => r.map fun e => (attnQuery cfg P F q kv).getD e.dst 0 := by
    apply List.ext_getElem
    · simp [lq, hq]
    · intro i h1 h2
      have hi : i < G.length := by simpa using h2
      have hi' : i < (attnQuery cfg P F q kv).length := by rw [lq]; omega
      rw [List.getElem_zipWith, List.getElem_map, List.getElem_map, List.map_map]
      apply List.map_congr_left
      intro e he
      rw [hG i hi e he, List.getD_eq_getElem?_getD, List.getElem?_eq_getElem hi', Option.getD_some]
      rfl
  unfold attnDots gatherDst gatherSrc
  simp only [determineIndexType, Option.map_none, Option.map_some, Option.isSome_none, Option.isSome_some,
    Bool.or_false, Bool.false_or, Bool.not_true, Bool.false_and, Bool.and_false, if_false, Bool.or_true, Bool.true_or,
    if_true, Bool.false_eq_true, gatherDense_eq (0 : Ent) _ nk]
  rw [if_pos (by rw [lq]; simp [hq]), hqz]
  have hz : Lead.zipWith? Prod.mk
      (.mat (G.map fun r => r.map fun e => (attnQuery cfg P F q kv).getD e.dst 0))
      (.mat ((G.map fun r => r.map AttnEdge.src).map fun r => r.map fun i =>
        ((attnKey cfg P F q kv)[min i ((attnKey cfg P F q kv).length - 1)]?).getD 0)) =
      some (.mat (G.map fun r => r.map fun e => ((attnQuery cfg P F q kv).getD e.dst 0,
        (attnKey cfg P F q kv).getD (min e.src (kv.rows.length - 1)) 0))) := by
    unfold Lead.zipWith?
    dsimp only
    rw [if_pos (by simp), List.map_map, List.zipWith_map, List.zipWith_self, lk]
    congr 2
    apply List.map_congr_left
    intro r _
    simp only [Function.comp]
    rw [List.map_map, List.zipWith_map, List.zipWith_self]
    simp only [Function.comp, List.getD_eq_getElem?_getD]
  dsimp only
  rw [hz]
  dsimp only
  cases hr : cfg.relQK with
  | false =>
    unfold Lead.map
    dsimp only
    rw [List.map_map]
    unfold attnLogit
    rw [hr]
    congr 2
    apply List.map_congr_left
    intro r _
    simp only [Function.comp]
    rw [List.map_map]
    rfl
  | true =>
    rcases hb with rfl | ⟨_, h, _⟩
    · dsimp only
      unfold Lead.zipWith?
      dsimp only
      rw [if_pos (by simp), List.zipWith_map, List.zipWith_self]
      unfold attnLogit
      rw [hr]
      dsimp only
      congr 2
      apply List.map_congr_left
      intro r _
      rw [List.zipWith_map, List.zipWith_self]
      rfl
    · rw [hr] at h; cases h

theorem softmaxLead_mat (lo ninf : ℝ) (G : List (List AttnEdge)) (m : ℕ) (x : AttnEdge → ℝ) (c : Option (Lead ℝ))
    (hc : CutoffOf c (.mat (G.map fun r => r.map AttnEdge.cut)) G.flatten)
    (ix : IndexArgs) (hd : ix.dst = none) (ha : ix.adj = some (G.map fun r => r.map AttnEdge.src))
    (hmask : ix.mask = some (G.map fun r => r.map fun e => decide (e.src < m))) :
    softmaxLead lo ninf (.mat (G.map fun r => r.map x)) c ix = .ok (.mat (G.map fun r =>
      r.map fun e => softmaxValue ((r.filter fun e => e.src < m).map fun e' => (x e', e'.cut)) (x e, e.cut))) := by
  unfold softmaxLead
  rw [ha, hd]
  have hl : (G.map fun r => r.map AttnEdge.src).map List.length = (G.map fun r => r.map x).map List.length := by simp
  have hl' : (G.map fun r => r.map AttnEdge.cut).map List.length = (G.map fun r => r.map x).map List.length := by simp
  rcases hc with rfl | ⟨rfl, h⟩
  · simp only [determineIndexType, Option.map_none, Option.map_some, Option.isSome_none, Option.isSome_some, hmask,
      Bool.or_false, Bool.false_or, Bool.not_true, Bool.false_and, Bool.and_false, if_false, Bool.or_true, Bool.true_or,
      if_true, Bool.false_eq_true, ne_eq, hl, hl', not_true_eq_false]
    congr 2
    unfold softmaxDense
    dsimp only
    rw [List.zip_map', List.zipWith_map, List.zipWith_self]
    apply List.map_congr_left
    intro r _
    exact softmaxRow_edges lo m r x _ (Or.inl rfl)
  · simp only [determineIndexType, Option.map_none, Option.map_some, Option.isSome_none, Option.isSome_some, hmask,
      Bool.or_false, Bool.false_or, Bool.not_true, Bool.false_and, Bool.and_false, if_false, Bool.or_true, Bool.true_or,
      if_true, Bool.false_eq_true, ne_eq, hl, not_true_eq_false]
    congr 2
    unfold softmaxDense
    dsimp only
    rw [List.zipWith_map, List.zipWith_self]
    apply List.map_congr_left
    intro r hr
    exact softmaxRow_edges lo m r x _ (Or.inr ⟨rfl, fun e he => h e (List.mem_flatten.2 ⟨r, hr, he⟩)⟩)

theorem attnWeights_dense (lo ninf : ℝ) (cfg : AttnCfg) (P : AttnParams) (F : ℕ) (q kv : Nodes) (bp : Bool) (bL bF : ℕ)
    (G : List (List AttnEdge)) (b : Option Edges)
    (hb : BasisOf cfg b ⟨bp, bL, bF, .mat (G.map fun r => r.map AttnEdge.basis)⟩)
    (c : Option (Lead ℝ)) (hc : CutoffOf c (.mat (G.map fun r => r.map AttnEdge.cut)) G.flatten)
    (hq : G.length = q.rows.length) (hk : 0 < kv.rows.length) (num : Option ℕ)
    (hG : ∀ i (h : i < G.length), ∀ e ∈ G[i], e.dst = i) :
    ∃ W : AttnEdge → ℕ → ℝ, attnWeights lo ninf cfg P F q kv b c
        { adj := some (G.map fun r => r.map AttnEdge.src), num := num } = .ok (.mat (G.map fun r => r.map W)) ∧
      ∀ e ∈ keptEdges kv.rows.length G, ∀ h, W e h = attnWeight cfg P F q kv bF (keptEdges kv.rows.length G) e h := by
  set m := kv.rows.length with hm
  set x : AttnEdge → ℕ → ℝ := fun e => attnLogit cfg P F q kv bF { e with src := min e.src (m - 1) } with hx
  -- the row of an edge is determined by its destination
  set row : AttnEdge → List AttnEdge := fun e => (G.getD e.dst []).filter fun e => e.src < m with hrow
  refine ⟨fun e h => softmaxValue ((row e).map fun e' => (x e' h, e'.cut)) (x e h, e.cut), ?_, ?_⟩
  · unfold attnWeights
    have hdots := attnDots_dense cfg P F q kv bp bL bF G b hb hq hk num hG
    change _ = Except.ok (Lead.mat (G.map fun r => r.map x)) at hdots
    rw [hdots]
    dsimp only
    have hl : ∀ h, softmaxLead lo ninf ((Lead.mat (G.map fun r => r.map x)).map (· h)) c
        (autoIndexArgs { adj := some (G.map fun r => r.map AttnEdge.src), num := num } q.rows.length kv.rows.length) =
        .ok (.mat (G.map fun r => r.map fun e =>
          softmaxValue ((r.filter fun e => e.src < m).map fun e' => (x e' h, e'.cut)) (x e h, e.cut))) := by
      intro h
      unfold Lead.map
      dsimp only
      rw [List.map_map]
      have := softmaxLead_mat lo ninf G m (fun e => x e h) c hc
        (autoIndexArgs { adj := some (G.map fun r => r.map AttnEdge.src), num := num } q.rows.length kv.rows.length)
        rfl rfl (by simp [autoIndexArgs, Function.comp, hm])
      rw [← this]
      congr 2
      apply List.map_congr_left
      intro r _
      simp only [Function.comp]
      rw [List.map_map]; rfl
    unfold vmapHeads
    simp only [hl]
    congr 1
    unfold Lead.mapPos
    dsimp only
    congr 1
    apply List.ext_getElem
    · simp
    · intro k h1 h2
      have hk : k < G.length := by simpa using h2
      rw [List.getElem_mapIdx]
      conv_rhs => rw [List.getElem_map]
      apply List.ext_getElem
      · simp
      · intro k' h1' h2'
        have hk' : k' < G[k].length := by simpa using h2'
        rw [List.getElem_mapIdx]
        conv_rhs => rw [List.getElem_map]
        funext h
        have hd := hG k hk _ (List.getElem_mem hk')
        simp [Lead.at?, List.getElem?_eq_getElem hk, List.getElem?_eq_getElem hk', hrow, hd]
  · intro e he h
    have hmem : ∃ hi : e.dst < G.length, e ∈ G[e.dst] ∧ e.src < m := by
      unfold keptEdges at he
      rw [List.mem_filter] at he
      obtain ⟨h1, h2⟩ := he
      obtain ⟨r, hr, he'⟩ := List.mem_flatten.1 h1
      obtain ⟨j, hj, rfl⟩ := List.getElem_of_mem hr
      have := hG j hj e he'
      subst this
      exact ⟨hj, he', by simpa using h2⟩
    obtain ⟨hi, hmem, hs⟩ := hmem
    have hcl : ∀ e' : AttnEdge, e'.src < m → x e' h = attnLogit cfg P F q kv bF e' h := by
      intro e' h'
      rw [hx]
      dsimp only
      rw [show min e'.src (m - 1) = e'.src by omega]
    dsimp only
    unfold attnWeight
    rw [attnInto_kept hG _ hi, hcl e hs, hrow]
    dsimp only
    rw [List.getD_eq_getElem?_getD, List.getElem?_eq_getElem hi, Option.getD_some]
    congr 1
    apply List.map_congr_left
    intro e' he'
    rw [hcl e' (by simpa using (List.mem_filter.1 he').2)]

theorem mem_kept {m : ℕ} {G : List (List AttnEdge)} (hG : ∀ i (h : i < G.length), ∀ e ∈ G[i], e.dst = i) {e : AttnEdge}
    (he : e ∈ keptEdges m G) : e.dst < G.length ∧ e.src < m := by
  unfold keptEdges at he
  rw [List.mem_filter] at he
  obtain ⟨h1, h2⟩ := he
  obtain ⟨r, hr, he'⟩ := List.mem_flatten.1 h1
  obtain ⟨j, hj, rfl⟩ := List.getElem_of_mem hr
  have := hG j hj e he'
  exact ⟨by omega, by simpa using h2⟩

/-- **C19 (meaning, dense format).** The same for a dense list: the edges are the slots whose source is a node. -/
theorem C19_dense (lo ninf : ℝ) (cfg : AttnCfg) (P : AttnParams) (cg : ℕ → ℕ → ℕ → ℝ) (q kv : Nodes) (bp : Bool)
    (bL bF : ℕ) (G : List (List AttnEdge)) (b : Option Edges)
    (hb : BasisOf cfg b ⟨bp, bL, bF, .mat (G.map fun r => r.map AttnEdge.basis)⟩)
    (c : Option (Lead ℝ)) (hc : CutoffOf c (.mat (G.map fun r => r.map AttnEdge.cut)) G.flatten)
    (hq : G.length = q.rows.length) (hk : 0 < kv.rows.length) (num : Option ℕ)
    (hG : ∀ i (h : i < G.length), ∀ e ∈ G[i], e.dst = i) (ix : IndexArgs)
    (hix : ix = { adj := some (G.map fun r => r.map AttnEdge.src), num := num }) :
    (cfg.numHeads = 0 ∨ cfg.qkvFeatures.getD q.F % cfg.numHeads ≠ 0 →
      attention lo ninf cfg P cg q kv b c ix = .error .valueError) ∧
    (cfg.relV = true → bL + kv.L < cfg.conv.tens.maxDegree.getD (max bL kv.L) →
      attention lo ninf cfg P cg q kv b c ix = .error .valueError) ∧
    (cfg.numHeads ≠ 0 → cfg.qkvFeatures.getD q.F % cfg.numHeads = 0 →
      (cfg.relV = true → cfg.conv.tens.maxDegree.getD (max bL kv.L) ≤ bL + kv.L) →
      ∃ z, attention lo ninf cfg P cg q kv b c ix = .ok z ∧
        IsAttention cfg P cg q kv bp bL bF (keptEdges kv.rows.length G) q.rows.length z) := by
  subst hix
  obtain ⟨W, hW, hW'⟩ := attnWeights_dense lo ninf cfg P (cfg.qkvFeatures.getD q.F) q kv bp bL bF G b hb c hc hq hk num hG
  refine attention_of_weights lo ninf cfg P cg q kv bp bL bF (.dense G) _ b c _ W _ hb hW (fun e he _ => hW' e he)
    (fun e he _ => (mem_kept hG he).2) ?_ ?_
  · exact (gather_values (f := fun v => (dense _ cfg.vBias P.value (kv.feat v)).val) kv _ rfl hk [] num).2 G
  · intro f
    have hs := indexedSum_mat (G.map fun r => r.map f)
      (autoIndexArgs { adj := some (G.map fun r => r.map AttnEdge.src), num := num } q.rows.length kv.rows.length)
      (G.map fun r => r.map AttnEdge.src)
      (G.map fun r => r.map fun e => decide (e.src < kv.rows.length)) rfl rfl
      (by simp [autoIndexArgs, Function.comp]) (by simp)
    refine ⟨_, hs, ?_, ?_⟩
    · unfold denseReduce; simp [hq]
    · intro i hi
      have hi' : i < G.length := by omega
      rw [attnInto_kept hG i hi']
      unfold denseReduce
      rw [List.zipWith_map, List.zipWith_self, List.getElem?_map, List.getElem?_eq_getElem hi', Option.map_some]
      congr 1
      unfold maskedFold
      rw [List.zip_map', List.filter_map, List.foldl_map, List.sum_eq_foldl, List.foldl_map]
      rfl

/-! ### Attention weights are normalised -/

/-- **C19 (normalisation).** With positive cutoff values, the attention weights of the edges that end in a node are positive
and add up to one in every head. -/
theorem C19_normalised (cfg : AttnCfg) (P : AttnParams) (F : ℕ) (q kv : Nodes) (bF : ℕ) (E : List AttnEdge)
    (hc : ∀ e ∈ E, 0 < e.cut) (i : ℕ) (hi : ∃ e ∈ E, e.dst = i) (h : ℕ) :
    ((attnInto E i).map fun e => attnWeight cfg P F q kv bF E e h).sum = 1 ∧
      ∀ e ∈ attnInto E i, 0 < attnWeight cfg P F q kv bF E e h ∧ attnWeight cfg P F q kv bF E e h ≤ 1 := by
  set x := fun e => attnLogit cfg P F q kv bF e h with hx
  have hw : ∀ e ∈ attnInto E i, attnWeight cfg P F q kv bF E e h =
      Real.exp (x e) * e.cut / ((attnInto E i).map fun e => Real.exp (x e) * e.cut).sum := by
    intro e he
    simp only [attnInto, List.mem_filter, decide_eq_true_eq] at he
    unfold attnWeight softmaxValue
    rw [he.2, List.map_map]
    rfl
  have hpos : ∀ e ∈ attnInto E i, 0 < Real.exp (x e) * e.cut := fun e he =>
    mul_pos (Real.exp_pos _) (hc e (List.mem_of_mem_filter he))
  obtain ⟨e0, he0, hd0⟩ := hi
  have hne : attnInto E i ≠ [] := List.ne_nil_of_mem (List.mem_filter.2 ⟨he0, by simpa using hd0⟩)
  have hS : 0 < ((attnInto E i).map fun e => Real.exp (x e) * e.cut).sum := by
    apply List.sum_pos
    · intro y hy
      obtain ⟨e, he, rfl⟩ := List.mem_map.1 hy
      exact hpos e he
    · simpa using hne
  constructor
  · rw [List.map_congr_left hw]
    simp only [div_eq_mul_inv]
    rw [List.sum_map_mul_right, mul_inv_cancel₀ hS.ne']
  · intro e he
    rw [hw e he]
    refine ⟨div_pos (hpos e he) hS, (div_le_one hS).2 ?_⟩
    apply List.single_le_sum
    · intro y hy
      obtain ⟨e, he, rfl⟩ := List.mem_map.1 hy
      exact (hpos e he).le
    · exact List.mem_map.2 ⟨e, he, rfl⟩

/-! ### Order of edges, formats, renumbering -/

theorem attnWeight_perm (cfg : AttnCfg) (P : AttnParams) (F : ℕ) (q kv : Nodes) (bF : ℕ) {E E' : List AttnEdge}
    (hp : E.Perm E') (e : AttnEdge) : attnWeight cfg P F q kv bF E e = attnWeight cfg P F q kv bF E' e := by
  funext h
  unfold attnWeight softmaxValue
  congr 1
  exact List.Perm.sum_eq (((hp.filter _).map _).map _)

theorem isAttention_perm {cfg : AttnCfg} {P : AttnParams} {cg : ℕ → ℕ → ℕ → ℝ} {q kv : Nodes} {bp : Bool} {bL bF : ℕ}
    {E E' : List AttnEdge} (hp : E.Perm E') {n : ℕ} {z : Nodes} (h : IsAttention cfg P cg q kv bp bL bF E n z) :
    IsAttention cfg P cg q kv bp bL bF E' n z := by
  obtain ⟨h1, h2, h3, h4, h5⟩ := h
  refine ⟨h1, h2, h3, h4, fun i hi => ?_⟩
  rw [h5 i hi]
  simp only [attnWeight_perm cfg P _ q kv bF hp]
  congr 4
  exact List.Perm.sum_eq ((hp.filter _).map _)

theorem isAttention_unique {cfg : AttnCfg} {P : AttnParams} {cg : ℕ → ℕ → ℕ → ℝ} {q kv : Nodes} {bp : Bool} {bL bF : ℕ}
    {E : List AttnEdge} {n : ℕ} {z z' : Nodes} (h : IsAttention cfg P cg q kv bp bL bF E n z)
    (h' : IsAttention cfg P cg q kv bp bL bF E n z') : z = z' := by
  obtain ⟨h1, h2, h3, h4, h5⟩ := h
  obtain ⟨h1', h2', h3', h4', h5'⟩ := h'
  refine nodes_ext (h1.trans h1'.symm) (h2.trans h2'.symm) (h3.trans h3'.symm) (h4.trans h4'.symm) fun i hi => ?_
  rw [h5 i (h4 ▸ hi), h5' i (h4 ▸ hi)]

/-- **C19 (order of edges).** The order of the edges of a sparse list does not matter. -/
theorem C19_edge_order (lo ninf : ℝ) (cfg : AttnCfg) (P : AttnParams) (cg : ℕ → ℕ → ℕ → ℝ) (q kv : Nodes) (bp : Bool)
    (bL bF : ℕ) (E E' : List AttnEdge) (hp : E.Perm E')
    (b b' : Option Edges) (hb : BasisOf cfg b ⟨bp, bL, bF, .vec (E.map AttnEdge.basis)⟩)
    (hb' : BasisOf cfg b' ⟨bp, bL, bF, .vec (E'.map AttnEdge.basis)⟩)
    (c c' : Option (Lead ℝ)) (hc : CutoffOf c (.vec (E.map AttnEdge.cut)) E)
    (hc' : CutoffOf c' (.vec (E'.map AttnEdge.cut)) E')
    (hq : 0 < q.rows.length) (hk : 0 < kv.rows.length) (num : Option ℕ) (hN : 0 < num.getD q.rows.length)
    (hE : ∀ e ∈ E, e.dst < num.getD q.rows.length → e.dst < q.rows.length ∧ e.src < kv.rows.length) :
    attention lo ninf cfg P cg q kv b c
      { dst := some (E.map AttnEdge.dst), src := some (E.map AttnEdge.src), num := num } =
    attention lo ninf cfg P cg q kv b' c'
      { dst := some (E'.map AttnEdge.dst), src := some (E'.map AttnEdge.src), num := num } := by
  obtain ⟨a1, a2, a3⟩ := C19_sparse lo ninf cfg P cg q kv bp bL bF E b hb c hc hq hk num hN hE _ rfl
  obtain ⟨b1, b2, b3⟩ := C19_sparse lo ninf cfg P cg q kv bp bL bF E' b' hb' c' hc' hq hk num hN
    (fun e he => hE e (hp.mem_iff.2 he)) _ rfl
  by_cases h1 : cfg.numHeads = 0 ∨ cfg.qkvFeatures.getD q.F % cfg.numHeads ≠ 0
  · rw [a1 h1, b1 h1]
  by_cases h2 : cfg.relV = true ∧ bL + kv.L < cfg.conv.tens.maxDegree.getD (max bL kv.L)
  · rw [a2 h2.1 h2.2, b2 h2.1 h2.2]
  push Not at h1 h2
  obtain ⟨z, e1, e2⟩ := a3 h1.1 h1.2 h2
  obtain ⟨z', e1', e2'⟩ := b3 h1.1 h1.2 h2
  rw [e1, e1', isAttention_unique (isAttention_perm hp e2) e2']

/-- **C19 (index list formats).** A dense list and a sparse list of the same edges give the same result. -/
theorem C19_dense_eq_sparse (lo ninf : ℝ) (cfg : AttnCfg) (P : AttnParams) (cg : ℕ → ℕ → ℕ → ℝ) (q kv : Nodes) (bp : Bool)
    (bL bF : ℕ) (E : List AttnEdge) (G : List (List AttnEdge)) (hp : E.Perm (keptEdges kv.rows.length G))
    (b b' : Option Edges) (hb : BasisOf cfg b ⟨bp, bL, bF, .vec (E.map AttnEdge.basis)⟩)
    (hb' : BasisOf cfg b' ⟨bp, bL, bF, .mat (G.map fun r => r.map AttnEdge.basis)⟩)
    (c c' : Option (Lead ℝ)) (hc : CutoffOf c (.vec (E.map AttnEdge.cut)) E)
    (hc' : CutoffOf c' (.mat (G.map fun r => r.map AttnEdge.cut)) G.flatten)
    (hq : 0 < q.rows.length) (hk : 0 < kv.rows.length) (hq' : G.length = q.rows.length)
    (hG : ∀ i (h : i < G.length), ∀ e ∈ G[i], e.dst = i) :
    attention lo ninf cfg P cg q kv b c { dst := some (E.map AttnEdge.dst), src := some (E.map AttnEdge.src) } =
    attention lo ninf cfg P cg q kv b' c' { adj := some (G.map fun r => r.map AttnEdge.src) } := by
  obtain ⟨a1, a2, a3⟩ := C19_sparse lo ninf cfg P cg q kv bp bL bF E b hb c hc hq hk none hq
    (fun e he _ => by
      have := mem_kept hG (hp.mem_iff.1 he)
      exact ⟨hq' ▸ this.1, this.2⟩) _ rfl
  obtain ⟨b1, b2, b3⟩ := C19_dense lo ninf cfg P cg q kv bp bL bF G b' hb' c' hc' hq' hk none hG _ rfl
  by_cases h1 : cfg.numHeads = 0 ∨ cfg.qkvFeatures.getD q.F % cfg.numHeads ≠ 0
  · rw [a1 h1, b1 h1]
  by_cases h2 : cfg.relV = true ∧ bL + kv.L < cfg.conv.tens.maxDegree.getD (max bL kv.L)
  · rw [a2 h2.1 h2.2, b2 h2.1 h2.2]
  push Not at h1 h2
  obtain ⟨z, e1, e2⟩ := a3 h1.1 h1.2 h2
  obtain ⟨z', e1', e2'⟩ := b3 h1.1 h1.2 h2
  rw [e1, e1', isAttention_unique (isAttention_perm hp e2) e2']

theorem attnInto_relabel (σ τ : Equiv.Perm ℕ) (E : List AttnEdge) (i : ℕ) :
    attnInto (E.map (AttnEdge.relabel σ τ)) (σ i) = (attnInto E i).map (AttnEdge.relabel σ τ) := by
  unfold attnInto
  rw [List.filter_map]
  congr 1
  apply List.filter_congr
  intro e _
  simp [AttnEdge.relabel, Function.comp]

/-- The nodes of `x'` are those of `x`, renumbered with `σ`. -/
def Renumbered (σ : Equiv.Perm ℕ) (x x' : Nodes) : Prop :=
  (∀ i, σ i < x.rows.length ↔ i < x.rows.length) ∧
  x'.pseudo = x.pseudo ∧ x'.L = x.L ∧ x'.F = x.F ∧ x'.rows.length = x.rows.length ∧
  ∀ i < x.rows.length, x'.rows[σ i]? = x.rows[i]?

theorem Renumbered.map {σ : Equiv.Perm ℕ} {x x' : Nodes} (h : Renumbered σ x x') (f : Ent → Ent) {i : ℕ}
    (hi : i < x.rows.length) : (x'.rows.map f).getD (σ i) 0 = (x.rows.map f).getD i 0 := by
  simp only [List.getD_eq_getElem?_getD, List.getElem?_map, h.2.2.2.2.2 i hi]

/-- **C19 (renumbering).** If the query nodes are renumbered by `σ` and the key/value nodes by `τ`, and the index lists
accordingly, the output is renumbered by `σ`. -/
theorem C19_relabel (lo ninf : ℝ) (cfg : AttnCfg) (P : AttnParams) (cg : ℕ → ℕ → ℕ → ℝ) (q kv q' kv' : Nodes) (bp : Bool)
    (bL bF : ℕ) (E : List AttnEdge) (b : Option Edges) (hb : BasisOf cfg b ⟨bp, bL, bF, .vec (E.map AttnEdge.basis)⟩)
    (c : Option (Lead ℝ)) (hc : CutoffOf c (.vec (E.map AttnEdge.cut)) E)
    (hq : 0 < q.rows.length) (hk : 0 < kv.rows.length)
    (hE : ∀ e ∈ E, e.dst < q.rows.length → e.src < kv.rows.length)
    (σ τ : Equiv.Perm ℕ) (hσ : Renumbered σ q q') (hτ : Renumbered τ kv kv') (z : Nodes)
    (hz : attention lo ninf cfg P cg q kv b c
      { dst := some (E.map AttnEdge.dst), src := some (E.map AttnEdge.src) } = .ok z) :
    ∃ z', attention lo ninf cfg P cg q' kv' b c
      { dst := some ((E.map (AttnEdge.relabel σ τ)).map AttnEdge.dst),
        src := some ((E.map (AttnEdge.relabel σ τ)).map AttnEdge.src) } = .ok z' ∧ Renumbered σ z z' := by
  have ht1 : ∀ {γ : Type} (f : AttnEdge → γ), (∀ e, f (AttnEdge.relabel σ τ e) = f e) →
      (E.map (AttnEdge.relabel σ τ)).map f = E.map f := by
    intro γ f hf
    rw [List.map_map]
    exact List.map_congr_left fun e _ => hf e
  obtain ⟨s0, s1, s2, s3, s4, s5⟩ := id hσ
  obtain ⟨t0, t1, t2, t3, t4, t5⟩ := id hτ
  have hc' : CutoffOf c (.vec ((E.map (AttnEdge.relabel σ τ)).map AttnEdge.cut)) (E.map (AttnEdge.relabel σ τ)) := by
    rcases hc with rfl | ⟨rfl, h⟩
    · left; rw [ht1 _ fun _ => rfl]
    · right
      refine ⟨rfl, fun e he => ?_⟩
      obtain ⟨e', he', rfl⟩ := List.mem_map.1 he
      exact h e' he'
  obtain ⟨a1, a2, a3⟩ := C19_sparse lo ninf cfg P cg q kv bp bL bF E b hb c hc hq hk none hq
    (fun e he hd => ⟨hd, hE e he hd⟩) _ rfl
  obtain ⟨b1, b2, b3⟩ := C19_sparse lo ninf cfg P cg q' kv' bp bL bF (E.map (AttnEdge.relabel σ τ)) b
    (by rw [ht1 _ fun _ => rfl]; exact hb) c hc' (by omega) (by omega) none (by rw [Option.getD_none]; omega)
    (by
      intro e he hd
      refine ⟨hd, ?_⟩
      obtain ⟨e', he', rfl⟩ := List.mem_map.1 he
      have hd' : σ e'.dst < q.rows.length := by rw [← s4]; exact hd
      show τ e'.src < _
      rw [t4, t0]
      exact hE e' he' ((s0 _).1 hd')) _ rfl
  by_cases h1 : cfg.numHeads = 0 ∨ cfg.qkvFeatures.getD q.F % cfg.numHeads ≠ 0
  · rw [a1 h1] at hz; cases hz
  by_cases h2 : cfg.relV = true ∧ bL + kv.L < cfg.conv.tens.maxDegree.getD (max bL kv.L)
  · rw [a2 h2.1 h2.2] at hz; cases hz
  push Not at h1 h2
  obtain ⟨y, e1, g1, g2, g3, g4, g5⟩ := a3 h1.1 h1.2 h2
  rw [hz] at e1; injection e1 with e1; subst e1
  obtain ⟨z', e1', g1', g2', g3', g4', g5'⟩ := b3 h1.1 (by rw [s3]; exact h1.2) (by rw [t2]; exact h2)
  rw [Option.getD_none] at g4 g4' g5 g5'
  have o1 : attnOutPseudo cfg kv' bp bL = attnOutPseudo cfg kv bp bL := by
    unfold attnOutPseudo; rw [t1, t2]
  have o2 : attnOutL cfg kv' bL = attnOutL cfg kv bL := by
    unfold attnOutL; rw [t2]
  rw [s3] at g3' g5'
  rw [o1] at g1' g5'; rw [o2] at g2' g5'
  refine ⟨z', e1', ?_, g1'.trans g1.symm, g2'.trans g2.symm, g3'.trans g3.symm, by rw [g4', g4, s4], ?_⟩
  · intro i; rw [g4]; exact s0 i
  intro i hi
  rw [g4] at hi
  rw [g5 i hi, g5' (σ i) (by rw [s4]; exact (s0 i).2 hi), attnInto_relabel, List.map_map]
  generalize cfg.qkvFeatures.getD q.F = F
  -- logits
  have hlog : ∀ e ∈ E, e.dst < q.rows.length → attnLogit cfg P F q' kv' bF (AttnEdge.relabel σ τ e) =
      attnLogit cfg P F q kv bF e := by
    intro e he hd
    funext h
    have e1 : (attnQuery cfg P F q' kv').getD (σ e.dst) 0 = (attnQuery cfg P F q kv).getD e.dst 0 := by
      unfold attnQuery qkInputs Nodes.feat
      rw [s1, s2, s3, t1, t2]
      exact hσ.map _ hd
    have e2 : (attnKey cfg P F q' kv').getD (τ e.src) 0 = (attnKey cfg P F q kv).getD e.src 0 := by
      unfold attnKey qkInputs Nodes.feat
      rw [s1, s2, t1, t2, t3]
      exact hτ.map _ (hE e he hd)
    unfold attnLogit
    dsimp only [AttnEdge.relabel]
    rw [e1, e2, s1, s2, t1, t2]
  have hwt : ∀ e ∈ E, e.dst < q.rows.length →
      attnWeight cfg P F q' kv' bF (E.map (AttnEdge.relabel σ τ)) (AttnEdge.relabel σ τ e) =
      attnWeight cfg P F q kv bF E e := by
    intro e he hd
    funext h
    unfold attnWeight
    have : attnInto (E.map (AttnEdge.relabel σ τ)) (AttnEdge.relabel σ τ e).dst =
      (attnInto E e.dst).map (AttnEdge.relabel σ τ) := attnInto_relabel σ τ E e.dst
    rw [this, List.map_map, hlog e he hd]
    congr 1
    apply List.map_congr_left
    intro e' he'
    simp only [attnInto, List.mem_filter, decide_eq_true_eq] at he'
    simp only [Function.comp]
    rw [hlog e' he'.1 (by omega)]
    rfl
  congr 5
  apply List.map_congr_left
  intro e he
  simp only [attnInto, List.mem_filter, decide_eq_true_eq] at he
  have hd : e.dst < q.rows.length := by omega
  have hs := hE e he.1 hd
  simp only [Function.comp]
  rw [hwt e he.1 hd]
  unfold attnMessage Nodes.feat
  have : kv'.rows.getD (τ e.src) 0 = kv.rows.getD e.src 0 := by
    simp only [List.getD_eq_getElem?_getD, t5 _ hs]
  simp only [AttnEdge.relabel, this, t1, t2, t3]

/-! ### Self-attention -/

/-- **C19 (self-attention, sparse format).** Every node attends to the sources of the edges that end in it: the result is
the one of attention with the same nodes as queries and keys, for the given basis and cutoff. -/
theorem C19_self_sparse (lo ninf : ℝ) (cfg : AttnCfg) (P : AttnParams) (cg : ℕ → ℕ → ℕ → ℝ) (x : Nodes) (bp : Bool)
    (bL bF : ℕ) (E : List AttnEdge) (b : Option Edges) (hb : BasisOf cfg b ⟨bp, bL, bF, .vec (E.map AttnEdge.basis)⟩)
    (c : Option (Lead ℝ)) (hc : CutoffOf c (.vec (E.map AttnEdge.cut)) E)
    (hx : 0 < x.rows.length) (num : Option ℕ) (hN : 0 < num.getD x.rows.length)
    (hE : ∀ e ∈ E, e.dst < num.getD x.rows.length → e.dst < x.rows.length ∧ e.src < x.rows.length)
    (h1 : cfg.numHeads ≠ 0) (h2 : cfg.qkvFeatures.getD x.F % cfg.numHeads = 0)
    (h3 : cfg.relV = true → cfg.conv.tens.maxDegree.getD (max bL x.L) ≤ bL + x.L) :
    ∃ z, selfAttention lo ninf cfg P cg x b c
        { dst := some (E.map AttnEdge.dst), src := some (E.map AttnEdge.src), num := num } = .ok z ∧
      IsAttention cfg P cg x x bp bL bF E (num.getD x.rows.length) z :=
  (C19_sparse lo ninf cfg P cg x x bp bL bF E b hb c hc hx hx num hN hE _ rfl).2.2 h1 h2 h3

/-- **C19 (self-attention, dense format).** -/
theorem C19_self_dense (lo ninf : ℝ) (cfg : AttnCfg) (P : AttnParams) (cg : ℕ → ℕ → ℕ → ℝ) (x : Nodes) (bp : Bool)
    (bL bF : ℕ) (G : List (List AttnEdge)) (b : Option Edges)
    (hb : BasisOf cfg b ⟨bp, bL, bF, .mat (G.map fun r => r.map AttnEdge.basis)⟩)
    (c : Option (Lead ℝ)) (hc : CutoffOf c (.mat (G.map fun r => r.map AttnEdge.cut)) G.flatten)
    (hG' : G.length = x.rows.length) (hx : 0 < x.rows.length) (num : Option ℕ)
    (hG : ∀ i (h : i < G.length), ∀ e ∈ G[i], e.dst = i)
    (h1 : cfg.numHeads ≠ 0) (h2 : cfg.qkvFeatures.getD x.F % cfg.numHeads = 0)
    (h3 : cfg.relV = true → cfg.conv.tens.maxDegree.getD (max bL x.L) ≤ bL + x.L) :
    ∃ z, selfAttention lo ninf cfg P cg x b c { adj := some (G.map fun r => r.map AttnEdge.src), num := num } = .ok z ∧
      IsAttention cfg P cg x x bp bL bF (keptEdges x.rows.length G) x.rows.length z :=
  (C19_dense lo ninf cfg P cg x x bp bL bF G b hb c hc hG' hx num hG _ rfl).2.2 h1 h2 h3

/-- **C19 (self-attention, rotations and reflections).** -/
theorem C19_self_equivariant {cg : ℕ → ℕ → ℕ → ℝ} {A : Feat → Feat} (hA : IsSymmetry cg A) (lo ninf : ℝ) (cfg : AttnCfg)
    (P : AttnParams) (x : Nodes) (b : Option Edges) (cutoff : Option (Lead ℝ)) (ix : IndexArgs) :
    (∀ z, selfAttention lo ninf cfg P cg x b cutoff ix = .ok z →
      ∃ z', selfAttention lo ninf cfg P cg (actNodes A x) (b.map (actEdges A)) cutoff ix = .ok z' ∧
        SameNodes z' (actNodes A z)) ∧
    (∀ e, selfAttention lo ninf cfg P cg x b cutoff ix = .error e →
      selfAttention lo ninf cfg P cg (actNodes A x) (b.map (actEdges A)) cutoff ix = .error e) :=
  C19_attention hA lo ninf cfg P x x b cutoff ix

/-- **C19 (missing basis).** If an encoding of relative positions is requested, calling a layer without a basis raises
`TypeError`. -/
theorem C19_missing_basis (lo ninf : ℝ) (cfg : AttnCfg) (P : AttnParams) (cg : ℕ → ℕ → ℕ → ℝ) (q kv : Nodes)
    (cutoff : Option (Lead ℝ)) (ix : IndexArgs) (h : cfg.relQK = true ∨ cfg.relV = true) :
    attention lo ninf cfg P cg q kv none cutoff ix = .error .typeError ∧
      selfAttention lo ninf cfg P cg q none cutoff ix = .error .typeError := by
  unfold selfAttention attention
  rcases h with h | h <;> simp [h]

-- Non-vacuity: two query nodes, three key nodes, two heads, an edge list with two edges into node 0, one into node 1, and a
-- padding edge; the layer returns a value.
example (lo ninf : ℝ) (P : AttnParams) (cg : ℕ → ℕ → ℕ → ℝ) (conv : ConvCfg) (a b c v w : Ent) (h : conv.tens.maxDegree = none) :
    ∃ z, attention lo ninf ⟨conv, 2, some 4, none, true, true, true, true, true, true⟩ P cg ⟨true, 1, 3, [a, b]⟩
      ⟨false, 2, 5, [a, b, c]⟩ (some ⟨false, 1, 7, .vec [v, w, v, 0]⟩) (some (.vec [1, 1 / 2, 1, 0]))
      { dst := some [0, 1, 0, 2], src := some [2, 0, 1, 3] } = .ok z := by
  have hE : ∀ e ∈ [(⟨0, 2, v, 1⟩ : AttnEdge), ⟨1, 0, w, 1 / 2⟩, ⟨0, 1, v, 1⟩, ⟨2, 3, 0, 0⟩], e.dst < 2 → e.dst < 2 ∧ e.src < 3 := by
    intro e he
    simp only [List.mem_cons, List.not_mem_nil, or_false] at he
    rcases he with rfl | rfl | rfl | rfl <;> simp
  obtain ⟨z, hz, _⟩ := (C19_sparse lo ninf ⟨conv, 2, some 4, none, true, true, true, true, true, true⟩ P cg
    ⟨true, 1, 3, [a, b]⟩ ⟨false, 2, 5, [a, b, c]⟩ false 1 7 [⟨0, 2, v, 1⟩, ⟨1, 0, w, 1 / 2⟩, ⟨0, 1, v, 1⟩, ⟨2, 3, 0, 0⟩]
    _ (Or.inl rfl) _ (Or.inl rfl) (by simp) (by simp) none (by simp) hE _ rfl).2.2
      (by simp) (by simp) (by simp [h])
  exact ⟨z, hz⟩

end E3x
