import Verif.Model.Checked
import Verif.Props.Attention

/-!
# C58: attention is NaN exactly at nodes all of whose neighbours have cutoff zero
-/

namespace E3x

open Spec

/-- The denominator of the softmax of an edge, up to the positive factor that stabilises the exponentials. -/
noncomputable def denSum (E : List AttnEdge) (x : AttnEdge → ℝ) : ℝ := (E.map fun e => Real.exp (x e) * e.cut).sum

theorem denSum_shift (E : List AttnEdge) (x : AttnEdge → ℝ) (M : ℝ) :
    (E.map fun e => Real.exp (x e - M) * e.cut).sum = Real.exp (-M) * denSum E x := by
  have := sum_shift M (E.map fun e => (x e, e.cut))
  rw [List.map_map, List.map_map] at this
  exact this

theorem softmaxSparseDen_edges (ninf : ℝ) (E : List AttnEdge) (x : AttnEdge → ℝ) (mult : Option (List ℝ))
    (hm : mult = some (E.map AttnEdge.cut) ∨ (mult = none ∧ ∀ e ∈ E, e.cut = 1)) (num : ℕ) (hnum : 0 < num) :
    ∃ δ : AttnEdge → ℝ, softmaxSparseDen ninf (E.map x) mult (E.map AttnEdge.dst) num = some (E.map δ) ∧
      ∀ e ∈ E, e.dst < num → (δ e = 0 ↔ denSum (attnInto E e.dst) x = 0) := by
  have hne : ∀ (op : ℝ → ℝ → ℝ) init l, segmentReduce op init l (E.map AttnEdge.dst) num ≠ [] := by
    intro op init l h
    have := congrArg List.length h
    rw [segmentReduce_length] at this; simp at this; omega
  have happ : ∀ g : AttnEdge → ℝ, applyMult mult (E.map g) = E.map fun e => g e * e.cut := by
    intro g
    rcases hm with rfl | ⟨rfl, h⟩
    · unfold applyMult
      dsimp only
      rw [List.zipWith_map, List.zipWith_self]
    · unfold applyMult
      dsimp only
      apply List.map_congr_left
      intro e he
      rw [h e he, mul_one]
  obtain ⟨M, hM⟩ : ∃ M : ℕ → ℝ, gatherSparse (segmentReduce max ninf (E.map x) (E.map AttnEdge.dst) num)
      (E.map AttnEdge.dst) = some (E.map fun e => M e.dst) := by
    rw [gatherSparse_eq 0 _ (hne _ _ _), List.map_map]
    generalize segmentReduce max ninf (E.map x) (E.map AttnEdge.dst) num = l
    exact ⟨fun i => (l[min i (l.length - 1)]?).getD 0, rfl⟩
  unfold softmaxSparseDen
  rw [hM]
  simp only [Option.bind_eq_bind, Option.bind_some]
  rw [List.zipWith_map, List.zipWith_self, happ]
  rw [gatherSparse_eq 0 _ (hne _ _ _), List.map_map]
  refine ⟨_, rfl, ?_⟩
  intro e he hd
  dsimp only [Function.comp]
  rw [segmentReduce_length, show min e.dst (num - 1) = e.dst by omega, C03_segment_sum _ _ _ _ hd, Option.getD_some]
  have h1 := denSum_shift (attnInto E e.dst) x (M e.dst)
  have h2 : (((E.map AttnEdge.dst).zip (E.map fun e => Real.exp (x e - M e.dst) * e.cut)).filter
      fun p => p.1 = e.dst).map Prod.snd = (attnInto E e.dst).map fun e' => Real.exp (x e' - M e.dst) * e'.cut := by
    rw [List.zip_map', List.filter_map, List.map_map]
    show (E.filter fun e' => decide (e'.dst = e.dst)).map _ = _
    unfold attnInto
    apply List.map_congr_left
    intro e' he'
    simp only [List.mem_filter, decide_eq_true_eq] at he'
    simp only [Function.comp]
    rw [he'.2]
  rw [h2, h1, mul_eq_zero, or_iff_right (Real.exp_ne_zero _)]

theorem softmaxLeadDen_vec (lo ninf : ℝ) (x : List ℝ) (w : Option (List ℝ)) (hw : ∀ l, w = some l → l.length = x.length)
    (ix : IndexArgs) (d : List ℕ) (n : ℕ) (ha : ix.adj = none)
    (hd : ix.dst = some d) (hnum : ix.num = some n) (hl : d.length = x.length) (y : List ℝ)
    (hy : softmaxSparseDen ninf x w d n = some y) :
    softmaxLeadDen lo ninf (.vec x) (w.map Lead.vec) ix = .ok (.vec y) := by
  unfold softmaxLeadDen
  rw [ha, hd]
  cases w with
  | none => simp [determineIndexType, hnum, hl, hy]
  | some l => simp [determineIndexType, hnum, hl, hy, hw l rfl]

theorem attnDens_sparse (lo ninf : ℝ) (cfg : AttnCfg) (P : AttnParams) (F : ℕ) (q kv : Nodes) (bp : Bool) (bL bF : ℕ)
    (E : List AttnEdge) (b : Option Edges) (hb : BasisOf cfg b ⟨bp, bL, bF, .vec (E.map AttnEdge.basis)⟩)
    (c : Option (Lead ℝ)) (hc : CutoffOf c (.vec (E.map AttnEdge.cut)) E)
    (hq : 0 < q.rows.length) (hk : 0 < kv.rows.length) (num : Option ℕ) (hN : 0 < num.getD q.rows.length) :
    ∃ (x : AttnEdge → ℕ → ℝ) (δ : AttnEdge → ℕ → ℝ), attnDens lo ninf cfg P F q kv b c
        { dst := some (E.map AttnEdge.dst), src := some (E.map AttnEdge.src), num := num } = .ok (.vec (E.map δ)) ∧
      ∀ e ∈ E, e.dst < num.getD q.rows.length → ∀ h,
        (δ e h = 0 ↔ denSum (attnInto E e.dst) (fun e => x e h) = 0) := by
  have hmult : ∃ w : Option (List ℝ), c = w.map Lead.vec ∧ (w = some (E.map AttnEdge.cut) ∨ (w = none ∧ ∀ e ∈ E, e.cut = 1)) := by
    rcases hc with rfl | ⟨rfl, h⟩
    · exact ⟨some (E.map AttnEdge.cut), rfl, Or.inl rfl⟩
    · exact ⟨none, rfl, Or.inr ⟨rfl, h⟩⟩
  obtain ⟨w, rfl, hw⟩ := hmult
  have hs := fun h => softmaxSparseDen_edges ninf E
    (fun e => attnLogit cfg P F q kv bF (clampAttn q.rows.length kv.rows.length e) h) w hw (num.getD q.rows.length) hN
  choose ω hω hω' using hs
  refine ⟨fun e => attnLogit cfg P F q kv bF (clampAttn q.rows.length kv.rows.length e), fun e h => ω h e, ?_, ?_⟩
  · unfold attnDens
    rw [attnDots_sparse cfg P F q kv bp bL bF E b hb hq hk num]
    dsimp only
    have hl : ∀ h, softmaxLeadDen lo ninf
        ((Lead.vec (E.map fun e => attnLogit cfg P F q kv bF (clampAttn q.rows.length kv.rows.length e))).map (· h))
        (w.map Lead.vec) (autoIndexArgs { dst := some (E.map AttnEdge.dst), src := some (E.map AttnEdge.src), num := num }
          q.rows.length kv.rows.length) = .ok (.vec (E.map (ω h))) := by
      intro h
      unfold Lead.map
      dsimp only
      rw [List.map_map]
      refine softmaxLeadDen_vec lo ninf _ w ?_ _ (E.map AttnEdge.dst) (num.getD q.rows.length) rfl rfl rfl (by simp) _ (hω h)
      intro l hl
      rcases hw with rfl | ⟨rfl, _⟩
      · injection hl with hl; subst hl; simp
      · cases hl
    unfold vmapHeads
    simp only [hl]
    congr 1
    unfold Lead.mapPos
    dsimp only
    congr 1
    apply List.ext_getElem
    · simp
    · intro k h1 h2
      rw [List.getElem_mapIdx]
      simp only [List.length_map] at h2
      funext h
      simp [Lead.at?, List.getElem?_eq_getElem h2]
  · intro e he hd h
    exact hω' h e he hd

theorem denSum_eq_zero {E : List AttnEdge} (hc : ∀ e ∈ E, 0 ≤ e.cut) (x : AttnEdge → ℝ) :
    denSum E x = 0 ↔ ∀ e ∈ E, e.cut = 0 := by
  unfold denSum
  induction E with
  | nil => simp
  | cons a E ih =>
    have ih := ih fun e he => hc e (by simp [he])
    have h1 : 0 ≤ Real.exp (x a) * a.cut := mul_nonneg (Real.exp_pos _).le (hc a (by simp))
    have h2 : 0 ≤ (E.map fun e => Real.exp (x e) * e.cut).sum := by
      apply List.sum_nonneg
      intro y hy
      obtain ⟨e, he, rfl⟩ := List.mem_map.1 hy
      exact mul_nonneg (Real.exp_pos _).le (hc e (by simp [he]))
    rw [List.map_cons, List.sum_cons, add_eq_zero_iff_of_nonneg h1 h2, ih, mul_eq_zero,
      or_iff_right (Real.exp_ne_zero _)]
    simp

theorem foldl_or_any (l : List Bool) (b : Bool) : l.foldl (· || ·) b = (b || l.any id) := by
  induction l generalizing b with
  | nil => simp
  | cons a l ih => rw [List.foldl_cons, ih, List.any_cons]; simp [Bool.or_assoc]

open Classical in
/-- From flags of edges to flags of nodes. -/
theorem nan_rows (cfg : AttnCfg) (E : List AttnEdge) (hH : cfg.numHeads ≠ 0) (hc : ∀ e ∈ E, 0 ≤ e.cut) (n i : ℕ) (hi : i < n)
    (x δ : AttnEdge → ℕ → ℝ)
    (hδ : ∀ e ∈ E, e.dst < n → ∀ h, (δ e h = 0 ↔ denSum (attnInto E e.dst) (fun e => x e h) = 0)) :
    (((attnInto E i).map fun e => decide (∃ h < cfg.numHeads, δ e h = 0)).any id = true ↔
      (∃ e ∈ E, e.dst = i) ∧ ∀ e ∈ E, e.dst = i → e.cut = 0) := by
  have key : ∀ h, denSum (attnInto E i) (fun e => x e h) = 0 ↔ ∀ e ∈ E, e.dst = i → e.cut = 0 := by
    intro h
    rw [denSum_eq_zero (E := attnInto E i) fun e he => hc e (List.mem_of_mem_filter he)]
    simp [attnInto]
  simp only [List.any_map, List.any_eq_true, Function.comp, id, decide_eq_true_eq]
  constructor
  · rintro ⟨e, he, h, -, h0⟩
    simp only [attnInto, List.mem_filter, decide_eq_true_eq] at he
    obtain ⟨he, rfl⟩ := he
    exact ⟨⟨e, he, rfl⟩, (key h).1 ((hδ e he hi h).1 h0)⟩
  · rintro ⟨⟨e, he, rfl⟩, h⟩
    exact ⟨e, by simp [attnInto, he], 0, by omega, (hδ e he hi 0).2 ((key 0).2 h)⟩

open Classical in
/-- What is common to both formats. -/
theorem attentionNaN_of (lo ninf : ℝ) (cfg : AttnCfg) (P : AttnParams) (cg : ℕ → ℕ → ℕ → ℝ) (q kv z : Nodes)
    (A : AttnGraph) (E : List AttnEdge) (b : Option Edges) (c : Option (Lead ℝ)) (ix : IndexArgs) (n : ℕ)
    (hz : attention lo ninf cfg P cg q kv b c ix = .ok z) (hlen : z.rows.length = n)
    (hH : cfg.numHeads ≠ 0) (hc : ∀ e ∈ E, 0 ≤ e.cut) (x δ : AttnEdge → ℕ → ℝ)
    (hδ : attnDens lo ninf cfg P (cfg.qkvFeatures.getD q.F) q kv b c ix = .ok (A.arr δ))
    (hδ' : ∀ e ∈ E, e.dst < n → ∀ h, (δ e h = 0 ↔ denSum (attnInto E e.dst) (fun e => x e h) = 0))
    (hbad : ∀ flag : AttnEdge → Bool,
      (indexedNaN (A.arr flag) (autoIndexArgs ix q.rows.length kv.rows.length)).length = n ∧
      ∀ i < n, (indexedNaN (A.arr flag) (autoIndexArgs ix q.rows.length kv.rows.length))[i]? =
        some (((attnInto E i).map flag).any id)) :
    ∃ out, attentionNaN lo ninf cfg P cg q kv b c ix = .ok out ∧ out.length = n ∧
      ∀ i < n,
        (((∃ e ∈ E, e.dst = i) ∧ ∀ e ∈ E, e.dst = i → e.cut = 0) → out[i]? = some none) ∧
        (¬ ((∃ e ∈ E, e.dst = i) ∧ ∀ e ∈ E, e.dst = i → e.cut = 0) → ∃ v, z.rows[i]? = some v ∧ out[i]? = some (some v)) := by
  obtain ⟨b1, b2⟩ := hbad fun e => decide (∃ h < cfg.numHeads, δ e h = 0)
  refine ⟨List.zipWith (fun v b => if b then none else some v) z.rows
    (indexedNaN (A.arr fun e => decide (∃ h < cfg.numHeads, δ e h = 0))
      (autoIndexArgs ix q.rows.length kv.rows.length)), ?_, ?_, ?_⟩
  · unfold attentionNaN
    rw [hz]
    dsimp only
    rw [hδ]
    dsimp only
    rw [A.map]
  · rw [List.length_zipWith, b1, hlen, min_self]
  · intro i hi
    have hv : z.rows[i]? = some (z.rows[i]'(by omega)) := List.getElem?_eq_getElem _
    have hn := nan_rows cfg E hH hc _ i hi x δ hδ'
    rw [List.getElem?_zipWith, b2 i hi, hv]
    dsimp only
    constructor
    · intro h
      rw [if_pos (hn.2 h)]
    · intro h
      rw [if_neg (fun h' => h (hn.1 h'))]
      exact ⟨_, rfl, rfl⟩

/-- **C58 (sparse format).** With non-negative cutoff values, and if the layer does not raise an exception, the output of
node `i` is NaN iff there is an edge that ends in `i` and all such edges have cutoff value zero; otherwise it is the output
described by `IsAttention`. -/
theorem C58_sparse (lo ninf : ℝ) (cfg : AttnCfg) (P : AttnParams) (cg : ℕ → ℕ → ℕ → ℝ) (q kv : Nodes) (bp : Bool)
    (bL bF : ℕ) (E : List AttnEdge) (b : Option Edges) (hb : BasisOf cfg b ⟨bp, bL, bF, .vec (E.map AttnEdge.basis)⟩)
    (c : Option (Lead ℝ)) (hc : CutoffOf c (.vec (E.map AttnEdge.cut)) E) (hc0 : ∀ e ∈ E, 0 ≤ e.cut)
    (hq : 0 < q.rows.length) (hk : 0 < kv.rows.length) (num : Option ℕ) (hN : 0 < num.getD q.rows.length)
    (hE : ∀ e ∈ E, e.dst < num.getD q.rows.length → e.dst < q.rows.length ∧ e.src < kv.rows.length)
    (h1 : cfg.numHeads ≠ 0) (h2 : cfg.qkvFeatures.getD q.F % cfg.numHeads = 0)
    (h3 : cfg.relV = true → cfg.conv.tens.maxDegree.getD (max bL kv.L) ≤ bL + kv.L) :
    ∃ z out, attentionNaN lo ninf cfg P cg q kv b c
        { dst := some (E.map AttnEdge.dst), src := some (E.map AttnEdge.src), num := num } = .ok out ∧
      IsAttention cfg P cg q kv bp bL bF E (num.getD q.rows.length) z ∧ out.length = num.getD q.rows.length ∧
      ∀ i < num.getD q.rows.length,
        (((∃ e ∈ E, e.dst = i) ∧ ∀ e ∈ E, e.dst = i → e.cut = 0) → out[i]? = some none) ∧
        (¬ ((∃ e ∈ E, e.dst = i) ∧ ∀ e ∈ E, e.dst = i → e.cut = 0) → ∃ v, z.rows[i]? = some v ∧ out[i]? = some (some v)) := by
  obtain ⟨z, hz, hz'⟩ := (C19_sparse lo ninf cfg P cg q kv bp bL bF E b hb c hc hq hk num hN hE _ rfl).2.2 h1 h2 h3
  obtain ⟨x, δ, hδ, hδ'⟩ := attnDens_sparse lo ninf cfg P (cfg.qkvFeatures.getD q.F) q kv bp bL bF E b hb c hc hq hk num hN
  obtain ⟨out, h4, h5, h6⟩ := attentionNaN_of lo ninf cfg P cg q kv z (.sparse E) E b c _ _ hz hz'.2.2.2.1 h1 hc0 x δ hδ hδ' (by
    intro flag
    refine ⟨segmentReduce_length _ _ _ _ _, fun i hi => ?_⟩
    dsimp only [indexedNaN, autoIndexArgs, AttnGraph.arr]
    rw [segmentReduce_get _ _ _ _ _ _ hi, foldl_or_any, List.zip_map', List.filter_map, List.map_map]
    rfl)
  exact ⟨z, out, h4, hz', h5, h6⟩

-- Non-vacuity: two query nodes, three keys; both edges into node 0 are beyond the cutoff, so its output is NaN; the output
-- of node 1, which has one edge at the cutoff and one inside, is not.
example (lo ninf : ℝ) (P : AttnParams) (cg : ℕ → ℕ → ℕ → ℝ) (conv : ConvCfg) (a b c v w : Ent) (h : conv.tens.maxDegree = none) :
    ∃ out, attentionNaN lo ninf ⟨conv, 2, some 4, none, true, true, true, true, true, true⟩ P cg ⟨true, 1, 3, [a, b]⟩
      ⟨false, 2, 5, [a, b, c]⟩ (some ⟨false, 1, 7, .vec [v, w, v, w]⟩) (some (.vec [0, 1 / 2, 0, 0]))
      { dst := some [0, 1, 0, 1], src := some [2, 0, 1, 2] } = .ok out ∧ out.length = 2 ∧ out[0]? = some none ∧
      ∃ v, out[1]? = some (some v) := by
  obtain ⟨z, out, h1, h2, h3, h4⟩ := C58_sparse lo ninf ⟨conv, 2, some 4, none, true, true, true, true, true, true⟩ P cg
    ⟨true, 1, 3, [a, b]⟩ ⟨false, 2, 5, [a, b, c]⟩ false 1 7
    [⟨0, 2, v, 0⟩, ⟨1, 0, w, 1 / 2⟩, ⟨0, 1, v, 0⟩, ⟨1, 2, w, 0⟩] _ (Or.inl rfl) _ (Or.inl rfl) (by simp) (by simp) (by simp)
    none (by simp) (by simp) (by simp) (by simp) (by simp [h])
  obtain ⟨v, -, h5⟩ := (h4 1 (by simp)).2 (by simp)
  exact ⟨out, h1, h3, (h4 0 (by simp)).1 (by simp), v, h5⟩

theorem softmaxLeadDen_mat (lo ninf : ℝ) (G : List (List AttnEdge)) (m : ℕ) (x : AttnEdge → ℝ) (c : Option (Lead ℝ))
    (hc : CutoffOf c (.mat (G.map fun r => r.map AttnEdge.cut)) G.flatten)
    (ix : IndexArgs) (hd : ix.dst = none) (ha : ix.adj = some (G.map fun r => r.map AttnEdge.src))
    (hmask : ix.mask = some (G.map fun r => r.map fun e => decide (e.src < m))) :
    ∃ M : List AttnEdge → ℝ, softmaxLeadDen lo ninf (.mat (G.map fun r => r.map x)) c ix = .ok (.mat (G.map fun r =>
      r.map fun _ => Real.exp (-(M r)) * denSum (r.filter fun e => e.src < m) x)) := by
  have row : ∀ (r : List AttnEdge) (mult : Option (List ℝ)),
      (mult = some (r.map AttnEdge.cut) ∨ (mult = none ∧ ∀ e ∈ r, e.cut = 1)) →
      softmaxDenseRowDen lo (r.map x) mult (r.map fun e => decide (e.src < m)) =
        r.map fun _ => Real.exp (-(maskedFold max lo (r.map x) (r.map fun e => decide (e.src < m)))) *
          denSum (r.filter fun e => e.src < m) x := by
    intro r mult hm
    unfold softmaxDenseRowDen
    dsimp only
    generalize maskedFold max lo (r.map x) (r.map fun e => decide (e.src < m)) = M
    have happ : applyMult mult ((r.map x).map fun x => Real.exp (x - M)) = r.map fun e => Real.exp (x e - M) * e.cut := by
      rw [List.map_map]
      rcases hm with rfl | ⟨rfl, h⟩
      · unfold applyMult
        dsimp only
        rw [List.zipWith_map, List.zipWith_self]
        rfl
      · unfold applyMult
        dsimp only
        apply List.map_congr_left
        intro e he
        rw [h e he, mul_one]
        rfl
    rw [happ, List.map_map, ← denSum_shift]
    apply List.map_congr_left
    intro e _
    unfold maskedFold
    rw [List.zip_map', List.filter_map, List.foldl_map, List.sum_eq_foldl, List.foldl_map]
    rfl
  refine ⟨fun r => maskedFold max lo (r.map x) (r.map fun e => decide (e.src < m)), ?_⟩
  unfold softmaxLeadDen
  rw [ha, hd]
  have hl : (G.map fun r => r.map AttnEdge.src).map List.length = (G.map fun r => r.map x).map List.length := by simp
  have hl' : (G.map fun r => r.map AttnEdge.cut).map List.length = (G.map fun r => r.map x).map List.length := by simp
  rcases hc with rfl | ⟨rfl, h⟩
  · simp only [determineIndexType, Option.map_none, Option.map_some, Option.isSome_none, Option.isSome_some, hmask,
      Bool.or_false, Bool.false_or, Bool.not_true, Bool.false_and, Bool.and_false, if_false, Bool.or_true, Bool.true_or,
      if_true, Bool.false_eq_true, ne_eq, hl, hl', not_true_eq_false]
    congr 2
    unfold softmaxDenseDen
    dsimp only
    rw [List.zip_map', List.zipWith_map, List.zipWith_self]
    apply List.map_congr_left
    intro r _
    exact row r _ (Or.inl rfl)
  · simp only [determineIndexType, Option.map_none, Option.map_some, Option.isSome_none, Option.isSome_some, hmask,
      Bool.or_false, Bool.false_or, Bool.not_true, Bool.false_and, Bool.and_false, if_false, Bool.or_true, Bool.true_or,
      if_true, Bool.false_eq_true, ne_eq, hl, not_true_eq_false]
    congr 2
    unfold softmaxDenseDen
    dsimp only
    rw [List.zipWith_map, List.zipWith_self]
    apply List.map_congr_left
    intro r hr
    exact row r _ (Or.inr ⟨rfl, fun e he => h e (List.mem_flatten.2 ⟨r, hr, he⟩)⟩)

theorem attnDens_dense (lo ninf : ℝ) (cfg : AttnCfg) (P : AttnParams) (F : ℕ) (q kv : Nodes) (bp : Bool) (bL bF : ℕ)
    (G : List (List AttnEdge)) (b : Option Edges)
    (hb : BasisOf cfg b ⟨bp, bL, bF, .mat (G.map fun r => r.map AttnEdge.basis)⟩)
    (c : Option (Lead ℝ)) (hc : CutoffOf c (.mat (G.map fun r => r.map AttnEdge.cut)) G.flatten)
    (hq : G.length = q.rows.length) (hk : 0 < kv.rows.length) (num : Option ℕ)
    (hG : ∀ i (h : i < G.length), ∀ e ∈ G[i], e.dst = i) :
    ∃ x δ : AttnEdge → ℕ → ℝ, attnDens lo ninf cfg P F q kv b c
        { adj := some (G.map fun r => r.map AttnEdge.src), num := num } = .ok (.mat (G.map fun r => r.map δ)) ∧
      ∀ e ∈ keptEdges kv.rows.length G, ∀ h,
        (δ e h = 0 ↔ denSum (attnInto (keptEdges kv.rows.length G) e.dst) (fun e => x e h) = 0) := by
  set m := kv.rows.length with hm
  set x : AttnEdge → ℕ → ℝ := fun e => attnLogit cfg P F q kv bF { e with src := min e.src (m - 1) } with hx
  have hM := fun h => softmaxLeadDen_mat lo ninf G m (fun e => x e h) c hc
        (autoIndexArgs { adj := some (G.map fun r => r.map AttnEdge.src), num := num } q.rows.length kv.rows.length)
        rfl rfl (by simp [autoIndexArgs, Function.comp, hm])
  choose M hM using hM
  refine ⟨x, fun e h => Real.exp (-(M h (G.getD e.dst []))) *
    denSum ((G.getD e.dst []).filter fun e => e.src < m) (fun e => x e h), ?_, ?_⟩
  · unfold attnDens
    have hdots := attnDots_dense cfg P F q kv bp bL bF G b hb hq hk num hG
    change _ = Except.ok (Lead.mat (G.map fun r => r.map x)) at hdots
    rw [hdots]
    dsimp only
    have hl : ∀ h, softmaxLeadDen lo ninf ((Lead.mat (G.map fun r => r.map x)).map (· h)) c
        (autoIndexArgs { adj := some (G.map fun r => r.map AttnEdge.src), num := num } q.rows.length kv.rows.length) =
        .ok (.mat (G.map fun r => r.map fun _ => Real.exp (-(M h r)) *
          denSum (r.filter fun e => e.src < m) (fun e => x e h))) := by
      intro h
      rw [← hM h]
      unfold Lead.map
      dsimp only
      rw [List.map_map]
      congr 2
      apply List.map_congr_left
      intro r _
      simp only [Function.comp]
      rw [List.map_map]; rfl
    unfold vmapHeads
    simp only [hl]
    congr 1
    unfold Lead.mapPos
    dsimp only
    congr 1
    apply List.ext_getElem
    · simp
    · intro k h1 h2
      have hk : k < G.length := by simpa using h2
      rw [List.getElem_mapIdx]
      conv_rhs => rw [List.getElem_map]
      apply List.ext_getElem
      · simp
      · intro k' h1' h2'
        have hk' : k' < G[k].length := by simpa using h2'
        rw [List.getElem_mapIdx]
        conv_rhs => rw [List.getElem_map]
        funext h
        have hd := hG k hk _ (List.getElem_mem hk')
        simp only [Lead.at?, List.getElem?_map, List.getElem?_eq_getElem hk, List.getElem?_eq_getElem hk', Option.map_some,
          Option.bind_some, Option.getD_some, List.getD_eq_getElem?_getD, hd]
  · intro e he h
    beta_reduce
    obtain ⟨hi, hs⟩ := mem_kept hG he
    rw [attnInto_kept hG _ hi, List.getD_eq_getElem?_getD, List.getElem?_eq_getElem hi, Option.getD_some, mul_eq_zero,
      or_iff_right (Real.exp_ne_zero _)]

/-- **C58 (dense format).** The same for a dense list, whose edges are the slots whose source is a node. -/
theorem C58_dense (lo ninf : ℝ) (cfg : AttnCfg) (P : AttnParams) (cg : ℕ → ℕ → ℕ → ℝ) (q kv : Nodes) (bp : Bool)
    (bL bF : ℕ) (G : List (List AttnEdge)) (b : Option Edges)
    (hb : BasisOf cfg b ⟨bp, bL, bF, .mat (G.map fun r => r.map AttnEdge.basis)⟩)
    (c : Option (Lead ℝ)) (hc : CutoffOf c (.mat (G.map fun r => r.map AttnEdge.cut)) G.flatten)
    (hc0 : ∀ e ∈ G.flatten, 0 ≤ e.cut)
    (hq : G.length = q.rows.length) (hk : 0 < kv.rows.length) (num : Option ℕ)
    (hG : ∀ i (h : i < G.length), ∀ e ∈ G[i], e.dst = i)
    (h1 : cfg.numHeads ≠ 0) (h2 : cfg.qkvFeatures.getD q.F % cfg.numHeads = 0)
    (h3 : cfg.relV = true → cfg.conv.tens.maxDegree.getD (max bL kv.L) ≤ bL + kv.L) :
    ∃ z out, attentionNaN lo ninf cfg P cg q kv b c
        { adj := some (G.map fun r => r.map AttnEdge.src), num := num } = .ok out ∧
      IsAttention cfg P cg q kv bp bL bF (keptEdges kv.rows.length G) q.rows.length z ∧ out.length = q.rows.length ∧
      ∀ i (h : i < G.length),
        (((∃ e ∈ G[i], e.src < kv.rows.length) ∧ ∀ e ∈ G[i], e.src < kv.rows.length → e.cut = 0) → out[i]? = some none) ∧
        (¬ ((∃ e ∈ G[i], e.src < kv.rows.length) ∧ ∀ e ∈ G[i], e.src < kv.rows.length → e.cut = 0) →
          ∃ v, z.rows[i]? = some v ∧ out[i]? = some (some v)) := by
  obtain ⟨z, hz, hz'⟩ := (C19_dense lo ninf cfg P cg q kv bp bL bF G b hb c hc hq hk num hG _ rfl).2.2 h1 h2 h3
  obtain ⟨x, δ, hδ, hδ'⟩ := attnDens_dense lo ninf cfg P (cfg.qkvFeatures.getD q.F) q kv bp bL bF G b hb c hc hq hk num hG
  obtain ⟨out, h4, h5, h6⟩ := attentionNaN_of lo ninf cfg P cg q kv z (.dense G) (keptEdges kv.rows.length G) b c _ _ hz
    hz'.2.2.2.1 h1 (fun e he => hc0 e (List.mem_of_mem_filter he)) x δ hδ (fun e he _ => hδ' e he) (by
    intro flag
    have hm : (autoIndexArgs { adj := some (G.map fun r => r.map AttnEdge.src), num := num } q.rows.length
        kv.rows.length).mask = some (G.map fun r => r.map fun e => decide (e.src < kv.rows.length)) := by
      simp [autoIndexArgs, Function.comp]
    unfold indexedNaN AttnGraph.arr
    rw [hm]
    dsimp only [autoIndexArgs]
    unfold denseReduce
    rw [List.zipWith_map, List.zipWith_self]
    refine ⟨by rw [List.length_map, hq], fun i hi => ?_⟩
    have hi' : i < G.length := by omega
    rw [attnInto_kept hG i hi', List.getElem?_map, List.getElem?_eq_getElem hi', Option.map_some]
    congr 1
    unfold maskedFold
    rw [List.zip_map', List.filter_map, List.foldl_map, ← List.foldl_map (g := (· || ·)) (f := flag), foldl_or_any]
    rfl)
  refine ⟨z, out, h4, hz', h5, fun i hi => ?_⟩
  have hmem : ∀ e, (e ∈ keptEdges kv.rows.length G ∧ e.dst = i) ↔ (e ∈ G[i] ∧ e.src < kv.rows.length) := by
    intro e
    have := attnInto_kept (m := kv.rows.length) hG i hi
    have h := congrArg (e ∈ ·) this
    simpa [attnInto] using h
  have e1 : ((∃ e ∈ keptEdges kv.rows.length G, e.dst = i) ∧ ∀ e ∈ keptEdges kv.rows.length G, e.dst = i → e.cut = 0) ↔
      ((∃ e ∈ G[i], e.src < kv.rows.length) ∧ ∀ e ∈ G[i], e.src < kv.rows.length → e.cut = 0) := by
    refine and_congr (exists_congr hmem) (forall_congr' fun e => ?_)
    rw [← and_imp, ← and_imp, hmem]
  have := h6 i (by omega)
  rw [e1] at this
  exact this

end E3x
