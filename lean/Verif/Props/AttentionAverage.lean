import Verif.Props.Attention
import Verif.Props.Superposition

/-!
# C97: attention averages
-/

namespace E3x

open Spec
open Finset (range)

/-! ## Weights -/

/-- The weights of a single edge: one. -/
theorem attnWeight_single (cfg : AttnCfg) (P : AttnParams) (F : ℕ) (q kv : Nodes) (bF : ℕ) (E : List AttnEdge)
    (e : AttnEdge) (he : attnInto E e.dst = [e]) (hc : e.cut ≠ 0) : attnWeight cfg P F q kv bF E e = fun _ => 1 := by
  funext h
  unfold attnWeight softmaxValue
  rw [he]
  simp only [List.map_cons, List.map_nil, List.sum_cons, List.sum_nil, add_zero]
  exact div_self (mul_ne_zero (Real.exp_pos _).ne' hc)

/-- Cutoff values of the edges of a node multiplied by a common factor. -/
def scaleCut (s : ℕ → ℝ) (e : AttnEdge) : AttnEdge := { e with cut := s e.dst * e.cut }

theorem attnInto_scaleCut (s : ℕ → ℝ) (E : List AttnEdge) (i : ℕ) :
    attnInto (E.map (scaleCut s)) i = (attnInto E i).map (scaleCut s) := by
  unfold attnInto
  rw [List.filter_map]
  rfl

theorem attnWeight_scaleCut (cfg : AttnCfg) (P : AttnParams) (F : ℕ) (q kv : Nodes) (bF : ℕ) (s : ℕ → ℝ)
    (hs : ∀ i, s i ≠ 0) (E : List AttnEdge) (e : AttnEdge) :
    attnWeight cfg P F q kv bF (E.map (scaleCut s)) (scaleCut s e) = attnWeight cfg P F q kv bF E e := by
  funext h
  unfold attnWeight softmaxValue
  rw [show (scaleCut s e).dst = e.dst from rfl, attnInto_scaleCut]
  simp only [List.map_map, Function.comp_def]
  have h1 : ((attnInto E e.dst).map fun x => Real.exp (attnLogit cfg P F q kv bF (scaleCut s x) h) * (scaleCut s x).cut) =
      (attnInto E e.dst).map fun x => s e.dst * (Real.exp (attnLogit cfg P F q kv bF x h) * x.cut) := by
    apply List.map_congr_left
    intro x hx
    simp only [attnInto, List.mem_filter, decide_eq_true_eq] at hx
    change Real.exp (attnLogit cfg P F q kv bF x h) * (s x.dst * x.cut) = _
    rw [hx.2]; ring
  rw [h1, List.sum_map_mul_left]
  change Real.exp (attnLogit cfg P F q kv bF e h) * (s e.dst * e.cut) / _ = _
  rw [mul_left_comm, mul_div_mul_left _ _ (hs _)]

/-- `k` copies of all edges. -/
def copies (k : ℕ) (E : List AttnEdge) : List AttnEdge := (List.replicate k E).flatten

theorem mem_copies {k : ℕ} {E : List AttnEdge} {e : AttnEdge} (h : e ∈ copies k E) : e ∈ E := by
  unfold copies at h
  obtain ⟨l, hl, he⟩ := List.mem_flatten.1 h
  rw [List.eq_of_mem_replicate hl] at he
  exact he

theorem attnInto_copies (k : ℕ) (E : List AttnEdge) (i : ℕ) : attnInto (copies k E) i = copies k (attnInto E i) := by
  unfold attnInto copies
  rw [List.filter_flatten, List.map_replicate]

theorem sum_copies {M : Type} [AddCommMonoid M] (k : ℕ) (E : List AttnEdge) (g : AttnEdge → M) :
    ((copies k E).map g).sum = k • (E.map g).sum := by
  unfold copies
  induction k with
  | zero => simp
  | succ k ih =>
    rw [List.replicate_succ, List.flatten_cons, List.map_append, List.sum_append, ih, succ_nsmul, add_comm]

theorem attnWeight_copies (cfg : AttnCfg) (P : AttnParams) (F : ℕ) (q kv : Nodes) (bF : ℕ) (k : ℕ)
    (E : List AttnEdge) (e : AttnEdge) :
    attnWeight cfg P F q kv bF (copies k E) e = fun h => (k : ℝ)⁻¹ * attnWeight cfg P F q kv bF E e h := by
  funext h
  unfold attnWeight softmaxValue
  rw [attnInto_copies, List.map_map, List.map_map, sum_copies, nsmul_eq_mul, div_eq_mul_inv, mul_inv, div_eq_mul_inv]
  ring

/-! ## Layers -/

/-- **C97 (a single neighbour).** If exactly one edge ends in a node and its cutoff value is not zero, the result in this
node is the output layer applied to the message of that edge: it does not depend on the features of the queries, on the
parameters for queries, keys and relative positional encodings, nor on the cutoff value. -/
theorem C97_single (lo ninf : ℝ) (cfg : AttnCfg) (P P' : AttnParams) (hv : P'.value = P.value) (ho : P'.out = P.out)
    (hcv : P'.conv = P.conv) (cg : ℕ → ℕ → ℕ → ℝ) (q q' kv : Nodes) (hqF : q'.F = q.F)
    (hqn : q'.rows.length = q.rows.length) (bp : Bool) (bL bF : ℕ) (E E' : List AttnEdge) (b b' : Option Edges)
    (hb : BasisOf cfg b ⟨bp, bL, bF, .vec (E.map AttnEdge.basis)⟩)
    (hb' : BasisOf cfg b' ⟨bp, bL, bF, .vec (E'.map AttnEdge.basis)⟩)
    (c c' : Option (Lead ℝ)) (hc : CutoffOf c (.vec (E.map AttnEdge.cut)) E)
    (hc' : CutoffOf c' (.vec (E'.map AttnEdge.cut)) E')
    (hq : 0 < q.rows.length) (hk : 0 < kv.rows.length) (num : Option ℕ) (hN : 0 < num.getD q.rows.length)
    (hE : ∀ e ∈ E, e.dst < num.getD q.rows.length → e.dst < q.rows.length ∧ e.src < kv.rows.length)
    (hE' : ∀ e ∈ E', e.dst < num.getD q.rows.length → e.dst < q.rows.length ∧ e.src < kv.rows.length)
    (z z' : Nodes)
    (hz : attention lo ninf cfg P cg q kv b c
      { dst := some (E.map AttnEdge.dst), src := some (E.map AttnEdge.src), num := num } = .ok z)
    (hz' : attention lo ninf cfg P' cg q' kv b' c'
      { dst := some (E'.map AttnEdge.dst), src := some (E'.map AttnEdge.src), num := num } = .ok z')
    (e e' : AttnEdge) (hi : e.dst < num.getD q.rows.length) (he : attnInto E e.dst = [e]) (hec : e.cut ≠ 0)
    (he' : attnInto E' e.dst = [e']) (hec' : e'.cut ≠ 0) (hsrc : e'.src = e.src) (hbas : e'.basis = e.basis) :
    z'.rows[e.dst]? = z.rows[e.dst]? := by
  obtain ⟨a1, a2, a3⟩ := C19_sparse lo ninf cfg P cg q kv bp bL bF E b hb c hc hq hk num hN hE _ rfl
  obtain ⟨b1, b2, b3⟩ := C19_sparse lo ninf cfg P' cg q' kv bp bL bF E' b' hb' c' hc' (by omega) hk num
    (by rw [hqn]; exact hN) (by rw [hqn]; exact hE') _ rfl
  by_cases h1 : cfg.numHeads = 0 ∨ cfg.qkvFeatures.getD q.F % cfg.numHeads ≠ 0
  · rw [a1 h1] at hz; cases hz
  by_cases h2 : cfg.relV = true ∧ bL + kv.L < cfg.conv.tens.maxDegree.getD (max bL kv.L)
  · rw [a2 h2.1 h2.2] at hz; cases hz
  push Not at h1 h2
  obtain ⟨y, e1, -, -, -, -, e2⟩ := a3 h1.1 h1.2 h2
  obtain ⟨y', f1, -, -, -, -, f2⟩ := b3 h1.1 (by rw [hqF]; exact h1.2) h2
  rw [hz] at e1; injection e1 with e1; subst e1
  rw [hz'] at f1; injection f1 with f1; subst f1
  have hd : e'.dst = e.dst := by
    have : e' ∈ attnInto E' e.dst := by rw [he']; simp
    simpa [attnInto] using (List.mem_filter.1 this).2
  rw [e2 e.dst hi, f2 e.dst (by rw [hqn]; exact hi), he, he', hqF]
  simp only [List.map_cons, List.map_nil, List.sum_cons, List.sum_nil, add_zero]
  rw [attnWeight_single _ _ _ _ _ _ _ _ he hec, attnWeight_single _ _ _ _ _ _ _ e' (by rw [hd]; exact he') hec', ho]
  congr 3
  unfold attnMessage
  rw [hv, hcv, hsrc, hbas]

/-- **C97 (equal values).** Without positional encoding of the values: if all neighbours of a node have the same features
`v`, the result in this node is the output layer applied to the value layer applied to `v`. -/
theorem C97_equal_values (lo ninf : ℝ) (cfg : AttnCfg) (hrel : cfg.relV = false) (P : AttnParams) (cg : ℕ → ℕ → ℕ → ℝ)
    (q kv : Nodes) (bp : Bool) (bL bF : ℕ) (E : List AttnEdge) (b : Option Edges)
    (hb : BasisOf cfg b ⟨bp, bL, bF, .vec (E.map AttnEdge.basis)⟩)
    (c : Option (Lead ℝ)) (hc : CutoffOf c (.vec (E.map AttnEdge.cut)) E)
    (hq : 0 < q.rows.length) (hk : 0 < kv.rows.length) (num : Option ℕ) (hN : 0 < num.getD q.rows.length)
    (hE : ∀ e ∈ E, e.dst < num.getD q.rows.length → e.dst < q.rows.length ∧ e.src < kv.rows.length)
    (z : Nodes) (hz : attention lo ninf cfg P cg q kv b c
      { dst := some (E.map AttnEdge.dst), src := some (E.map AttnEdge.src), num := num } = .ok z)
    (i : ℕ) (hi : i < num.getD q.rows.length) (hin : ∃ e ∈ E, e.dst = i) (hpos : ∀ e ∈ E, 0 < e.cut) (v : Ent)
    (hval : ∀ e ∈ E, e.dst = i → kv.rows[e.src]? = some v) :
    z.pseudo = kv.pseudo ∧ z.L = kv.L ∧ z.rows[i]? = some (dense (cfg.outFeatures.getD q.F) cfg.oBias P.out
      (dense (cfg.qkvFeatures.getD q.F) cfg.vBias P.value (kv.feat v))).val := by
  obtain ⟨a1, a2, a3⟩ := C19_sparse lo ninf cfg P cg q kv bp bL bF E b hb c hc hq hk num hN hE _ rfl
  by_cases h1 : cfg.numHeads = 0 ∨ cfg.qkvFeatures.getD q.F % cfg.numHeads ≠ 0
  · rw [a1 h1] at hz; cases hz
  push Not at h1
  obtain ⟨y, e1, e3, e4, -, -, e2⟩ := a3 h1.1 h1.2 (by simp [hrel])
  rw [hz] at e1; injection e1 with e1; subst e1
  have op : attnOutPseudo cfg kv bp bL = kv.pseudo := by simp [attnOutPseudo, hrel]
  have oL : attnOutL cfg kv bL = kv.L := by simp [attnOutL, hrel]
  refine ⟨e3.trans op, e4.trans oL, ?_⟩
  rw [e2 i hi, op, oL]
  obtain ⟨d1, d2, d3, -⟩ := C12_dense (cfg.qkvFeatures.getD q.F) cfg.vBias P.value (kv.feat v)
  have key : ((attnInto E i).map fun e => attnMessage cfg P cg (cfg.qkvFeatures.getD q.F) kv bp bL bF
      (attnWeight cfg P (cfg.qkvFeatures.getD q.F) q kv bF E e) e).sum =
      (dense (cfg.qkvFeatures.getD q.F) cfg.vBias P.value (kv.feat v)).val := by
    funext p n f
    have hsum := (C19_normalised cfg P (cfg.qkvFeatures.getD q.F) q kv bF E hpos i hin
      (f / (cfg.qkvFeatures.getD q.F / cfg.numHeads))).1
    have h2 : ((attnInto E i).map fun e => attnMessage cfg P cg (cfg.qkvFeatures.getD q.F) kv bp bL bF
        (attnWeight cfg P (cfg.qkvFeatures.getD q.F) q kv bF E e) e).sum p n f =
        ((attnInto E i).map fun e => attnWeight cfg P (cfg.qkvFeatures.getD q.F) q kv bF E e
          (f / (cfg.qkvFeatures.getD q.F / cfg.numHeads))).sum *
          (dense (cfg.qkvFeatures.getD q.F) cfg.vBias P.value (kv.feat v)).val p n f := by
      rw [← List.sum_map_mul_right]
      have : ∀ l : List AttnEdge, (∀ e ∈ l, e ∈ attnInto E i) →
          (l.map fun e => attnMessage cfg P cg (cfg.qkvFeatures.getD q.F) kv bp bL bF
            (attnWeight cfg P (cfg.qkvFeatures.getD q.F) q kv bF E e) e).sum p n f =
          (l.map fun e => attnWeight cfg P (cfg.qkvFeatures.getD q.F) q kv bF E e
            (f / (cfg.qkvFeatures.getD q.F / cfg.numHeads)) *
            (dense (cfg.qkvFeatures.getD q.F) cfg.vBias P.value (kv.feat v)).val p n f).sum := by
        intro l hl
        induction l with
        | nil => rfl
        | cons e l ih =>
          simp only [List.map_cons, List.sum_cons, Pi.add_apply]
          rw [ih fun e he => hl e (by simp [he])]
          congr 1
          have he := hl e (by simp)
          simp only [attnInto, List.mem_filter, decide_eq_true_eq] at he
          unfold attnMessage
          simp only [hrel, Bool.false_eq_true, if_false, List.getD_eq_getElem?_getD, hval e he.1 he.2,
            Option.getD_some]
      exact this _ fun e he => he
    rw [h2, hsum, one_mul]
  rw [key]
  congr 2
  have eta : ∀ D : Feat, D.pseudo = kv.pseudo → D.L = kv.L → D.F = cfg.qkvFeatures.getD q.F →
      (⟨kv.pseudo, kv.L, cfg.qkvFeatures.getD q.F, D.val⟩ : Feat) = D := by
    intro D h1 h2 h3
    rw [← h1, ← h2, ← h3]
  rw [eta _ d1 d2 d3]

/-- **C97 (cutoffs).** Only the ratios of the cutoff values of the edges into a node matter: multiplying all of them by a
number other than zero, which may depend on the node, changes nothing. -/
theorem C97_cutoff (lo ninf : ℝ) (cfg : AttnCfg) (P : AttnParams) (cg : ℕ → ℕ → ℕ → ℝ)
    (q kv : Nodes) (bp : Bool) (bL bF : ℕ) (E : List AttnEdge) (b : Option Edges)
    (hb : BasisOf cfg b ⟨bp, bL, bF, .vec (E.map AttnEdge.basis)⟩) (s : ℕ → ℝ) (hs : ∀ i, s i ≠ 0)
    (hq : 0 < q.rows.length) (hk : 0 < kv.rows.length) (num : Option ℕ) (hN : 0 < num.getD q.rows.length)
    (hE : ∀ e ∈ E, e.dst < num.getD q.rows.length → e.dst < q.rows.length ∧ e.src < kv.rows.length) :
    attention lo ninf cfg P cg q kv b (some (.vec (E.map fun e => s e.dst * e.cut)))
      { dst := some (E.map AttnEdge.dst), src := some (E.map AttnEdge.src), num := num } =
    attention lo ninf cfg P cg q kv b (some (.vec (E.map AttnEdge.cut)))
      { dst := some (E.map AttnEdge.dst), src := some (E.map AttnEdge.src), num := num } := by
  obtain ⟨a1, a2, a3⟩ := C19_sparse lo ninf cfg P cg q kv bp bL bF E b hb (some (.vec (E.map AttnEdge.cut)))
    (Or.inl rfl) hq hk num hN hE _ rfl
  have hix : ({ dst := some (E.map AttnEdge.dst), src := some (E.map AttnEdge.src), num := num } : IndexArgs) =
      { dst := some ((E.map (scaleCut s)).map AttnEdge.dst), src := some ((E.map (scaleCut s)).map AttnEdge.src),
        num := num } := by
    simp only [List.map_map, Function.comp_def, scaleCut]
  obtain ⟨b1, b2, b3⟩ := C19_sparse lo ninf cfg P cg q kv bp bL bF (E.map (scaleCut s)) b
    (by simpa only [List.map_map, Function.comp_def, scaleCut] using hb) (some (.vec (E.map fun e => s e.dst * e.cut)))
    (Or.inl (by simp only [List.map_map, Function.comp_def, scaleCut])) hq hk num hN
    (by
      intro e he
      obtain ⟨e', he', rfl⟩ := List.mem_map.1 he
      exact hE e' he') _ hix
  by_cases h1 : cfg.numHeads = 0 ∨ cfg.qkvFeatures.getD q.F % cfg.numHeads ≠ 0
  · rw [a1 h1, b1 h1]
  by_cases h2 : cfg.relV = true ∧ bL + kv.L < cfg.conv.tens.maxDegree.getD (max bL kv.L)
  · rw [a2 h2.1 h2.2, b2 h2.1 h2.2]
  push Not at h1 h2
  obtain ⟨z, e1, e2⟩ := a3 h1.1 h1.2 h2
  obtain ⟨z', f1, g1, g2, g3, g4, g5⟩ := b3 h1.1 h1.2 h2
  rw [e1, f1]
  congr 1
  refine isAttention_unique ⟨g1, g2, g3, g4, ?_⟩ e2
  intro i hi
  rw [g5 i hi, attnInto_scaleCut, List.map_map]
  simp only [Function.comp_def, attnWeight_scaleCut _ _ _ _ _ _ s hs]
  rfl

/-- Messages are homogeneous in the weights. -/
theorem attnMessage_scale (cfg : AttnCfg) (P : AttnParams) (cg : ℕ → ℕ → ℕ → ℝ) (F : ℕ) (kv : Nodes)
    (bp : Bool) (bL bF : ℕ) (hok : cfg.relV = true → cfg.conv.tens.maxDegree.getD (max bL kv.L) ≤ bL + kv.L)
    (c : ℝ) (w : ℕ → ℝ) (e : AttnEdge) (p n f : ℕ) (hp : p < chan (attnOutPseudo cfg kv bp bL))
    (hn : n < (attnOutL cfg kv bL + 1) ^ 2) (hf : f < F) :
    attnMessage cfg P cg F kv bp bL bF (fun h => c * w h) e p n f = c * attnMessage cfg P cg F kv bp bL bF w e p n f := by
  unfold attnMessage
  dsimp only
  cases hr : cfg.relV with
  | false =>
    simp only [Bool.false_eq_true, if_false]
    ring
  | true =>
    rw [if_pos rfl, if_pos rfl]
    obtain ⟨d1, d2, d3, -⟩ := C12_dense F cfg.conv.useBasisBias P.conv.filter ⟨bp, bL, bF, e.basis⟩
    set V : Ent := (dense F cfg.vBias P.value (kv.feat (kv.rows.getD e.src 0))).val with hV
    obtain ⟨v, v1, v2, t0, t1, t2, ⟨r1, r2, r3⟩, -, t3, t4, t5, t6⟩ := anyTensor_lin cfg.conv.tens P.conv.tens cg
      (dense F cfg.conv.useBasisBias P.conv.filter ⟨bp, bL, bF, e.basis⟩)
      (dense F cfg.conv.useBasisBias P.conv.filter ⟨bp, bL, bF, e.basis⟩)
      (dense F cfg.conv.useBasisBias P.conv.filter ⟨bp, bL, bF, e.basis⟩)
      ⟨kv.pseudo, kv.L, F, fun p i f => c * w (f / (F / cfg.numHeads)) * V p i f⟩
      ⟨kv.pseudo, kv.L, F, fun p i f => w (f / (F / cfg.numHeads)) * V p i f⟩
      ⟨kv.pseudo, kv.L, F, fun p i f => w (f / (F / cfg.numHeads)) * V p i f⟩ c 0 (by rw [d2]; exact hok hr) d3
      ⟨rfl, rfl, rfl⟩ ⟨rfl, rfl, rfl⟩ ⟨rfl, rfl, rfl⟩ ⟨rfl, rfl, rfl⟩
      (Or.inl ⟨rfl, rfl, by
        intro p i f
        have : (fun p i f => c * w (f / (F / cfg.numHeads)) * V p i f) = fun p i f =>
            c * (w (f / (F / cfg.numHeads)) * V p i f) + 0 * (w (f / (F / cfg.numHeads)) * V p i f) := by
          funext p i f; ring
        rw [this]
        exact comp_lin_val c 0 _ _ _ _ _ p i f⟩)
    rw [d1, d2] at t3
    rw [d2] at t4
    have hv : v.pseudo = attnOutPseudo cfg kv bp bL := by
      rw [Bool.eq_iff_iff, t3]
      unfold attnOutPseudo
      rw [hr, if_pos rfl]
      by_cases u1 : bL = 0 <;> by_cases u2 : kv.L = 0 <;>
        by_cases u3 : cfg.conv.tens.maxDegree.getD (max bL kv.L) = 0 <;> cases bp <;> cases kv.pseudo <;>
        simp [u1, u2, u3]
    have hvL : v.L = attnOutL cfg kv bL := by
      rw [t4]
      unfold attnOutL
      rw [hr, if_pos rfl]
    obtain ⟨r, hr'⟩ := exists_comp _ _ F p n f hp hn hf
    have := t6 r n f
    rw [hr' v hv hvL, hr' v1 (r1.trans hv) (r2.trans hvL), zero_mul, add_zero] at this
    rw [t0, t1]
    exact this

theorem attnSum_copies (cfg : AttnCfg) (P : AttnParams) (cg : ℕ → ℕ → ℕ → ℝ) (F : ℕ) (q kv : Nodes)
    (bp : Bool) (bL bF : ℕ) (hok : cfg.relV = true → cfg.conv.tens.maxDegree.getD (max bL kv.L) ≤ bL + kv.L)
    (E : List AttnEdge) (k : ℕ) (hk1 : 1 ≤ k) (i : ℕ) :
    (⟨attnOutPseudo cfg kv bp bL, attnOutL cfg kv bL, F, ((attnInto (copies k E) i).map fun e =>
      attnMessage cfg P cg F kv bp bL bF (attnWeight cfg P F q kv bF (copies k E) e) e).sum⟩ : Feat).Same
      ⟨attnOutPseudo cfg kv bp bL, attnOutL cfg kv bL, F, ((attnInto E i).map fun e =>
        attnMessage cfg P cg F kv bp bL bF (attnWeight cfg P F q kv bF E e) e).sum⟩ := by
  refine ⟨rfl, rfl, rfl, ?_⟩
  intro p n f hp hn hf
  dsimp only at hp hn hf ⊢
  have hk0 : (k : ℝ) ≠ 0 := by exact_mod_cast (by omega : k ≠ 0)
  rw [attnInto_copies, sum_copies]
  have hl := sum_lin (attnInto E i) (fun e => attnMessage cfg P cg F kv bp bL bF
      (attnWeight cfg P F q kv bF (copies k E) e) e) (fun e => attnMessage cfg P cg F kv bp bL bF
      (attnWeight cfg P F q kv bF E e) e) (fun e => attnMessage cfg P cg F kv bp bL bF
      (attnWeight cfg P F q kv bF E e) e) (k : ℝ)⁻¹ 0 p n f (by
      intro e _
      rw [attnWeight_copies, attnMessage_scale cfg P cg F kv bp bL bF hok _ _ e p n f hp hn hf]
      ring)
  rw [Pi.smul_apply, Pi.smul_apply, Pi.smul_apply, hl, nsmul_eq_mul, zero_mul, add_zero, mul_inv_cancel_left₀ hk0]

theorem isAttention_copies {cfg : AttnCfg} {P : AttnParams} {cg : ℕ → ℕ → ℕ → ℝ} {q kv : Nodes}
    {bp : Bool} {bL bF : ℕ} (hok : cfg.relV = true → cfg.conv.tens.maxDegree.getD (max bL kv.L) ≤ bL + kv.L)
    {E : List AttnEdge} {k : ℕ} (hk1 : 1 ≤ k) {n : ℕ} {z z' : Nodes} (hz : IsAttention cfg P cg q kv bp bL bF E n z)
    (hz' : IsAttention cfg P cg q kv bp bL bF (copies k E) n z') : SameNodes z' z := by
  obtain ⟨g1, g2, g3, g4, g5⟩ := hz
  obtain ⟨k1, k2, k3, k4, k5⟩ := hz'
  refine ⟨k1.trans g1.symm, k2.trans g2.symm, k3.trans g3.symm, ?_⟩
  rw [List.forall₂_iff_get]
  refine ⟨k4.trans g4.symm, ?_⟩
  intro i hi hi'
  have r1 := k5 i (by omega)
  have r2 := g5 i (by omega)
  rw [List.getElem?_eq_getElem hi, Option.some_inj] at r1
  rw [List.getElem?_eq_getElem hi', Option.some_inj] at r2
  rw [List.get_eq_getElem, List.get_eq_getElem, r1, r2]
  have hsame := attnSum_copies cfg P cg (cfg.qkvFeatures.getD q.F) q kv bp bL bF hok E k hk1 i
  revert hsame
  generalize ((attnInto (copies k E) i).map fun e => attnMessage cfg P cg (cfg.qkvFeatures.getD q.F) kv bp bL bF
    (attnWeight cfg P (cfg.qkvFeatures.getD q.F) q kv bF (copies k E) e) e).sum = A
  generalize ((attnInto E i).map fun e => attnMessage cfg P cg (cfg.qkvFeatures.getD q.F) kv bp bL bF
    (attnWeight cfg P (cfg.qkvFeatures.getD q.F) q kv bF E e) e).sum = B
  intro hsame
  have hd := dense_same hsame (cfg.outFeatures.getD q.F) cfg.oBias P.out
  obtain ⟨d1, d2, d3, -⟩ := C12_dense (cfg.outFeatures.getD q.F) cfg.oBias P.out
    ⟨attnOutPseudo cfg kv bp bL, attnOutL cfg kv bL, cfg.qkvFeatures.getD q.F, A⟩
  refine ⟨rfl, rfl, rfl, ?_⟩
  intro p n f hp hn hf
  refine hd.2.2.2 p n f ?_ ?_ ?_
  · rw [d1, ← k1]; exact hp
  · rw [d2, ← k2]; exact hn
  · rw [d3, ← k3]; exact hf

/-- **C97 (repeated edges).** Listing every edge `k ≥ 1` times changes nothing. -/
theorem C97_copies (lo ninf : ℝ) (cfg : AttnCfg) (P : AttnParams) (cg : ℕ → ℕ → ℕ → ℝ)
    (q kv : Nodes) (bp : Bool) (bL bF : ℕ) (E : List AttnEdge) (k : ℕ) (hk1 : 1 ≤ k) (b b' : Option Edges)
    (hb : BasisOf cfg b ⟨bp, bL, bF, .vec (E.map AttnEdge.basis)⟩)
    (hb' : BasisOf cfg b' ⟨bp, bL, bF, .vec ((List.replicate k E).flatten.map AttnEdge.basis)⟩)
    (c c' : Option (Lead ℝ)) (hc : CutoffOf c (.vec (E.map AttnEdge.cut)) E)
    (hc' : CutoffOf c' (.vec ((List.replicate k E).flatten.map AttnEdge.cut)) (List.replicate k E).flatten)
    (hq : 0 < q.rows.length) (hk : 0 < kv.rows.length) (num : Option ℕ) (hN : 0 < num.getD q.rows.length)
    (hE : ∀ e ∈ E, e.dst < num.getD q.rows.length → e.dst < q.rows.length ∧ e.src < kv.rows.length) (z : Nodes)
    (hz : attention lo ninf cfg P cg q kv b c
      { dst := some (E.map AttnEdge.dst), src := some (E.map AttnEdge.src), num := num } = .ok z) :
    ∃ z', attention lo ninf cfg P cg q kv b' c'
        { dst := some ((List.replicate k E).flatten.map AttnEdge.dst),
          src := some ((List.replicate k E).flatten.map AttnEdge.src), num := num } = .ok z' ∧ SameNodes z' z := by
  have hcop : (List.replicate k E).flatten = copies k E := rfl
  rw [hcop] at hb' hc'
  rw [hcop]
  obtain ⟨a1, a2, a3⟩ := C19_sparse lo ninf cfg P cg q kv bp bL bF E b hb c hc hq hk num hN hE _ rfl
  obtain ⟨b1, b2, b3⟩ := C19_sparse lo ninf cfg P cg q kv bp bL bF (copies k E) b' hb' c' hc' hq hk num hN
    (fun e he => hE e (mem_copies he)) _ rfl
  by_cases h1 : cfg.numHeads = 0 ∨ cfg.qkvFeatures.getD q.F % cfg.numHeads ≠ 0
  · rw [a1 h1] at hz; cases hz
  by_cases h2 : cfg.relV = true ∧ bL + kv.L < cfg.conv.tens.maxDegree.getD (max bL kv.L)
  · rw [a2 h2.1 h2.2] at hz; cases hz
  push Not at h1 h2
  obtain ⟨y, e1, e2⟩ := a3 h1.1 h1.2 h2
  rw [hz] at e1; injection e1 with e1; subst e1
  obtain ⟨z', f1, f2⟩ := b3 h1.1 h1.2 h2
  exact ⟨z', f1, isAttention_copies h2 hk1 e2 f2⟩

-- Non-vacuity: three nodes; one edge into node zero, two edges into node one, with positive cutoff values.
example (v w : Ent) : ∃ E : List AttnEdge, (∀ e ∈ E, e.dst < 3 → e.dst < 3 ∧ e.src < 3) ∧ (∀ e ∈ E, 0 < e.cut) ∧
    attnInto E 0 = [⟨0, 1, v, 1 / 2⟩] ∧ (attnInto E 1).length = 2 ∧ (copies 2 E).length = 6 :=
  ⟨[⟨0, 1, v, 1 / 2⟩, ⟨1, 0, w, 1⟩, ⟨1, 2, v, 1 / 3⟩], by simp, by simp, by simp [attnInto], by simp [attnInto],
    by simp [copies]⟩

end E3x
