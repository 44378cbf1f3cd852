import Verif.Spec.EnergySmooth
import Verif.Lemmas.Smooth
import Verif.Lemmas.GradientsExact
import Mathlib.Analysis.SpecialFunctions.Sqrt

/-!
# C63: predicted energies are smooth functions of the positions of the atoms
-/

namespace E3x

open Spec
open scoped ContDiff
open Set

section Network

variable {V : Type} [NormedAddCommGroup V] [NormedSpace ℝ V] {k : WithTop ℕ∞} {X0 : V}

theorem reg_family {α β : Type} (f : α → β) (rs : List α) (i : ℕ) :
    (∃ e, reg (rs.map f) i = .error e ∧ reg rs i = .error e) ∨ ∃ x ∈ rs, reg (rs.map f) i = .ok (f x) ∧ reg rs i = .ok x := by
  rw [reg_map]
  cases h : reg rs i with
  | error e => exact Or.inl ⟨e, rfl, rfl⟩
  | ok x => exact Or.inr ⟨x, reg_mem h, rfl, rfl⟩

/-- One layer. -/
theorem smooth_layer {m n : ℕ} (hn : 0 < n) (dst src : Fin m → Fin n) {bv : V → Fin m → Ent}
    (hb : ∀ b, SmoothEnt k X0 fun X => bv X b) {c : V → Fin m → ℝ} (hc : ∀ b, ContDiffAt ℝ k (fun X => c X b) X0)
    (cg : ℕ → ℕ → ℕ → ℝ) (bp : Bool) (bL bF : ℕ) (l : Layer) (hl : SmoothLayer k l) (ha : AttentionDefined dst (c X0) l)
    (rs : List (V → Nodes)) (hr : ∀ x ∈ rs, SmoothNodes k X0 n x) :
    SmoothResult k X0 n fun X => (l.instr (some (.vec ((List.finRange m).map (c X))))
      { dst := some ((List.finRange m).map fun b => (dst b : ℕ)), src := some ((List.finRange m).map fun b => (src b : ℕ)) }).eval cg
        [⟨bp, bL, bF, .vec ((List.finRange m).map (bv X))⟩] (rs.map fun x => x X) := by
  have happ : ∀ (g : Feat → Feat) (_ : SmoothUn k V g) (x : ℕ),
      SmoothResult k X0 n fun X => (do return (← reg (rs.map fun x => x X) x).apply g : Except Err Nodes) := by
    intro g hg x
    simp only [reg_map]
    cases hx : reg rs x with
    | error e => exact Or.inl ⟨e, fun X => rfl⟩
    | ok a => exact Or.inr ⟨fun X => (a X).apply g, fun X => rfl, smooth_apply (hr a (reg_mem hx)) hg⟩
  have hbin : ∀ (g : Feat → Feat → Except Err Feat) (_ : SmoothBin k V g) (x y : ℕ),
      SmoothResult k X0 n fun X => (do nodesBin g (← reg (rs.map fun x => x X) x) (← reg (rs.map fun x => x X) y) :
        Except Err Nodes) := by
    intro g hg x y
    simp only [reg_map]
    cases hx : reg rs x with
    | error e => exact Or.inl ⟨e, fun X => rfl⟩
    | ok a =>
      cases hy : reg rs y with
      | error e => exact Or.inl ⟨e, fun X => rfl⟩
      | ok b => exact smooth_nodesBin (hr a (reg_mem hx)) (hr b (reg_mem hy)) hg
  cases l with
  | dense x features useBias P => exact happ _ (smoothUn_dense features useBias P) _
  | gated x g => exact happ _ (smoothUn_gated fun x => ContDiff.contDiffAt hl) _
  | change x L ps => exact happ _ (smoothUn_change L ps) _
  | add x y => exact hbin _ smoothBin_add _ _
  | tensor x y cfg T => exact hbin _ (smoothBin_tensor cfg T cg) _ _
  | tensorDense x features useBias cfg P T =>
    unfold Layer.instr Instr.eval
    dsimp only
    simp only [reg_map]
    cases hx : reg rs x with
    | error e => exact Or.inl ⟨e, fun X => rfl⟩
    | ok a => exact smooth_nodesBin (hr a (reg_mem hx)) (hr a (reg_mem hx)) (smoothBin_tensorDense features useBias cfg P T cg)
  | messagePass x cfg P =>
    unfold Layer.instr Instr.eval
    dsimp only
    simp only [reg_map]
    cases hx : reg rs x with
    | error e => exact Or.inl ⟨e, fun X => rfl⟩
    | ok a =>
      exact smooth_messagePass (List.finRange m) (fun b => (dst b : ℕ)) (fun b => (src b : ℕ)) hn (fun b _ _ => (src b).2)
        (fun b _ => hb b) (hr a (reg_mem hx)) cfg P cg bp bL bF
  | attention q kv lo ninf cfg P =>
    unfold Layer.instr Instr.eval
    dsimp only
    simp only [reg_map]
    cases hx : reg rs q with
    | error e => exact Or.inl ⟨e, fun X => rfl⟩
    | ok a =>
      cases hy : reg rs kv with
      | error e => exact Or.inl ⟨e, fun X => rfl⟩
      | ok a' =>
        exact smooth_attention (List.finRange m) (fun b => (dst b : ℕ)) (fun b => (src b : ℕ)) hn (fun b _ _ => (src b).2)
          (fun b _ => hb b) (fun b _ => hc b) (fun b _ => ha.1 b)
          (fun b _ => by
            obtain ⟨b', h1, h2⟩ := ha.2 b
            exact ⟨b', List.mem_finRange _, congrArg _ h1, h2⟩)
          (hr a (reg_mem hx)) (hr a' (reg_mem hy)) lo ninf cfg P cg bp bL bF

/-- All layers. -/
theorem smooth_run {m n : ℕ} (hn : 0 < n) (dst src : Fin m → Fin n) {bv : V → Fin m → Ent}
    (hb : ∀ b, SmoothEnt k X0 fun X => bv X b) {c : V → Fin m → ℝ} (hc : ∀ b, ContDiffAt ℝ k (fun X => c X b) X0)
    (cg : ℕ → ℕ → ℕ → ℝ) (bp : Bool) (bL bF : ℕ) (ls : List Layer) (hl : ∀ l ∈ ls, SmoothLayer k l)
    (ha : ∀ l ∈ ls, AttentionDefined dst (c X0) l) (rs : List (V → Nodes)) (hr : ∀ x ∈ rs, SmoothNodes k X0 n x) :
    (∃ e, ∀ X, runNetwork cg [⟨bp, bL, bF, .vec ((List.finRange m).map (bv X))⟩]
      (ls.map (Layer.instr (some (.vec ((List.finRange m).map (c X))))
        { dst := some ((List.finRange m).map fun b => (dst b : ℕ)), src := some ((List.finRange m).map fun b => (src b : ℕ)) }))
      (rs.map fun x => x X) = .error e) ∨
    ∃ zs : List (V → Nodes), (∀ X, runNetwork cg [⟨bp, bL, bF, .vec ((List.finRange m).map (bv X))⟩]
      (ls.map (Layer.instr (some (.vec ((List.finRange m).map (c X))))
        { dst := some ((List.finRange m).map fun b => (dst b : ℕ)), src := some ((List.finRange m).map fun b => (src b : ℕ)) }))
      (rs.map fun x => x X) = .ok (zs.map fun x => x X)) ∧ ∀ x ∈ zs, SmoothNodes k X0 n x := by
  induction ls generalizing rs with
  | nil => exact Or.inr ⟨rs, fun X => rfl, hr⟩
  | cons l ls ih =>
    simp only [List.map_cons, runNetwork]
    rcases smooth_layer hn dst src hb hc cg bp bL bF l (hl l (List.mem_cons_self ..)) (ha l (List.mem_cons_self ..)) rs hr with
      ⟨e, h⟩ | ⟨z, h, hz⟩ <;> dsimp only at h
    · exact Or.inl ⟨e, fun X => by rw [h X]; rfl⟩
    · have := ih (fun l h => hl l (List.mem_cons_of_mem _ h)) (fun l h => ha l (List.mem_cons_of_mem _ h)) (rs ++ [z]) (by
        intro x hx
        rw [List.mem_append, List.mem_singleton] at hx
        rcases hx with hx | rfl
        · exact hr x hx
        · exact hz)
      simp only [List.map_append, List.map_cons, List.map_nil] at this
      rcases this with ⟨e, h'⟩ | ⟨zs, h', hzs⟩
      · exact Or.inl ⟨e, fun X => by rw [h X]; exact h' X⟩
      · exact Or.inr ⟨zs, fun X => by rw [h X]; exact h' X, hzs⟩

end Network

/-! ### Basis functions -/

theorem length_pos {r : Fin 3 → ℝ} (h : r ≠ 0) : 0 < Spec.length r := by
  unfold Spec.length
  apply Real.sqrt_pos.2
  obtain ⟨i, hi⟩ := Function.ne_iff.1 h
  exact Finset.sum_pos' (fun j _ => sq_nonneg _) ⟨i, Finset.mem_univ _, sq_pos_of_ne_zero hi⟩

theorem contDiff_mvEval (p : MvPolynomial (Fin 3) ℝ) {k : WithTop ℕ∞} : ContDiff ℝ k fun r : Fin 3 → ℝ => MvPolynomial.eval r p := by
  induction p using MvPolynomial.induction_on with
  | C a => simpa using contDiff_const
  | add p q hp hq => simpa using hp.add hq
  | mul_X p i hp => simpa using hp.mul (contDiff_apply ℝ ℝ i)

variable {V : Type} [NormedAddCommGroup V] [NormedSpace ℝ V] {k : WithTop ℕ∞} {X0 : V}

theorem smooth_length {r : V → Fin 3 → ℝ} (hr : ContDiffAt ℝ k r X0) (h0 : r X0 ≠ 0) :
    ContDiffAt ℝ k (fun X => Spec.length (r X)) X0 := by
  have hp := length_pos h0
  unfold Spec.length at *
  refine ContDiffAt.sqrt ?_ (Real.sqrt_pos.1 hp).ne'
  exact ContDiffAt.sum fun i _ => ((contDiffAt_pi.1 hr) i).pow 2

theorem smooth_basisEnt {r : V → Fin 3 → ℝ} (hr : ContDiffAt ℝ k r X0) (h0 : r X0 ≠ 0) (L num : ℕ) (g : ℝ → ℕ → ℝ) (f : ℝ → ℝ)
    (d : Option (ℝ → ℝ)) (cart : Bool) (hg : ∀ j, ContDiffAt ℝ k (fun x => g x j) (Spec.length (r X0)))
    (hf : ContDiffAt ℝ k f (Spec.length (r X0))) (hd : ∀ d' ∈ d, ContDiffAt ℝ k d' (Spec.length (r X0))) :
    SmoothEnt k X0 fun X => basisEnt L num (fun x _ => g x) f d cart (r X) := by
  have hlen := smooth_length hr h0
  have hu : ContDiffAt ℝ k (fun X => unitVectors (fun _ : Unit => r X) (fun _ => Spec.length (r X)) ()) X0 := by
    have hp := length_pos h0
    have : ContDiffAt ℝ k (fun X i => r X i / Spec.length (r X)) X0 :=
      contDiffAt_pi.2 fun i => ((contDiffAt_pi.1 hr) i).div hlen hp.ne'
    refine this.congr_of_eventuallyEq ?_
    have hc : ∀ᶠ X in nhds X0, 0 < Spec.length (r X) := by
      have hcr : ContinuousAt (fun X => Spec.length (r X)) X0 := by
        unfold Spec.length
        exact Real.continuous_sqrt.continuousAt.comp
          (tendsto_finsetSum _ fun i _ => ((continuous_apply i).continuousAt.comp hr.continuousAt).pow 2)
      exact hcr.eventually (lt_mem_nhds hp)
    filter_upwards [hc] with X hX
    funext i
    unfold unitVectors
    rw [if_pos hX]
  intro p i j
  unfold basisEnt
  refine ((?_ : ContDiffAt ℝ k _ X0).mul (((hg j).comp X0 hlen).mul (hf.comp X0 hlen))).mul ?_
  · split_ifs
    · exact ((contDiff_mvEval _).contDiffAt).comp X0 hu
    · exact contDiffAt_const
  · split_ifs
    · cases d with
      | none => exact contDiffAt_const
      | some d' => exact (hd d' rfl).comp X0 hlen
    · exact contDiffAt_const

/-! ### Energies -/

/-- The last steps. -/
theorem smooth_finish (M : Potential) {numbers : List ℕ} {x : V → Nodes} (hx : SmoothNodes k X0 numbers.length x) :
    (∃ e, ∀ X, finishEnergies M numbers (x X) = .error e) ∨
    ∃ E : V → List ℝ, (∀ X, finishEnergies M numbers (x X) = .ok (E X)) ∧ ∀ i, ContDiffAt ℝ k (fun X => (E X).getD i 0) X0 := by
  obtain ⟨ps, L, F, R, rfl, hl, hR⟩ := hx
  by_cases h : ps = false ∧ L = 0
  · right
    refine ⟨fun X => List.zipWith (· + M.elementBias ·) ((R X).map fun v => ∑ f ∈ Finset.range F, v 0 0 f * M.readout f) numbers,
      fun X => ?_, fun i => ?_⟩
    · unfold finishEnergies readoutNodes
      dsimp only
      rw [if_pos h]
      simp only [Except.bind, List.length_map]
      rw [if_pos (hl X)]
    · by_cases hi : i < numbers.length
      · have e : (fun X => (List.zipWith (· + M.elementBias ·) ((R X).map fun v => ∑ f ∈ Finset.range F, v 0 0 f * M.readout f)
            numbers).getD i 0) = fun X => (∑ f ∈ Finset.range F, (R X).getD i 0 0 0 f * M.readout f) + M.elementBias numbers[i] := by
          funext X
          have := hl X
          rw [List.getD_eq_getElem _ _ (by simp; omega), List.getElem_zipWith, List.getElem_map, List.getD_eq_getElem _ _ (by omega)]
        rw [e]
        exact (ContDiffAt.sum fun f _ => (hR i 0 0 f).mul contDiffAt_const).add contDiffAt_const
      · have e : (fun X => (List.zipWith (· + M.elementBias ·) ((R X).map fun v => ∑ f ∈ Finset.range F, v 0 0 f * M.readout f)
            numbers).getD i 0) = fun X => 0 := by
          funext X
          rw [List.getD_eq_default _ _ (by simp; omega)]
        rw [e]
        exact contDiffAt_const
  · left
    refine ⟨.valueError, fun X => ?_⟩
    unfold finishEnergies readoutNodes
    dsimp only
    rw [if_neg h]
    rfl

/-- **C63.** Whether a model raises an exception does not depend on the positions of the atoms. If it does not, and the atoms of
every edge are at different positions, its activation functions are `k` times continuously differentiable, and its radial,
cutoff and damping functions are so at the lengths of the edges, then all atomic energies are `k` times continuously
differentiable functions of the positions. -/
theorem C63_smooth (tiny : ℝ) (ht : 0 < tiny) (disk : Disk SHCompressed)
    (hd : ValidDisk (shKind sphTerms) (shTable sphTerms) disk) (o : SaveOutcome) (cg : ℕ → ℕ → ℕ → ℝ) (M : Potential)
    (k : WithTop ℕ∞) (g : ℝ → ℕ → ℝ) (f d : ℝ → ℝ) (hg : ∀ x, M.radialFn x M.num = .ok (g x)) (hf : ∀ x, M.cutoffFn x = .ok (f x))
    (hdamp : ∀ df, M.dampingFn = some df → ∀ x, df x = .ok (d x)) (numbers : List ℕ) {m : ℕ} (hm : 0 < m)
    (dst src : Fin m → Fin numbers.length) (X0 : Fin numbers.length → Fin 3 → ℝ) (hX : ∀ b, X0 (src b) ≠ X0 (dst b))
    (hgs : ∀ b j, ContDiffAt ℝ k (fun x => g x j) (Spec.length (displacements X0 dst src b)))
    (hfs : ∀ b, ContDiffAt ℝ k f (Spec.length (displacements X0 dst src b)))
    (hds : M.dampingFn ≠ none → ∀ b, ContDiffAt ℝ k d (Spec.length (displacements X0 dst src b)))
    (hl : ∀ l ∈ M.layers, SmoothLayer k l)
    (ha : ∀ l ∈ M.layers, AttentionDefined dst (fun b => f (Spec.length (displacements X0 dst src b))) l) :
    (∃ e, ∀ X, atomicEnergies tiny disk o cg M numbers (fun b => dst b) (fun b => src b) (displacements X dst src) = .error e) ∨
    ∃ E : (Fin numbers.length → Fin 3 → ℝ) → List ℝ,
      (∀ X, atomicEnergies tiny disk o cg M numbers (fun b => dst b) (fun b => src b) (displacements X dst src) = .ok (E X)) ∧
      ∀ i, ContDiffAt ℝ k (fun X => (E X).getD i 0) X0 := by
  have hn : 0 < numbers.length := (dst ⟨0, hm⟩).pos
  rcases atomicEnergies_eq tiny ht disk hd M with ⟨e, -, h⟩ | ⟨g', f', d', h1, h2, h3, h⟩
  · exact Or.inl ⟨e, fun X => h _ _ _ _ _ _ _ hm⟩
  have hg' : g' = g := funext fun x => h1 x _ (hg x)
  have hf' : f' = f := funext fun x => h2 x _ (hf x)
  subst hg' hf'
  have hd' : ∀ b, ∀ dv ∈ d', ContDiffAt ℝ k dv (Spec.length (displacements X0 dst src b)) := by
    intro b dv hdv
    rcases h3 with ⟨-, rfl⟩ | ⟨df, dv', e1, rfl, e3⟩
    · cases hdv
    · obtain rfl : dv' = dv := Option.some.inj hdv
      rw [show dv' = d from funext fun x => e3 x _ (hdamp df e1 x)]
      exact hds (by rw [e1]; simp) b
  have hr : ∀ b, ContDiffAt ℝ k (fun X : Fin numbers.length → Fin 3 → ℝ => displacements X dst src b) X0 := by
    intro b
    unfold displacements
    fun_prop
  have hr0 : ∀ b, displacements X0 dst src b ≠ 0 := by
    intro b h0
    refine hX b (funext fun j => ?_)
    have := congrFun h0 j
    simp only [displacements, Pi.zero_apply] at this
    linarith
  have hrun := smooth_run (k := k) (X0 := X0) hn dst src
    (bv := fun X b => basisEnt M.maxDegree M.num (fun x _ => g' x) f' d' M.cartesianOrder (displacements X dst src b))
    (fun b => smooth_basisEnt (hr b) (hr0 b) _ _ _ _ _ _ (hgs b) (hfs b) (hd' b))
    (c := fun X b => f' (Spec.length (displacements X dst src b))) (fun b => (hfs b).comp X0 (smooth_length (hr b) (hr0 b)))
    cg false M.maxDegree M.num M.layers hl ha [fun _ => M.embedded numbers] (by
      intro x hx
      rw [List.mem_singleton] at hx
      subst hx
      exact ⟨false, 0, M.features, fun _ => numbers.map fun a => (embed M.features M.embedding a).val, rfl, fun _ => by simp,
        fun i => smooth_const _⟩)
  have hE : ∀ X, atomicEnergies tiny disk o cg M numbers (fun b => dst b) (fun b => src b) (displacements X dst src) = _ := fun X =>
    h o cg numbers m (fun b => dst b) (fun b => src b) (displacements X dst src) hm
  simp only [geoBasis, geoProg, geoEdges, List.ofFn_eq_map, List.map_map, Function.comp_def] at hE
  simp only [List.map_singleton] at hrun
  rcases hrun with ⟨e, hrun⟩ | ⟨zs, hrun, hz⟩
  · refine Or.inl ⟨e, fun X => ?_⟩
    rw [hE X]
    simp only [hrun X]
    rfl
  · have hlast : SmoothNodes k X0 numbers.length fun X => (zs.map fun x => x X).getLastD (M.embedded numbers) := by
      by_cases hzs : zs = []
      · subst hzs
        exact ⟨false, 0, M.features, fun _ => numbers.map fun a => (embed M.features M.embedding a).val, rfl, fun _ => by simp,
          fun i => smooth_const _⟩
      · have : (fun X => (zs.map fun x => x X).getLastD (M.embedded numbers)) = zs.getLast hzs := by
          funext X
          rw [List.getLastD_eq_getLast?, List.getLast?_map, List.getLast?_eq_some_getLast hzs]
          rfl
        rw [this]
        exact hz _ (List.getLast_mem hzs)
    rcases smooth_finish M hlast with ⟨e, hfin⟩ | ⟨E, hfin, hsm⟩
    · refine Or.inl ⟨e, fun X => ?_⟩
      rw [hE X]
      simp only [hrun X]
      exact hfin X
    · refine Or.inr ⟨E, fun X => ?_, hsm⟩
      rw [hE X]
      simp only [hrun X]
      exact hfin X

/-! ### The md17 example -/

/-- `_bernstein` is smooth strictly between its thresholds. -/
theorem smooth_bernstein (eps : ℝ) (h0 : 0 < eps) (num : ℤ) (b : ℝ → ℕ → ℝ) (hb : ∀ x, bernstein eps x num = .ok (b x)) (x : ℝ)
    (hx : eps < x) (hx' : x < 1 - eps) (v : ℕ) : ContDiffAt ℝ ∞ (fun x => b x v) x := by
  have h1 : ¬ num < 1 := by
    intro h
    have := hb x
    rw [bernstein, if_pos h] at this
    cases this
  by_cases h2 : num = 1
  · have : (fun x => b x v) = fun _ => 1 := by
      funext y
      have := hb y
      rw [bernstein, if_neg h1, if_pos h2] at this
      rw [← Except.ok.inj this]
    rw [this]
    exact contDiffAt_const
  · set n : ℕ := (num - 1).toNat with hn
    have hs : ContDiffAt ℝ ∞ (fun x : ℝ => Real.exp (-betaln (1 + n - v) (1 + v) - Real.log (n + 1) + v * Real.log x +
        (n - v) * Real.log (1 + -x))) x := by
      have e1 : ContDiffAt ℝ ∞ Real.log x := Real.contDiffAt_log.2 (by linarith)
      have e2 : ContDiffAt ℝ ∞ (fun x : ℝ => Real.log (1 + -x)) x :=
        ContDiffAt.log (contDiffAt_const.add contDiffAt_id.neg) (by intro h; linarith)
      exact ((contDiffAt_const.add (contDiffAt_const.mul e1)).add (contDiffAt_const.mul e2)).exp
    refine hs.congr_of_eventuallyEq ?_
    filter_upwards [Ioo_mem_nhds hx hx'] with y hy
    have := hb y
    rw [bernstein, if_neg h1, if_neg h2] at this
    rw [← Except.ok.inj this]
    have a1 : ¬ y < eps := not_lt.2 hy.1.le
    have a2 : ¬ 1 - eps < y := not_lt.2 hy.2.le
    simp only [a1, a2, or_self, if_false, false_and]
    rfl

theorem md17_layers (features : ℕ) (P : ℕ → IterParams) (j x c : ℕ) {m n : ℕ} (dst : Fin m → Fin n) (cut : Fin m → ℝ) :
    ∀ l ∈ md17Layers features P j x c, SmoothLayer ∞ l ∧ AttentionDefined dst cut l := by
  have hg : ContDiff ℝ ∞ siluGate := AD.Ex.contDiff_siluGate
  induction j using Nat.strong_induction_on generalizing x c with
  | _ j ih =>
    match j, ih with
    | 0, _ => intro l hl; simp [md17Layers] at hl
    | 1, _ =>
      intro l hl
      simp only [md17Layers, List.mem_cons, List.not_mem_nil, or_false] at hl
      rcases hl with rfl | rfl | rfl | rfl | rfl | rfl | rfl <;> simp [SmoothLayer, AttentionDefined, hg]
    | j + 2, ih =>
      intro l hl
      simp only [md17Layers, List.mem_append, List.mem_cons, List.not_mem_nil, or_false] at hl
      rcases hl with (rfl | rfl | rfl | rfl | rfl | rfl) | hl
      iterate 6 simp [SmoothLayer, AttentionDefined, hg]
      exact ih (j + 1) (by omega) _ _ l hl

/-- **C63 (the example).** The energies of the md17 example are infinitely often continuously differentiable functions of the
positions, also where atoms leave the cutoff radius, as long as the atoms of an edge are not at the same position. (`x / (x + 1)`
has to lie between the thresholds of `_bernstein`: `epsneg` is about `6e-8` in single precision, so this excludes distances
below about `6e-8` and above about `1.7e7`.) -/
theorem C63_md17 (tiny : ℝ) (ht : 0 < tiny) (disk : Disk SHCompressed)
    (hd : ValidDisk (shKind sphTerms) (shTable sphTerms) disk) (o : SaveOutcome) (cg : ℕ → ℕ → ℕ → ℝ)
    (epsneg eps : ℝ) (he : 0 < epsneg) (features maxDegree numIterations numBasisFunctions : ℕ) (hb : 0 < numBasisFunctions)
    (cutoff : ℝ) (hcut : 0 < cutoff) (cart : Bool) (embedding : ℕ → ℕ → ℝ) (P : ℕ → IterParams) (kernel elementBias : ℕ → ℝ)
    (numbers : List ℕ) {m : ℕ} (hm : 0 < m) (dst src : Fin m → Fin numbers.length) :
    ∃ E : (Fin numbers.length → Fin 3 → ℝ) → List ℝ,
      (∀ X, atomicEnergies tiny disk o cg (md17 epsneg eps features maxDegree numIterations numBasisFunctions cutoff cart embedding P
        kernel elementBias) numbers (fun b => dst b) (fun b => src b) (displacements X dst src) = .ok (E X)) ∧
      ∀ X, (∀ b, epsneg < Spec.length (displacements X dst src b) / (Spec.length (displacements X dst src b) + 1) ∧
        Spec.length (displacements X dst src b) / (Spec.length (displacements X dst src b) + 1) < 1 - epsneg) →
        ∀ i, ContDiffAt ℝ ∞ (fun X => (E X).getD i 0) X := by
  have hn : 0 < numbers.length := (dst ⟨0, hm⟩).pos
  choose E hE hlen using fun X => C62_md17 tiny ht disk hd o cg epsneg eps features maxDegree numIterations numBasisFunctions hb cutoff
    hcut cart embedding P kernel elementBias numbers hn hm (fun b => dst b) (fun b => src b) (displacements X dst src)
    (fun b _ => (src b).2)
  refine ⟨E, hE, fun X hX => ?_⟩
  have hbo : ∀ x, ∃ b, bernstein epsneg x numBasisFunctions = .ok b := fun x => (C45_raises epsneg x _).2 (by omega)
  choose b hb' using hbo
  obtain ⟨f, hf, -, hfs, -⟩ := C43_smooth_cutoff cutoff hcut
  have hlen0 : ∀ b, 0 ≤ Spec.length (displacements X dst src b) := fun b => Real.sqrt_nonneg _
  have hsm := C63_smooth tiny ht disk hd o cg (md17 epsneg eps features maxDegree numIterations numBasisFunctions cutoff cart
    embedding P kernel elementBias) ∞ (fun x => b (1 - 1 / (x + 1))) f 0 (fun x => by
      have hr : reciprocalMapping eps x "shifted" = .ok (1 / (x + 1)) := by simp [reciprocalMapping]
      simp only [md17, reciprocalBasis, hr, Except.bind, hb']
      rfl) hf (fun df h => by simp [md17] at h) numbers hm dst src X (fun b h => by
      have : displacements X dst src b = 0 := by
        funext j
        simp [displacements, h]
      have hz := (hX b).1
      rw [this] at hz
      have hz0 : Spec.length (0 : Fin 3 → ℝ) = 0 := by simp [Spec.length]
      rw [hz0] at hz
      norm_num at hz
      linarith) (fun e j => ?_) (fun e => ?_) (fun h => absurd rfl h) ?_ ?_
  · rcases hsm with ⟨e, h⟩ | ⟨E', h1, h2⟩
    · have := (hE X).symm.trans (h X)
      cases this
    · rw [show E = E' from funext fun X => Except.ok.inj ((hE X).symm.trans (h1 X))]
      exact h2
  · have hp := hlen0 e
    have e1 : ∀ x : ℝ, 0 ≤ x → 1 - 1 / (x + 1) = x / (x + 1) := by
      intro x hx
      field_simp
      ring
    have := smooth_bernstein epsneg he _ b hb' (1 - 1 / (Spec.length (displacements X dst src e) + 1)) (by
      rw [e1 _ hp]; exact (hX e).1) (by rw [e1 _ hp]; exact (hX e).2) j
    refine this.comp (Spec.length (displacements X dst src e)) (f := fun x : ℝ => 1 - 1 / (x + 1)) ?_
    exact contDiffAt_const.sub (contDiffAt_const.div (contDiffAt_id.add contDiffAt_const) (by positivity))
  · exact hfs.contDiffAt (Ioi_mem_nhds (by have := hlen0 e; linarith))
  · exact fun l hl => (md17_layers features P numIterations 0 1 dst 0 l hl).1
  · exact fun l hl => (md17_layers features P numIterations 0 1 dst _ l hl).2

/-! ### Activation functions -/

/-- **C63 (smooth activation functions).** A layer with one of these activation functions may be used in a smooth model. -/
theorem C63_activations (x : ℕ) : SmoothLayer ∞ (.gated x siluGate) ∧ (∀ a, SmoothLayer ∞ (.gated x (geluGate a))) ∧
    (∀ a, SmoothLayer ∞ (.gated x (mishGate a))) ∧ SmoothLayer ∞ (.gated x serfGate) := by
  refine ⟨AD.Ex.contDiff_siluGate, fun a => ?_, fun a => ?_, AD.Ex.contDiff_erf.comp AD.Ex.contDiff_softplus⟩
  · cases a
    · show ContDiff ℝ ∞ fun x => (erf (x / √2) + 1) / 2
      exact ((AD.Ex.contDiff_erf.comp (contDiff_id.div_const _)).add contDiff_const).div_const _
    · show ContDiff ℝ ∞ fun x : ℝ => 0.5 * (1.0 + Real.tanh (√(2 / Real.pi) * (x + 0.044715 * x ^ 3)))
      exact contDiff_const.mul (contDiff_const.add (AD.Ex.contDiff_tanh.comp (by fun_prop)))
  · cases a
    · exact AD.Ex.contDiff_tanh.comp AD.Ex.contDiff_softplus
    · show ContDiff ℝ ∞ fun x : ℝ => (2 * Real.exp (-x) + 1) / (2 * Real.exp (-x) + 1 + 2 * Real.exp (-x) * Real.exp (-x))
      exact ContDiff.div (by fun_prop) (by fun_prop) fun x => by positivity

/-- **C63 (discontinuous activation functions).** With `relu`, `leaky_relu` (unless the slope is one) and `relu6` the features of
degree greater than zero jump where the scalar feature changes sign, so models that use them on such features are not even
continuous. -/
theorem C63_jumps (slope : ℝ) (hs : slope ≠ 1) (v : ℝ) (hv : v ≠ 0) :
    let x : ℝ → Feat := fun s => ⟨false, 1, 1, fun _ i _ => if i = 0 then s else v⟩
    ¬ ContinuousAt (fun s => (relu (x s)).val 0 1 0) 0 ∧ ¬ ContinuousAt (fun s => (leakyRelu slope (x s)).val 0 1 0) 0 ∧
      ¬ ContinuousAt (fun s => (relu6 (x s)).val 0 1 0) 0 := by
  intro x
  have key : ∀ (F : ℝ → ℝ) (a b : ℝ), a ≠ b → (∀ s, 0 < s → s < 1 → F s = a) → (∀ s, s < 0 → F s = b) → ¬ ContinuousAt F 0 := by
    intro F a b hab h1 h2 hc
    have t1 : Filter.Tendsto F (nhdsWithin 0 (Ioi 0)) (nhds (F 0)) := hc.mono_left nhdsWithin_le_nhds
    have t2 : Filter.Tendsto F (nhdsWithin 0 (Iio 0)) (nhds (F 0)) := hc.mono_left nhdsWithin_le_nhds
    have u1 : Filter.Tendsto F (nhdsWithin 0 (Ioi 0)) (nhds a) := by
      refine tendsto_const_nhds.congr' ?_
      filter_upwards [Ioo_mem_nhdsGT (show (0 : ℝ) < 1 by norm_num)] with s hs
      exact (h1 s hs.1 hs.2).symm
    have u2 : Filter.Tendsto F (nhdsWithin 0 (Iio 0)) (nhds b) := by
      refine tendsto_const_nhds.congr' ?_
      filter_upwards [self_mem_nhdsWithin] with s hs
      exact (h2 s hs).symm
    exact hab ((tendsto_nhds_unique u1 t1).trans (tendsto_nhds_unique t2 u2))
  have hx : ∀ s, (x s).val 0 0 0 = s := fun s => rfl
  have hx1 : ∀ s, (x s).val 0 1 0 = v := fun s => rfl
  refine ⟨key _ v 0 hv (fun s h _ => ?_) fun s h => ?_, key _ v (slope * v) ?_ (fun s h _ => ?_) fun s h => ?_,
    key _ v 0 hv (fun s h h1 => ?_) fun s h => ?_⟩
  · show reluGate s * v = v
    simp [reluGate, sgn, h]
  · show reluGate s * v = 0
    simp [reluGate, sgn, h, not_lt.2 h.le]
  · intro h
    apply hs
    have := mul_right_cancel₀ hv ((one_mul v).trans h)
    exact this.symm
  · show leakyReluGate slope s * v = v
    simp [leakyReluGate, h.le]
  · show leakyReluGate slope s * v = slope * v
    simp [leakyReluGate, not_le.2 h]
  · show relu6Gate s * v = v
    have : ¬ 1 < s := not_lt.2 h1.le
    simp only [relu6Gate, sgn, h, if_true, this, if_false]
    norm_num
  · show relu6Gate s * v = 0
    have : ¬ 1 < s := by linarith
    simp only [relu6Gate, sgn, h, if_true, this, if_false, not_lt.2 h.le]
    norm_num

/-! ### Non-vacuity -/

-- A dimer in the md17 example with cutoff 2: the energies are smooth at the distance 2, where the atoms leave the cutoff radius.
example (tiny : ℝ) (ht : 0 < tiny) (disk : Disk SHCompressed) (hd : ValidDisk (shKind sphTerms) (shTable sphTerms) disk)
    (o : SaveOutcome) (cg : ℕ → ℕ → ℕ → ℝ) (eps : ℝ) (embedding : ℕ → ℕ → ℝ) (P : ℕ → IterParams) (kernel elementBias : ℕ → ℝ) :
    ∃ E : (Fin 2 → Fin 3 → ℝ) → List ℝ,
      (∀ X, atomicEnergies tiny disk o cg (md17 (1 / 2 ^ 24) eps 32 2 3 16 2 false embedding P kernel elementBias) [1, 8]
        (fun b => (![0, 1] : Fin 2 → Fin 2) b) (fun b => (![1, 0] : Fin 2 → Fin 2) b) (displacements X ![0, 1] ![1, 0]) = .ok (E X)) ∧
      ∀ i, ContDiffAt ℝ ∞ (fun X => (E X).getD i 0) ![![0, 0, 0], ![2, 0, 0]] := by
  obtain ⟨E, h1, h2⟩ := C63_md17 tiny ht disk hd o cg (1 / 2 ^ 24) eps (by positivity) 32 2 3 16 (by norm_num) 2 (by norm_num) false
    embedding P kernel elementBias [1, 8] (m := 2) (by norm_num) ![0, 1] ![1, 0]
  refine ⟨E, h1, h2 ![![0, 0, 0], ![2, 0, 0]] fun b => ?_⟩
  have hl : Spec.length (displacements ![![0, 0, 0], ![2, 0, 0]] ![0, 1] ![1, 0] b) = 2 := by
    unfold Spec.length
    rw [Real.sqrt_eq_iff_eq_sq (by positivity) (by norm_num)]
    fin_cases b <;> simp [displacements, Fin.sum_univ_three]
  rw [hl]
  norm_num

-- A dimer in a model with one attention layer and constant radial functions, at a distance below the cutoff radius.
example (tiny : ℝ) (ht : 0 < tiny) (disk : Disk SHCompressed) (hd : ValidDisk (shKind sphTerms) (shTable sphTerms) disk)
    (o : SaveOutcome) (cg : ℕ → ℕ → ℕ → ℝ) (lo ninf : ℝ) (cfg : AttnCfg) (P : AttnParams) (embedding : ℕ → ℕ → ℝ) :
    let M : Potential := ⟨8, embedding, 2, 4, fun _ _ => .ok fun _ => 1, fun x => smoothCutoff x 3, none, false,
      [.attention 0 0 lo ninf cfg P, .change 1 (some 0) (some false)], fun _ => 1, fun _ => 0⟩
    (∃ e, ∀ X : Fin 2 → Fin 3 → ℝ, atomicEnergies tiny disk o cg M [1, 8]
      (fun b => (![0, 1] : Fin 2 → Fin 2) b) (fun b => (![1, 0] : Fin 2 → Fin 2) b) (displacements X ![0, 1] ![1, 0]) = .error e) ∨
    ∃ E : (Fin 2 → Fin 3 → ℝ) → List ℝ, (∀ X, atomicEnergies tiny disk o cg M [1, 8]
      (fun b => (![0, 1] : Fin 2 → Fin 2) b) (fun b => (![1, 0] : Fin 2 → Fin 2) b) (displacements X ![0, 1] ![1, 0]) = .ok (E X)) ∧
      ∀ i, ContDiffAt ℝ ∞ (fun X => (E X).getD i 0) ![![0, 0, 0], ![2, 0, 0]] := by
  intro M
  obtain ⟨f, hf, hc, hfs, -⟩ := C43_smooth_cutoff 3 (by norm_num)
  have hl : ∀ b, Spec.length (displacements ![![0, 0, 0], ![2, 0, 0]] ![0, 1] ![1, 0] b) = 2 := by
    intro b
    unfold Spec.length
    rw [Real.sqrt_eq_iff_eq_sq (by positivity) (by norm_num)]
    fin_cases b <;> simp [displacements, Fin.sum_univ_three]
  refine C63_smooth tiny ht disk hd o cg M ∞ (fun _ _ => 1) f 0 (fun _ => rfl) hf (fun df h => by cases h) [1, 8] (m := 2) (by norm_num)
    ![0, 1] ![1, 0] ![![0, 0, 0], ![2, 0, 0]] (fun b => ?_) (fun _ _ => contDiffAt_const) (fun b => ?_) (fun h => absurd rfl h) ?_ ?_
  · fin_cases b <;> intro h <;> have := congrFun h 0 <;> norm_num at this
  · rw [hl]
    exact hfs.contDiffAt (Ioi_mem_nhds (by norm_num))
  · intro l hl
    simp only [M, List.mem_cons, List.not_mem_nil, or_false] at hl
    rcases hl with rfl | rfl <;> trivial
  · intro l hl'
    simp only [M, List.mem_cons, List.not_mem_nil, or_false] at hl'
    rcases hl' with rfl | rfl
    · simp only [hl]
      exact ⟨fun _ => (hc.mem_unit 2 (by norm_num)).1, fun b => ⟨b, rfl, hc.inside 2 (by norm_num) (by norm_num)⟩⟩
    · trivial

end E3x
