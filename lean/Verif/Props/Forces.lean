import Verif.Lemmas.Forces
import Verif.Props.EnergySmooth
import Mathlib.Analysis.Calculus.MeanValue

/-!
# C64: predicted forces
-/

namespace E3x

open Spec

/-! ### The energies and forces of a model -/

/-- The batch of `__call__`. -/
def batchOf {n m : ℕ} (A : AtomGraph n m) (batch : Option (List ℕ × ℕ)) : List ℕ × ℕ := batch.getD (A.numbers.map fun _ => 0, 1)

theorem energyAndForces_eq (tiny : ℝ) (disk : Disk SHCompressed) (o : SaveOutcome) (cg : ℕ → ℕ → ℕ → ℝ) (M : Potential) {n m : ℕ}
    (A : AtomGraph n m) (batch : Option (List ℕ × ℕ)) (X : Fin n → Fin 3 → ℝ) :
    energyAndForces tiny disk o cg M A batch X =
      (segmentEnergies tiny disk o cg M A (batchOf A batch).1 (batchOf A batch).2 X).map fun E =>
        (E, fun i k => fderiv ℝ (proxyOutput tiny disk o cg M A (batchOf A batch).1 (batchOf A batch).2) X (unitMove i k)) := rfl

theorem proxy_of_predicts {tiny : ℝ} {disk : Disk SHCompressed} {o : SaveOutcome} {cg : ℕ → ℕ → ℕ → ℝ} {M : Potential} {n m : ℕ}
    {A : AtomGraph n m} {batch : Option (List ℕ × ℕ)} {U : (Fin n → Fin 3 → ℝ) → ℝ} {F : (Fin n → Fin 3 → ℝ) → Fin n → Fin 3 → ℝ}
    (h : Predicts (energyAndForces tiny disk o cg M A batch) U F) :
    proxyOutput tiny disk o cg M A (batchOf A batch).1 (batchOf A batch).2 = (fun X => -U X) ∧
      ∀ X i k, F X i k = -fderiv ℝ U X (unitMove i k) := by
  have h1 : proxyOutput tiny disk o cg M A (batchOf A batch).1 (batchOf A batch).2 = (fun X => -U X) := by
    funext X
    obtain ⟨E, hE, hU⟩ := h X
    rw [energyAndForces_eq] at hE
    unfold proxyOutput
    cases hs : segmentEnergies tiny disk o cg M A (batchOf A batch).1 (batchOf A batch).2 X with
    | error e => rw [hs] at hE; cases hE
    | ok E' =>
      rw [hs] at hE
      have := congrArg Prod.fst (Except.ok.inj hE)
      dsimp only at this ⊢
      rw [this, hU]
  refine ⟨h1, fun X i k => ?_⟩
  obtain ⟨E, hE, -⟩ := h X
  rw [energyAndForces_eq, h1] at hE
  cases hs : segmentEnergies tiny disk o cg M A (batchOf A batch).1 (batchOf A batch).2 X with
  | error e => rw [hs] at hE; cases hE
  | ok E' =>
    rw [hs] at hE
    have := congrArg Prod.snd (Except.ok.inj hE)
    dsimp only at this
    rw [← this, fderiv_fun_neg]
    rfl

/-! ### Forces are the negative gradient of the energy -/

/-- **C64 (gradient).** Along every motion of the atoms the energy decreases at the rate of the power of the forces. -/
theorem C64_gradient (tiny : ℝ) (disk : Disk SHCompressed) (o : SaveOutcome) (cg : ℕ → ℕ → ℕ → ℝ) (M : Potential) {n m : ℕ}
    (A : AtomGraph n m) (batch : Option (List ℕ × ℕ)) (U : (Fin n → Fin 3 → ℝ) → ℝ) (F : (Fin n → Fin 3 → ℝ) → Fin n → Fin 3 → ℝ)
    (h : Predicts (energyAndForces tiny disk o cg M A batch) U F) (γ : ℝ → Fin n → Fin 3 → ℝ) (v : Fin n → Fin 3 → ℝ) (t : ℝ)
    (hγ : HasDerivAt γ v t) (hU : DifferentiableAt ℝ U (γ t)) :
    HasDerivAt (fun t => U (γ t)) (-power (F (γ t)) v) t := by
  obtain ⟨-, hF⟩ := proxy_of_predicts h
  refine (curve_deriv hγ hU).congr_deriv ?_
  unfold power
  simp only [hF, neg_mul, Finset.sum_neg_distrib, neg_neg]

/-- **C64 (conservation of energy).** Atoms that move according to Newton's equations with the predicted forces conserve the sum
of their kinetic energy and the predicted energy. -/
theorem C64_conservation (tiny : ℝ) (disk : Disk SHCompressed) (o : SaveOutcome) (cg : ℕ → ℕ → ℕ → ℝ) (M : Potential) {n m : ℕ}
    (A : AtomGraph n m) (batch : Option (List ℕ × ℕ)) (U : (Fin n → Fin 3 → ℝ) → ℝ) (F : (Fin n → Fin 3 → ℝ) → Fin n → Fin 3 → ℝ)
    (h : Predicts (energyAndForces tiny disk o cg M A batch) U F) (mass : Fin n → ℝ) (x v a : ℝ → Fin n → Fin 3 → ℝ)
    (t0 t1 : ℝ) (hx : ∀ t ∈ Set.Icc t0 t1, HasDerivAt x (v t) t) (hv : ∀ t ∈ Set.Icc t0 t1, HasDerivAt v (a t) t)
    (hN : ∀ t ∈ Set.Icc t0 t1, ∀ i k, mass i * a t i k = F (x t) i k)
    (hU : ∀ t ∈ Set.Icc t0 t1, DifferentiableAt ℝ U (x t)) (t : ℝ) (ht : t ∈ Set.Icc t0 t1) :
    ∑ i, mass i * (∑ k, v t i k ^ 2) / 2 + U (x t) = ∑ i, mass i * (∑ k, v t0 i k ^ 2) / 2 + U (x t0) := by
  have hd : ∀ t ∈ Set.Icc t0 t1, HasDerivAt (fun t => ∑ i, mass i * (∑ k, v t i k ^ 2) / 2 + U (x t)) 0 t := by
    intro t ht
    have h1 := C64_gradient tiny disk o cg M A batch U F h x (v t) t (hx t ht) (hU t ht)
    have h2 : HasDerivAt (fun t => ∑ i, mass i * (∑ k, v t i k ^ 2) / 2) (power (F (x t)) (v t)) t := by
      have := HasDerivAt.fun_sum fun i (_ : i ∈ Finset.univ) => (((HasDerivAt.fun_sum fun k (_ : k ∈ Finset.univ) =>
        ((hasDerivAt_pi.1 ((hasDerivAt_pi.1 (hv t ht)) i)) k).fun_pow 2).const_mul (mass i)).div_const 2)
      refine this.congr_deriv ?_
      unfold power
      refine Finset.sum_congr rfl fun i _ => ?_
      rw [Finset.mul_sum, Finset.sum_div]
      refine Finset.sum_congr rfl fun k _ => ?_
      rw [← hN t ht]
      simp only [Nat.cast_ofNat, Nat.add_one_sub_one, pow_one]
      ring
    exact (h2.add h1).congr_deriv (by ring)
  exact constant_of_has_deriv_right_zero (fun t ht => (hd t ht).continuousAt.continuousWithinAt)
    (fun t ht => (hd t ⟨ht.1, ht.2.le⟩).hasDerivWithinAt) t ht

/-! ### Symmetries -/

/-- **C64 (translation).** Shifting a structure changes neither the energies nor the forces. -/
theorem C64_translation (tiny : ℝ) (disk : Disk SHCompressed) (o : SaveOutcome) (cg : ℕ → ℕ → ℕ → ℝ) (M : Potential) {n m : ℕ}
    (A : AtomGraph n m) (batch : Option (List ℕ × ℕ)) (X : Fin n → Fin 3 → ℝ) (t : Fin 3 → ℝ) :
    energyAndForces tiny disk o cg M A batch (translated t X) = energyAndForces tiny disk o cg M A batch X := by
  have hs : ∀ X seg B, segmentEnergies tiny disk o cg M A seg B (translated t X) = segmentEnergies tiny disk o cg M A seg B X := by
    intro X seg B
    unfold segmentEnergies
    rw [C62_translation]
  rw [energyAndForces_eq, energyAndForces_eq, hs, grad_translated t]
  intro X
  unfold proxyOutput
  rw [hs]

/-- **C64 (rotation and reflection).** Multiplying the positions of a structure by an orthogonal matrix does not change the
energies, and multiplies the forces by the same matrix. -/
theorem C64_rotation (tiny : ℝ) (ht : 0 < tiny) (disk : Disk SHCompressed)
    (hd : ValidDisk (shKind sphTerms) (shTable sphTerms) disk) (o o' : SaveOutcome) (cg : ℕ → ℕ → ℕ → ℝ) (M : Potential)
    (hcg : LibraryCG M.cartesianOrder cg) {n m : ℕ} (A : AtomGraph n m) (batch : Option (List ℕ × ℕ)) (X : Fin n → Fin 3 → ℝ)
    (R : Fin 3 → Fin 3 → ℝ) (hR : IsOrthogonal R) :
    energyAndForces tiny disk o' cg M A batch (rotated R X) =
      (energyAndForces tiny disk o cg M A batch X).map fun out => (out.1, rotated R out.2) := by
  have hs : ∀ X seg B, segmentEnergies tiny disk o' cg M A seg B (rotated R X) = segmentEnergies tiny disk o cg M A seg B X := by
    intro X seg B
    unfold segmentEnergies
    rw [C62_rotation tiny ht disk hd o o' cg M hcg _ _ _ _ R hR]
  rw [energyAndForces_eq, energyAndForces_eq, hs]
  cases segmentEnergies tiny disk o cg M A (batchOf A batch).1 (batchOf A batch).2 X with
  | error e => rfl
  | ok E =>
    simp only [Except.map]
    congr 2
    funext i k
    rw [grad_rotated hR (U := proxyOutput tiny disk o cg M A (batchOf A batch).1 (batchOf A batch).2) _ X i k]
    · rfl
    · intro X
      unfold proxyOutput
      rw [hs]

/-- **C64 (net force).** The forces on all atoms sum up to zero. -/
theorem C64_net_force (tiny : ℝ) (disk : Disk SHCompressed) (o : SaveOutcome) (cg : ℕ → ℕ → ℕ → ℝ) (M : Potential) {n m : ℕ}
    (A : AtomGraph n m) (batch : Option (List ℕ × ℕ)) (U : (Fin n → Fin 3 → ℝ) → ℝ) (F : (Fin n → Fin 3 → ℝ) → Fin n → Fin 3 → ℝ)
    (h : Predicts (energyAndForces tiny disk o cg M A batch) U F) (X : Fin n → Fin 3 → ℝ) (hU : DifferentiableAt ℝ U X) (k : Fin 3) :
    ∑ i, F X i k = 0 := by
  obtain ⟨-, hF⟩ := proxy_of_predicts h
  have hinv : ∀ t Y, U (translated t Y) = U Y := by
    intro t Y
    obtain ⟨E, h1, h2⟩ := h (translated t Y)
    obtain ⟨E', h1', h2'⟩ := h Y
    rw [C64_translation, h1'] at h1
    rw [h2, h2']
    exact (congrArg (fun p => p.1.sum) (Except.ok.inj h1)).symm
  have hγ : HasDerivAt (fun s : ℝ => translated (s • (Pi.single k 1 : Fin 3 → ℝ)) X) (fun _ => Pi.single k 1) 0 := by
    rw [hasDerivAt_pi]
    intro i
    rw [hasDerivAt_pi]
    intro l
    show HasDerivAt (fun s : ℝ => X i l + s * (Pi.single k 1 : Fin 3 → ℝ) l) _ 0
    simpa using ((hasDerivAt_id (0 : ℝ)).mul_const ((Pi.single k 1 : Fin 3 → ℝ) l)).const_add (X i l)
  have h0 : translated ((0 : ℝ) • (Pi.single k 1 : Fin 3 → ℝ)) X = X := by
    funext i l
    simp [translated]
  have := curve_const (U := U) hγ (by simpa only [h0] using hU) (fun s => by rw [hinv, hinv])
  rw [h0] at this
  simp only [hF, Finset.sum_neg_distrib, neg_eq_zero]
  rw [← this]
  refine Finset.sum_congr rfl fun i _ => ?_
  rw [Finset.sum_eq_single k]
  · simp
  · intro l _ hl
    simp [hl]
  · simp

/-- **C64 (torque).** The forces exert no torque on a structure. -/
theorem C64_torque (tiny : ℝ) (ht : 0 < tiny) (disk : Disk SHCompressed)
    (hd : ValidDisk (shKind sphTerms) (shTable sphTerms) disk) (o : SaveOutcome) (cg : ℕ → ℕ → ℕ → ℝ) (M : Potential)
    (hcg : LibraryCG M.cartesianOrder cg) {n m : ℕ}
    (A : AtomGraph n m) (batch : Option (List ℕ × ℕ)) (U : (Fin n → Fin 3 → ℝ) → ℝ) (F : (Fin n → Fin 3 → ℝ) → Fin n → Fin 3 → ℝ)
    (h : Predicts (energyAndForces tiny disk o cg M A batch) U F) (X : Fin n → Fin 3 → ℝ) (hU : DifferentiableAt ℝ U X) (a b : Fin 3) :
    ∑ i, (X i a * F X i b - X i b * F X i a) = 0 := by
  by_cases hab : a = b
  · subst hab
    simp [mul_comm]
  obtain ⟨-, hF⟩ := proxy_of_predicts h
  have hinv : ∀ R, IsOrthogonal R → ∀ Y, U (rotated R Y) = U Y := by
    intro R hR Y
    obtain ⟨E, h1, h2⟩ := h (rotated R Y)
    obtain ⟨E', h1', h2'⟩ := h Y
    rw [C64_rotation tiny ht disk hd o o cg M hcg A batch Y R hR, h1'] at h1
    rw [h2, h2']
    exact (congrArg (fun p => p.1.sum) (Except.ok.inj h1)).symm
  have := curve_const (U := U) (planeRotation_deriv hab X) (by simpa only [planeRotation_zero] using hU)
    (fun s => by rw [hinv _ (planeRotation_orthogonal hab s), hinv _ (planeRotation_orthogonal hab 0)])
  rw [planeRotation_zero] at this
  rw [← neg_eq_zero, ← this, ← Finset.sum_neg_distrib]
  refine Finset.sum_congr rfl fun i _ => ?_
  simp only [hF]
  have e : ∀ G : Fin 3 → ℝ, ∑ k, G k * (if k = b then X i a else if k = a then -X i b else 0) = G b * X i a - G a * X i b := by
    intro G
    rw [Finset.sum_eq_add_of_mem b a (Finset.mem_univ _) (Finset.mem_univ _) (Ne.symm hab)]
    · simp [hab]
      ring
    · rintro c - ⟨h1, h2⟩
      simp [h1, h2]
  rw [e]
  ring

/-! ### Locality -/

theorem near_congr {m : ℕ} (radius : ℝ) (dst src : Fin m → ℕ) (r r' : Fin m → Fin 3 → ℝ)
    (h : ∀ b, r' b = r b ∨ (radius ≤ Spec.length (r b) ∧ radius ≤ Spec.length (r' b))) :
    near radius (geoEdges dst src r) = near radius (geoEdges dst src r') := by
  unfold near geoEdges
  rw [List.ofFn_eq_map, List.ofFn_eq_map, List.filter_map, List.filter_map]
  have : ((fun e : GeoEdge => decide (Spec.length e.disp < radius)) ∘ fun b => (⟨dst b, src b, r b⟩ : GeoEdge)) =
      ((fun e : GeoEdge => decide (Spec.length e.disp < radius)) ∘ fun b => (⟨dst b, src b, r' b⟩ : GeoEdge)) := by
    funext b
    rcases h b with h | ⟨h1, h2⟩
    · simp [h]
    · simp [not_lt.2 h1, not_lt.2 h2]
  rw [this]
  refine List.map_congr_left fun b hb => ?_
  have hb := (List.mem_filter.1 hb).2
  rcases h b with h | ⟨h1, h2⟩
  · rw [h]
  · simp [not_lt.2 h2] at hb

theorem localLayer_congr {m : ℕ} (radius : ℝ) (dst src : Fin m → ℕ) (r r' : Fin m → Fin 3 → ℝ)
    (h : ∀ b, r' b = r b ∨ (radius ≤ Spec.length (r b) ∧ radius ≤ Spec.length (r' b))) (l : Layer)
    (hl : LocalLayer radius (geoEdges dst src r) l) : LocalLayer radius (geoEdges dst src r') l := by
  cases l with
  | attention q kv lo ninf cfg P =>
    intro e he
    obtain ⟨b, rfl⟩ := (List.mem_ofFn' _ _).1 he
    obtain ⟨e', he', h1, h2⟩ := hl ⟨dst b, src b, r b⟩ ((List.mem_ofFn' _ _).2 ⟨b, rfl⟩)
    obtain ⟨b', rfl⟩ := (List.mem_ofFn' _ _).1 he'
    refine ⟨⟨dst b', src b', r' b'⟩, (List.mem_ofFn' _ _).2 ⟨b', rfl⟩, h1, ?_⟩
    dsimp only at h2 ⊢
    rcases h b' with h | ⟨h3, -⟩
    · rw [h]
      exact h2
    · exact absurd h2 (not_lt.2 h3)
  | _ => exact hl

/-- **C64 (locality).** No force acts on an atom all of whose edges are longer than the cutoff radius. -/
theorem C64_local (tiny : ℝ) (ht : 0 < tiny) (disk : Disk SHCompressed)
    (hd : ValidDisk (shKind sphTerms) (shTable sphTerms) disk) (o : SaveOutcome) (cg : ℕ → ℕ → ℕ → ℝ) (M : Potential)
    (radius : ℝ) (hr : 0 < radius)
    (hf : (∀ x, M.cutoffFn x = smoothCutoff x radius) ∨ ∀ x, M.cutoffFn x = cosineCutoff x radius) {n m : ℕ}
    (A : AtomGraph n m) (hA : WellFormedGraph A) (batch : Option (List ℕ × ℕ)) (U : (Fin n → Fin 3 → ℝ) → ℝ)
    (F : (Fin n → Fin 3 → ℝ) → Fin n → Fin 3 → ℝ)
    (h : Predicts (energyAndForces tiny disk o cg M A batch) U F) (X : Fin n → Fin 3 → ℝ) (hU : DifferentiableAt ℝ U X)
    (hl : ∀ l ∈ M.layers, LocalLayer radius (geoEdges (fun b => A.dst b) (fun b => A.src b) (displacements X A.dst A.src)) l)
    (i : Fin n) (hi : ∀ b, A.dst b = i ∨ A.src b = i → radius < Spec.length (displacements X A.dst A.src b)) : F X i = 0 := by
  obtain ⟨hA, hm⟩ := hA
  obtain ⟨-, hF⟩ := proxy_of_predicts h
  funext k
  rw [hF, Pi.zero_apply, neg_eq_zero]
  have hc : HasDerivAt (fun s : ℝ => X + s • unitMove i k) (unitMove i k) 0 := by
    simpa using ((hasDerivAt_id (0 : ℝ)).smul_const (unitMove i k)).const_add X
  have h0 : X + (0 : ℝ) • unitMove i k = X := by simp
  have hd1 : HasDerivAt (fun s : ℝ => U (X + s • unitMove i k)) (fderiv ℝ U X (unitMove i k)) 0 := by
    have : HasFDerivAt U (fderiv ℝ U X) (X + (0 : ℝ) • unitMove i k) := by
      rw [h0]
      exact hU.hasFDerivAt
    exact this.comp_hasDerivAt (0 : ℝ) hc
  have hev : ∀ᶠ s : ℝ in nhds 0, ∀ b, A.dst b = i ∨ A.src b = i →
      radius < Spec.length (displacements (X + s • unitMove i k) A.dst A.src b) := by
    rw [Filter.eventually_all]
    intro b
    by_cases hb : A.dst b = i ∨ A.src b = i
    · have hcont : Continuous fun s : ℝ => Spec.length (displacements (X + s • unitMove i k) A.dst A.src b) := by
        unfold Spec.length displacements
        simp only [Pi.add_apply, Pi.smul_apply, smul_eq_mul]
        fun_prop
      have := (hcont.continuousAt (x := 0)).eventually (lt_mem_nhds (show radius < _ by
        dsimp only
        rw [h0]
        exact hi b hb))
      filter_upwards [this] with s hs _
      exact hs
    · exact Filter.Eventually.of_forall fun s h => absurd h hb
  have hconst : (fun s : ℝ => U (X + s • unitMove i k)) =ᶠ[nhds 0] fun _ => U X := by
    filter_upwards [hev] with s hs
    have hcase : ∀ b, displacements (X + s • unitMove i k) A.dst A.src b = displacements X A.dst A.src b ∨
        (radius ≤ Spec.length (displacements X A.dst A.src b) ∧
          radius ≤ Spec.length (displacements (X + s • unitMove i k) A.dst A.src b)) := by
      intro b
      by_cases hb : A.dst b = i ∨ A.src b = i
      · exact Or.inr ⟨(hi b hb).le, (hs b hb).le⟩
      · push Not at hb
        refine Or.inl (funext fun l => ?_)
        simp [displacements, unitMove_apply, hb.1, hb.2]
    obtain ⟨E, h1, h2⟩ := h (X + s • unitMove i k)
    obtain ⟨E', h1', h2'⟩ := h X
    have hn : 0 < A.numbers.length := by rw [hA]; exact i.pos
    have hcut := C62_cutoff tiny ht disk hd o o cg M radius hr hf A.numbers (fun b => A.dst b) (fun b => A.src b)
      (displacements (X + s • unitMove i k) A.dst A.src) (fun b => A.dst b) (fun b => A.src b) (displacements X A.dst A.src)
      hm hm hn (fun b _ => by rw [hA]; exact (A.src b).2) (fun b _ => by rw [hA]; exact (A.src b).2)
      (fun l hl' => ⟨hl l hl', localLayer_congr radius _ _ _ _ hcase l (hl l hl')⟩)
      (List.Perm.of_eq (near_congr radius _ _ _ _ hcase))
    rw [energyAndForces_eq] at h1 h1'
    unfold segmentEnergies at h1 h1'
    rw [hcut] at h1
    cases ha : atomicEnergies tiny disk o cg M A.numbers (fun b => A.dst b) (fun b => A.src b) (displacements X A.dst A.src) with
    | error e => rw [ha] at h1; cases h1
    | ok E0 =>
      rw [ha] at h1 h1'
      rw [h2, h2']
      exact (congrArg (fun p => p.1.sum) (Except.ok.inj h1)).symm.trans (congrArg (fun p => p.1.sum) (Except.ok.inj h1'))
  exact hd1.unique ((hasDerivAt_const (0 : ℝ) (U X)).congr_of_eventuallyEq hconst)

/-! ### Renumbering and batches -/

theorem energies_length {tiny : ℝ} (ht : 0 < tiny) {disk : Disk SHCompressed} (hd : ValidDisk (shKind sphTerms) (shTable sphTerms) disk)
    {o : SaveOutcome} {cg : ℕ → ℕ → ℕ → ℝ} {M : Potential} {numbers : List ℕ} {m : ℕ} (hm : 0 < m) {dst src : Fin m → ℕ}
    {r : Fin m → Fin 3 → ℝ} {E : List ℝ} (hE : atomicEnergies tiny disk o cg M numbers dst src r = .ok E) :
    E.length = numbers.length := by
  rcases atomicEnergies_eq tiny ht disk hd M with ⟨e, -, he⟩ | ⟨g, f, d, -, -, -, he⟩
  · rw [he _ _ _ _ _ _ _ hm] at hE
    cases hE
  · rw [he _ _ _ _ _ _ _ hm] at hE
    obtain ⟨xs, -, hE⟩ := except_bind_ok hE
    exact finish_length hE

/-- A map between atoms as a map between their positions in the lists. -/
def extendNat {n' n : ℕ} (σ : Fin n' → Fin n) (i : ℕ) : ℕ := if h : i < n' then σ ⟨i, h⟩ else 0

theorem extendNat_coe {n' n : ℕ} (σ : Fin n' → Fin n) (i : Fin n') : extendNat σ i = σ i := by
  simp [extendNat]

theorem perm_sources {n m n' m' : ℕ} (f : Fin m → Fin n) (g : Fin m' → Fin n) (p : Fin m → Bool) (q : Fin m' → Bool)
    (h : ∀ j, (Finset.univ.filter fun b => p b ∧ f b = j).card = (Finset.univ.filter fun b => q b ∧ g b = j).card) :
    (((List.finRange m).filter p).map f).Perm (((List.finRange m').filter q).map g) := by
  rw [List.perm_iff_count]
  intro j
  have key : ∀ (m : ℕ) (f : Fin m → Fin n) (p : Fin m → Bool), List.count j (((List.finRange m).filter p).map f) =
      (Finset.univ.filter fun b => p b ∧ f b = j).card := by
    intro m f p
    rw [List.count, List.countP_map, List.countP_filter, List.countP_eq_length_filter]
    have : (Finset.univ.filter fun b => p b ∧ f b = j) = ((List.finRange m).filter fun b => f b == j && p b).toFinset := by
      ext b
      simp [and_comm]
    rw [this, List.toFinset_card_of_nodup ((List.nodup_finRange m).filter _)]
    rfl
  rw [key, key, h]

theorem graph_covers {n' m' n m : ℕ} {σ : Fin n' → Fin n} {A' : AtomGraph n' m'} {A : AtomGraph n m} (h : CoversGraph σ A' A)
    (X : Fin n → Fin 3 → ℝ) :
    CoversGeo (extendNat σ) n' n
      (geoEdges (fun b => A'.dst b) (fun b => A'.src b) (displacements (fun i => X (σ i)) A'.dst A'.src))
      (geoEdges (fun b => A.dst b) (fun b => A.src b) (displacements X A.dst A.src)) := by
  refine ⟨fun i hi => ?_, fun i hi => ?_⟩
  · unfold extendNat
    rw [dif_pos hi]
    exact (σ ⟨i, hi⟩).2
  · have e : extendNat σ i = σ ⟨i, hi⟩ := extendNat_coe σ ⟨i, hi⟩
    have hp := perm_sources (n' := n') A.src (fun b => σ (A'.src b)) (fun b => A.dst b = σ ⟨i, hi⟩) (fun b => A'.dst b = ⟨i, hi⟩)
      (by simpa using h.edges ⟨i, hi⟩)
    have hp := hp.map fun j : Fin n => (⟨σ ⟨i, hi⟩, j, fun k => X j k - X (σ ⟨i, hi⟩) k⟩ : GeoEdge)
    rw [List.map_map, List.map_map] at hp
    unfold geoInto geoEdges
    rw [List.ofFn_eq_map, List.ofFn_eq_map, List.filter_map, List.filter_map, List.map_map, e]
    refine List.Perm.trans (List.Perm.of_eq ?_) (hp.trans (List.Perm.of_eq ?_))
    · have : ((fun e : GeoEdge => decide (e.dst = (σ ⟨i, hi⟩ : ℕ))) ∘ fun b =>
          (⟨A.dst b, A.src b, displacements X A.dst A.src b⟩ : GeoEdge)) = fun b => decide (A.dst b = σ ⟨i, hi⟩) := by
        funext b
        show decide ((A.dst b : ℕ) = _) = _
        rw [decide_eq_decide, Fin.ext_iff]
      rw [this]
      refine List.map_congr_left fun b hb => ?_
      have hb : A.dst b = σ ⟨i, hi⟩ := by simpa using (List.mem_filter.1 hb).2
      simp only [Function.comp, ← hb]
      rfl
    · have : ((fun e : GeoEdge => decide (e.dst = i)) ∘ fun b =>
          (⟨A'.dst b, A'.src b, displacements (fun i => X (σ i)) A'.dst A'.src b⟩ : GeoEdge)) = fun b => decide (A'.dst b = ⟨i, hi⟩) := by
        funext b
        show decide ((A'.dst b : ℕ) = _) = _
        rw [decide_eq_decide, Fin.ext_iff]
      rw [this]
      refine List.map_congr_left fun b hb => ?_
      have hb : A'.dst b = ⟨i, hi⟩ := by simpa using (List.mem_filter.1 hb).2
      simp only [Function.comp, GeoEdge.relabel, extendNat_coe, ← hb]
      rfl

/-- The atomic energies of corresponding atoms agree. -/
theorem graph_energies {tiny : ℝ} (ht : 0 < tiny) {disk : Disk SHCompressed} (hd : ValidDisk (shKind sphTerms) (shTable sphTerms) disk)
    (o' o : SaveOutcome) (cg : ℕ → ℕ → ℕ → ℝ) (M : Potential) {n' m' n m : ℕ} {σ : Fin n' → Fin n} {A' : AtomGraph n' m'}
    {A : AtomGraph n m} (hA' : WellFormedGraph A') (hA : WellFormedGraph A) (h : CoversGraph σ A' A) (X : Fin n → Fin 3 → ℝ) :
    atomicEnergies tiny disk o' cg M A'.numbers (fun b => A'.dst b) (fun b => A'.src b)
        (displacements (fun i => X (σ i)) A'.dst A'.src) =
      (atomicEnergies tiny disk o cg M A.numbers (fun b => A.dst b) (fun b => A.src b) (displacements X A.dst A.src)).map
        fun E => List.ofFn fun i => E.getD (σ i) 0 := by
  obtain ⟨hn', hm'⟩ := hA'
  obtain ⟨hn, hm⟩ := hA
  have hpos : 0 < n' := (A'.dst ⟨0, hm'⟩).pos
  rw [C62_covering tiny ht disk hd o' o cg M (extendNat σ) A'.numbers A.numbers _ _ _ _ _ _ hm' hm (by omega)
    (by rw [hn', hn]; exact graph_covers h X) (fun i hi => by
      have := h.numbers ⟨i, by omega⟩
      rw [extendNat, dif_pos (by omega)]
      exact this) (fun b _ => by rw [hn']; exact (A'.src b).2) (fun b _ => by rw [hn]; exact (A.src b).2)]
  congr 1
  funext E
  apply List.ext_getElem
  · simp [hn']
  · intro i h1 h2
    have h2 : i < n' := by simpa using h2
    simp [extendNat, h2]

/-- A batch of one structure. -/
theorem totalEnergies_single (E : List ℝ) (numbers : List ℕ) (h : E.length = numbers.length) :
    totalEnergies E (numbers.map fun _ => 0) 1 = [E.sum] := by
  apply List.ext_getElem?
  intro i
  by_cases hi : i < 1
  · obtain rfl : i = 0 := by omega
    rw [totalEnergies_get E _ (by simp [h]) 1 0 (by omega), list_sum_getD]
    simp only [List.getElem?_cons_zero]
    congr 1
    refine Finset.sum_congr rfl fun j hj => ?_
    have : (numbers.map fun _ => 0).getD j 0 = 0 := by
      rw [List.getD_eq_getElem _ _ (by simp; rw [Finset.mem_range] at hj; omega)]
      simp
    rw [this, if_pos rfl]
  · rw [List.getElem?_eq_none (by unfold totalEnergies; rw [segmentReduce_length]; omega), List.getElem?_eq_none (by simp; omega)]

/-- **C64 (renumbering).** If the atoms of a structure are numbered in another order, and its edges accordingly, in any order, the
energy does not change and the forces are numbered in the new order. -/
theorem C64_renumber (tiny : ℝ) (ht : 0 < tiny) (disk : Disk SHCompressed)
    (hd : ValidDisk (shKind sphTerms) (shTable sphTerms) disk) (o' o : SaveOutcome) (cg : ℕ → ℕ → ℕ → ℝ) (M : Potential)
    {n' m' n m : ℕ} (σ : Fin n' ≃ Fin n) (A' : AtomGraph n' m') (A : AtomGraph n m) (hA' : WellFormedGraph A') (hA : WellFormedGraph A)
    (h : CoversGraph σ A' A) (X : Fin n → Fin 3 → ℝ) :
    energyAndForces tiny disk o' cg M A' none (fun i => X (σ i)) =
      (energyAndForces tiny disk o cg M A none X).map fun out => (out.1, fun i => out.2 (σ i)) := by
  have hs : ∀ X, segmentEnergies tiny disk o' cg M A' (batchOf A' none).1 (batchOf A' none).2 (fun i => X (σ i)) =
      segmentEnergies tiny disk o cg M A (batchOf A none).1 (batchOf A none).2 X := by
    intro X
    unfold segmentEnergies
    rw [graph_energies ht hd o' o cg M hA' hA h X]
    cases hE : atomicEnergies tiny disk o cg M A.numbers (fun b => A.dst b) (fun b => A.src b) (displacements X A.dst A.src) with
    | error e => rfl
    | ok E =>
      have hl := energies_length ht hd hA.2 hE
      simp only [Except.map]
      congr 1
      show totalEnergies _ (A'.numbers.map fun _ => 0) 1 = totalEnergies _ (A.numbers.map fun _ => 0) 1
      rw [totalEnergies_single _ _ hl, totalEnergies_single _ _ (by rw [List.length_ofFn, hA'.1]), List.sum_ofFn, list_sum_getD, hl, hA.1]
      congr 1
      rw [Finset.sum_range]
      exact Equiv.sum_comp σ fun j : Fin n => E.getD j 0
  rw [energyAndForces_eq, energyAndForces_eq, hs]
  cases segmentEnergies tiny disk o cg M A (batchOf A none).1 (batchOf A none).2 X with
  | error e => rfl
  | ok E =>
    simp only [Except.map]
    congr 2
    funext i k
    let e : (Fin n → Fin 3 → ℝ) ≃L[ℝ] (Fin n' → Fin 3 → ℝ) := LinearEquiv.toContinuousLinearEquiv
      { toFun := fun X i => X (σ i), map_add' := fun _ _ => rfl, map_smul' := fun _ _ => rfl, invFun := fun X i => X (σ.symm i)
        left_inv := fun X => by funext i; simp
        right_inv := fun X => by funext i; simp }
    have e0 : proxyOutput tiny disk o cg M A (batchOf A none).1 (batchOf A none).2 =
        proxyOutput tiny disk o' cg M A' (batchOf A' none).1 (batchOf A' none).2 ∘ e := by
      funext X
      show _ = proxyOutput tiny disk o' cg M A' (batchOf A' none).1 (batchOf A' none).2 (fun i => X (σ i))
      unfold proxyOutput
      rw [hs]
    rw [e0, ContinuousLinearEquiv.comp_right_fderiv]
    show fderiv ℝ _ _ _ = fderiv ℝ _ _ (e (unitMove (σ i) k))
    have e1 : e (unitMove (σ i) k) = unitMove i k := select_unitMove σ.injective i k
    rw [e1]
    rfl

/-- **C64 (batches).** In a batch of structures (atom `i` of structure `s` is atom `σ s i` of the batch, every atom of the batch
belongs to one of the structures, and the atoms have the edges of their structures) every structure gets the energy and the
forces that it gets on its own. -/
theorem C64_batch (tiny : ℝ) (ht : 0 < tiny) (disk : Disk SHCompressed)
    (hd : ValidDisk (shKind sphTerms) (shTable sphTerms) disk) (o' o : SaveOutcome) (cg : ℕ → ℕ → ℕ → ℝ) (M : Potential) {B : ℕ}
    (n' m' : Fin B → ℕ) {n m : ℕ} (A' : ∀ s, AtomGraph (n' s) (m' s)) (A : AtomGraph n m) (hA' : ∀ s, WellFormedGraph (A' s))
    (hA : WellFormedGraph A) (σ : ∀ s, Fin (n' s) → Fin n) (hσ : ∀ s, Function.Injective (σ s)) (h : ∀ s, CoversGraph (σ s) (A' s) A)
    (segments : List ℕ) (hseg : segments.length = n) (hB : ∀ s i, segments[(σ s i : ℕ)]? = some (s : ℕ))
    (hall : ∀ j, ∃ s i, σ s i = j) (U : ∀ s, (Fin (n' s) → Fin 3 → ℝ) → ℝ)
    (F : ∀ s, (Fin (n' s) → Fin 3 → ℝ) → Fin (n' s) → Fin 3 → ℝ)
    (hU : ∀ s, Predicts (energyAndForces tiny disk o' cg M (A' s) none) (U s) (F s)) (X : Fin n → Fin 3 → ℝ)
    (hdiff : ∀ s, DifferentiableAt ℝ (U s) fun i => X (σ s i)) :
    ∃ E G, energyAndForces tiny disk o cg M A (some (segments, B)) X = .ok (E, G) ∧ E.length = B ∧
      ∀ s : Fin B, E[(s : ℕ)]? = some (U s fun i => X (σ s i)) ∧ ∀ i, G (σ s i) = F s (fun i => X (σ s i)) i := by
  have hUs : ∀ s Y, ∃ E', atomicEnergies tiny disk o' cg M (A' s).numbers (fun b => (A' s).dst b) (fun b => (A' s).src b)
      (displacements Y (A' s).dst (A' s).src) = .ok E' ∧ U s Y = E'.sum := by
    intro s Y
    obtain ⟨E, h1, h2⟩ := hU s Y
    rw [energyAndForces_eq] at h1
    unfold segmentEnergies at h1
    cases ha : atomicEnergies tiny disk o' cg M (A' s).numbers (fun b => (A' s).dst b) (fun b => (A' s).src b)
      (displacements Y (A' s).dst (A' s).src) with
    | error e => rw [ha] at h1; cases h1
    | ok E' =>
      rw [ha] at h1
      have e1 : totalEnergies E' ((A' s).numbers.map fun _ => 0) 1 = E := congrArg Prod.fst (Except.ok.inj h1)
      rw [totalEnergies_single _ _ (energies_length ht hd (hA' s).2 ha)] at e1
      exact ⟨E', rfl, by rw [h2, ← e1]; simp⟩
  have hseg' : ∀ Y, ∃ E, segmentEnergies tiny disk o cg M A segments B Y = .ok E ∧ E.length = B ∧
      ∀ s : Fin B, E[(s : ℕ)]? = some (U s fun i => Y (σ s i)) := by
    intro Y
    have hm := hA.2
    obtain ⟨s0, -, -⟩ := hall (A.dst ⟨0, hm⟩)
    have hok : ∃ E, atomicEnergies tiny disk o cg M A.numbers (fun b => A.dst b) (fun b => A.src b) (displacements Y A.dst A.src) = .ok E := by
      obtain ⟨E', h1, -⟩ := hUs s0 fun i => Y (σ s0 i)
      rw [graph_energies ht hd o' o cg M (hA' s0) hA (h s0) Y] at h1
      cases ha : atomicEnergies tiny disk o cg M A.numbers (fun b => A.dst b) (fun b => A.src b) (displacements Y A.dst A.src) with
      | error e => rw [ha] at h1; cases h1
      | ok E => exact ⟨E, rfl⟩
    obtain ⟨E, hE⟩ := hok
    refine ⟨totalEnergies E segments B, by unfold segmentEnergies; rw [hE]; rfl, by unfold totalEnergies; rw [segmentReduce_length], ?_⟩
    intro s
    obtain ⟨E', h1, h2⟩ := hUs s fun i => Y (σ s i)
    have hl := energies_length ht hd hm hE
    rw [graph_energies ht hd o' o cg M (hA' s) hA (h s) Y, hE] at h1
    have h1 : (List.ofFn fun i => E.getD (σ s i) 0) = E' := Except.ok.inj h1
    rw [h2, ← h1, totalEnergies_get E segments (by rw [hl, hA.1, hseg]) B s s.2, List.sum_ofFn, hl, hA.1, Finset.sum_range]
    congr 1
    rw [← Finset.sum_filter]
    refine (Finset.sum_bij (fun i _ => σ s i) ?_ ?_ ?_ ?_).symm
    · intro i _
      rw [Finset.mem_filter, List.getD_eq_getElem?_getD, hB]
      exact ⟨Finset.mem_univ _, rfl⟩
    · intro i _ j _ hij
      exact hσ s hij
    · intro j hj
      rw [Finset.mem_filter] at hj
      obtain ⟨s', i, hi⟩ := hall j
      have := hj.2
      rw [← hi, List.getD_eq_getElem?_getD, hB, Option.getD_some, ← Fin.ext_iff] at this
      subst this
      exact ⟨i, Finset.mem_univ _, hi⟩
    · intro i _
      rfl
  have hproxy : proxyOutput tiny disk o cg M A segments B = fun Y => -∑ s, U s fun i => Y (σ s i) := by
    funext Y
    obtain ⟨E, hE, hl, hs⟩ := hseg' Y
    unfold proxyOutput
    rw [hE]
    dsimp only
    rw [list_sum_getD, hl, Finset.sum_range]
    congr 1
    refine Finset.sum_congr rfl fun s _ => ?_
    rw [List.getD_eq_getElem?_getD, hs]
    rfl
  obtain ⟨E, hE, hl, hs⟩ := hseg' X
  refine ⟨E, fun i k => fderiv ℝ (proxyOutput tiny disk o cg M A segments B) X (unitMove i k), ?_, hl, fun s => ⟨hs s, fun i => ?_⟩⟩
  · rw [energyAndForces_eq]
    show (segmentEnergies tiny disk o cg M A segments B X).map _ = _
    rw [hE]
    rfl
  · funext k
    have hF : HasFDerivAt (fun Y : Fin n → Fin 3 → ℝ => -∑ s, U s fun i => Y (σ s i))
        (-∑ s, (fderiv ℝ (U s) fun i => X (σ s i)).comp (selectLinear (σ s))) X :=
      (HasFDerivAt.fun_sum fun s _ => grad_select (σ s) X (hdiff s)).fun_neg
    rw [hproxy, hF.fderiv, (proxy_of_predicts (hU s)).2]
    dsimp only
    rw [neg_apply, sum_apply, Finset.sum_eq_single s]
    · rw [ContinuousLinearMap.comp_apply, select_unitMove (hσ s)]
    · intro s' _ hs'
      rw [ContinuousLinearMap.comp_apply, select_unitMove_zero, map_zero]
      intro i' hi'
      have := hB s' i'
      rw [hi', hB] at this
      exact hs' (Fin.ext (Option.some.inj this).symm)
    · simp

/-! ### Where the energies are differentiable -/

/-- The number of segments of a batch is arbitrary, but each atom has a segment. -/
theorem batch_length {n m : ℕ} {A : AtomGraph n m} {batch : Option (List ℕ × ℕ)} (hA : A.numbers.length = n)
    (hb : ∀ b ∈ batch, b.1.length = n) : (batchOf A batch).1.length = n := by
  cases batch with
  | none =>
    show (A.numbers.map fun _ => 0).length = n
    rw [List.length_map, hA]
  | some b => exact hb b rfl

theorem predicts_of_energies {tiny : ℝ} (ht : 0 < tiny) {disk : Disk SHCompressed}
    (hd : ValidDisk (shKind sphTerms) (shTable sphTerms) disk) {o : SaveOutcome} {cg : ℕ → ℕ → ℕ → ℝ} {M : Potential} {n m : ℕ}
    {A : AtomGraph n m} (hA : WellFormedGraph A) {batch : Option (List ℕ × ℕ)} (hb : ∀ b ∈ batch, b.1.length = n)
    {E : (Fin n → Fin 3 → ℝ) → List ℝ} (hE : ∀ X, atomicEnergies tiny disk o cg M A.numbers (fun b => A.dst b) (fun b => A.src b)
      (displacements X A.dst A.src) = .ok (E X)) :
    ∃ U F, Predicts (energyAndForces tiny disk o cg M A batch) U F ∧
      ∀ k X0, (∀ i, ContDiffAt ℝ k (fun X => (E X).getD i 0) X0) → ContDiffAt ℝ k U X0 := by
  refine ⟨fun X => (totalEnergies (E X) (batchOf A batch).1 (batchOf A batch).2).sum,
    fun X i k => fderiv ℝ (proxyOutput tiny disk o cg M A (batchOf A batch).1 (batchOf A batch).2) X (unitMove i k),
    fun X => ⟨_, ?_, rfl⟩, fun k X0 h => ?_⟩
  · rw [energyAndForces_eq]
    unfold segmentEnergies
    rw [hE X]
    rfl
  · have hlen : ∀ X, (E X).length = n := fun X => by rw [energies_length ht hd hA.2 (hE X), hA.1]
    have hseg := batch_length hA.1 hb
    have : (fun X => (totalEnergies (E X) (batchOf A batch).1 (batchOf A batch).2).sum) = fun X =>
        ∑ s ∈ Finset.range (batchOf A batch).2, ∑ j ∈ Finset.range n, if (batchOf A batch).1.getD j 0 = s then (E X).getD j 0 else 0 := by
      funext X
      rw [list_sum_getD]
      have hl : (totalEnergies (E X) (batchOf A batch).1 (batchOf A batch).2).length = (batchOf A batch).2 := by
        unfold totalEnergies
        rw [segmentReduce_length]
      rw [hl]
      refine Finset.sum_congr rfl fun s hs => ?_
      rw [List.getD_eq_getElem?_getD, totalEnergies_get _ _ (by rw [hlen, hseg]) _ _ (Finset.mem_range.1 hs), Option.getD_some, hlen]
    rw [this]
    refine ContDiffAt.sum fun s _ => ContDiffAt.sum fun j _ => ?_
    split
    · exact h j
    · exact contDiffAt_const

/-- **C64 (differentiability).** Under the conditions of C63, either all calls raise an exception, or the energy is `k` times
continuously differentiable where the atoms of every edge are at different positions; for `k ≥ 1` these are points at which the
other properties of the forces hold. -/
theorem C64_smooth (tiny : ℝ) (ht : 0 < tiny) (disk : Disk SHCompressed)
    (hd : ValidDisk (shKind sphTerms) (shTable sphTerms) disk) (o : SaveOutcome) (cg : ℕ → ℕ → ℕ → ℝ) (M : Potential)
    (k : WithTop ℕ∞) (g : ℝ → ℕ → ℝ) (f d : ℝ → ℝ) (hg : ∀ x, M.radialFn x M.num = .ok (g x)) (hf : ∀ x, M.cutoffFn x = .ok (f x))
    (hdamp : ∀ df, M.dampingFn = some df → ∀ x, df x = .ok (d x)) {n m : ℕ} (A : AtomGraph n m) (hA : WellFormedGraph A)
    (batch : Option (List ℕ × ℕ)) (hb : ∀ b ∈ batch, b.1.length = n) (X0 : Fin n → Fin 3 → ℝ)
    (hX : ∀ b, X0 (A.src b) ≠ X0 (A.dst b))
    (hgs : ∀ b j, ContDiffAt ℝ k (fun x => g x j) (Spec.length (displacements X0 A.dst A.src b)))
    (hfs : ∀ b, ContDiffAt ℝ k f (Spec.length (displacements X0 A.dst A.src b)))
    (hds : M.dampingFn ≠ none → ∀ b, ContDiffAt ℝ k d (Spec.length (displacements X0 A.dst A.src b)))
    (hl : ∀ l ∈ M.layers, SmoothLayer k l)
    (ha : ∀ l ∈ M.layers, AttentionDefined A.dst (fun b => f (Spec.length (displacements X0 A.dst A.src b))) l) :
    (∃ e, ∀ X, energyAndForces tiny disk o cg M A batch X = .error e) ∨
      ∃ U F, Predicts (energyAndForces tiny disk o cg M A batch) U F ∧ ContDiffAt ℝ k U X0 := by
  have hA0 := hA
  obtain ⟨numbers, dst, src⟩ := A
  obtain ⟨hn, hm⟩ := hA
  dsimp only at hn
  subst hn
  rcases C63_smooth tiny ht disk hd o cg M k g f d hg hf hdamp numbers hm dst src X0 hX hgs hfs hds hl ha with ⟨e, h⟩ | ⟨E, hE, hs⟩
  · refine Or.inl ⟨e, fun X => ?_⟩
    rw [energyAndForces_eq]
    unfold segmentEnergies
    dsimp only
    rw [h X]
    rfl
  · obtain ⟨U, F, h1, h2⟩ := predicts_of_energies ht hd (M := M) hA0 hb hE
    exact Or.inr ⟨U, F, h1, h2 k X0 hs⟩

/-- **C64 (the example).** The md17 example returns energies and forces for all positions. Its energy is differentiable, and its
forces are the negative gradient (and by the other parts of C64 conservative, equivariant and so on), wherever the lengths of all
edges are between the thresholds of C63. -/
theorem C64_md17 (tiny : ℝ) (ht : 0 < tiny) (disk : Disk SHCompressed)
    (hd : ValidDisk (shKind sphTerms) (shTable sphTerms) disk) (o : SaveOutcome) (cg : ℕ → ℕ → ℕ → ℝ)
    (epsneg eps : ℝ) (he : 0 < epsneg) (features maxDegree numIterations numBasisFunctions : ℕ) (hbf : 0 < numBasisFunctions)
    (cutoff : ℝ) (hcut : 0 < cutoff) (cart : Bool) (embedding : ℕ → ℕ → ℝ) (P : ℕ → IterParams) (kernel elementBias : ℕ → ℝ)
    {n m : ℕ} (A : AtomGraph n m) (hA : WellFormedGraph A) (batch : Option (List ℕ × ℕ)) (hb : ∀ b ∈ batch, b.1.length = n) :
    ∃ U F, Predicts (energyAndForces tiny disk o cg (md17 epsneg eps features maxDegree numIterations numBasisFunctions cutoff cart
        embedding P kernel elementBias) A batch) U F ∧
      ∀ X, (∀ b, epsneg < Spec.length (displacements X A.dst A.src b) / (Spec.length (displacements X A.dst A.src b) + 1) ∧
        Spec.length (displacements X A.dst A.src b) / (Spec.length (displacements X A.dst A.src b) + 1) < 1 - epsneg) →
        DifferentiableAt ℝ U X ∧ ∀ v, HasDerivAt (fun s : ℝ => U (X + s • v)) (-power (F X) v) 0 := by
  have hA0 := hA
  obtain ⟨numbers, dst, src⟩ := A
  obtain ⟨hn, hm⟩ := hA
  dsimp only at hn
  subst hn
  obtain ⟨E, hE, hs⟩ := C63_md17 tiny ht disk hd o cg epsneg eps he features maxDegree numIterations numBasisFunctions hbf cutoff hcut
    cart embedding P kernel elementBias numbers hm dst src
  obtain ⟨U, F, h1, h2⟩ := predicts_of_energies ht hd hA0 hb hE
  refine ⟨U, F, h1, fun X hX => ?_⟩
  have hd : DifferentiableAt ℝ U X := (h2 _ X (hs X hX)).differentiableAt (by simp)
  refine ⟨hd, fun v => ?_⟩
  have hc : HasDerivAt (fun s : ℝ => X + s • v) v 0 := by
    simpa using ((hasDerivAt_id (0 : ℝ)).smul_const v).const_add X
  have h0 : X + (0 : ℝ) • v = X := by simp
  have := C64_gradient _ _ _ _ _ _ _ U F h1 (fun s : ℝ => X + s • v) v 0 hc (by rw [h0]; exact hd)
  simpa only [h0] using this

/-! ### Non-vacuity -/

/-- A dimer. -/
def dimerGraph (a b : ℕ) : AtomGraph 2 2 := ⟨[a, b], ![0, 1], ![1, 0]⟩

theorem dimer_length (X : Fin 2 → Fin 3 → ℝ) (ℓ : ℝ) (h0 : 0 ≤ ℓ) (h : ∑ k, (X 1 k - X 0 k) ^ 2 = ℓ ^ 2) (b : Fin 2) (a c : ℕ) :
    Spec.length (displacements X (dimerGraph a c).dst (dimerGraph a c).src b) = ℓ := by
  unfold Spec.length
  rw [Real.sqrt_eq_iff_eq_sq (by positivity) h0, ← h]
  fin_cases b
  · rfl
  · refine Finset.sum_congr rfl fun k _ => ?_
    show (X 0 k - X 1 k) ^ 2 = _
    ring

-- A dimer in the md17 example at the distance 2, smaller than the cutoff radius: the conditions of the theorems about the
-- gradient, the net force, the torque and the batch hold.
example (tiny : ℝ) (ht : 0 < tiny) (disk : Disk SHCompressed) (hd : ValidDisk (shKind sphTerms) (shTable sphTerms) disk)
    (o : SaveOutcome) (eps : ℝ) (embedding : ℕ → ℕ → ℝ) (P : ℕ → IterParams) (kernel elementBias : ℕ → ℝ) :
    let M := md17 (1 / 2 ^ 24) eps 32 2 3 16 5 false embedding P kernel elementBias
    let X : Fin 2 → Fin 3 → ℝ := ![![0, 0, 0], ![2, 0, 0]]
    ∃ U F, Predicts (energyAndForces tiny disk o (cgTensor false) M (dimerGraph 1 8) none) U F ∧
      F X 0 = -F X 1 ∧ F X 0 1 = 0 ∧ F X 0 2 = 0 := by
  intro M X
  obtain ⟨U, F, h1, h2⟩ := C64_md17 tiny ht disk hd o (cgTensor false) (1 / 2 ^ 24) eps (by positivity) 32 2 3 16 (by norm_num) 5
    (by norm_num) false embedding P kernel elementBias (dimerGraph 1 8) ⟨rfl, by norm_num⟩ none (by simp)
  have hl : ∀ b, Spec.length (displacements X (dimerGraph 1 8).dst (dimerGraph 1 8).src b) = 2 := fun b =>
    dimer_length X 2 (by norm_num) (by simp [X, Fin.sum_univ_three]) b 1 8
  obtain ⟨hU, -⟩ := h2 X fun b => by
    rw [hl]
    norm_num
  have hnet := C64_net_force _ _ _ _ _ _ _ U F h1 X hU
  have htor := C64_torque tiny ht disk hd o (cgTensor false) M (libraryCG_cgTensor false) _ _ U F h1 X hU
  have hn : ∀ k, F X 0 k = -F X 1 k := fun k => by
    have := hnet k
    rw [Fin.sum_univ_two] at this
    linarith
  refine ⟨U, F, h1, funext hn, ?_, ?_⟩
  · have := htor 0 1
    rw [Fin.sum_univ_two] at this
    simp [X] at this
    rw [hn, this, neg_zero]
  · have := htor 0 2
    rw [Fin.sum_univ_two] at this
    simp [X] at this
    rw [hn, this, neg_zero]

-- Two atoms farther apart than the cutoff radius pass each other with constant velocity: Newton's equations hold, and the energy
-- is conserved.
example (tiny : ℝ) (ht : 0 < tiny) (disk : Disk SHCompressed) (hd : ValidDisk (shKind sphTerms) (shTable sphTerms) disk)
    (o : SaveOutcome) (eps : ℝ) (embedding : ℕ → ℕ → ℝ) (P : ℕ → IterParams) (kernel elementBias : ℕ → ℝ) (mass : Fin 2 → ℝ) :
    let M := md17 (1 / 2 ^ 24) eps 32 2 3 16 2 false embedding P kernel elementBias
    let x : ℝ → Fin 2 → Fin 3 → ℝ := fun t => ![![0, 0, 0], ![3, t, 0]]
    ∃ U F, Predicts (energyAndForces tiny disk o (cgTensor false) M (dimerGraph 1 8) none) U F ∧ U (x 1) = U (x 0) := by
  intro M x
  obtain ⟨U, F, h1, h2⟩ := C64_md17 tiny ht disk hd o (cgTensor false) (1 / 2 ^ 24) eps (by positivity) 32 2 3 16 (by norm_num) 2
    (by norm_num) false embedding P kernel elementBias (dimerGraph 1 8) ⟨rfl, by norm_num⟩ none (by simp)
  have hl : ∀ t b, Spec.length (displacements (x t) (dimerGraph 1 8).dst (dimerGraph 1 8).src b) = √(9 + t ^ 2) := fun t b =>
    dimer_length (x t) _ (Real.sqrt_nonneg _) (by
      rw [Real.sq_sqrt (by positivity)]
      simp [x, Fin.sum_univ_three]
      norm_num) b 1 8
  have hU : ∀ t ∈ Set.Icc (0 : ℝ) 1, DifferentiableAt ℝ U (x t) := by
    intro t ht
    refine (h2 (x t) fun b => ?_).1
    rw [hl]
    have hs1 : 3 ≤ √(9 + t ^ 2) := Real.le_sqrt_of_sq_le (by nlinarith [sq_nonneg t])
    have hs2 : √(9 + t ^ 2) ≤ 4 := Real.sqrt_le_iff.2 ⟨by norm_num, by nlinarith [ht.1, ht.2]⟩
    constructor
    · rw [lt_div_iff₀ (by linarith)]
      linarith
    · rw [div_lt_iff₀ (by linarith)]
      linarith
  have hF : ∀ t ∈ Set.Icc (0 : ℝ) 1, F (x t) = 0 := by
    intro t ht'
    funext i
    refine C64_local tiny ht disk hd o (cgTensor false) M 2 (by norm_num) (Or.inl fun _ => rfl) (dimerGraph 1 8)
      ⟨rfl, by norm_num⟩ none U F h1 (x t) (hU t ht') (fun l hl => ?_) i fun b _ => ?_
    · have : l ∈ md17Layers 32 P 3 0 1 := hl
      simp only [md17Layers, List.mem_append, List.mem_cons, List.not_mem_nil, or_false] at this
      rcases this with (h | h | h | h | h | h) | (h | h | h | h | h | h) | (h | h | h | h | h | h | h) <;> subst h <;> trivial
    · rw [hl]
      exact Real.lt_sqrt_of_sq_lt (by nlinarith [sq_nonneg t])
  refine ⟨U, F, h1, ?_⟩
  have hx : ∀ t, HasDerivAt x ((fun _ => ![![0, 0, 0], ![0, 1, 0]]) t) t := by
    intro t
    rw [hasDerivAt_pi]
    intro i
    rw [hasDerivAt_pi]
    intro k
    fin_cases i <;> fin_cases k
    · exact hasDerivAt_const _ _
    · exact hasDerivAt_const _ _
    · exact hasDerivAt_const _ _
    · exact hasDerivAt_const _ _
    · exact hasDerivAt_id _
    · exact hasDerivAt_const _ _
  have := C64_conservation _ _ _ _ _ _ _ U F h1 mass x (fun _ => ![![0, 0, 0], ![0, 1, 0]]) (fun _ => 0) 0 1 (fun t _ => hx t)
    (fun t _ => hasDerivAt_const _ _) (fun t ht i k => by rw [hF t ht]; simp) hU 1 ⟨by norm_num, le_refl _⟩
  linarith

-- Renumbering the atoms of a dimer.
example : CoversGraph (Equiv.swap (0 : Fin 2) 1) (dimerGraph 8 1) (dimerGraph 1 8) :=
  ⟨by decide, by decide⟩

/-- Two dimers. -/
def twoDimers : AtomGraph 4 4 := ⟨[1, 8, 6, 8], ![0, 1, 2, 3], ![1, 0, 3, 2]⟩

-- A batch of two dimers.
example (tiny : ℝ) (ht : 0 < tiny) (disk : Disk SHCompressed) (hd : ValidDisk (shKind sphTerms) (shTable sphTerms) disk)
    (o : SaveOutcome) (cg : ℕ → ℕ → ℕ → ℝ) (eps : ℝ) (embedding : ℕ → ℕ → ℝ) (P : ℕ → IterParams) (kernel elementBias : ℕ → ℝ) :
    let M := md17 (1 / 2 ^ 24) eps 32 2 3 16 5 false embedding P kernel elementBias
    let A' : Fin 2 → AtomGraph 2 2 := ![dimerGraph 1 8, dimerGraph 6 8]
    let X : Fin 4 → Fin 3 → ℝ := ![![0, 0, 0], ![2, 0, 0], ![0, 0, 0], ![0, 2, 0]]
    ∃ (U : Fin 2 → (Fin 2 → Fin 3 → ℝ) → ℝ) (F : Fin 2 → (Fin 2 → Fin 3 → ℝ) → Fin 2 → Fin 3 → ℝ),
      (∀ s, Predicts (energyAndForces tiny disk o cg M (A' s) none) (U s) (F s)) ∧
      ∃ E G, energyAndForces tiny disk o cg M twoDimers (some ([0, 0, 1, 1], 2)) X = .ok (E, G) ∧
        E[1]? = some (U 1 ![![0, 0, 0], ![0, 2, 0]]) ∧ G 3 = F 1 ![![0, 0, 0], ![0, 2, 0]] 1 := by
  intro M A' X
  have hU := fun s => C64_md17 tiny ht disk hd o cg (1 / 2 ^ 24) eps (by positivity) 32 2 3 16 (by norm_num) 5
    (by norm_num) false embedding P kernel elementBias (A' s) (by fin_cases s <;> exact ⟨rfl, by norm_num⟩) none (by simp)
  choose U F h1 h2 using hU
  let σ : Fin 2 → Fin 2 → Fin 4 := ![![0, 1], ![2, 3]]
  obtain ⟨E, G, hE, -, hs⟩ := C64_batch tiny ht disk hd o o cg M (fun _ => 2) (fun _ => 2) A' twoDimers
    (by intro s; fin_cases s <;> exact ⟨rfl, by norm_num⟩) ⟨rfl, by norm_num⟩ σ (by decide)
    (by intro s; fin_cases s <;> exact ⟨by decide, by decide⟩) [0, 0, 1, 1] rfl (by decide) (by decide) U F h1 X (by
      intro s
      refine (h2 s _ fun b => ?_).1
      have hl : Spec.length (displacements (fun i => X (σ s i)) (A' s).dst (A' s).src b) = 2 := by
        fin_cases s
        · exact dimer_length _ 2 (by norm_num) (by simp [X, σ, Fin.sum_univ_three]) b 1 8
        · exact dimer_length _ 2 (by norm_num) (by simp [X, σ, Fin.sum_univ_three]) b 6 8
      rw [hl]
      norm_num)
  refine ⟨U, F, h1, E, G, hE, ?_, ?_⟩
  · have := (hs 1).1
    rw [show (fun i => X (σ 1 i)) = ![![0, 0, 0], ![0, 2, 0]] from by funext i; fin_cases i <;> rfl] at this
    exact this
  · have := (hs 1).2 1
    rw [show (fun i => X (σ 1 i)) = ![![0, 0, 0], ![0, 2, 0]] from by funext i; fin_cases i <;> rfl] at this
    exact this

end E3x
