import Verif.Lemmas.Reorder
import Verif.Lemmas.SphericalHarmonics
import Verif.Lemmas.Inertia
import Verif.Props.Exchange
import Verif.Props.SphericalHarmonics
import Verif.Props.WignerD
import Verif.Props.Energy
import Verif.Props.Tetracubes

/-!
# C70: the two orders of irreps
-/

namespace E3x

open Finset Spec

variable {cart cart' : Bool} {π : ℕ → ℕ}

/-- **C70 (the correspondence).** For each pair of orders there is exactly one correspondence between positions which keeps
degrees and orders; it is a bijection whose inverse is the correspondence in the other direction, and it keeps every array of
features inside its bounds. -/
theorem C70_correspondence (cart cart' : Bool) : ∃ π π', IsReordering cart cart' π ∧ IsReordering cart' cart π' ∧
    (∀ ρ, IsReordering cart cart' ρ → ρ = π) ∧ (∀ j, π (π' j) = j) ∧ (∀ j, π' (π j) = j) ∧
    ∀ L j, π j < (L + 1) ^ 2 ↔ j < (L + 1) ^ 2 :=
  ⟨_, _, reorder_exists cart cart', reorder_exists cart' cart, fun _ h => reorder_unique h (reorder_exists cart cart'),
    reorder_inverse (reorder_exists cart cart') (reorder_exists cart' cart),
    reorder_inverse (reorder_exists cart' cart) (reorder_exists cart cart'),
    fun _ _ => reorder_lt (reorder_exists cart cart')⟩

-- The vector components: Cartesian order has x, y, z where the other order has y, z, x.
example (h : IsReordering true false π) : π 0 = 0 ∧ π 1 = 2 ∧ π 2 = 3 ∧ π 3 = 1 := by
  rw [reorder_unique h (reorder_exists true false)]
  decide +kernel

/-- **C70 (spherical harmonics).** The two orders give the same numbers at the corresponding positions, for all inputs,
normalisations and states of the cache; exceptions are the same. -/
theorem C70_harmonics (h : IsReordering cart cart' π) (tiny : ℝ) (disk disk' : Disk SHCompressed)
    (hd : ValidDisk (shKind sphTerms) (shTable sphTerms) disk) (hd' : ValidDisk (shKind sphTerms) (shTable sphTerms) disk')
    (o o' : SaveOutcome) {ι : Type} [Fintype ι] (r : ι → Fin 3 → ℝ) (L : ℕ) (isNorm : Bool) (s : String) :
    sphericalHarmonics tiny disk' o' r L isNorm cart' s =
      (sphericalHarmonics tiny disk o r L isNorm cart s).map fun y b j => y b (π j) := by
  rw [sphericalHarmonics_eq tiny disk' hd', sphericalHarmonics_eq tiny disk hd]
  by_cases hs : s ∈ normNames
  · rw [if_pos hs, if_pos hs]
    cases (if isNorm = true then Except.ok r else normalize tiny r) with
    | error e => rfl
    | ok u =>
      simp only [Except.map]
      congr 1
      funext b j
      unfold harmonics
      rw [(h j).1, (h j).2]
      simp only [reorder_lt h]
  · rw [if_neg hs, if_neg hs]
    rfl

/-- **C70 (Wigner-D matrices).** Rows and columns are at the corresponding positions. -/
theorem C70_wigner_d (h : IsReordering cart cart' π) (disk disk' : Disk WDCompressed)
    (hd : ValidDisk (wdKind wigTerms) (wdTable wigTerms) disk) (hd' : ValidDisk (wdKind wigTerms) (wdTable wigTerms) disk')
    (o o' : SaveOutcome) (R : Fin 3 → Fin 3 → ℝ) (L : ℕ) :
    wignerD disk' o' R L cart' = (wignerD disk o R L cart).map fun D i j => D (π i) (π j) := by
  rw [wignerD_eq disk' hd', wignerD_eq disk hd]
  simp only [Except.map, reorder_lt h, dMatrix_reorder h]

/-- **C70 (Clebsch-Gordan coefficients).** All three axes are at the corresponding positions. -/
theorem C70_clebsch_gordan (h : IsReordering cart cart' π) (disk disk' : Disk CGCompressed)
    (hd : ValidDisk (cgKind symClebschGordan) (cgTable symClebschGordan) disk)
    (hd' : ValidDisk (cgKind symClebschGordan) (cgTable symClebschGordan) disk') (o o' : SaveOutcome) (l1 l2 l3 : ℕ) :
    clebschGordan disk' o' l1 l2 l3 cart' =
      (clebschGordan disk o l1 l2 l3 cart).map fun c i j k => c (π i) (π j) (π k) := by
  rw [clebschGordan_eq disk' hd', clebschGordan_eq disk hd]
  simp only [Except.map, reorder_lt h, cgTensor_reorder h]

theorem basis_reorder_aux (h : IsReordering cart cart' π) (tiny : ℝ) (disk disk' : Disk SHCompressed)
    (hd : ValidDisk (shKind sphTerms) (shTable sphTerms) disk) (hd' : ValidDisk (shKind sphTerms) (shTable sphTerms) disk')
    (o o' : SaveOutcome) {ι : Type} [Fintype ι] (r : ι → Fin 3 → ℝ) (L num : ℕ) (g : ι → ℕ → ℝ)
    (cc dd : Except Err (ι → ℝ)) (ex : (ι → ℝ) → Option (List (ι → ℝ))) :
    (cc.bind fun c => (defaultAngularFn tiny disk' o' (unitVectors r fun b => Spec.length (r b)) L cart').bind fun y =>
      dd.bind fun d => (.ok ⟨fun b => ⟨false, (L : ℤ).toNat, num, fun _ i f => y b i * (g b f * c b) * (if 1 ≤ i then d b else 1)⟩,
        ex c⟩ : Except Err (BasisResult ι))) =
    (cc.bind fun c => (defaultAngularFn tiny disk o (unitVectors r fun b => Spec.length (r b)) L cart).bind fun y =>
      dd.bind fun d => (.ok ⟨fun b => ⟨false, (L : ℤ).toNat, num, fun _ i f => y b i * (g b f * c b) * (if 1 ≤ i then d b else 1)⟩,
        ex c⟩ : Except Err (BasisResult ι))).map (reorderedBasis π) := by
  cases cc with
  | error e => rfl
  | ok c =>
    have e1 : defaultAngularFn tiny disk' o' (unitVectors r fun b => Spec.length (r b)) L cart' =
        (defaultAngularFn tiny disk o (unitVectors r fun b => Spec.length (r b)) L cart).map fun y b j => y b (π j) :=
      C70_harmonics h tiny disk disk' hd hd' o o' (unitVectors r fun b => Spec.length (r b)) L true "racah"
    rw [e1]
    cases defaultAngularFn tiny disk o (unitVectors r fun b => Spec.length (r b)) L cart with
    | error e => rfl
    | ok y =>
      cases dd with
      | error e => rfl
      | ok d =>
        have h1 : ∀ j, 1 ≤ j ↔ deg j ≠ 0 := fun j => by rw [Ne, deg_eq_zero]; omega
        simp only [Except.bind, Except.map, reorderedBasis, reordered, h1, reorder_deg h]

/-- **C70 (basis functions).** For all radial, cutoff and damping functions; exceptions are the same. -/
theorem C70_basis (h : IsReordering cart cart' π) (tiny : ℝ) (ht : 0 < tiny) (disk disk' : Disk SHCompressed)
    (hd : ValidDisk (shKind sphTerms) (shTable sphTerms) disk) (hd' : ValidDisk (shKind sphTerms) (shTable sphTerms) disk')
    (o o' : SaveOutcome) {ι : Type} [Fintype ι] (r : ι → Fin 3 → ℝ) (L num : ℕ)
    (radialFn : (ι → ℝ) → ℕ → Except Err (ι → ℕ → ℝ))
    (cutoffFn : Option ((ι → ℝ) → Except Err (ι → ℝ))) (returnCutoff returnNorm : Bool)
    (dampingFn : Option ((ι → ℝ) → Except Err (ι → ℝ))) :
    basis tiny r L num radialFn (defaultAngularFn tiny disk' o') cutoffFn returnCutoff returnNorm dampingFn cart' =
      (basis tiny r L num radialFn (defaultAngularFn tiny disk o) cutoffFn returnCutoff returnNorm dampingFn cart).map
        (reorderedBasis π) := by
  cases isEmpty_or_nonempty ι with
  | inl he =>
    have hn : ∀ x : ι → Fin 3 → ℝ, norm tiny x = .error .valueError := fun x =>
      (C41_norm tiny ht x).2.2 (by rintro ⟨b, -⟩; exact he.elim b)
    unfold basis
    rw [if_neg (show ¬ (3 ≠ 3) by simp), if_neg (show ¬ (3 ≠ 3) by simp), hn]
    by_cases hrc : returnCutoff = true ∧ cutoffFn.isNone = true
    · rw [if_pos hrc, if_pos hrc]; rfl
    · rw [if_neg hrc, if_neg hrc]; rfl
  | inr hne =>
    rw [basis_eq tiny ht, basis_eq tiny ht]
    by_cases hrc : returnCutoff = true ∧ cutoffFn.isNone = true
    · rw [if_pos hrc, if_pos hrc]; rfl
    rw [if_neg hrc, if_neg hrc]
    cases radialFn (fun b => Spec.length (r b)) num with
    | error e => rfl
    | ok g =>
      have hc := basis_reorder_aux h tiny disk disk' hd hd' o o' r L num g
      cases cutoffFn with
      | none =>
        cases dampingFn with
        | none => exact hc (.ok fun _ => 1) (.ok fun _ => 1) fun c => basisExtra returnCutoff returnNorm c fun b => Spec.length (r b)
        | some df => exact hc (.ok fun _ => 1) (df _) fun c => basisExtra returnCutoff returnNorm c fun b => Spec.length (r b)
      | some cf =>
        cases dampingFn with
        | none => exact hc (cf _) (.ok fun _ => 1) fun c => basisExtra returnCutoff returnNorm c fun b => Spec.length (r b)
        | some df => exact hc (cf _) (df _) fun c => basisExtra returnCutoff returnNorm c fun b => Spec.length (r b)

/-! ## layers and networks -/

theorem reordered_tr (h : IsReordering cart cart' π) (ps : Bool) (L F : ℕ) (v : Ent) :
    Tr (fun x => rotate x (reorderMatrix π)) ps L F v fun p j f => v p (π j) f := reordered_same h ⟨ps, L, F, v⟩

theorem reorderedNodes_tr (h : IsReordering cart cart' π) (x : Nodes) :
    NodesTr (fun x => rotate x (reorderMatrix π)) x (reorderedNodes π x) := by
  refine ⟨rfl, rfl, rfl, ?_⟩
  unfold reorderedNodes
  rw [List.forall₂_map_right_iff, List.forall₂_same]
  exact fun v _ => reordered_tr h _ _ _ v

theorem reorderedEdges_tr (h : IsReordering cart cart' π) (x : Edges) :
    EdgesTr (fun x => rotate x (reorderMatrix π)) x (reorderedEdges π x) := by
  refine ⟨rfl, rfl, rfl, ?_⟩
  have hl : ∀ l : List Ent, List.Forall₂ (Tr (fun x => rotate x (reorderMatrix π)) x.pseudo x.L x.F) l
      (l.map fun v p j f => v p (π j) f) := by
    intro l
    rw [List.forall₂_map_right_iff, List.forall₂_same]
    exact fun v _ => reordered_tr h _ _ _ v
  unfold reorderedEdges Lead.map
  dsimp only
  cases x.rows with
  | vec xs => exact .vec (hl xs)
  | mat xs =>
    refine .mat ?_
    rw [List.forall₂_map_right_iff, List.forall₂_same]
    exact fun v _ => hl v

theorem sameNodes_reordered (h : IsReordering cart cart' π) {x x' : Nodes}
    (hx : NodesTr (fun x => rotate x (reorderMatrix π)) x x') : SameNodes x' (reorderedNodes π x) := by
  obtain ⟨h1, h2, h3, h4⟩ := hx
  refine ⟨h1.symm, h2.symm, h3.symm, ?_⟩
  unfold reorderedNodes
  dsimp only
  rw [List.forall₂_map_right_iff]
  refine h4.flip.imp fun v w hw => ?_
  unfold Nodes.feat
  rw [← h1, ← h2, ← h3]
  exact Feat.Same.trans hw (reordered_tr h _ _ _ w).symm

/-- **C70 (networks).** For every program built from the layers of the library, every parameter and every input: if all inputs
and all basis functions are reordered and the coefficients of the other order are used, then every array that is computed is
reordered, and the same exceptions are raised. -/
theorem C70_network (h : IsReordering cart cart' π) {cg cg' : ℕ → ℕ → ℕ → ℝ} (hcg : LibraryCG cart cg)
    (hcg' : LibraryCG cart' cg') (bs : List Edges) (prog : List Instr) (hp : ∀ i ∈ prog, i.Admissible) (inputs : List Nodes) :
    (∀ outs, runNetwork cg bs prog inputs = .ok outs →
      ∃ outs', runNetwork cg' (bs.map (reorderedEdges π)) prog (inputs.map (reorderedNodes π)) = .ok outs' ∧
        List.Forall₂ (fun z z' => SameNodes z' (reorderedNodes π z)) outs outs') ∧
    (∀ e, runNetwork cg bs prog inputs = .error e →
      runNetwork cg' (bs.map (reorderedEdges π)) prog (inputs.map (reorderedNodes π)) = .error e) := by
  have hS := symFacts_reorder (cg := cg) (cg' := cg') (by
    rw [libraryCG_eq hcg, libraryCG_eq hcg']
    exact cgTensor_reorder h) h
  have hb : List.Forall₂ (EdgesTr fun x => rotate x (reorderMatrix π)) bs (bs.map (reorderedEdges π)) := by
    rw [List.forall₂_map_right_iff, List.forall₂_same]
    exact fun b _ => reorderedEdges_tr h b
  have hr : List.Forall₂ (NodesTr fun x => rotate x (reorderMatrix π)) inputs (inputs.map (reorderedNodes π)) := by
    rw [List.forall₂_map_right_iff, List.forall₂_same]
    exact fun b _ => reorderedNodes_tr h b
  have h := run_tr hS hb prog hp hr
  generalize runNetwork cg bs prog inputs = u at h
  generalize runNetwork cg' (bs.map (reorderedEdges π)) prog (inputs.map (reorderedNodes π)) = u' at h
  cases h with
  | ok h =>
    refine ⟨?_, by intro e he; cases he⟩
    intro z hz
    injection hz with hz; subst hz
    exact ⟨_, rfl, h.imp fun _ _ => sameNodes_reordered ‹_›⟩
  | error e =>
    refine ⟨?_, ?_⟩
    · intro z hz; cases hz
    · intro e' he; exact he

theorem reorderedBasis_val {ι : Type} (π : ℕ → ℕ) (res : BasisResult ι) (b : ι) :
    ((reorderedBasis π res).out b).val = fun p j f => (res.out b).val p (π j) f := rfl

theorem reorderedBasis_extra {ι : Type} (π : ℕ → ℕ) (res : BasisResult ι) : (reorderedBasis π res).extra = res.extra := rfl

theorem map_ok_bind {α β γ : Type} (f : α → β) (g : β → Except Err γ) (a : α) :
    ((Except.ok a : Except Err α).map f >>= g) = g (f a) := rfl

theorem except_ok_bind {α β : Type} (g : α → Except Err β) (a : α) : ((Except.ok a : Except Err α) >>= g) = g a := rfl

theorem map_error_bind {α β γ : Type} (f : α → β) (g : β → Except Err γ) (e : Err) :
    ((Except.error e : Except Err α).map f >>= g) = .error e := rfl

theorem except_error_bind {α β : Type} (g : α → Except Err β) (e : Err) : ((Except.error e : Except Err α) >>= g) = .error e := rfl

theorem energiesFrom_reorder (h : IsReordering cart cart' π) {cg cg' : ℕ → ℕ → ℕ → ℝ}
    (hS : SymFacts cg cg' fun x => rotate x (reorderMatrix π)) (L num : ℕ) (layers : List Layer) {x : Nodes}
    (hx : NodesTr (fun x => rotate x (reorderMatrix π)) x x) (readout bias : ℕ → ℝ) (numbers : List ℕ) {m : ℕ}
    (dst src : Fin m → ℕ) {u u' : Except Err (BasisResult (Fin m))} (hu : u' = u.map (reorderedBasis π)) :
    (u' >>= energiesFrom cg' L num layers x readout bias numbers dst src) =
      u >>= energiesFrom cg L num layers x readout bias numbers dst src := by
  subst hu
  cases u with
  | error e => rw [map_error_bind, except_error_bind]
  | ok res =>
    have h2 : ∀ b, Tr (fun x => rotate x (reorderMatrix π)) false L num (res.out b).val ((reorderedBasis π res).out b).val := by
      intro b
      rw [reorderedBasis_val]
      exact reordered_tr h false L num (res.out b).val
    rw [map_ok_bind, except_ok_bind]
    exact energiesFrom_tr cg cg' hS L num layers hx readout bias numbers dst src res (reorderedBasis π res)
      (reorderedBasis_extra _ _) h2

/-- **C70 (energies).** For every model of energies (all layers, parameters, graphs and positions) the atomic energies and the
exceptions do not depend on the order of irreps. -/
theorem C70_energies (tiny : ℝ) (ht : 0 < tiny) (disk disk' : Disk SHCompressed)
    (hd : ValidDisk (shKind sphTerms) (shTable sphTerms) disk) (hd' : ValidDisk (shKind sphTerms) (shTable sphTerms) disk')
    (o o' : SaveOutcome) {cg cg' : ℕ → ℕ → ℕ → ℝ} (M : Potential) (cart' : Bool) (hcg : LibraryCG M.cartesianOrder cg)
    (hcg' : LibraryCG cart' cg') (numbers : List ℕ) {m : ℕ} (dst src : Fin m → ℕ) (r : Fin m → Fin 3 → ℝ) :
    atomicEnergies tiny disk' o' cg' { M with cartesianOrder := cart' } numbers dst src r =
      atomicEnergies tiny disk o cg M numbers dst src r := by
  obtain ⟨π, h⟩ : ∃ π, IsReordering M.cartesianOrder cart' π := ⟨_, reorder_exists _ _⟩
  have hS := symFacts_reorder (cg := cg) (cg' := cg') (by
    rw [libraryCG_eq hcg, libraryCG_eq hcg']
    exact cgTensor_reorder h) h
  have hx := embedded_tr hS M numbers
  obtain ⟨features, embedding, L, num, radialFn, cutoffFn, dampingFn, cart, layers, readout, bias⟩ := M
  have hb := C70_basis h tiny ht disk disk' hd hd' o o' r L num (fun x n => elementwise (radialFn · n) x)
    (some fun x => elementwise cutoffFn x) true false (dampingFn.map fun d x => elementwise d x)
  exact energiesFrom_reorder h hS L num layers hx readout bias numbers dst src hb

/-- **C70 (tetracubes).** The logits of the tetracubes example do not depend on the order of irreps. -/
theorem C70_tetracubes (tiny : ℝ) (ht : 0 < tiny) (disk : Disk SHCompressed)
    (hd : ValidDisk (shKind sphTerms) (shTable sphTerms) disk) (o o' : SaveOutcome) (cart cart' : Bool)
    {cg cg' : ℕ → ℕ → ℕ → ℝ} (hcg : LibraryCG cart cg) (hcg' : LibraryCG cart' cg') (net : TetraNet) {n : ℕ} (hn : 0 < n)
    (X : Fin n → Fin 3 → ℝ) : tetraLogits tiny disk o' cart' cg' net X = tetraLogits tiny disk o cart cg net X := by
  obtain ⟨π, h⟩ : ∃ π, IsReordering cart cart' π := ⟨_, reorder_exists _ _⟩
  have hS := symFacts_reorder (cg := cg) (cg' := cg') (by
    rw [libraryCG_eq hcg, libraryCG_eq hcg']
    exact cgTensor_reorder h) h
  have hx := cubeFeatures_eq tiny ht disk hd o cart net.features net.maxDegree hn (centered X)
  have hx' := cubeFeatures_eq tiny ht disk hd o' cart' net.features net.maxDegree hn (centered X)
  have hs : (⟨false, net.maxDegree, net.features, fun _ i f => (∑ b, pointBasis cart' net.features net.maxDegree (centered X b) i f) / n⟩ :
      Feat).Same (rotate ⟨false, net.maxDegree, net.features, fun _ i f =>
        (∑ b, pointBasis cart net.features net.maxDegree (centered X b) i f) / n⟩ (reorderMatrix π)) := by
    refine Feat.Same.trans (y := reordered π ⟨false, net.maxDegree, net.features, fun _ i f =>
        (∑ b, pointBasis cart net.features net.maxDegree (centered X b) i f) / n⟩)
      ⟨rfl, rfl, rfl, fun p i f _ hi hf => ?_⟩ (reordered_same h _)
    dsimp only [reordered]
    congr 1
    refine sum_congr rfl fun b _ => ?_
    unfold pointBasis
    rw [(h i).1, (h i).2]
    simp only [reorder_lt h]
  obtain ⟨z, hz, hL, -⟩ := tetraLast_ok cg net ⟨false, net.maxDegree, net.features, fun _ i f =>
    (∑ b, pointBasis cart net.features net.maxDegree (centered X b) i f) / n⟩ rfl
  obtain ⟨z', hz', hs'⟩ := tetraLast_tr hS net hs hz
  rw [tetraLogits_eq tiny disk o' cart' _ net _ hx' hz', tetraLogits_eq tiny disk o cart _ net _ hx hz, flatDense_same _ _ hs']
  congr 1
  refine flatDense_same _ _ ⟨rfl, rfl, rfl, fun p i f hp hi hf => ?_⟩
  have hi : i < (z.L + 1) ^ 2 := hi
  rw [rotate_reorder h z p i f hi]
  rw [hL] at hi
  obtain rfl : i = 0 := by omega
  rw [reorder_zero h]

/-! ## mixing the two orders -/

theorem reorder_vec (h : IsReordering true false π) : π 0 = 0 ∧ π 1 = 2 ∧ π 2 = 3 ∧ π 3 = 1 := by
  rw [reorder_unique h (reorder_exists true false)]
  decide +kernel

/-- **C70 (mixing: Wigner-D matrices).** Features in Cartesian order must not be rotated with the Wigner-D matrix for the other
order: for every maximum degree from 1 there are a rotation and a vector for which the result differs from the features of the
rotated vector. -/
theorem C70_mixed_wigner_d (tiny : ℝ) (disk : Disk SHCompressed) (hd : ValidDisk (shKind sphTerms) (shTable sphTerms) disk)
    (wdisk : Disk WDCompressed) (hw : ValidDisk (wdKind wigTerms) (wdTable wigTerms) wdisk) (o o' : SaveOutcome) (L : ℕ)
    (hL : 1 ≤ L) : ∃ (R : Fin 3 → Fin 3 → ℝ) (r : Fin 3 → ℝ), IsOrthogonal R ∧ det3x3 R = 1 ∧
      ∃ y y' D, solidHarmonics tiny disk o (fun _ : Unit => r) L true = .ok y ∧
        solidHarmonics tiny disk o (fun _ : Unit => vecMul r R) L true = .ok y' ∧ wignerD wdisk o' R L false = .ok D ∧
        ∃ j < (L + 1) ^ 2, y' () j ≠ ∑ k ∈ range ((L + 1) ^ 2), y () k * D k j := by
  have h := reorder_exists true false
  obtain ⟨-, p1, p2, p3⟩ := reorder_vec h
  have hR : IsOrthogonal ![![-1, 0, 0], ![0, -1, 0], ![0, 0, 1]] := by
    intro i j
    fin_cases i <;> fin_cases j <;> simp [Fin.sum_univ_three]
  have h4 : 4 ≤ (L + 1) ^ 2 := by nlinarith
  refine ⟨![![-1, 0, 0], ![0, -1, 0], ![0, 0, 1]], ![0, 1, 0], hR, by simp [det3x3], _, _, _,
    solidHarmonics_eq tiny disk hd o _ L true, solidHarmonics_eq tiny disk hd o _ L true, wignerD_eq wdisk hw o' _ L false, 2,
    by omega, ?_⟩
  have hdeg : ∀ k, degreeOf k = 1 → k = 1 ∨ k = 2 ∨ k = 3 := by
    intro k hk
    have := (deg_eq_iff (l := 1) (i := k)).1 hk
    omega
  rw [sum_eq_single 2]
  · have e := dMatrix_degree_one hR 2 2
    rw [if_pos (by omega), if_pos (by omega), if_pos ⟨by omega, by omega⟩, dMatrix_reorder h, p2,
      show degreeOf 2 = 1 by decide +kernel, show componentOrder true 2 = -1 by decide +kernel, harmonic_one_neg, harmonic_one_neg]
    have e : dMatrix true ![![-1, 0, 0], ![0, -1, 0], ![0, 0, 1]] 3 3 = 1 := e
    rw [e]
    simp [vecMul, Fin.sum_univ_three]
    norm_num
  · intro k hk hk2
    by_cases hk1 : degreeOf k = 1
    · rw [if_pos (mem_range.1 hk)]
      rcases hdeg k hk1 with rfl | rfl | rfl
      · rw [hk1, show componentOrder true 1 = 1 by decide +kernel, harmonic_one_pos]
        simp
      · exact absurd rfl hk2
      · rw [hk1, show componentOrder true 3 = 0 by decide +kernel, harmonic_one_zero]
        simp
    · have : dMatrix false ![![-1, 0, 0], ![0, -1, 0], ![0, 0, 1]] k 2 = 0 := by
        unfold dMatrix
        rw [if_neg (by rwa [show degreeOf 2 = 1 by decide +kernel])]
      rw [this, ite_self, mul_zero]
  · intro hk
    exact absurd (mem_range.2 (by omega)) hk

/-- The scalar component of the tensor product of the harmonics of a vector in the two orders. -/
theorem mixed_scalar (tiny : ℝ) (disk : Disk SHCompressed) (hd : ValidDisk (shKind sphTerms) (shTable sphTerms) disk)
    (o : SaveOutcome) {cg : ℕ → ℕ → ℕ → ℝ} (hcg : LibraryCG true cg) (r : Fin 3 → ℝ) :
    ∃ y y' z, solidHarmonics tiny disk o (fun _ : Unit => r) 1 true = .ok y ∧
      solidHarmonics tiny disk o (fun _ : Unit => r) 1 false = .ok y' ∧
      tensor ⟨some 0, false⟩ (fun _ _ _ _ _ _ _ => 1) cg ⟨false, 1, 1, fun _ i _ => y () i⟩ ⟨false, 1, 1, fun _ i _ => y' () i⟩ =
        .ok z ∧ z.val 0 0 0 = 1 + cgTensor true 1 1 0 * (r 0 * r 1 + r 1 * r 2 + r 2 * r 0) := by
  obtain ⟨z, hz, h1, h2, h3, h4⟩ := C15_tensor ⟨some 0, false⟩ (fun _ _ _ _ _ _ _ => 1) cg
    ⟨false, 1, 1, fun _ i _ => if i < (1 + 1) ^ 2 then harmonic (degreeOf i) (componentOrder true i) r else 0⟩
    ⟨false, 1, 1, fun _ i _ => if i < (1 + 1) ^ 2 then harmonic (degreeOf i) (componentOrder false i) r else 0⟩
    (by simp) rfl
  refine ⟨_, _, z, solidHarmonics_eq tiny disk hd o _ 1 true, solidHarmonics_eq tiny disk hd o _ 1 false, hz, ?_⟩
  have hp : z.pseudo = false := by
    rw [← Bool.not_eq_true, h3]
    simp
  simp only [Option.getD_some] at h1
  have h5 := h4 0 0 0
  have h6 : comp z 0 0 0 = z.val 0 0 0 := by
    unfold comp
    simp [hp, h1, h2, show deg 0 = 0 by decide +kernel]
  rw [← h6, h5, if_pos ⟨by norm_num, by rw [h1]; norm_num, Or.inr (by decide +kernel)⟩, libraryCG_eq hcg]
  have o1 : componentOrder true 1 = 1 := by decide +kernel
  have o2 : componentOrder true 2 = -1 := by decide +kernel
  have o3 : componentOrder true 3 = 0 := by decide +kernel
  have o1' : componentOrder false 1 = -1 := by decide +kernel
  have o2' : componentOrder false 2 = 0 := by decide +kernel
  have o3' : componentOrder false 3 = 1 := by decide +kernel
  have d1 : degreeOf 1 = 1 := by decide +kernel
  have d2 : degreeOf 2 = 1 := by decide +kernel
  have d3 : degreeOf 3 = 1 := by decide +kernel
  have e1 : deg 1 = 1 := d1
  have e2 : deg 2 = 1 := d2
  have e3 : deg 3 = 1 := d3
  have e0 : deg 0 = 0 := by decide +kernel
  have hc := cg_vec_vec_scalar
  have c11 := hc 0 0; have c12 := hc 0 1; have c13 := hc 0 2; have c21 := hc 1 0; have c22 := hc 1 1; have c23 := hc 1 2
  have c31 := hc 2 0; have c32 := hc 2 1; have c33 := hc 2 2
  have c00 := cgTensor_zero true 0 0
  have g0 : ∀ c, harmonic (degreeOf 0) (componentOrder c 0) r = 1 := by
    intro c
    rw [show degreeOf 0 = 0 by decide +kernel, show componentOrder c 0 = 0 by cases c <;> decide +kernel]
    simp [harmonic, symSphericalHarmonics, symPi]
  simp at c11 c12 c13 c21 c22 c23 c31 c32 c33 c00
  norm_num at c11 c12 c13 c21 c22 c23 c31 c32 c33
  unfold coupled
  simp only [sum_range_succ, sum_range_zero, comp, e0, e1, e2, e3, o1, o2, o3, o1', o2', o3', d1, d2, d3, g0, harmonic_one_neg,
    harmonic_one_pos, harmonic_one_zero, show (1 + 1) ^ 2 = 4 from rfl]
  simp [c11, c12, c13, c21, c22, c23, c31, c32, c33, c00]
  ring

/-- **C70 (mixing: layers).** The scalar output of a tensor layer whose inputs are computed in different orders is not invariant
under rotations. -/
theorem C70_mixed_tensor (tiny : ℝ) (disk : Disk SHCompressed) (hd : ValidDisk (shKind sphTerms) (shTable sphTerms) disk)
    (o : SaveOutcome) {cg : ℕ → ℕ → ℕ → ℝ} (hcg : LibraryCG true cg) :
    ∃ (R : Fin 3 → Fin 3 → ℝ) (r : Fin 3 → ℝ), IsOrthogonal R ∧ det3x3 R = 1 ∧ ∃ y₁ y₂ z y₁' y₂' z',
      solidHarmonics tiny disk o (fun _ : Unit => r) 1 true = .ok y₁ ∧
      solidHarmonics tiny disk o (fun _ : Unit => r) 1 false = .ok y₂ ∧
      tensor ⟨some 0, false⟩ (fun _ _ _ _ _ _ _ => 1) cg ⟨false, 1, 1, fun _ i _ => y₁ () i⟩ ⟨false, 1, 1, fun _ i _ => y₂ () i⟩ =
        .ok z ∧
      solidHarmonics tiny disk o (fun _ : Unit => vecMul r R) 1 true = .ok y₁' ∧
      solidHarmonics tiny disk o (fun _ : Unit => vecMul r R) 1 false = .ok y₂' ∧
      tensor ⟨some 0, false⟩ (fun _ _ _ _ _ _ _ => 1) cg ⟨false, 1, 1, fun _ i _ => y₁' () i⟩ ⟨false, 1, 1, fun _ i _ => y₂' () i⟩ =
        .ok z' ∧ z'.val 0 0 0 ≠ z.val 0 0 0 := by
  obtain ⟨y₁, y₂, z, a1, a2, a3, a4⟩ := mixed_scalar tiny disk hd o hcg ![0, 0, 1]
  obtain ⟨y₁', y₂', z', b1, b2, b3, b4⟩ := mixed_scalar tiny disk hd o hcg
    (vecMul ![0, 0, 1] ![![4 / 5, 0, -3 / 5], ![0, 1, 0], ![3 / 5, 0, 4 / 5]])
  refine ⟨![![4 / 5, 0, -3 / 5], ![0, 1, 0], ![3 / 5, 0, 4 / 5]], ![0, 0, 1], ?_, ?_, y₁, y₂, z, y₁', y₂', z', a1, a2, a3, b1,
    b2, b3, ?_⟩
  · intro i j
    fin_cases i <;> fin_cases j <;> simp [Fin.sum_univ_three] <;> norm_num
  · simp [det3x3]; norm_num
  · rw [a4, b4]
    have := cg_vec_vec_scalar_sq
    have hc : cgTensor true 1 1 0 ≠ 0 := by
      intro h0
      rw [h0] at this
      norm_num at this
    simp [vecMul, Fin.sum_univ_three, hc]

-- The hypotheses are met: the correspondence and both tables exist; a network with a tensor product of the input with itself.
example (K : TensorKernel) (v : Ent) : ∃ π cg cg' outs outs', IsReordering true false π ∧ LibraryCG true cg ∧
    LibraryCG false cg' ∧ runNetwork cg [] [.tensor 0 0 ⟨none, true⟩ (.tensor K), .gated 1 siluGate] [⟨false, 1, 2, [v]⟩] = .ok outs ∧
    runNetwork cg' [] [.tensor 0 0 ⟨none, true⟩ (.tensor K), .gated 1 siluGate] [reorderedNodes π ⟨false, 1, 2, [v]⟩] = .ok outs' ∧
    List.Forall₂ (fun z z' => SameNodes z' (reorderedNodes π z)) outs outs' := by
  have h := reorder_exists true false
  have hn := C70_network h (libraryCG_cgTensor true) (libraryCG_cgTensor false) []
    [.tensor 0 0 ⟨none, true⟩ (.tensor K), .gated 1 siluGate] (by simp [Instr.Admissible]) [⟨false, 1, 2, [v]⟩]
  cases hr : runNetwork (cgTensor true) [] [.tensor 0 0 ⟨none, true⟩ (.tensor K), .gated 1 siluGate] [⟨false, 1, 2, [v]⟩] with
  | ok outs =>
    obtain ⟨outs', h1, h2⟩ := hn.1 outs hr
    exact ⟨_, _, _, outs, outs', h, libraryCG_cgTensor true, libraryCG_cgTensor false, hr, h1, h2⟩
  | error e =>
    exfalso
    obtain ⟨z, hz, -⟩ := C15_tensor ⟨none, true⟩ K (cgTensor true) ⟨false, 1, 2, 0⟩ ⟨false, 1, 2, 0⟩ (by simp) rfl
    simp only [runNetwork, Instr.eval, reg, List.getElem?_cons_zero, bind, Except.bind, nodesBin, anyTensor, Nodes.feat, hz] at hr
    simp [pure, Except.pure] at hr

end E3x
