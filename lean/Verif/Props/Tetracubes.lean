import Verif.Spec.Tetracubes
import Verif.Props.Inertia

/-!
# C67: classification of tetracubes
-/

namespace E3x

open Spec Finset

/-! ## centering -/

theorem centered_translated {n : ℕ} (t : Fin 3 → ℝ) (X : Fin n → Fin 3 → ℝ) : centered (translated t X) = centered X := by
  funext b k
  have hn : (n : ℝ) ≠ 0 := by
    have := b.pos
    exact_mod_cast this.ne'
  simp only [centered, translated, sum_add_distrib, sum_const, card_univ, Fintype.card_fin, nsmul_eq_mul]
  field_simp
  ring

theorem centered_rotated {n : ℕ} (R : Fin 3 → Fin 3 → ℝ) (X : Fin n → Fin 3 → ℝ) :
    centered (rotated R X) = rotated R (centered X) := by
  funext b k
  simp only [centered, rotated, vecMul, sub_mul, sum_sub_distrib]
  congr 1
  rw [sum_comm, sum_div]
  refine sum_congr rfl fun j _ => ?_
  rw [← sum_mul]
  ring

theorem centered_perm {n : ℕ} (σ : Equiv.Perm (Fin n)) (X : Fin n → Fin 3 → ℝ) : centered (X ∘ σ) = centered X ∘ σ := by
  funext b k
  simp only [centered, Function.comp]
  rw [Equiv.sum_comp σ fun c => X c k]

/-! ## features of a shape -/

/-- The basis functions at one point. -/
noncomputable def pointBasis (cart : Bool) (num L : ℕ) (x : Fin 3 → ℝ) (i f : ℕ) : ℝ :=
  (if i < (L + 1) ^ 2 then
    harmonic (degreeOf i) (componentOrder cart i) (fun k => x k / (if Spec.length x > 0 then Spec.length x else 1)) else 0) *
    triangularWindow (Spec.length x) num 2 f

theorem cubeFeatures_eq (tiny : ℝ) (ht : 0 < tiny) (disk : Disk SHCompressed)
    (hd : ValidDisk (shKind sphTerms) (shTable sphTerms) disk) (o : SaveOutcome) (cart : Bool) (num L : ℕ) {n : ℕ} (hn : 0 < n)
    (X : Fin n → Fin 3 → ℝ) : cubeFeatures tiny disk o cart num L X =
      .ok ⟨false, L, num, fun _ i f => (∑ b, pointBasis cart num L (X b) i f) / n⟩ := by
  haveI : Nonempty (Fin n) := ⟨⟨0, hn⟩⟩
  have hy : defaultAngularFn tiny disk o (unitVectors X fun b => Spec.length (X b)) L cart = _ :=
    solidHarmonics_eq tiny disk hd o (unitVectors X fun b => Spec.length (X b)) L cart
  unfold cubeFeatures
  rw [basis_eq tiny ht, if_neg (by simp), hy]
  change Except.ok (Feat.mk false (L : ℤ).toNat num _) = _
  rw [Int.toNat_natCast]
  refine congrArg (fun v => Except.ok (Feat.mk false L num v)) ?_
  funext p i f
  simp [pointBasis]
  rfl

theorem cubeFeatures_ok (tiny : ℝ) (ht : 0 < tiny) (disk : Disk SHCompressed)
    (hd : ValidDisk (shKind sphTerms) (shTable sphTerms) disk) (o : SaveOutcome) (cart : Bool) (num L : ℕ) {n : ℕ}
    (hn : 0 < n) (X : Fin n → Fin 3 → ℝ) :
    ∃ x, cubeFeatures tiny disk o cart num L X = .ok x ∧ x.pseudo = false ∧ x.L = L ∧ x.F = num :=
  ⟨_, cubeFeatures_eq tiny ht disk hd o cart num L hn X, rfl, rfl, rfl⟩

theorem cubeFeatures_perm (tiny : ℝ) (ht : 0 < tiny) (disk : Disk SHCompressed)
    (hd : ValidDisk (shKind sphTerms) (shTable sphTerms) disk) (o o' : SaveOutcome) (cart : Bool) (num L : ℕ) {n : ℕ}
    (hn : 0 < n) (X : Fin n → Fin 3 → ℝ) (σ : Equiv.Perm (Fin n)) :
    cubeFeatures tiny disk o' cart num L (X ∘ σ) = cubeFeatures tiny disk o cart num L X := by
  rw [cubeFeatures_eq tiny ht disk hd o' cart num L hn, cubeFeatures_eq tiny ht disk hd o cart num L hn]
  simp only [Function.comp]
  congr 2
  funext p i f
  rw [Equiv.sum_comp σ fun b => pointBasis cart num L (X b) i f]

theorem cubeFeatures_rotate (tiny : ℝ) (ht : 0 < tiny) (disk : Disk SHCompressed)
    (hd : ValidDisk (shKind sphTerms) (shTable sphTerms) disk) (o o' : SaveOutcome) (cart : Bool) (num L : ℕ) {n : ℕ}
    (X : Fin n → Fin 3 → ℝ) (R : Fin 3 → Fin 3 → ℝ) (hR : IsOrthogonal R) {x : Feat}
    (hx : cubeFeatures tiny disk o cart num L X = .ok x) :
    ∃ x', cubeFeatures tiny disk o' cart num L (rotated R X) = .ok x' ∧ x'.Same (rotate x (dMatrix cart R)) := by
  obtain ⟨D, hD, h⟩ := C42_equivariant tiny ht disk hd (noFiles _) (noFiles_valid _ _) .success o' o X R hR L num
    (fun x num => elementwise (fun x => .ok (triangularWindow x num 2)) x) none false false none cart
  rw [wignerD_eq _ (noFiles_valid _ _)] at hD
  injection hD with hD
  unfold cubeFeatures at hx ⊢
  cases hb : basis tiny X L num (fun x num => elementwise (fun x => .ok (triangularWindow x num 2)) x)
    (defaultAngularFn tiny disk o) none false false none cart with
  | error e => rw [hb] at hx; cases hx
  | ok res =>
    rw [hb] at hx h
    injection hx with hx
    subst hx
    unfold rotated
    rw [h]
    refine ⟨_, rfl, rfl, rfl, rfl, fun p i f hp hi hf => ?_⟩
    have hi : i < (L + 1) ^ 2 := hi
    simp only [rotateBasis, E3x.rotate, ← hD]
    rw [sum_comm, sum_div]
    refine sum_congr rfl fun l hl => ?_
    rw [if_pos ⟨mem_range.1 hl, hi⟩, ← sum_mul]
    ring

theorem cubeFeatures_inversion (tiny : ℝ) (ht : 0 < tiny) (disk : Disk SHCompressed)
    (hd : ValidDisk (shKind sphTerms) (shTable sphTerms) disk) (o o' : SaveOutcome) (cart : Bool) (num L : ℕ) {n : ℕ}
    (X : Fin n → Fin 3 → ℝ) {x : Feat} (hx : cubeFeatures tiny disk o cart num L X = .ok x) :
    ∃ x', cubeFeatures tiny disk o' cart num L (fun b k => -X b k) = .ok x' ∧ x'.Same (reflect x) := by
  have h := C42_inversion tiny ht disk hd o' o X L num
    (fun x num => elementwise (fun x => .ok (triangularWindow x num 2)) x) none false false none cart
  unfold cubeFeatures at hx ⊢
  cases hb : basis tiny X L num (fun x num => elementwise (fun x => .ok (triangularWindow x num 2)) x)
    (defaultAngularFn tiny disk o) none false false none cart with
  | error e => rw [hb] at hx; cases hx
  | ok res =>
    rw [hb] at hx h
    injection hx with hx
    subst hx
    rw [h]
    refine ⟨_, rfl, ((symFacts_reflect fun _ _ _ => 0).hdr _).1.symm, ((symFacts_reflect fun _ _ _ => 0).hdr _).2.1.symm,
      ((symFacts_reflect fun _ _ _ => 0).hdr _).2.2.symm, fun p i f hp hi hf => ?_⟩
    have hi : deg i ≤ L := deg_le_of_lt hi
    rw [reflect_val]
    simp only [invertBasis, reflectSign, Bool.false_eq_true, if_false]
    rw [← mul_sum, mul_div_assoc]
    congr 1
    split
    next h => exact Odd.neg_one_pow (Nat.odd_iff.2 ((mem_oddDegrees _ _).1 h).1)
    next h =>
      rw [mem_oddDegrees] at h
      exact Even.neg_one_pow (Nat.even_iff.2 (by omega))

/-! ## the layers -/

/-- The features before the ordinary dense layer. -/
noncomputable def tetraLast (cg : ℕ → ℕ → ℕ → ℝ) (net : TetraNet) (x : Feat) : Except Err Feat := do
  let x ← tetraHidden cg net x
  tensorDense none true ⟨some 0, net.includePseudo⟩ net.dense2 net.tensor2 cg x

theorem tetraLast_ok (cg : ℕ → ℕ → ℕ → ℝ) (net : TetraNet) (x : Feat) (hx : x.pseudo = false) :
    ∃ z, tetraLast cg net x = .ok z ∧ z.L = 0 ∧ z.F = x.F ∧ (z.pseudo = true ↔ net.includePseudo = true ∧ x.L ≠ 0) := by
  obtain ⟨y, hy⟩ := (C17_tensor_dense_ok none true ⟨none, true⟩ net.dense1 net.tensor1 cg x).2 (by simp; omega)
  obtain ⟨a1, a2, a3⟩ := tensorDense_hdr hy
  obtain ⟨z, hz⟩ := (C17_tensor_dense_ok none true ⟨some 0, net.includePseudo⟩ net.dense2 net.tensor2 cg y).2 (by simp)
  obtain ⟨b1, b2, b3⟩ := tensorDense_hdr hz
  refine ⟨z, ?_, b1, b2.trans a2, ?_⟩
  · unfold tetraLast tetraHidden
    rw [hy]
    exact hz
  · simp only [Option.getD_none, or_self] at a3
    simp only [Option.getD_some, or_true, and_true] at b3
    rw [b3]
    cases hp : y.pseudo
    · rw [hp] at a3
      simp [hx] at a3
      simp [a3]
    · rw [hp] at a3
      simp [hx] at a3
      simp [a3]

theorem tetraLast_tr {cg cg' : ℕ → ℕ → ℕ → ℝ} {A : Feat → Feat} (hA : SymFacts cg cg' A) (net : TetraNet) {x x' z : Feat}
    (h : x'.Same (A x)) (hz : tetraLast cg net x = .ok z) : ∃ z', tetraLast cg' net x' = .ok z' ∧ z'.Same (A z) := by
  unfold tetraLast tetraHidden at hz ⊢
  cases h1 : tensorDense none true ⟨none, true⟩ net.dense1 net.tensor1 cg x with
  | error e => rw [h1] at hz; cases hz
  | ok y =>
    rw [h1] at hz
    change tensorDense none true ⟨some 0, net.includePseudo⟩ net.dense2 net.tensor2 cg y = .ok z at hz
    obtain ⟨y1, e1, s1⟩ := (binOp_tensorDense hA none true ⟨none, true⟩ net.dense1 net.tensor1).act (y := x) h1
    obtain ⟨y2, e2, s2⟩ := tensorDense_same none true ⟨none, true⟩ net.dense1 net.tensor1 cg' h.symm e1
    obtain ⟨z1, e3, s3⟩ := (binOp_tensorDense hA none true ⟨some 0, net.includePseudo⟩ net.dense2 net.tensor2).act (y := x) hz
    obtain ⟨z2, e4, s4⟩ := tensorDense_same none true ⟨some 0, net.includePseudo⟩ net.dense2 net.tensor2 cg'
      (s2.symm.trans s1).symm e3
    refine ⟨z2, ?_, s4.symm.trans s3⟩
    rw [e2]
    exact e4

theorem flatDense_same (kernel : ℕ → Fin 8 → ℝ) (bias : Fin 8 → ℝ) {x y : Feat} (h : x.Same y) :
    flatDense kernel bias x = flatDense kernel bias y := by
  obtain ⟨h1, h2, h3, h4⟩ := h
  funext k
  unfold flatDense
  rw [← h1, ← h2, ← h3]
  congr 1
  refine sum_congr rfl fun p hp => sum_congr rfl fun i hi => sum_congr rfl fun f hf => ?_
  rw [h4 p i f (mem_range.1 hp) (mem_range.1 hi) (mem_range.1 hf)]

theorem tetraLogits_eq (tiny : ℝ) (disk : Disk SHCompressed) (o : SaveOutcome) (cart : Bool) (cg : ℕ → ℕ → ℕ → ℝ)
    (net : TetraNet) {n : ℕ} (X : Fin n → Fin 3 → ℝ) {x z : Feat}
    (hx : cubeFeatures tiny disk o cart net.features net.maxDegree (centered X) = .ok x) (hz : tetraLast cg net x = .ok z) :
    tetraLogits tiny disk o cart cg net X = .ok (flatDense net.kernel net.bias z) := by
  unfold tetraLast at hz
  unfold tetraLogits
  dsimp only
  rw [hx]
  change (tetraHidden cg net x >>= fun x => tensorDense none true ⟨some 0, net.includePseudo⟩ net.dense2 net.tensor2 cg x >>=
    fun x => .ok (flatDense net.kernel net.bias x)) = _
  rw [← bind_assoc, hz]
  rfl

/-- **C67 (logits exist).** For all parameters and shapes (of at least one cube) the model returns logits. -/
theorem C67_exists (tiny : ℝ) (ht : 0 < tiny) (disk : Disk SHCompressed)
    (hd : ValidDisk (shKind sphTerms) (shTable sphTerms) disk) (o : SaveOutcome) (cart : Bool) (cg : ℕ → ℕ → ℕ → ℝ)
    (net : TetraNet) {n : ℕ} (hn : 0 < n) (X : Fin n → Fin 3 → ℝ) : ∃ y, tetraLogits tiny disk o cart cg net X = .ok y := by
  obtain ⟨x, hx, hxp, hxL, hxF⟩ := cubeFeatures_ok tiny ht disk hd o cart net.features net.maxDegree hn (centered X)
  obtain ⟨z, hz, -⟩ := tetraLast_ok cg net x hxp
  exact ⟨_, tetraLogits_eq tiny disk o cart cg net X hx hz⟩

theorem logits_rotate (tiny : ℝ) (ht : 0 < tiny) (disk : Disk SHCompressed)
    (hd : ValidDisk (shKind sphTerms) (shTable sphTerms) disk) (o o' : SaveOutcome) (cart : Bool) (cg : ℕ → ℕ → ℕ → ℝ)
    (hcg : LibraryCG cart cg) (net : TetraNet) {n : ℕ} (hn : 0 < n) (X : Fin n → Fin 3 → ℝ) (R : Fin 3 → Fin 3 → ℝ)
    (hR : IsOrthogonal R) (hdet : det3x3 R = 1) :
    tetraLogits tiny disk o' cart cg net (rotated R X) = tetraLogits tiny disk o cart cg net X := by
  rw [libraryCG_eq hcg]
  obtain ⟨x, hx, hxp, hxL, hxF⟩ := cubeFeatures_ok tiny ht disk hd o cart net.features net.maxDegree hn (centered X)
  obtain ⟨z, hz, hL, -⟩ := tetraLast_ok (cgTensor cart) net x hxp
  obtain ⟨x', hx', hs⟩ := cubeFeatures_rotate tiny ht disk hd o o' cart net.features net.maxDegree (centered X) R hR hx
  rw [← centered_rotated] at hx'
  have hrot := dMatrix_isRotation (cart := cart) hR hdet
  obtain ⟨z', hz', hs'⟩ := tetraLast_tr (symFacts_rotate _ _ hrot) net hs hz
  rw [tetraLogits_eq tiny disk o' cart _ net _ hx' hz', tetraLogits_eq tiny disk o cart _ net _ hx hz, flatDense_same _ _ hs']
  congr 1
  refine flatDense_same _ _ ⟨rfl, rfl, rfl, fun p i f hp hi hf => ?_⟩
  have hi : i < (z.L + 1) ^ 2 := hi
  rw [hL] at hi
  obtain rfl : i = 0 := by omega
  simp only [E3x.rotate, hL]
  simp [hrot.scalar]

theorem logits_inversion (tiny : ℝ) (ht : 0 < tiny) (disk : Disk SHCompressed)
    (hd : ValidDisk (shKind sphTerms) (shTable sphTerms) disk) (o o' : SaveOutcome) (cart : Bool) (cg : ℕ → ℕ → ℕ → ℝ)
    (net : TetraNet) {n : ℕ} (hn : 0 < n) (X : Fin n → Fin 3 → ℝ) :
    tetraLogits tiny disk o' cart cg net (fun b k => -X b k) = tetraLogits tiny disk o cart cg (flipPseudo net) X := by
  obtain ⟨x, hx, hxp, hxL, hxF⟩ := cubeFeatures_ok tiny ht disk hd o cart net.features net.maxDegree hn (centered X)
  obtain ⟨z, hz, hL, hF, hp⟩ := tetraLast_ok cg net x hxp
  obtain ⟨x', hx', hs⟩ := cubeFeatures_inversion tiny ht disk hd o o' cart net.features net.maxDegree (centered X) hx
  have hc : (fun b k => -centered X b k) = centered fun b k => -X b k := by
    funext b k
    simp only [centered, sum_neg_distrib]
    ring
  rw [hc] at hx'
  obtain ⟨z', hz', hs'⟩ := tetraLast_tr (symFacts_reflect _) net hs hz
  rw [tetraLogits_eq tiny disk o' cart _ net _ hx' hz', tetraLogits_eq tiny disk o cart _ (flipPseudo net) _ hx hz,
    flatDense_same _ _ hs']
  congr 1
  have hdr := (symFacts_reflect fun _ _ _ => 0).hdr z
  funext k
  unfold flatDense
  rw [hdr.1, hdr.2.1, hdr.2.2, hL, hF, hxF]
  refine congrArg₂ _ (sum_congr rfl fun p hp => sum_congr rfl fun i hi => sum_congr rfl fun f hf => ?_) rfl
  obtain rfl : i = 0 := by rw [mem_range] at hi; omega
  rw [reflect_val]
  have hf : f < net.features := mem_range.1 hf
  have h0 : deg 0 ∉ oddDegrees 0 := by decide +kernel
  cases hzp : z.pseudo
  · rw [hzp] at hp
    obtain rfl : p = 0 := by have := mem_range.1 hp; simpa [chan] using this
    simp [reflectSign, hL, flipPseudo, hf, hzp]
    intro hc
    exact absurd hc h0
  · rw [hzp] at hp
    have : p = 0 ∨ p = 1 := by have := mem_range.1 hp; simp [chan] at this; omega
    rcases this with rfl | rfl
    · simp [reflectSign, flipPseudo, hf, hzp]
    · simp [reflectSign, flipPseudo, hzp]

theorem tetraLogits_centered (tiny : ℝ) (disk : Disk SHCompressed) (o : SaveOutcome) (cart : Bool) (cg : ℕ → ℕ → ℕ → ℝ)
    (net : TetraNet) {n : ℕ} (X Y : Fin n → Fin 3 → ℝ) (h : centered X = centered Y) :
    tetraLogits tiny disk o cart cg net X = tetraLogits tiny disk o cart cg net Y := by
  unfold tetraLogits
  rw [h]

/-- **C67 (invariance).** Shifting the shape, rotating it and listing its cubes in another order does not change the logits. -/
theorem C67_invariance (tiny : ℝ) (ht : 0 < tiny) (disk : Disk SHCompressed)
    (hd : ValidDisk (shKind sphTerms) (shTable sphTerms) disk) (o o' : SaveOutcome) (cart : Bool) (cg : ℕ → ℕ → ℕ → ℝ)
    (hcg : LibraryCG cart cg) (net : TetraNet) {n : ℕ} (hn : 0 < n) (X : Fin n → Fin 3 → ℝ)
    (move : (Fin n → Fin 3 → ℝ) → Fin n → Fin 3 → ℝ) (hm : IsMotion move) :
    tetraLogits tiny disk o' cart cg net (move X) = tetraLogits tiny disk o cart cg net X := by
  obtain ⟨R, hR, hdet, t, σ, h⟩ := hm
  rw [h, ← logits_rotate tiny ht disk hd o o' cart cg hcg net hn X R hR hdet]
  unfold tetraLogits
  dsimp only
  rw [centered_perm, centered_translated, cubeFeatures_perm tiny ht disk hd o' o' cart _ _ hn]

/-- **C67 (reflections).** For every orthogonal matrix with determinant -1, the logits of the reflected shape are those the
network computes for the original shape after changing the sign of its pseudoscalar features. -/
theorem C67_reflection (tiny : ℝ) (ht : 0 < tiny) (disk : Disk SHCompressed)
    (hd : ValidDisk (shKind sphTerms) (shTable sphTerms) disk) (o o' : SaveOutcome) (cart : Bool) (cg : ℕ → ℕ → ℕ → ℝ)
    (hcg : LibraryCG cart cg) (net : TetraNet) {n : ℕ} (hn : 0 < n) (X : Fin n → Fin 3 → ℝ) (R : Fin 3 → Fin 3 → ℝ)
    (hR : IsOrthogonal R) (hdet : det3x3 R = -1) :
    tetraLogits tiny disk o' cart cg net (rotated R X) = tetraLogits tiny disk o cart cg (flipPseudo net) X := by
  have hR' : IsOrthogonal fun i j => -R i j := fun i j => by
    rw [← hR i j]
    exact sum_congr rfl fun k _ => by ring
  rw [← logits_rotate tiny ht disk hd o o cart cg hcg (flipPseudo net) hn X _ hR' (by unfold det3x3 at hdet ⊢; linarith),
    ← logits_inversion tiny ht disk hd o o' cart cg net hn]
  congr 1
  funext b k
  simp [rotated, vecMul]

/-- **C67 (no pseudoscalars).** If the second TensorDense layer has no pseudotensors, reflections do not change the logits
either. -/
theorem C67_mirror (tiny : ℝ) (ht : 0 < tiny) (disk : Disk SHCompressed)
    (hd : ValidDisk (shKind sphTerms) (shTable sphTerms) disk) (o o' : SaveOutcome) (cart : Bool) (cg : ℕ → ℕ → ℕ → ℝ)
    (hcg : LibraryCG cart cg) (net : TetraNet) (hp : net.includePseudo = false) {n : ℕ} (hn : 0 < n) (X : Fin n → Fin 3 → ℝ)
    (R : Fin 3 → Fin 3 → ℝ) (hR : IsOrthogonal R) :
    tetraLogits tiny disk o' cart cg net (rotated R X) = tetraLogits tiny disk o cart cg net X := by
  rcases det_sq hR with h | h
  · exact logits_rotate tiny ht disk hd o o' cart cg hcg net hn X R hR h
  · rw [C67_reflection tiny ht disk hd o o' cart cg hcg net hn X R hR h]
    obtain ⟨x, hx, hxp, hxL, hxF⟩ := cubeFeatures_ok tiny ht disk hd o cart net.features net.maxDegree hn (centered X)
    obtain ⟨z, hz, hL, hF, hps⟩ := tetraLast_ok cg net x hxp
    rw [tetraLogits_eq tiny disk o cart _ net _ hx hz, tetraLogits_eq tiny disk o cart _ (flipPseudo net) _ hx hz]
    congr 1
    have hzp : z.pseudo = false := by
      cases h : z.pseudo
      · rfl
      · have := (hps.1 h).1; rw [hp] at this; cases this
    funext k
    unfold flatDense
    rw [hL, hF, hxF, hzp]
    refine congrArg₂ _ (sum_congr rfl fun p hp => sum_congr rfl fun i hi => sum_congr rfl fun f hf => ?_) rfl
    obtain rfl : i = 0 := by rw [mem_range] at hi; omega
    obtain rfl : p = 0 := by have := mem_range.1 hp; simpa [chan] using this
    have hf : f < net.features := mem_range.1 hf
    simp [flipPseudo, hf]

/-! ## the eight shapes -/

/-- The exchange of the first two axes. -/
noncomputable def swapXY : Fin 3 → Fin 3 → ℝ := signedPerm (Equiv.swap 0 1) fun _ => 1

theorem line_eq : tetracubes 0 = ![![-1.5, 0, 0], ![-0.5, 0, 0], ![0.5, 0, 0], ![1.5, 0, 0]] := rfl

theorem right_eq : tetracubes 6 =
    ![![-0.5, 0.25, -0.25], ![-0.5, 0.25, 0.75], ![0.5, 0.25, -0.25], ![0.5, -0.75, -0.25]] := rfl

theorem left_eq : tetracubes 7 =
    ![![-0.75, 0.5, -0.25], ![0.25, -0.5, 0.75], ![0.25, 0.5, -0.25], ![0.25, -0.5, -0.25]] := rfl

theorem left_screw : tetracubes 7 = rotated swapXY (tetracubes 6) ∘ Equiv.swap (0 : Fin 4) 3 := by
  funext b k
  rw [left_eq, right_eq]
  fin_cases b <;> fin_cases k <;>
    simp [rotated, vecMul, swapXY, signedPerm, Fin.sum_univ_three, Equiv.swap_apply_def] <;> norm_num

theorem logits_perm (tiny : ℝ) (ht : 0 < tiny) (disk : Disk SHCompressed)
    (hd : ValidDisk (shKind sphTerms) (shTable sphTerms) disk) (o o' : SaveOutcome) (cart : Bool) (cg : ℕ → ℕ → ℕ → ℝ)
    (net : TetraNet) {n : ℕ} (hn : 0 < n) (X : Fin n → Fin 3 → ℝ) (σ : Equiv.Perm (Fin n)) :
    tetraLogits tiny disk o' cart cg net (X ∘ σ) = tetraLogits tiny disk o cart cg net X := by
  unfold tetraLogits
  dsimp only
  rw [centered_perm, cubeFeatures_perm tiny ht disk hd o o' cart _ _ hn]

/-- **C67 (screws).** Without pseudoscalars the left and the right screw have the same logits, for all parameters. -/
theorem C67_screws (tiny : ℝ) (ht : 0 < tiny) (disk : Disk SHCompressed)
    (hd : ValidDisk (shKind sphTerms) (shTable sphTerms) disk) (o o' : SaveOutcome) (cart : Bool) (cg : ℕ → ℕ → ℕ → ℝ)
    (hcg : LibraryCG cart cg) (net : TetraNet) (hp : net.includePseudo = false) :
    tetraLogits tiny disk o' cart cg net (tetracubes 7) = tetraLogits tiny disk o cart cg net (tetracubes 6) := by
  rw [left_screw, logits_perm tiny ht disk hd o o' cart cg net (by norm_num)]
  exact C67_mirror tiny ht disk hd o o cart cg hcg net hp (by norm_num) _ _ (signedPerm_orthogonal _ _ fun _ => by norm_num)

theorem batchLogits_ok {n : ℕ} (call : (Fin n → Fin 3 → ℝ) → Except Err (Fin 8 → ℝ)) (f : (Fin n → Fin 3 → ℝ) → Fin 8 → ℝ)
    (h : ∀ X, call X = .ok (f X)) (batch : List ((Fin n → Fin 3 → ℝ) × ℕ)) :
    batchLogits call batch = .ok (batch.map fun s => (f s.1, s.2)) := by
  induction batch with
  | nil => rfl
  | cons s batch ih => simp only [batchLogits, h, ih, List.map_cons]; rfl

theorem crossEntropy_nonneg (logits : Fin 8 → ℝ) (label : ℕ) : 0 ≤ crossEntropy logits label := by
  unfold crossEntropy
  rw [neg_nonneg]
  refine sum_nonpos fun k _ => ?_
  split
  · rw [one_mul, sub_nonpos]
    rw [← Real.log_exp (logits k)]
    refine Real.log_le_log (Real.exp_pos _) ?_
    exact single_le_sum (f := fun j => Real.exp (logits j)) (fun j _ => (Real.exp_pos _).le) (mem_univ k)
  · simp

theorem crossEntropy_eq (logits : Fin 8 → ℝ) (k : Fin 8) :
    crossEntropy logits k = Real.log (∑ j, Real.exp (logits j)) - logits k := by
  unfold crossEntropy
  simp [Fin.val_inj]

/-- The cross entropies of two different labels for the same logits add up to at least `2 log 2`. -/
theorem crossEntropy_pair (logits : Fin 8 → ℝ) {j k : Fin 8} (h : j ≠ k) :
    2 * Real.log 2 ≤ crossEntropy logits j + crossEntropy logits k := by
  rw [crossEntropy_eq, crossEntropy_eq]
  have hS : Real.exp (logits j) + Real.exp (logits k) ≤ ∑ j, Real.exp (logits j) := by
    rw [← sum_pair (f := fun j => Real.exp (logits j)) h]
    exact sum_le_sum_of_subset_of_nonneg (subset_univ _) fun _ _ _ => (Real.exp_pos _).le
  have hj := Real.exp_pos (logits j)
  have hk := Real.exp_pos (logits k)
  set S := ∑ j, Real.exp (logits j)
  have hS0 : 0 < S := by linarith
  have : 4 * (Real.exp (logits j) * Real.exp (logits k)) ≤ S ^ 2 := by
    nlinarith [sq_nonneg (Real.exp (logits j) - Real.exp (logits k))]
  have h := Real.log_le_log (by positivity) this
  rw [Real.log_mul (by norm_num) (by positivity), Real.log_mul (by positivity) (by positivity), Real.log_exp, Real.log_exp,
    Real.log_pow, show (4 : ℝ) = 2 ^ 2 by norm_num, Real.log_pow] at h
  push_cast at h
  linarith

/-- **C67 (at most 7/8).** Without pseudoscalars the accuracy on the eight shapes is at most 7/8 and the mean cross entropy at
least `log 2 / 4`, for all parameters. -/
theorem C67_seven_eighths (tiny : ℝ) (ht : 0 < tiny) (disk : Disk SHCompressed)
    (hd : ValidDisk (shKind sphTerms) (shTable sphTerms) disk) (o : SaveOutcome) (cart : Bool) (cg : ℕ → ℕ → ℕ → ℝ)
    (hcg : LibraryCG cart cg) (net : TetraNet) (hp : net.includePseudo = false) :
    ∃ loss accuracy, classifyStep (tetraLogits tiny disk o cart cg net) allTetracubes = .ok (loss, accuracy) ∧
      accuracy ≤ 7 / 8 ∧ Real.log 2 / 4 ≤ loss := by
  choose f hf using fun X : Fin 4 → Fin 3 → ℝ => C67_exists tiny ht disk hd o cart cg net (by norm_num) X
  have h67 : f (tetracubes 7) = f (tetracubes 6) := by
    have := C67_screws tiny ht disk hd o o cart cg hcg net hp
    rw [hf, hf] at this
    exact Except.ok.inj this
  unfold classifyStep
  rw [batchLogits_ok _ f hf]
  refine ⟨_, _, rfl, ?_, ?_⟩
  · simp only [allTetracubes, List.map_ofFn, List.length_ofFn, List.sum_ofFn, Function.comp_def]
    rw [div_le_div_iff₀ (by norm_num) (by norm_num)]
    have h1 : ∀ k : Fin 8, (if (argmax (f (tetracubes k)) : ℕ) = (k : ℕ) then (1 : ℝ) else 0) ≤ 1 := fun k => by
      split <;> norm_num
    have h2 : (if (argmax (f (tetracubes 6)) : ℕ) = ((6 : Fin 8) : ℕ) then (1 : ℝ) else 0) +
        (if (argmax (f (tetracubes 7)) : ℕ) = ((7 : Fin 8) : ℕ) then (1 : ℝ) else 0) ≤ 1 := by
      rw [h67]
      split
      next h => rw [h]; norm_num
      next h => split <;> norm_num
    rw [Fin.sum_univ_eight]
    push_cast
    linarith [h1 0, h1 1, h1 2, h1 3, h1 4, h1 5]
  · simp only [allTetracubes, List.map_ofFn, List.length_ofFn, List.sum_ofFn, Function.comp_def]
    rw [div_le_div_iff₀ (by norm_num) (by norm_num)]
    have h1 : ∀ k : Fin 8, 0 ≤ crossEntropy (f (tetracubes k)) (k : ℕ) := fun k => crossEntropy_nonneg _ _
    have h2 := crossEntropy_pair (f (tetracubes 6)) (j := 6) (k := 7) (by decide)
    rw [Fin.sum_univ_eight, h67]
    push_cast
    linarith [h1 0, h1 1, h1 2, h1 3, h1 4, h1 5]

/-- **C67 (evaluation).** Moving every shape of a batch in its own way changes neither loss nor accuracy. -/
theorem C67_eval (tiny : ℝ) (ht : 0 < tiny) (disk : Disk SHCompressed)
    (hd : ValidDisk (shKind sphTerms) (shTable sphTerms) disk) (o o' : SaveOutcome) (cart : Bool) (cg : ℕ → ℕ → ℕ → ℝ)
    (hcg : LibraryCG cart cg) (net : TetraNet) {n : ℕ} (hn : 0 < n) (batch : List ((Fin n → Fin 3 → ℝ) × ℕ))
    (move : ℕ → (Fin n → Fin 3 → ℝ) → Fin n → Fin 3 → ℝ) (hm : ∀ b, IsMotion (move b)) :
    classifyStep (tetraLogits tiny disk o' cart cg net) (movedBatch move batch) =
      classifyStep (tetraLogits tiny disk o cart cg net) batch := by
  have : batchLogits (tetraLogits tiny disk o' cart cg net) (movedBatch move batch) =
      batchLogits (tetraLogits tiny disk o cart cg net) batch := by
    unfold movedBatch
    induction batch generalizing move with
    | nil => rfl
    | cons s batch ih =>
      rw [List.mapIdx_cons]
      simp only [batchLogits]
      rw [C67_invariance tiny ht disk hd o o' cart cg hcg net hn s.1 (move 0) (hm 0)]
      rw [ih (fun b => move (b + 1)) fun b => hm (b + 1)]
  unfold classifyStep
  rw [this]

/-! ## no pseudoscalars after one tensor product -/

/-- **C67 (first layer).** For proper tensors the first TensorDense layer has no coupling path to pseudoscalars: these are zero
for all parameters (of a Tensor layer that is not fused). -/
theorem C67_first_layer (cart : Bool) (cg : ℕ → ℕ → ℕ → ℝ) (hcg : LibraryCG cart cg) (net : TetraNet) (K : TensorKernel)
    (hK : net.tensor1 = .tensor K) (x z : Feat) (hx : x.pseudo = false) (hz : tetraHidden cg net x = .ok z) (f : ℕ) :
    comp z 1 0 f = 0 := by
  cases hp : z.pseudo
  · simp [comp, hp]
  rw [libraryCG_eq hcg] at hz
  unfold tetraHidden at hz
  rw [hK] at hz
  rw [tensorDense_comp _ _ _ _ _ _ _ _ hz (by norm_num) (by positivity) hp]
  refine sum_eq_zero fun p hp => sum_eq_zero fun q hq => ?_
  split
  next h =>
    refine sum_eq_zero fun l hl => sum_eq_zero fun m hm => ?_
    obtain ⟨h2, h1, -, -⟩ := C12_dense (2 * (none : Option ℕ).getD x.F) true net.dense1 x
    by_cases hlm : deg l = deg m
    · have hpq : p ≠ deg l % 2 ∨ q ≠ deg m % 2 := by omega
      rcases hpq with hpq | hpq
      · rw [show comp (dense (2 * (none : Option ℕ).getD x.F) true net.dense1 x) p l f = 0 by
          unfold comp; rw [h2, hx, if_neg hpq]; simp]
        ring
      · rw [show comp (dense (2 * (none : Option ℕ).getD x.F) true net.dense1 x) q m ((none : Option ℕ).getD x.F + f) = 0 by
          unfold comp; rw [h2, hx, if_neg hpq]; simp]
        ring
    · have : cgTensor cart l m 0 = 0 := by
        unfold cgTensor
        exact symCG_of_not_tri _ _ _ _ _ _ fun ⟨_, a, b⟩ => hlm (by
          have e0 : degreeOf 0 = 0 := dg_zero
          rw [e0] at a b
          have a : degreeOf m ≤ degreeOf l := by simpa using a
          have b : degreeOf l ≤ degreeOf m := by simpa using b
          exact le_antisymm b a)
      rw [this, mul_zero]
  next => rfl

/-! ## the ordinary model -/

/-- **C67 (ordinary model, shifts).** The ordinary model does not see shifts either. -/
theorem C67_ordinary_shift (net : OrdinaryNet) {n : ℕ} (X : Fin n → Fin 3 → ℝ) (t : Fin 3 → ℝ) :
    ordinaryLogits net (translated t X) = ordinaryLogits net X := by
  unfold ordinaryLogits
  rw [centered_translated]

/-- **C67 (ordinary model, rotations).** But for some parameters the class it assigns to the first of the eight shapes changes
when the shape is rotated by 180 degrees or its cubes are listed in another order. -/
theorem C67_ordinary_rotation : ∃ net : OrdinaryNet, net.features = 8 ∧
    (∃ R, IsOrthogonal R ∧ det3x3 R = 1 ∧
      argmax (ordinaryLogits net (rotated R (tetracubes 0))) ≠ argmax (ordinaryLogits net (tetracubes 0))) ∧
    ∃ σ : Equiv.Perm (Fin 4),
      argmax (ordinaryLogits net (tetracubes 0 ∘ σ)) ≠ argmax (ordinaryLogits net (tetracubes 0)) := by
  let net : OrdinaryNet := ⟨8, fun i o => if i = 0 ∧ o = 0 then 1 else 0, fun _ => 0, fun i o => if i = 0 ∧ o = 0 then 1 else 0,
    fun _ => 0, fun i k => if i = 0 ∧ k = 1 then 1 else 0, fun _ => 0⟩
  have key : ∀ X : Fin 4 → Fin 3 → ℝ, ordinaryLogits net X = fun k => if k = 1 then max (centered X 0 0) 0 else 0 := by
    intro X
    funext k
    simp only [ordinaryLogits, net]
    have h1 : ∀ o : ℕ, (∑ b : Fin 4, ∑ k : Fin 3, centered X b k * if (b : ℕ) * 3 + (k : ℕ) = 0 ∧ o = 0 then (1 : ℝ) else 0) + 0 =
        if o = 0 then centered X 0 0 else 0 := by
      intro o
      simp [Fin.sum_univ_four, Fin.sum_univ_three]
    simp only [h1]
    simp [sum_range_succ]
  have e0 : ordinaryLogits net (tetracubes 0) = fun _ => 0 := by
    rw [key]
    funext k
    rw [line_eq]
    simp [centered, Fin.sum_univ_four]
    intro _
    norm_num
  have a0 : argmax (fun _ => 0) = 0 := by
    unfold argmax
    simp [List.finRange_succ]
  have a1 : argmax (fun k => if k = 1 then 3 / 2 else 0) = 1 := by
    unfold argmax
    norm_num [List.finRange_succ, Fin.ext_iff]
  refine ⟨net, rfl, ⟨signedPerm (Equiv.refl _) ![-1, -1, 1], signedPerm_orthogonal _ _ fun i => ?_, ?_, ?_⟩, Equiv.swap 0 3, ?_⟩
  · fin_cases i <;> norm_num
  · simp [det3x3, signedPerm]
  · have : ordinaryLogits net (rotated (signedPerm (Equiv.refl _) ![-1, -1, 1]) (tetracubes 0)) =
        fun k => if k = 1 then 3 / 2 else 0 := by
      rw [key]
      funext k
      rw [line_eq]
      simp [centered, Fin.sum_univ_four, rotated, vecMul, signedPerm, Fin.sum_univ_three]
      norm_num
    rw [this, e0, a0, a1]
    decide
  · have : ordinaryLogits net (tetracubes 0 ∘ Equiv.swap (0 : Fin 4) 3) = fun k => if k = 1 then 3 / 2 else 0 := by
      rw [key]
      funext k
      rw [line_eq]
      simp [centered, Fin.sum_univ_four, Equiv.swap_apply_def]
      norm_num
    rw [this, e0, a0, a1]
    decide

end E3x
