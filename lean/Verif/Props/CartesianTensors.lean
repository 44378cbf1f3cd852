import Verif.Lemmas.CartesianTensors
import Verif.Props.Exchange
import Verif.Props.Inertia

/-!
# C69: general Cartesian tensors are built from irreps, uniquely and consistently with rotations
-/

namespace E3x

open Finset Spec

theorem tensorOfDegree_eq (disk : Disk CGCompressed) (hd : ValidDisk (cgKind symClebschGordan) (cgTable symClebschGordan) disk)
    (o : SaveOutcome) (n : ℕ) (a : List ℕ → ℕ → ℝ) : tensorOfDegree disk o n a =
      .ok fun i => ((couplingPaths n).map fun path => pathTensor (cgTensor true) n path (a path) i).sum := by
  have h := clebschGordan_eq disk hd o (n - 1) 1 n true
  rw [Nat.cast_one] at h
  unfold tensorOfDegree
  rw [h]
  change Except.ok _ = Except.ok _
  congr 1
  funext i
  congr 1
  refine List.map_congr_left fun path hp => ?_
  refine pathTensor_table n le_rfl (fun i hi j hj k hk => ?_) hp _ _
  rw [if_pos ⟨hi, hj, hk⟩]

theorem pathIrrep_total {n : ℕ} (a : List ℕ → ℕ → ℝ) {path : List ℕ} (hp : path ∈ couplingPaths n) {m : ℕ}
    (hm : m < 2 * path.headD 0 + 1) : pathIrrep (cgTensor true) n path
      (fun i => ((couplingPaths n).map fun path => pathTensor (cgTensor true) n path (a path) i).sum) m = a path m := by
  have := pathIrrep_sum (cgTensor true) path ((couplingPaths n).map fun path => pathTensor (cgTensor true) n path (a path)) m
  simp only [List.map_map, Function.comp_def] at this
  rw [this, List.map_congr_left fun path' hp' => pathIrrep_pathTensor hp hp' (a path') hm,
    ← List.sum_toFinset _ (paths_nodup n), sum_ite_eq, if_pos (List.mem_toFinset.2 hp)]

/-- **C69 (uniqueness).** Every tensor of degree `n` is built from exactly one family of irreps. -/
theorem C69_unique (disk : Disk CGCompressed) (hd : ValidDisk (cgKind symClebschGordan) (cgTable symClebschGordan) disk)
    (o : SaveOutcome) (n : ℕ) (T : (Fin n → Fin 3) → ℝ) : ∃! a, IsFamily n a ∧ tensorOfDegree disk o n a = .ok T := by
  classical
  refine ⟨fun path m => if path ∈ couplingPaths n ∧ m < 2 * path.headD 0 + 1 then
    pathIrrep (cgTensor true) n path T m else 0, ⟨fun path m h => ?_, ?_⟩, ?_⟩
  · by_contra h'
    exact h (if_neg h')
  · rw [tensorOfDegree_eq disk hd]
    congr 1
    funext i
    rw [← pathTensor_complete n T i]
    congr 1
    refine List.map_congr_left fun path hp => pathTensor_congr _ hp (fun q hq => ?_) i
    rw [if_pos ⟨hp, hq⟩]
  · rintro b ⟨hb, hT⟩
    rw [tensorOfDegree_eq disk hd] at hT
    have hT := Except.ok.inj hT
    funext path m
    split
    next h =>
      obtain ⟨hp, hm⟩ := h
      rw [← hT, pathIrrep_total b hp hm]
    next h =>
      by_contra h'
      exact h (hb path m h')

/-- **C69 (count).** No coupling path is listed twice, and the irreps of all paths together have as many components as the
tensor has entries. -/
theorem C69_count (n : ℕ) : (couplingPaths n).Nodup ∧ ((couplingPaths n).map fun path => 2 * path.headD 0 + 1).sum = 3 ^ n := by
  refine ⟨paths_nodup n, ?_⟩
  induction n with
  | zero => rfl
  | succ n ih =>
    have h := sum_paths_succ n fun path => ((2 * path.headD 0 + 1 : ℕ) : ℝ)
    have hc : ∀ l, ∑ l' ∈ nextDegrees l, ((2 * l' + 1 : ℕ) : ℝ) = 3 * ((2 * l + 1 : ℕ) : ℝ) := by
      intro l
      unfold nextDegrees
      cases l with
      | zero =>
        have : ((range (0 + 2)).filter fun l' => 0 ≤ l' + 1 ∧ 1 ≤ 0 + l') = {1} := by decide
        rw [this]; norm_num
      | succ l =>
        have : ((range (l + 1 + 2)).filter fun l' => l + 1 ≤ l' + 1 ∧ 1 ≤ l + 1 + l') = {l, l + 1, l + 2} := by
          ext x; simp only [mem_filter, mem_range, mem_insert, mem_singleton]; omega
        rw [this, sum_insert (by simp), sum_insert (by simp), sum_singleton]
        push_cast; ring
    simp only [List.headD_cons, hc] at h
    rw [List.sum_map_mul_left] at h
    have e : ∀ m, ((((couplingPaths m).map fun path => 2 * path.headD 0 + 1).sum : ℕ) : ℝ) =
        ((couplingPaths m).map fun path => ((2 * path.headD 0 + 1 : ℕ) : ℝ)).sum := by
      intro m; rw [Nat.cast_list_sum, List.map_map]; rfl
    rw [← e, ← e, ih] at h
    rw [pow_succ, mul_comm]
    exact_mod_cast h

/-- **C69 (norm).** The squares of the entries of the tensor and the squares of the components of its irreps have the same
sum. -/
theorem C69_norm (disk : Disk CGCompressed) (hd : ValidDisk (cgKind symClebschGordan) (cgTable symClebschGordan) disk)
    (o : SaveOutcome) (n : ℕ) (a : List ℕ → ℕ → ℝ) (T : (Fin n → Fin 3) → ℝ) (h : tensorOfDegree disk o n a = .ok T) :
    ∑ i, T i ^ 2 = ((couplingPaths n).map fun path => ∑ m ∈ range (2 * path.headD 0 + 1), a path m ^ 2).sum := by
  rw [tensorOfDegree_eq disk hd] at h
  have hT := Except.ok.inj h
  have e : ∑ i, T i ^ 2 = ((couplingPaths n).map fun path => ∑ i, pathTensor (cgTensor true) n path (a path) i * T i).sum := by
    have : ∀ i, T i ^ 2 = ((couplingPaths n).map fun path => pathTensor (cgTensor true) n path (a path) i * T i).sum := by
      intro i
      rw [List.sum_map_mul_right, pow_two]
      congr 1
      rw [← hT]
    rw [sum_congr rfl fun i _ => this i]
    induction couplingPaths n with
    | nil => simp
    | cons p ps ih => simp only [List.map_cons, List.sum_cons, sum_add_distrib, ih]
  rw [e]
  congr 1
  refine List.map_congr_left fun path hp => ?_
  rw [pathTensor_pairing hp]
  refine sum_congr rfl fun m hm => ?_
  rw [pow_two]
  congr 1
  rw [← hT, pathIrrep_total a hp (mem_range.1 hm)]

/-- **C69 (rotations).** Rotating all irreps rotates the tensor. -/
theorem C69_rotation (disk : Disk CGCompressed) (hd : ValidDisk (cgKind symClebschGordan) (cgTable symClebschGordan) disk)
    (wdisk : Disk WDCompressed) (hw : ValidDisk (wdKind wigTerms) (wdTable wigTerms) wdisk) (o o' o'' : SaveOutcome)
    (R : Fin 3 → Fin 3 → ℝ) (hR : IsOrthogonal R) (hdet : det3x3 R = 1) (n : ℕ) (a : List ℕ → ℕ → ℝ) (T : (Fin n → Fin 3) → ℝ)
    (h : tensorOfDegree disk o n a = .ok T) : ∃ D, wignerD wdisk o' R n true = .ok D ∧
      tensorOfDegree disk o'' n (fun path => rotatedIrrep D (path.headD 0) (a path)) = .ok (rotatedTensor R T) := by
  refine ⟨_, wignerD_eq wdisk hw o' R n true, ?_⟩
  rw [tensorOfDegree_eq disk hd] at h ⊢
  have hT := Except.ok.inj h
  congr 1
  funext i
  unfold rotatedTensor
  rw [← hT]
  have e : ∀ path ∈ couplingPaths n, pathTensor (cgTensor true) n path (rotatedIrrep (fun i j =>
      if i < (n + 1) ^ 2 ∧ j < (n + 1) ^ 2 then dMatrix true R i j else 0) (path.headD 0) (a path)) i =
      ∑ j : Fin n → Fin 3, (∏ k, R (j k) (i k)) * pathTensor (cgTensor true) n path (a path) j := by
    intro path hp
    rw [← pathTensor_rotate hR hdet hp]
    refine pathTensor_congr _ hp (fun q hq => sum_congr rfl fun p hp' => ?_) _
    have := head_le hp
    dsimp only
    rw [if_pos ⟨flat_lt this (mem_range.1 hp'), flat_lt this hq⟩]
  rw [List.map_congr_left e]
  induction couplingPaths n with
  | nil => simp
  | cons p ps ih => simp only [List.map_cons, List.sum_cons, mul_add, sum_add_distrib, ih]

/-! ## the tensors of degrees 2 and 3 in the documentation -/

theorem paths_two : couplingPaths 2 = [[0, 1, 0], [1, 1, 0], [2, 1, 0]] := by decide

theorem paths_three : couplingPaths 3 = [[1, 0, 1, 0], [0, 1, 1, 0], [1, 1, 1, 0], [2, 1, 1, 0], [1, 2, 1, 0], [2, 2, 1, 0],
    [3, 2, 1, 0]] := by decide

theorem pathTensor_two (l : ℕ) (a : ℕ → ℝ) (i : Fin 2 → Fin 3) :
    pathTensor (cgTensor true) 2 [l, 1, 0] a i = irrepMatrix (cgTensor true) l a (i 0) (i 1) := by
  have e0 : (Fin.init i) (Fin.last 0) = i 0 := rfl
  have e1 : i (Fin.last 1) = i 1 := rfl
  simp only [pathTensor, List.headD_cons, List.tail_cons, e0, e1]
  norm_num only
  simp only [cgTensor_zero]
  unfold irrepMatrix
  rw [sum_eq_single (i 0 : ℕ)]
  · simp
  · intro p _ hp
    rw [if_neg (by omega), mul_zero]
  · intro h; exact absurd (mem_range.2 (i 0).2) h

theorem pathTensor_three (l1 l2 : ℕ) (a : ℕ → ℝ) (i : Fin 3 → Fin 3) :
    pathTensor (cgTensor true) 3 [l2, l1, 1, 0] a i = irrepCube (cgTensor true) (l1, l2) a (i 0) (i 1) (i 2) := by
  have e2 : i (Fin.last 2) = i 2 := rfl
  rw [pathTensor]
  simp only [List.headD_cons, List.tail_cons, e2]
  rw [pathTensor_two]
  unfold irrepMatrix irrepCube
  simp only [sum_mul]
  rw [sum_comm]
  exact sum_congr rfl fun p _ => sum_congr rfl fun q _ => by
    have : (Fin.init i : Fin 2 → Fin 3) 0 = i 0 ∧ (Fin.init i : Fin 2 → Fin 3) 1 = i 1 := ⟨rfl, rfl⟩
    rw [this.1, this.2]
    ring

/-- the irreps used for the tensor of degree 2 -/
def family2 (x : Feat) (f : ℕ) : List ℕ → ℕ → ℝ := fun path => irrepSlice x 0 (path.headD 0) f

theorem tensor2_eq (disk : Disk CGCompressed) (hd : ValidDisk (cgKind symClebschGordan) (cgTable symClebschGordan) disk)
    (o : SaveOutcome) (x : Feat) (f : ℕ) : tensorOfDegree2 disk o x f =
      .ok fun a b => ((couplingPaths 2).map fun path => pathTensor (cgTensor true) 2 path (family2 x f path) ![a, b]).sum := by
  have h := clebschGordan_eq disk hd o 1 1 2 true
  push_cast at h
  unfold tensorOfDegree2
  rw [h]
  change Except.ok _ = Except.ok _
  congr 1
  funext a b
  rw [paths_two]
  have e : ∀ l ≤ 2, ∀ c : ℕ → ℝ, irrepMatrix (fun i j k => if i < 4 ∧ j < 4 ∧ k < 9 then
      cgTensor true i j k else 0) l c a b = irrepMatrix (cgTensor true) l c a b := by
    intro l hl c
    refine sum_congr rfl fun n hn => ?_
    have t := flat_lt hl (mem_range.1 hn)
    dsimp only
    rw [if_pos ⟨by omega, by omega, t⟩]
  simp only [List.range, List.range.loop, List.map_cons, List.map_nil, List.zip_cons_cons, List.zip_nil_right, List.sum_cons,
    List.sum_nil, pathTensor_two, family2, List.headD_cons, Matrix.cons_val_zero, Matrix.cons_val_one]
  rw [e 0 (by norm_num), e 1 (by norm_num), e 2 (by norm_num)]

/-- the feature used for a path of degree 3 -/
def featureOf : List ℕ → ℕ
  | l2 :: l1 :: _ => if l2 = 1 then l1 else if l2 = 2 then l1 - 1 else 0
  | _ => 0

/-- the irreps used for the tensor of degree 3 -/
def family3 (x : Feat) : List ℕ → ℕ → ℝ := fun path => irrepSlice x 1 (path.headD 0) (featureOf path)

theorem tensor3_eq (disk : Disk CGCompressed) (hd : ValidDisk (cgKind symClebschGordan) (cgTable symClebschGordan) disk)
    (o : SaveOutcome) (x : Feat) : tensorOfDegree3 disk o x =
      .ok fun a b c => ((couplingPaths 3).map fun path => pathTensor (cgTensor true) 3 path (family3 x path) ![a, b, c]).sum := by
  have h := clebschGordan_eq disk hd o 2 1 3 true
  push_cast at h
  unfold tensorOfDegree3
  rw [h]
  change Except.ok _ = Except.ok _
  congr 1
  funext a b c
  rw [paths_three]
  have e : ∀ l1 ≤ 2, ∀ l2 ≤ 3, ∀ v : ℕ → ℝ, irrepCube (fun i j k => if i < 9 ∧ j < 4 ∧ k < 16 then
      cgTensor true i j k else 0) (l1, l2) v a b c = irrepCube (cgTensor true) (l1, l2) v a b c := by
    intro l1 h1 l2 h2 v
    refine sum_congr rfl fun p hp => sum_congr rfl fun n hn => ?_
    have t1 := flat_lt h1 (mem_range.1 hn)
    have t2 := flat_lt h2 (mem_range.1 hp)
    dsimp only at t1 t2 ⊢
    rw [if_pos ⟨by omega, by omega, by omega⟩, if_pos ⟨t1, by omega, t2⟩]
  simp only [couplingPaths3, List.map_cons, List.map_nil, List.zip_cons_cons, List.zip_nil_right, List.sum_cons,
    List.sum_nil, pathTensor_three, family3, featureOf, List.headD_cons, Matrix.cons_val_zero, Matrix.cons_val_one,
    Matrix.cons_val]
  rw [e 1 (by norm_num) 0 (by norm_num), e 0 (by norm_num) 1 (by norm_num), e 1 (by norm_num) 1 (by norm_num),
    e 2 (by norm_num) 1 (by norm_num), e 1 (by norm_num) 2 (by norm_num), e 2 (by norm_num) 2 (by norm_num),
    e 2 (by norm_num) 3 (by norm_num)]
  norm_num only [if_true, if_false]
  ring

theorem snoc_two (a b : Fin 3) : (Fin.snoc (Fin.snoc (Fin.elim0 : Fin 0 → Fin 3) a : Fin 1 → Fin 3) b : Fin 2 → Fin 3) = ![a, b] := by
  funext k
  fin_cases k <;> rfl

theorem snoc_three (a b c : Fin 3) : (Fin.snoc ![a, b] c : Fin 3 → Fin 3) = ![a, b, c] := by
  funext k
  fin_cases k <;> rfl

theorem sum_two_indices (g : (Fin 2 → Fin 3) → ℝ) : ∑ i, g i = ∑ a, ∑ b, g ![a, b] := by
  rw [sum_snoc, sum_comm]
  rw [sum_snoc, sum_comm]
  rw [Fintype.sum_unique]
  refine sum_congr rfl fun a _ => sum_congr rfl fun b _ => ?_
  rw [← snoc_two]
  congr

theorem sum_three_indices (g : (Fin 3 → Fin 3) → ℝ) : ∑ i, g i = ∑ a, ∑ b, ∑ c, g ![a, b, c] := by
  rw [sum_snoc, sum_comm, sum_two_indices]
  simp only [snoc_three]

/-- **C69 (matrices).** Every matrix is built from some features, and two features give the same matrix only if they agree in
the nine numbers that are used. -/
theorem C69_degree2 (disk : Disk CGCompressed) (hd : ValidDisk (cgKind symClebschGordan) (cgTable symClebschGordan) disk)
    (o o' : SaveOutcome) (f : ℕ) :
    (∀ T, ∃ x : Feat, x.pseudo = true ∧ x.L = 2 ∧ x.F = f + 1 ∧ tensorOfDegree2 disk o x f = .ok T) ∧
    ∀ x y, tensorOfDegree2 disk o x f = tensorOfDegree2 disk o' y f ↔ ∀ n < 9, x.val 0 n f = y.val 0 n f := by
  refine ⟨fun T => ?_, fun x y => ⟨fun h n hn => ?_, fun h => ?_⟩⟩
  · obtain ⟨a, ⟨-, hT⟩, -⟩ := C69_unique disk hd o 2 fun i => T (i 0) (i 1)
    refine ⟨⟨true, 2, f + 1, fun _ i _ => a [degreeOf i, 1, 0] (i - degreeOf i ^ 2)⟩, rfl, rfl, rfl, ?_⟩
    rw [tensorOfDegree_eq disk hd] at hT
    have hT := Except.ok.inj hT
    rw [tensor2_eq disk hd]
    congr 1
    funext b c
    refine Eq.trans ?_ (congrFun hT ![b, c])
    congr 1
    refine List.map_congr_left fun path hp => pathTensor_congr _ hp (fun q hq => ?_) _
    simp only [family2, irrepSlice]
    rw [degreeOf_flat hq]
    rw [paths_two] at hp
    simp only [List.mem_cons, List.not_mem_nil, or_false] at hp
    rcases hp with rfl | rfl | rfl <;> simp
  · rw [tensor2_eq disk hd, tensor2_eq disk hd] at h
    have h := Except.ok.inj h
    have h' : (fun i : Fin 2 → Fin 3 => ((couplingPaths 2).map fun path => pathTensor (cgTensor true) 2 path (family2 x f path) i).sum) =
        fun i => ((couplingPaths 2).map fun path => pathTensor (cgTensor true) 2 path (family2 y f path) i).sum := by
      funext i
      have e : i = ![i 0, i 1] := by funext k; fin_cases k <;> rfl
      rw [e]
      exact congrFun (congrFun h (i 0)) (i 1)
    have hlt : degreeOf n < 3 := by unfold degreeOf; rw [Nat.sqrt_lt']; exact hn
    have hp : [degreeOf n, 1, 0] ∈ couplingPaths 2 := by
      rw [paths_two]
      interval_cases degreeOf n <;> simp
    have hm : n - degreeOf n ^ 2 < 2 * [degreeOf n, 1, 0].headD 0 + 1 ∧ degreeOf n ^ 2 + (n - degreeOf n ^ 2) = n := by
      have h1 := Nat.sqrt_le' n
      have h2 := Nat.lt_succ_sqrt' n
      simp only [List.headD_cons]
      unfold degreeOf
      rw [Nat.succ_eq_add_one, show (Nat.sqrt n + 1) ^ 2 = Nat.sqrt n ^ 2 + 2 * Nat.sqrt n + 1 by ring] at h2
      omega
    have h1 := pathIrrep_total (family2 x f) hp hm.1
    rw [h', pathIrrep_total (family2 y f) hp hm.1] at h1
    simp only [family2, irrepSlice, List.headD_cons, hm.2] at h1
    exact h1.symm
  · rw [tensor2_eq disk hd, tensor2_eq disk hd]
    congr 1
    funext b c
    congr 1
    refine List.map_congr_left fun path hp => pathTensor_congr _ hp (fun q hq => ?_) _
    exact h _ (flat_lt (head_le hp) hq)

/-- The slices used for the tensor of degree 3. -/
theorem family3_slices (x y : Feat) : (∀ lf ∈ [(0, 0), (1, 0), (1, 1), (1, 2), (2, 0), (2, 1), (3, 0)], ∀ n < 2 * lf.1 + 1,
    x.val 1 (lf.1 ^ 2 + n) lf.2 = y.val 1 (lf.1 ^ 2 + n) lf.2) ↔
    ∀ path ∈ couplingPaths 3, ∀ m < 2 * path.headD 0 + 1, family3 x path m = family3 y path m := by
  rw [paths_three]
  simp only [List.forall_mem_cons, List.not_mem_nil, family3, irrepSlice, featureOf, List.headD_cons, false_imp_iff,
    implies_true, and_true]
  norm_num only [if_true, if_false]
  tauto

/-- **C69 (tensors of degree 3).** Every tensor of degree 3 is built from some features, and two features give the same tensor
only if they agree in the 27 numbers that are used. -/
theorem C69_degree3 (disk : Disk CGCompressed) (hd : ValidDisk (cgKind symClebschGordan) (cgTable symClebschGordan) disk)
    (o o' : SaveOutcome) :
    (∀ T, ∃ x : Feat, x.pseudo = true ∧ x.L = 3 ∧ x.F = 3 ∧ tensorOfDegree3 disk o x = .ok T) ∧
    ∀ x y, tensorOfDegree3 disk o x = tensorOfDegree3 disk o' y ↔
      ∀ lf ∈ [(0, 0), (1, 0), (1, 1), (1, 2), (2, 0), (2, 1), (3, 0)], ∀ n < 2 * lf.1 + 1,
        x.val 1 (lf.1 ^ 2 + n) lf.2 = y.val 1 (lf.1 ^ 2 + n) lf.2 := by
  refine ⟨fun T => ?_, fun x y => ?_⟩
  · obtain ⟨a, ⟨-, hT⟩, -⟩ := C69_unique disk hd o 3 fun i => T (i 0) (i 1) (i 2)
    refine ⟨⟨true, 3, 3, fun _ i g => a [degreeOf i, if degreeOf i = 1 then g else if degreeOf i = 2 then g + 1 else
      if degreeOf i = 3 then 2 else 1, 1, 0] (i - degreeOf i ^ 2)⟩, rfl, rfl, rfl, ?_⟩
    rw [tensorOfDegree_eq disk hd] at hT
    have hT := Except.ok.inj hT
    rw [tensor3_eq disk hd]
    congr 1
    funext b c d
    refine Eq.trans ?_ (congrFun hT ![b, c, d])
    congr 1
    refine List.map_congr_left fun path hp => pathTensor_congr _ hp (fun q hq => ?_) _
    simp only [family3, irrepSlice]
    rw [degreeOf_flat hq]
    rw [paths_three] at hp
    simp only [List.mem_cons, List.not_mem_nil, or_false] at hp
    rcases hp with rfl | rfl | rfl | rfl | rfl | rfl | rfl <;> simp [featureOf]
  · rw [family3_slices, tensor3_eq disk hd, tensor3_eq disk hd]
    constructor
    · intro h path hp m hm
      have h := Except.ok.inj h
      have h' : (fun i : Fin 3 → Fin 3 => ((couplingPaths 3).map fun path => pathTensor (cgTensor true) 3 path (family3 x path) i).sum) =
          fun i => ((couplingPaths 3).map fun path => pathTensor (cgTensor true) 3 path (family3 y path) i).sum := by
        funext i
        have e : i = ![i 0, i 1, i 2] := by funext k; fin_cases k <;> rfl
        rw [e]
        exact congrFun (congrFun (congrFun h (i 0)) (i 1)) (i 2)
      have h1 := pathIrrep_total (family3 x) hp hm
      rw [h', pathIrrep_total (family3 y) hp hm] at h1
      exact h1.symm
    · intro h
      congr 1
      funext b c d
      congr 1
      exact List.map_congr_left fun path hp => pathTensor_congr _ hp (h path hp) _

theorem rotate_slice {R : Fin 3 → Fin 3 → ℝ} (x : Feat) {p l f q : ℕ} (hl : l ≤ x.L) (hq : q < 2 * l + 1) :
    irrepSlice (rotate x fun i j => if i < (x.L + 1) ^ 2 ∧ j < (x.L + 1) ^ 2 then dMatrix true R i j else 0) p l f q =
      rotatedIrrep (dMatrix true R) l (irrepSlice x p l f) q := by
  simp only [irrepSlice, rotate, rotatedIrrep]
  rw [range_sq_eq, sum_eq_single l]
  · refine sum_congr rfl fun m hm => ?_
    rw [if_pos ⟨flat_lt hl (mem_range.1 hm), flat_lt hl hq⟩]
  · intro l' hl' hne
    refine sum_eq_zero fun m hm => ?_
    have : dMatrix true R (l' ^ 2 + m) (l ^ 2 + q) = 0 := dMatrix_block (by
      rw [degreeOf_flat (mem_range.1 hm), degreeOf_flat hq]; exact hne)
    rw [this, ite_self, mul_zero]
  · intro h; exact absurd (mem_range.2 (by omega)) h

/-- **C69 (matrices, rotations).** Rotating the features rotates the matrix. -/
theorem C69_degree2_rotation (disk : Disk CGCompressed)
    (hd : ValidDisk (cgKind symClebschGordan) (cgTable symClebschGordan) disk) (wdisk : Disk WDCompressed)
    (hw : ValidDisk (wdKind wigTerms) (wdTable wigTerms) wdisk) (o o' o'' : SaveOutcome) (R : Fin 3 → Fin 3 → ℝ)
    (hR : IsOrthogonal R) (hdet : det3x3 R = 1) (x : Feat) (hx : 2 ≤ x.L) (f : ℕ) (T : Fin 3 → Fin 3 → ℝ)
    (h : tensorOfDegree2 disk o x f = .ok T) : ∃ D, wignerD wdisk o' R x.L true = .ok D ∧
      tensorOfDegree2 disk o'' (rotate x D) f = .ok fun a b => ∑ c, ∑ d, R c a * R d b * T c d := by
  refine ⟨_, wignerD_eq wdisk hw o' R x.L true, ?_⟩
  rw [tensor2_eq disk hd] at h ⊢
  have hT := Except.ok.inj h
  congr 1
  funext a b
  have e : ∀ path ∈ couplingPaths 2, pathTensor (cgTensor true) 2 path (family2 (rotate x fun i j =>
      if i < (x.L + 1) ^ 2 ∧ j < (x.L + 1) ^ 2 then dMatrix true R i j else 0) f path) ![a, b] =
      ∑ c, ∑ d, R c a * R d b * pathTensor (cgTensor true) 2 path (family2 x f path) ![c, d] := by
    intro path hp
    have := pathTensor_rotate hR hdet hp (family2 x f path) ![a, b]
    rw [sum_two_indices] at this
    simp only [Fin.prod_univ_two, Matrix.cons_val_zero, Matrix.cons_val_one] at this
    rw [← this]
    exact pathTensor_congr _ hp (fun q hq => rotate_slice x ((head_le hp).trans hx) hq) _
  rw [List.map_congr_left e, ← hT]
  clear hT e h
  induction couplingPaths 2 with
  | nil => simp
  | cons p ps ih => simp only [List.map_cons, List.sum_cons, mul_add, sum_add_distrib, ih]

/-- **C69 (tensors of degree 3, rotations).** Rotating the features rotates the tensor. -/
theorem C69_degree3_rotation (disk : Disk CGCompressed)
    (hd : ValidDisk (cgKind symClebschGordan) (cgTable symClebschGordan) disk) (wdisk : Disk WDCompressed)
    (hw : ValidDisk (wdKind wigTerms) (wdTable wigTerms) wdisk) (o o' o'' : SaveOutcome) (R : Fin 3 → Fin 3 → ℝ)
    (hR : IsOrthogonal R) (hdet : det3x3 R = 1) (x : Feat) (hx : 3 ≤ x.L) (T : Fin 3 → Fin 3 → Fin 3 → ℝ)
    (h : tensorOfDegree3 disk o x = .ok T) : ∃ D, wignerD wdisk o' R x.L true = .ok D ∧
      tensorOfDegree3 disk o'' (rotate x D) = .ok fun a b c => ∑ a', ∑ b', ∑ c', R a' a * R b' b * R c' c * T a' b' c' := by
  refine ⟨_, wignerD_eq wdisk hw o' R x.L true, ?_⟩
  rw [tensor3_eq disk hd] at h ⊢
  have hT := Except.ok.inj h
  congr 1
  funext a b c
  have e : ∀ path ∈ couplingPaths 3, pathTensor (cgTensor true) 3 path (family3 (rotate x fun i j =>
      if i < (x.L + 1) ^ 2 ∧ j < (x.L + 1) ^ 2 then dMatrix true R i j else 0) path) ![a, b, c] =
      ∑ a', ∑ b', ∑ c', R a' a * R b' b * R c' c * pathTensor (cgTensor true) 3 path (family3 x path) ![a', b', c'] := by
    intro path hp
    have := pathTensor_rotate hR hdet hp (family3 x path) ![a, b, c]
    rw [sum_three_indices] at this
    simp only [Fin.prod_univ_three, Matrix.cons_val_zero, Matrix.cons_val_one, Matrix.cons_val] at this
    rw [← this]
    exact pathTensor_congr _ hp (fun q hq => rotate_slice x ((head_le hp).trans hx) hq) _
  rw [List.map_congr_left e, ← hT]
  clear hT e h
  induction couplingPaths 3 with
  | nil => simp
  | cons p ps ih => simp only [List.map_cons, List.sum_cons, mul_add, sum_add_distrib, ih]

/-- **C69 (reflections).** Reflecting features (with pseudotensors) at the origin does not change the matrix and changes the
sign of the tensor of degree 3: neither is a pseudotensor. -/
theorem C69_reflection (disk : Disk CGCompressed) (hd : ValidDisk (cgKind symClebschGordan) (cgTable symClebschGordan) disk)
    (o o' : SaveOutcome) (x : Feat) (hx : x.pseudo = true) :
    (∀ f T, tensorOfDegree2 disk o x f = .ok T → tensorOfDegree2 disk o' (reflect x) f = .ok T) ∧
    ∀ T, tensorOfDegree3 disk o x = .ok T → tensorOfDegree3 disk o' (reflect x) = .ok fun a b c => -T a b c := by
  have hr : reflect x = { x with val := fun p i f => if p = 1 then x.val p i f * (-1) else x.val p i f } := by
    unfold reflect; rw [if_pos hx]
  constructor
  · intro f T h
    rw [← h, tensor2_eq disk hd, tensor2_eq disk hd]
    rw [hr]
    rfl
  · intro T h
    rw [tensor3_eq disk hd] at h ⊢
    have hT := Except.ok.inj h
    congr 1
    funext a b c
    rw [← hT]
    have e : ∀ path ∈ couplingPaths 3, pathTensor (cgTensor true) 3 path (family3 (reflect x) path) ![a, b, c] =
        -1 * pathTensor (cgTensor true) 3 path (family3 x path) ![a, b, c] := by
      intro path hp
      have := pathTensor_sum (cgTensor true) path {0} (fun _ : ℕ => (-1 : ℝ)) (fun _ => family3 x path) ![a, b, c]
      simp only [sum_singleton] at this
      rw [← this]
      refine pathTensor_congr _ hp (fun q _ => ?_) _
      rw [hr]
      simp only [family3, irrepSlice, if_true]
      ring
    rw [List.map_congr_left e, List.sum_map_mul_left]
    ring

/-! ## the parts of a matrix -/

/-- **C69 (parts of a matrix).** The irrep of degree 0 contributes a multiple of the identity matrix, the irrep of degree 1 the
antisymmetric matrix of the cross product, the irrep of degree 2 a symmetric matrix of trace zero. -/
theorem C69_parts (disk : Disk CGCompressed) (hd : ValidDisk (cgKind symClebschGordan) (cgTable symClebschGordan) disk)
    (o : SaveOutcome) : ∃ cg, clebschGordan disk o 1 1 2 true = .ok cg ∧ ∀ v : ℕ → ℝ,
      (∀ a b, irrepMatrix cg 0 v a b = if a = b then v 0 / Real.sqrt 3 else 0) ∧
      Matrix.of (irrepMatrix cg 1 v) = (1 / Real.sqrt 2) • !![0, v 2, -v 1; -v 2, 0, v 0; v 1, -v 0, 0] ∧
      (∀ a b, irrepMatrix cg 2 v b a = irrepMatrix cg 2 v a b) ∧ ∑ a, irrepMatrix cg 2 v a a = 0 := by
  have h := clebschGordan_eq disk hd o 1 1 2 true
  push_cast at h
  refine ⟨_, h, fun v => ?_⟩
  have e : ∀ l ≤ 2, ∀ a b : Fin 3, irrepMatrix (fun i j k => if i < 4 ∧ j < 4 ∧ k < 9 then
      cgTensor true i j k else 0) l v a b = irrepMatrix (cgTensor true) l v a b := by
    intro l hl a b
    refine sum_congr rfl fun n hn => ?_
    have t := flat_lt hl (mem_range.1 hn)
    dsimp only
    rw [if_pos ⟨by omega, by omega, t⟩]
  simp only [e 0 (by norm_num), e 2 (by norm_num)]
  have hdot : ∀ a b : Fin 3, cgTensor true (1 + a) (1 + b) 0 = if a = b then 1 / Real.sqrt 3 else 0 := by
    intro a b
    rw [cg_vec_vec_scalar, cg_dot]
  refine ⟨fun a b => ?_, ?_, fun a b => ?_, ?_⟩
  · unfold irrepMatrix
    norm_num only [sum_range_one]
    rw [hdot]
    split
    · ring
    · ring
  · obtain ⟨c, hc, hc2, v1, v2, v3, n1, n2, n3⟩ := cg_vec_values
    have ec : c = 1 / Real.sqrt 2 := by
      rw [eq_div_iff (by positivity)]
      have h2 : (c * Real.sqrt 2) ^ 2 = 1 := by
        rw [mul_pow, Real.sq_sqrt (by norm_num)]
        linarith
      nlinarith [mul_pos hc (Real.sqrt_pos.2 (show (0 : ℝ) < 2 by norm_num))]
    have z := cg_vec_zero
    have z111 := z 0 0 0 (by decide); have z112 := z 0 0 1 (by decide); have z113 := z 0 0 2 (by decide)
    have z221 := z 1 1 0 (by decide); have z222 := z 1 1 1 (by decide); have z223 := z 1 1 2 (by decide)
    have z331 := z 2 2 0 (by decide); have z332 := z 2 2 1 (by decide); have z333 := z 2 2 2 (by decide)
    have z121 := z 0 1 0 (by decide); have z122 := z 0 1 1 (by decide)
    have z211 := z 1 0 0 (by decide); have z212 := z 1 0 1 (by decide)
    have z131 := z 0 2 0 (by decide); have z133 := z 0 2 2 (by decide)
    have z311 := z 2 0 0 (by decide); have z313 := z 2 0 2 (by decide)
    have z232 := z 1 2 1 (by decide); have z233 := z 1 2 2 (by decide)
    have z322 := z 2 1 1 (by decide); have z323 := z 2 1 2 (by decide)
    simp at z111 z112 z113 z221 z222 z223 z331 z332 z333 z121 z122 z211 z212 z131 z133 z311 z313 z232 z233 z322 z323
    have e1 : ∀ a b : Fin 3, irrepMatrix (fun i j k => if i < 4 ∧ j < 4 ∧ k < 9 then cgTensor true i j k else 0) 1 v a b =
        v 0 * cgTensor true (1 + a) (1 + b) 1 + v 1 * cgTensor true (1 + a) (1 + b) 2 +
          v 2 * cgTensor true (1 + a) (1 + b) 3 := by
      intro a b
      rw [e 1 (by norm_num)]
      unfold irrepMatrix
      rw [show 2 * 1 + 1 = 3 from rfl, sum_range_succ, sum_range_succ, sum_range_one]
      norm_num
    ext a b
    rw [Matrix.of_apply, e1]
    fin_cases a <;> fin_cases b <;>
    simp [v1, v2, v3, n1, n2, n3, z111, z112, z113, z221, z222, z223, z331, z332, z333, z121, z122, z211, z212,
      z131, z133, z311, z313, z232, z233, z322, z323, ec, mul_comm]
  · unfold irrepMatrix
    refine sum_congr rfl fun n hn => ?_
    rw [cgTensor_swap, degreeOf_vec, degreeOf_vec, degreeOf_flat (mem_range.1 hn)]
    norm_num
  · unfold irrepMatrix
    rw [sum_comm]
    refine sum_eq_zero fun n hn => ?_
    have := cgTensor_orthonormal true 1 1 (2 ^ 2 + n) 0 (by rw [degreeOf_flat (mem_range.1 hn)]; decide +kernel)
      (by decide +kernel)
    rw [if_neg (by omega)] at this
    simp only [Ico_vec_eq, hdot] at this
    simp only [mul_ite, mul_zero, sum_ite_eq, mem_univ, if_true] at this
    rw [← mul_sum]
    rw [← sum_mul] at this
    have h3 : (1 / Real.sqrt 3) ≠ 0 := by positivity
    rw [(mul_eq_zero.1 this).resolve_right h3, mul_zero]

/-- **C69 (symmetric matrices).** The matrix is symmetric exactly if the irrep of degree 1 vanishes, and its trace is zero
exactly if the scalar vanishes. -/
theorem C69_symmetric (disk : Disk CGCompressed) (hd : ValidDisk (cgKind symClebschGordan) (cgTable symClebschGordan) disk)
    (o : SaveOutcome) (x : Feat) (f : ℕ) (T : Fin 3 → Fin 3 → ℝ) (h : tensorOfDegree2 disk o x f = .ok T) :
    ((∀ a b, T a b = T b a) ↔ ∀ n ∈ [1, 2, 3], x.val 0 n f = 0) ∧ (∑ a, T a a = 0 ↔ x.val 0 0 f = 0) := by
  obtain ⟨cg, hcg, hp⟩ := C69_parts disk hd o
  unfold tensorOfDegree2 at h
  rw [hcg] at h
  have hT := Except.ok.inj h
  have e : ∀ a b, T a b = irrepMatrix cg 0 (irrepSlice x 0 0 f) a b + irrepMatrix cg 1 (irrepSlice x 0 1 f) a b +
      irrepMatrix cg 2 (irrepSlice x 0 2 f) a b := by
    intro a b
    rw [← hT]
    simp only [List.range, List.range.loop, List.map_cons, List.map_nil, List.zip_cons_cons, List.zip_nil_right, List.sum_cons,
      List.sum_nil]
    ring
  obtain ⟨p0, -, -, -⟩ := hp (irrepSlice x 0 0 f)
  obtain ⟨-, p1, -, -⟩ := hp (irrepSlice x 0 1 f)
  obtain ⟨-, -, p2, p3⟩ := hp (irrepSlice x 0 2 f)
  have p1' : ∀ a b, irrepMatrix cg 1 (irrepSlice x 0 1 f) a b = (1 / Real.sqrt 2) *
      !![0, irrepSlice x 0 1 f 2, -irrepSlice x 0 1 f 1; -irrepSlice x 0 1 f 2, 0, irrepSlice x 0 1 f 0;
        irrepSlice x 0 1 f 1, -irrepSlice x 0 1 f 0, 0] a b := fun a b => congrFun (congrFun p1 a) b
  have s2 : (0 : ℝ) < 1 / Real.sqrt 2 := by positivity
  have s3 : (0 : ℝ) < Real.sqrt 3 := by positivity
  have sl : ∀ n, irrepSlice x 0 1 f n = x.val 0 (1 + n) f := fun n => rfl
  have s0 : irrepSlice x 0 0 f 0 = x.val 0 0 f := rfl
  constructor
  · have key : ∀ a b, T a b = T b a ↔ irrepMatrix cg 1 (irrepSlice x 0 1 f) a b = irrepMatrix cg 1 (irrepSlice x 0 1 f) b a := by
      intro a b
      rw [e, e, p0, p0, p2 b a]
      simp only [eq_comm (a := a) (b := b)]
      constructor <;> intro h <;> linarith
    simp only [key, p1', sl]
    constructor
    · intro h
      have h01 : 1 / Real.sqrt 2 * x.val 0 3 f = 1 / Real.sqrt 2 * -x.val 0 3 f := h 0 1
      have h02 : 1 / Real.sqrt 2 * -x.val 0 2 f = 1 / Real.sqrt 2 * x.val 0 2 f := h 0 2
      have h12 : 1 / Real.sqrt 2 * x.val 0 1 f = 1 / Real.sqrt 2 * -x.val 0 1 f := h 1 2
      have c01 := mul_left_cancel₀ s2.ne' h01
      have c02 := mul_left_cancel₀ s2.ne' h02
      have c12 := mul_left_cancel₀ s2.ne' h12
      simp only [List.forall_mem_cons, List.not_mem_nil, false_imp_iff, implies_true, and_true]
      exact ⟨by linarith, by linarith, by linarith⟩
    · intro h
      simp only [List.forall_mem_cons, List.not_mem_nil, false_imp_iff, implies_true, and_true] at h
      intro a b
      fin_cases a <;> fin_cases b <;> simp [h]
  · have : ∑ a, T a a = Real.sqrt 3 * x.val 0 0 f := by
      have d1 : ∀ a, irrepMatrix cg 1 (irrepSlice x 0 1 f) a a = 0 := by
        intro a
        rw [p1']
        fin_cases a <;> simp
      simp only [e, d1, p0, if_true, sum_add_distrib, p3]
      rw [Fin.sum_univ_three, s0]
      have := Real.mul_self_sqrt (show (0 : ℝ) ≤ 3 by norm_num)
      have h3 : x.val 0 0 f = Real.sqrt 3 * (x.val 0 0 f / Real.sqrt 3) := by field_simp
      set u := x.val 0 0 f / Real.sqrt 3
      rw [h3, sum_const_zero, ← mul_assoc, this]
      ring
    rw [this]
    simp [s3.ne']

-- Without cache files: some features give the tensor with entry 1 at (0, 1, 2) and zeros elsewhere, and there is only one family
-- of irreps for this tensor.
example : (∃ x : Feat, x.pseudo = true ∧ x.L = 3 ∧ tensorOfDegree3 (noFiles _) .success x =
      .ok fun a b c => if a = 0 ∧ b = 1 ∧ c = 2 then 1 else 0) ∧
    ∃! a, IsFamily 3 a ∧ tensorOfDegree (noFiles _) .success 3 a = .ok fun i => if i = ![0, 1, 2] then 1 else 0 := by
  obtain ⟨x, h1, h2, -, h3⟩ := (C69_degree3 (noFiles _) (noFiles_valid _ _) .success .success).1
    fun a b c => if a = 0 ∧ b = 1 ∧ c = 2 then 1 else 0
  exact ⟨⟨x, h1, h2, h3⟩, C69_unique _ (noFiles_valid _ _) _ _ _⟩

-- The permutation (0 1 2) of the axes is a rotation. It maps the matrix with entry 1 at (0, 1) to the one with entry 1 at (1, 2).
example : ∃ (x : Feat) (D : ℕ → ℕ → ℝ), tensorOfDegree2 (noFiles _) .success x 0 =
      .ok (fun a b => if a = 0 ∧ b = 1 then 1 else 0) ∧
    wignerD (noFiles _) .success (fun a b : Fin 3 => if b = a + 1 then 1 else 0) x.L true = .ok D ∧
    tensorOfDegree2 (noFiles _) .success (rotate x D) 0 = .ok fun a b => if a = 1 ∧ b = 2 then 1 else 0 := by
  obtain ⟨x, -, hL, -, h3⟩ := (C69_degree2 (noFiles _) (noFiles_valid _ _) .success .success 0).1
    fun a b => if a = 0 ∧ b = 1 then 1 else 0
  obtain ⟨D, hD, h⟩ := C69_degree2_rotation (noFiles _) (noFiles_valid _ _) (noFiles _) (noFiles_valid _ _) .success .success
    .success (fun a b => if b = a + 1 then 1 else 0) (by
      intro i j
      fin_cases i <;> fin_cases j <;> simp [Fin.sum_univ_three])
    (by simp [det3x3]) x hL.ge 0 _ h3
  refine ⟨x, D, h3, hD, ?_⟩
  rw [h]
  congr 1
  funext a b
  fin_cases a <;> fin_cases b <;> simp [Fin.sum_univ_three]

end E3x
