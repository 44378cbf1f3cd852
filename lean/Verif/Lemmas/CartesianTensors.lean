import Mathlib.Data.Fin.Tuple.Basic
import Mathlib.Algebra.BigOperators.Fin
import Verif.Spec.CartesianTensors
import Verif.Lemmas.CGOrthogonality
import Verif.Lemmas.MatMatRotation
import Verif.Lemmas.Representation
import Verif.Props.WignerD

/-!
# Lemmas for C69: tensors from coupling paths
-/

namespace E3x

open Finset Spec

theorem range_sq_eq (L : ℕ) (g : ℕ → ℝ) :
    ∑ k ∈ range ((L + 1) ^ 2), g k = ∑ l ∈ range (L + 1), ∑ p ∈ range (2 * l + 1), g (l ^ 2 + p) := by
  induction L with
  | zero => simp
  | succ L ih =>
    rw [sum_range_succ _ (L + 1), ← ih, show (L + 1 + 1) ^ 2 = (L + 1) ^ 2 + (2 * (L + 1) + 1) by ring, sum_range_add]

theorem Ico_sq_eq (l : ℕ) (g : ℕ → ℝ) : ∑ k ∈ Ico (l ^ 2) ((l + 1) ^ 2), g k = ∑ p ∈ range (2 * l + 1), g (l ^ 2 + p) := by
  rw [sum_Ico_eq_sum_range, show (l + 1) ^ 2 - l ^ 2 = 2 * l + 1 by rw [show (l + 1) ^ 2 = l ^ 2 + (2 * l + 1) by ring]; omega]

theorem Ico_vec_eq (g : ℕ → ℝ) : ∑ k ∈ Ico (1 ^ 2) ((1 + 1) ^ 2), g k = ∑ c : Fin 3, g (1 + c) := by
  rw [Ico_sq_eq, Fin.sum_univ_eq_sum_range (fun c => g (1 + c)) 3]
  rfl

/-- degrees that an irrep of degree `l` couples to with vectors -/
def nextDegrees (l : ℕ) : Finset ℕ := (range (l + 2)).filter fun l' => l ≤ l' + 1 ∧ 1 ≤ l + l'

theorem mem_next {l l' : ℕ} : l' ∈ nextDegrees l ↔ l' < l + 2 ∧ l ≤ l' + 1 ∧ 1 ≤ l + l' := by
  simp [nextDegrees]

theorem next_triangle {l l' : ℕ} (h : l' ∈ nextDegrees l) : Triangle l 1 l' := by
  rw [mem_next] at h
  refine ⟨?_, by omega⟩
  rw [abs_le]
  omega

theorem degreeOf_vec (c : Fin 3) : degreeOf (1 + c) = 1 := degreeOf_flat (l := 1) (by omega)

theorem cg_vec_complete {l q q' : ℕ} (hq : q < 2 * l + 1) (hq' : q' < 2 * l + 1) (c c' : Fin 3) :
    ∑ l' ∈ nextDegrees l, ∑ p ∈ range (2 * l' + 1),
      cgTensor true (l ^ 2 + q) (1 + c) (l' ^ 2 + p) * cgTensor true (l ^ 2 + q') (1 + c') (l' ^ 2 + p) =
      if q = q' ∧ c = c' then 1 else 0 := by
  have h := cgTensor_complete true (l + 1) (l ^ 2 + q) (l ^ 2 + q') (1 + c) (1 + c')
    (by rw [degreeOf_flat hq, degreeOf_flat hq']) (by rw [degreeOf_vec, degreeOf_vec]) (by rw [degreeOf_flat hq, degreeOf_vec])
  rw [range_sq_eq] at h
  have e : (l ^ 2 + q = l ^ 2 + q' ∧ 1 + (c : ℕ) = 1 + (c' : ℕ)) ↔ (q = q' ∧ c = c') := by
    rw [Fin.ext_iff]; omega
  simp only [e] at h
  rw [← h]
  refine sum_subset (fun l' hl' => ?_) fun l' _ hl' => ?_
  · rw [mem_next] at hl'; rw [mem_range]; omega
  · refine sum_eq_zero fun p hp => ?_
    rw [mem_range] at hp
    unfold cgTensor
    rw [degreeOf_flat hq, degreeOf_flat hp, degreeOf_vec, symCG_of_not_tri, zero_mul]
    intro ht
    apply hl'
    rw [mem_next]
    omega

theorem cg_vec_orth {l l' l'' p p' : ℕ} (h' : l' ∈ nextDegrees l) (h'' : l'' ∈ nextDegrees l) (hp : p < 2 * l' + 1)
    (hp' : p' < 2 * l'' + 1) :
    ∑ c : Fin 3, ∑ q ∈ range (2 * l + 1),
      cgTensor true (l ^ 2 + q) (1 + c) (l' ^ 2 + p) * cgTensor true (l ^ 2 + q) (1 + c) (l'' ^ 2 + p') =
      if l' = l'' ∧ p = p' then 1 else 0 := by
  have h := cgTensor_orthonormal true l 1 (l' ^ 2 + p) (l'' ^ 2 + p') (by rw [degreeOf_flat hp]; exact next_triangle h')
    (by rw [degreeOf_flat hp']; exact next_triangle h'')
  rw [Ico_sq_eq] at h
  simp only [Ico_vec_eq] at h
  rw [sum_comm, h]
  have e : l' ^ 2 + p = l'' ^ 2 + p' ↔ (l' = l'' ∧ p = p') := by
    constructor
    · intro h
      have := congrArg degreeOf h
      rw [degreeOf_flat hp, degreeOf_flat hp'] at this
      subst this
      exact ⟨rfl, by omega⟩
    · rintro ⟨rfl, rfl⟩; rfl
  simp only [e]

/-! ## paths -/

theorem mem_paths_succ {n : ℕ} {path : List ℕ} : path ∈ couplingPaths (n + 1) ↔
    ∃ path' ∈ couplingPaths n, ∃ l' ∈ nextDegrees (path'.headD 0), path = l' :: path' := by
  simp only [couplingPaths, List.mem_flatMap, List.mem_map, List.mem_filter, List.mem_range, decide_eq_true_eq, mem_next]
  constructor
  · rintro ⟨path', h, l', h', rfl⟩
    exact ⟨path', h, l', h', rfl⟩
  · rintro ⟨path', h, l', h', rfl⟩
    exact ⟨path', h, l', h', rfl⟩

theorem paths_nodup (n : ℕ) : (couplingPaths n).Nodup := by
  induction n with
  | zero => simp [couplingPaths]
  | succ n ih =>
    unfold couplingPaths
    rw [List.nodup_flatMap]
    refine ⟨fun path _ => (List.nodup_range.filter _).map fun a b h => by simpa using h, ?_⟩
    refine ih.imp fun {x y} hxy => ?_
    rw [Function.onFun, List.disjoint_iff_ne]
    intro a ha b hb hab
    simp only [List.mem_map] at ha hb
    obtain ⟨u, -, rfl⟩ := ha
    obtain ⟨v, -, rfl⟩ := hb
    exact hxy (List.cons.inj hab).2

theorem sum_paths_succ (n : ℕ) (g : List ℕ → ℝ) : ((couplingPaths (n + 1)).map g).sum =
    ((couplingPaths n).map fun path => ∑ l' ∈ nextDegrees (path.headD 0), g (l' :: path)).sum := by
  rw [couplingPaths]
  induction couplingPaths n with
  | nil => rfl
  | cons path paths ih =>
    rw [List.flatMap_cons, List.map_append, List.sum_append, ih, List.map_cons, List.sum_cons, List.map_map]
    congr 1

theorem head_le {n : ℕ} {path : List ℕ} (h : path ∈ couplingPaths n) : path.headD 0 ≤ n := by
  induction n generalizing path with
  | zero => simp [couplingPaths] at h; simp [h]
  | succ n ih =>
    obtain ⟨path', h', l', hl', rfl⟩ := mem_paths_succ.1 h
    have := ih h'
    rw [mem_next] at hl'
    simp only [List.headD_cons]
    omega

/-! ## the tensor of a path -/

theorem pathTensor_congr (cg : ℕ → ℕ → ℕ → ℝ) {n : ℕ} {path : List ℕ} (hp : path ∈ couplingPaths n) {a b : ℕ → ℝ}
    (h : ∀ q < 2 * path.headD 0 + 1, a q = b q) (i : Fin n → Fin 3) :
    pathTensor cg n path a i = pathTensor cg n path b i := by
  cases n with
  | zero => exact h 0 (by omega)
  | succ n =>
    simp only [pathTensor]
    congr 1
    funext q
    exact sum_congr rfl fun p hp => by rw [h p (mem_range.1 hp)]

/-- Only entries of the table that are in range are used. -/
theorem pathTensor_table {cg cg' : ℕ → ℕ → ℕ → ℝ} {n : ℕ} (L : ℕ) (hL : n ≤ L)
    (h : ∀ i < (L - 1 + 1) ^ 2, ∀ j < 4, ∀ k < (L + 1) ^ 2, cg i j k = cg' i j k)
    {path : List ℕ} (hp : path ∈ couplingPaths n) (a : ℕ → ℝ) (i : Fin n → Fin 3) :
    pathTensor cg n path a i = pathTensor cg' n path a i := by
  induction n generalizing path a with
  | zero => rfl
  | succ n ih =>
    obtain ⟨path', h', l', hl', rfl⟩ := mem_paths_succ.1 hp
    simp only [pathTensor, List.headD_cons, List.tail_cons]
    rw [ih (by omega) h']
    refine pathTensor_congr _ h' (fun q hq => sum_congr rfl fun p hp => ?_) _
    rw [mem_range] at hp
    have h1 := head_le h'
    rw [mem_next] at hl'
    rw [h _ ?_ _ (by have := (i (Fin.last n)).2; omega) _ ?_]
    · calc _ < (path'.headD 0 + 1) ^ 2 := by nlinarith
        _ ≤ _ := Nat.pow_le_pow_left (by omega) 2
    · calc _ < (l' + 1) ^ 2 := by nlinarith
        _ ≤ _ := Nat.pow_le_pow_left (by omega) 2

theorem pathTensor_sum (cg : ℕ → ℕ → ℕ → ℝ) {n : ℕ} (path : List ℕ) {ι : Type} (s : Finset ι) (c : ι → ℝ) (a : ι → ℕ → ℝ)
    (i : Fin n → Fin 3) :
    pathTensor cg n path (fun q => ∑ k ∈ s, c k * a k q) i = ∑ k ∈ s, c k * pathTensor cg n path (a k) i := by
  induction n generalizing path a with
  | zero => rfl
  | succ n ih =>
    simp only [pathTensor]
    rw [← ih]
    congr 1
    funext q
    simp only [sum_mul, mul_sum]
    rw [sum_comm]
    exact sum_congr rfl fun k _ => sum_congr rfl fun p _ => by ring

/-- the irrep of a path contained in a tensor -/
noncomputable def pathIrrep (cg : ℕ → ℕ → ℕ → ℝ) : (n : ℕ) → List ℕ → ((Fin n → Fin 3) → ℝ) → ℕ → ℝ
  | 0, _, T, _ => T Fin.elim0
  | n + 1, path, T, p =>
    let l' := path.headD 0
    let l := path.tail.headD 0
    ∑ c : Fin 3, ∑ q ∈ range (2 * l + 1), cg (l ^ 2 + q) (1 + c) (l' ^ 2 + p) *
      pathIrrep cg n path.tail (fun i => T (Fin.snoc i c)) q

theorem pathTensor_complete (n : ℕ) (T : (Fin n → Fin 3) → ℝ) (i : Fin n → Fin 3) :
    ((couplingPaths n).map fun path => pathTensor (cgTensor true) n path (pathIrrep (cgTensor true) n path T) i).sum = T i := by
  induction n with
  | zero =>
    simp only [couplingPaths, pathTensor, pathIrrep, List.map_cons, List.map_nil, List.sum_cons, List.sum_nil, add_zero]
    congr 1
    exact Subsingleton.elim _ _
  | succ n ih =>
    rw [sum_paths_succ]
    have e : T i = (fun j => T (Fin.snoc j (i (Fin.last n)))) (Fin.init i) := by
      dsimp only
      rw [Fin.snoc_init_self]
    rw [e]
    refine Eq.trans ?_ (ih (fun j => T (Fin.snoc j (i (Fin.last n)))) (Fin.init i))
    congr 1
    refine List.map_congr_left fun path hp => ?_
    have hlin := fun a : ℕ → ℕ → ℝ => (pathTensor_sum (cgTensor true) path (nextDegrees (path.headD 0)) (fun _ => (1 : ℝ)) a
      (Fin.init i)).symm
    simp only [one_mul] at hlin
    simp only [pathTensor, List.headD_cons, List.tail_cons]
    rw [hlin]
    refine pathTensor_congr _ hp (fun q hq => ?_) _
    simp only [pathIrrep, List.headD_cons, List.tail_cons]
    set l := path.headD 0
    have : ∀ l' ∈ nextDegrees l, ∀ p ∈ range (2 * l' + 1),
        (∑ c : Fin 3, ∑ q' ∈ range (2 * l + 1), cgTensor true (l ^ 2 + q') (1 + c) (l' ^ 2 + p) *
          pathIrrep (cgTensor true) n path (fun i => T (Fin.snoc i c)) q') *
            cgTensor true (l ^ 2 + q) (1 + i (Fin.last n)) (l' ^ 2 + p) =
        ∑ c : Fin 3, ∑ q' ∈ range (2 * l + 1), pathIrrep (cgTensor true) n path (fun i => T (Fin.snoc i c)) q' *
          (cgTensor true (l ^ 2 + q) (1 + i (Fin.last n)) (l' ^ 2 + p) *
            cgTensor true (l ^ 2 + q') (1 + c) (l' ^ 2 + p)) := by
      intro l' _ p _
      rw [sum_mul]
      refine sum_congr rfl fun c _ => ?_
      rw [sum_mul]
      exact sum_congr rfl fun q' _ => by ring
    rw [sum_congr rfl fun l' hl' => sum_congr rfl (this l' hl')]
    have swap : ∑ l' ∈ nextDegrees l, ∑ p ∈ range (2 * l' + 1), ∑ c : Fin 3, ∑ q' ∈ range (2 * l + 1),
        pathIrrep (cgTensor true) n path (fun i => T (Fin.snoc i c)) q' *
          (cgTensor true (l ^ 2 + q) (1 + i (Fin.last n)) (l' ^ 2 + p) *
            cgTensor true (l ^ 2 + q') (1 + c) (l' ^ 2 + p)) =
        ∑ c : Fin 3, ∑ q' ∈ range (2 * l + 1), pathIrrep (cgTensor true) n path (fun i => T (Fin.snoc i c)) q' *
          ∑ l' ∈ nextDegrees l, ∑ p ∈ range (2 * l' + 1),
          (cgTensor true (l ^ 2 + q) (1 + i (Fin.last n)) (l' ^ 2 + p) *
            cgTensor true (l ^ 2 + q') (1 + c) (l' ^ 2 + p)) := by
      simp only [mul_sum]
      rw [sum_congr rfl fun l' _ => sum_comm, sum_comm]
      refine sum_congr rfl fun c _ => ?_
      rw [sum_congr rfl fun l' _ => sum_comm, sum_comm]
    rw [swap, sum_eq_single (i (Fin.last n)), sum_eq_single q]
    · rw [cg_vec_complete hq hq, if_pos ⟨rfl, rfl⟩, mul_one]
    · intro q' hq' hne
      rw [cg_vec_complete hq (mem_range.1 hq'), if_neg (fun h => hne h.1.symm), mul_zero]
    · intro h; exact absurd (mem_range.2 hq) h
    · intro c _ hc
      refine sum_eq_zero fun q' hq' => ?_
      rw [cg_vec_complete hq (mem_range.1 hq'), if_neg (fun h => hc h.2.symm), mul_zero]
    · intro h; exact absurd (mem_univ _) h

theorem pathIrrep_zero (cg : ℕ → ℕ → ℕ → ℝ) {n : ℕ} (path : List ℕ) (p : ℕ) : pathIrrep cg n path (fun _ => 0) p = 0 := by
  induction n generalizing path p with
  | zero => rfl
  | succ n ih => simp only [pathIrrep, ih, mul_zero, sum_const_zero]

theorem pathIrrep_add (cg : ℕ → ℕ → ℕ → ℝ) {n : ℕ} (path : List ℕ) (T T' : (Fin n → Fin 3) → ℝ) (p : ℕ) :
    pathIrrep cg n path (fun i => T i + T' i) p = pathIrrep cg n path T p + pathIrrep cg n path T' p := by
  induction n generalizing path p with
  | zero => rfl
  | succ n ih => simp only [pathIrrep, ih, mul_add, sum_add_distrib]

theorem pathIrrep_sum (cg : ℕ → ℕ → ℕ → ℝ) {n : ℕ} (path : List ℕ) (Ts : List ((Fin n → Fin 3) → ℝ)) (p : ℕ) :
    pathIrrep cg n path (fun i => (Ts.map fun T => T i).sum) p = (Ts.map fun T => pathIrrep cg n path T p).sum := by
  induction Ts with
  | nil => exact pathIrrep_zero cg path p
  | cons T Ts ih =>
    simp only [List.map_cons, List.sum_cons]
    rw [pathIrrep_add, ih]

theorem pathIrrep_pathTensor {n : ℕ} {path path' : List ℕ} (hp : path ∈ couplingPaths n) (hp' : path' ∈ couplingPaths n)
    (a : ℕ → ℝ) {p : ℕ} (h : p < 2 * path.headD 0 + 1) :
    pathIrrep (cgTensor true) n path (pathTensor (cgTensor true) n path' a) p = if path = path' then a p else 0 := by
  induction n generalizing path path' a p with
  | zero =>
    simp only [couplingPaths, List.mem_singleton] at hp hp'
    subst hp hp'
    have : p = 0 := by simpa using h
    subst this
    simp [pathIrrep, pathTensor]
  | succ n ih =>
    obtain ⟨t, ht, l', hl', rfl⟩ := mem_paths_succ.1 hp
    obtain ⟨t', ht', l'', hl'', rfl⟩ := mem_paths_succ.1 hp'
    simp only [pathIrrep, pathTensor, List.headD_cons, List.tail_cons, Fin.init_snoc, Fin.snoc_last] at h ⊢
    have e : ∀ c : Fin 3, ∀ q ∈ range (2 * t.headD 0 + 1), cgTensor true (t.headD 0 ^ 2 + q) (1 + c) (l' ^ 2 + p) *
        pathIrrep (cgTensor true) n t (fun i => pathTensor (cgTensor true) n t' (fun q => ∑ p ∈ range (2 * l'' + 1), a p *
          cgTensor true (t'.headD 0 ^ 2 + q) (1 + c) (l'' ^ 2 + p)) i) q =
        cgTensor true (t.headD 0 ^ 2 + q) (1 + c) (l' ^ 2 + p) * if t = t' then (∑ p ∈ range (2 * l'' + 1), a p *
          cgTensor true (t'.headD 0 ^ 2 + q) (1 + c) (l'' ^ 2 + p)) else 0 := by
      intro c q hq
      rw [ih ht ht' _ (mem_range.1 hq)]
    rw [sum_congr rfl fun c _ => sum_congr rfl (e c)]
    by_cases htt : t = t'
    · subst htt
      simp only [if_true, mul_sum]
      rw [sum_congr rfl fun c _ => sum_comm, sum_comm]
      have e2 : ∀ p' ∈ range (2 * l'' + 1), ∑ c : Fin 3, ∑ q ∈ range (2 * t.headD 0 + 1),
          cgTensor true (t.headD 0 ^ 2 + q) (1 + c) (l' ^ 2 + p) * (a p' * cgTensor true (t.headD 0 ^ 2 + q) (1 + c) (l'' ^ 2 + p'))
          = a p' * if l' = l'' ∧ p = p' then 1 else 0 := by
        intro p' hp'
        rw [← cg_vec_orth hl' hl'' h (mem_range.1 hp'), mul_sum]
        refine sum_congr rfl fun c _ => ?_
        rw [mul_sum]
        exact sum_congr rfl fun q _ => by ring
      rw [sum_congr rfl e2]
      by_cases hll : l' = l''
      · subst hll
        simp [h]
      · simp [hll]
    · simp [htt]

/-! ## norms -/

theorem sum_snoc {n : ℕ} (g : (Fin (n + 1) → Fin 3) → ℝ) : ∑ i, g i = ∑ c, ∑ i : Fin n → Fin 3, g (Fin.snoc i c) := by
  rw [← (Fin.snocEquiv fun _ => Fin 3).sum_comp g, Fintype.sum_prod_type]
  rfl

theorem pathTensor_pairing {n : ℕ} {path : List ℕ} (hp : path ∈ couplingPaths n) (a : ℕ → ℝ) (T : (Fin n → Fin 3) → ℝ) :
    ∑ i, pathTensor (cgTensor true) n path a i * T i =
      ∑ p ∈ range (2 * path.headD 0 + 1), a p * pathIrrep (cgTensor true) n path T p := by
  induction n generalizing path a with
  | zero =>
    simp only [couplingPaths, List.mem_singleton] at hp
    subst hp
    simp [pathIrrep, pathTensor, Subsingleton.elim _ (Fin.elim0 : Fin 0 → Fin 3)]
  | succ n ih =>
    obtain ⟨t, ht, l', hl', rfl⟩ := mem_paths_succ.1 hp
    rw [sum_snoc]
    simp only [pathIrrep, pathTensor, List.headD_cons, List.tail_cons, Fin.init_snoc, Fin.snoc_last]
    simp only [ih ht, sum_mul, mul_sum]
    rw [sum_congr rfl fun c _ => sum_comm, sum_comm]
    exact sum_congr rfl fun p _ => sum_congr rfl fun c _ => sum_congr rfl fun q _ => by ring

/-! ## rotations -/

theorem cg_vec_rotate {R : Fin 3 → Fin 3 → ℝ} (hR : IsOrthogonal R) (hdet : det3x3 R = 1) {l l' q p : ℕ}
    (hq : q < 2 * l + 1) (hp : p < 2 * l' + 1) (c : Fin 3) :
    ∑ p' ∈ range (2 * l' + 1), cgTensor true (l ^ 2 + q) (1 + c) (l' ^ 2 + p') * dMatrix true R (l' ^ 2 + p) (l' ^ 2 + p') =
      ∑ q' ∈ range (2 * l + 1), ∑ c' : Fin 3, cgTensor true (l ^ 2 + q') (1 + c') (l' ^ 2 + p) *
        dMatrix true R (l ^ 2 + q') (l ^ 2 + q) * R c' c := by
  have h := couples_blocks hR hdet (la := l) (lb := 1) (l := l') (j' := c) hq (by omega) hp
  rw [one_pow] at h
  rw [h]
  refine sum_congr rfl fun q' _ => ?_
  rw [show 2 * 1 + 1 = 3 from rfl, ← Fin.sum_univ_eq_sum_range (fun j => cgTensor true (l ^ 2 + q') (1 + j) (l' ^ 2 + p) *
    dMatrix true R (l ^ 2 + q') (l ^ 2 + q) * dMatrix true R (1 + j) (1 + c)) 3]
  exact sum_congr rfl fun c' _ => by rw [dMatrix_degree_one hR]

theorem pathTensor_rotate {R : Fin 3 → Fin 3 → ℝ} (hR : IsOrthogonal R) (hdet : det3x3 R = 1) {n : ℕ} {path : List ℕ}
    (hp : path ∈ couplingPaths n) (a : ℕ → ℝ) (i : Fin n → Fin 3) :
    pathTensor (cgTensor true) n path (rotatedIrrep (dMatrix true R) (path.headD 0) a) i =
      ∑ j : Fin n → Fin 3, (∏ k, R (j k) (i k)) * pathTensor (cgTensor true) n path a j := by
  induction n generalizing path a with
  | zero =>
    simp only [couplingPaths, List.mem_singleton] at hp
    subst hp
    have h0 : dMatrix true R 0 0 = 1 := (dMatrix_isRotation true hR hdet).scalar
    simp [pathTensor, rotatedIrrep, h0]
  | succ n ih =>
    obtain ⟨t, ht, l', hl', rfl⟩ := mem_paths_succ.1 hp
    rw [sum_snoc]
    simp only [pathTensor, List.headD_cons, List.tail_cons, Fin.init_snoc, Fin.snoc_last, Fin.prod_univ_castSucc,
      Fin.snoc_castSucc]
    set l := t.headD 0
    have e : ∀ q < 2 * l + 1, ∑ p ∈ range (2 * l' + 1), rotatedIrrep (dMatrix true R) l' a p *
        cgTensor true (l ^ 2 + q) (1 + i (Fin.last n)) (l' ^ 2 + p) =
        ∑ c' : Fin 3, R c' (i (Fin.last n)) * rotatedIrrep (dMatrix true R) l (fun q => ∑ p ∈ range (2 * l' + 1), a p *
          cgTensor true (l ^ 2 + q) (1 + c') (l' ^ 2 + p)) q := by
      intro q hq
      unfold rotatedIrrep
      have e1 : ∑ p ∈ range (2 * l' + 1), (∑ p' ∈ range (2 * l' + 1), a p' * dMatrix true R (l' ^ 2 + p') (l' ^ 2 + p)) *
          cgTensor true (l ^ 2 + q) (1 + i (Fin.last n)) (l' ^ 2 + p) =
          ∑ p' ∈ range (2 * l' + 1), a p' * ∑ p ∈ range (2 * l' + 1),
            cgTensor true (l ^ 2 + q) (1 + i (Fin.last n)) (l' ^ 2 + p) * dMatrix true R (l' ^ 2 + p') (l' ^ 2 + p) := by
        simp only [sum_mul, mul_sum]
        rw [sum_comm]
        exact sum_congr rfl fun _ _ => sum_congr rfl fun _ _ => by ring
      rw [e1, sum_congr rfl fun p' hp' => by rw [cg_vec_rotate hR hdet hq (mem_range.1 hp')]]
      simp only [mul_sum, sum_mul]
      rw [sum_comm, sum_congr rfl fun q' _ => sum_comm, sum_comm]
      refine sum_congr rfl fun c' _ => sum_congr rfl fun q' _ => sum_congr rfl fun p' _ => by ring
    rw [pathTensor_congr _ ht e, pathTensor_sum]
    refine sum_congr rfl fun c' _ => ?_
    rw [ih ht, mul_sum]
    exact sum_congr rfl fun j _ => by simp only [Fin.init]; ring

end E3x
