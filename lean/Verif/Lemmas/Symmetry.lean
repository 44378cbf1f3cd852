import Verif.Spec.Symmetry
import Verif.Props.Fused

/-!
# What all symmetry operations have in common
-/

namespace E3x

open Spec
open Finset (range)

/-- Facts about rotations and reflections used for composite layers.  The operation may change the table of Clebsch-Gordan
coefficients (from `cg` to `cg'`): that is so for the reordering of components. -/
structure SymFacts (cg cg' : ℕ → ℕ → ℕ → ℝ) (A : Feat → Feat) : Prop where
  hdr : ∀ x, (A x).pseudo = x.pseudo ∧ (A x).L = x.L ∧ (A x).F = x.F
  same : ∀ {x y : Feat}, x.Same y → (A x).Same (A y)
  zero : ∀ ps L F p i f, (A ⟨ps, L, F, 0⟩).val p i f = 0
  add : ∀ ps L F (v w : Ent) p i f,
    (A ⟨ps, L, F, v + w⟩).val p i f = (A ⟨ps, L, F, v⟩).val p i f + (A ⟨ps, L, F, w⟩).val p i f
  scale : ∀ ps L F (c : ℕ → ℝ) (v : Ent) p i f,
    (A ⟨ps, L, F, fun p i f => c f * v p i f⟩).val p i f = c f * (A ⟨ps, L, F, v⟩).val p i f
  scalar : ∀ x f, (A x).val 0 0 f = x.val 0 0 f
  dot : ∀ ps L F (v w : Ent) (r : ℕ → ℕ → ℝ) f, ∑ p ∈ range (chan ps), ∑ i ∈ range ((L + 1) ^ 2),
      (A ⟨ps, L, F, v⟩).val p i f * (A ⟨ps, L, F, w⟩).val p i f * r p (deg i) =
    ∑ p ∈ range (chan ps), ∑ i ∈ range ((L + 1) ^ 2), v p i f * w p i f * r p (deg i)
  dense : ∀ features b P x, (dense features b P (A x)).Same (A (dense features b P x))
  gated : ∀ g x, (gatedLinear g (A x)).Same (A (gatedLinear g x))
  change : ∀ x L ps, (changeMaxDegreeOrType (A x) L ps).Same (A (changeMaxDegreeOrType x L ps))
  tensor : ∀ cfg T x y z, anyTensor cfg T cg x y = .ok z →
    ∃ z', anyTensor cfg T cg' (A x) (A y) = .ok z' ∧ z'.Same (A z)
  slice : ∀ x start n, E3x.slice start n (A x) = A (E3x.slice start n x)
  sum : ∀ x y z, E3x.add [x, y] = .ok z → ∃ z', E3x.add [A x, A y] = .ok z' ∧ z'.Same (A z)

theorem change_same {x y : Feat} (h : x.Same y) (L : Option ℕ) (incl : Option Bool) :
    (changeMaxDegreeOrType x L incl).Same (changeMaxDegreeOrType y L incl) := by
  obtain ⟨a1, a2, a3, a4⟩ := C08_change x L incl
  obtain ⟨b1, b2, b3, b4⟩ := C08_change y L incl
  rw [← h.2.1] at b1 b4
  rw [← h.1] at b2 b4
  refine same_of_comp _ _ (by rw [a2, b2]) (by rw [a1, b1]) (by rw [a3, b3, h.2.2.1]) ?_
  intro p i f hf
  rw [a4, b4, comp_of_same h (by rw [← a3]; exact hf)]

/-- The sign by which a reflection multiplies an entry. -/
noncomputable def reflectSign (ps : Bool) (L p d : ℕ) : ℝ :=
  if ps then (if p = 1 then -1 else 1) else (if d ∈ oddDegrees L then -1 else 1)

theorem reflect_val (x : Feat) (p i f : ℕ) :
    (reflect x).val p i f = reflectSign x.pseudo x.L p (deg i) * x.val p i f := by
  unfold reflect reflectSign
  by_cases h : x.pseudo
  · simp only [h, if_true]; split <;> ring
  · simp only [h, Bool.false_eq_true, if_false]
    rw [foldl_negateDegree _ (nodup_oddDegrees _)]
    split <;> ring

theorem reflectSign_sq (ps : Bool) (L p d : ℕ) : reflectSign ps L p d * reflectSign ps L p d = 1 := by
  unfold reflectSign
  split <;> split <;> norm_num

theorem reflectSign_zero (ps : Bool) (L : ℕ) : reflectSign ps L 0 0 = 1 := by
  unfold reflectSign
  have h : 0 ∉ oddDegrees L := by rw [mem_oddDegrees]; omega
  simp [h]

theorem add_features {x y z : Feat} (h : add [x, y] = .ok z) : ∀ a ∈ [x, y], ∀ b ∈ [x, y], a.F = b.F := by
  have hF : x.F = y.F := by
    by_contra hne
    rw [C09_add_error [x, y] x y (by simp) (by simp) hne] at h
    cases h
  intro a ha b hb
  simp only [List.mem_cons, List.not_mem_nil, or_false] at ha hb
  rcases ha with rfl | rfl <;> rcases hb with rfl | rfl <;> simp [hF]

theorem symFacts_reflect (cg : ℕ → ℕ → ℕ → ℝ) : SymFacts cg cg reflect where
  hdr x := (C10_reflect x 0 0 0).2
  same h := reflect_same h
  zero ps L F p i f := by rw [reflect_val]; simp
  add ps L F v w p i f := by simp only [reflect_val, Pi.add_apply]; ring
  scale ps L F c v p i f := by simp only [reflect_val]; ring
  scalar x f := by
    rw [reflect_val, show deg 0 = 0 from deg_eq_zero.2 rfl, reflectSign_zero, one_mul]
  dot ps L F v w r f := by
    apply Finset.sum_congr rfl
    intro p _
    apply Finset.sum_congr rfl
    intro i _
    simp only [reflect_val]
    linear_combination (v p i f * w p i f * r p (deg i)) * reflectSign_sq ps L p (deg i)
  dense features b P x := C12_dense_reflect features b P x
  gated g x := C13_gated_reflect g x
  change x L ps := C08_reflect x L ps
  tensor cfg T x y z h := anyTensor_reflect cfg T cg x y z h
  slice x start n := slice_reflect x start n
  sum x y z hz := by
    obtain ⟨r, r', h1, h2, h3⟩ := C09_add_reflect [x, y] (by simp) (add_features hz)
    rw [hz] at h1; injection h1 with h1; subst h1
    exact ⟨r', h2, h3⟩

theorem symFacts_matrix (cg cg' : ℕ → ℕ → ℕ → ℝ) (D : ℕ → ℕ → ℝ) (hb : BlockDiag D) (h0 : D 0 0 = 1) (ho : Orthogonal D)
    (ht : ∀ cfg T x y z, anyTensor cfg T cg x y = .ok z →
      ∃ z', anyTensor cfg T cg' (rotate x D) (rotate y D) = .ok z' ∧ z'.Same (rotate z D)) :
    SymFacts cg cg' (fun x => rotate x D) where
  hdr x := ⟨rfl, rfl, rfl⟩
  same hs := rotate_same hs D
  zero ps L F p i f := by simp [rotate]
  add ps L F v w p i f := by
    simp only [rotate, Pi.add_apply, ← Finset.sum_add_distrib]
    apply Finset.sum_congr rfl
    intro l _; ring
  scale ps L F c v p i f := by
    simp only [rotate, Finset.mul_sum]
    apply Finset.sum_congr rfl
    intro l _; ring
  scalar x f := by
    simp only [rotate]
    rw [Finset.sum_eq_single 0]
    · rw [h0, mul_one]
    · intro l _ hl
      rw [hb l 0 (by rw [show deg 0 = 0 from deg_eq_zero.2 rfl]; exact fun hc => hl (deg_eq_zero.1 hc)), mul_zero]
    · intro hc
      exact absurd (Finset.mem_range.2 (by positivity)) hc
  dot ps L F v w r f := by
    apply Finset.sum_congr rfl
    intro p _
    simp only [rotate]
    set N := range ((L + 1) ^ 2) with hN
    have e1 : ∀ i ∈ N, (∑ l ∈ N, v p l f * D l i) * (∑ m ∈ N, w p m f * D m i) * r p (deg i) =
        ∑ l ∈ N, ∑ m ∈ N, v p l f * w p m f * r p (deg l) * (D l i * D m i) := by
      intro i _
      rw [Finset.sum_mul_sum, Finset.sum_mul]
      apply Finset.sum_congr rfl
      intro l _
      rw [Finset.sum_mul]
      apply Finset.sum_congr rfl
      intro m _
      by_cases hd : deg l = deg i
      · rw [hd]; ring
      · rw [hb l i hd]; ring
    rw [Finset.sum_congr rfl e1, Finset.sum_comm]
    apply Finset.sum_congr rfl
    intro l hl
    rw [Finset.sum_comm]
    have hl' : deg l ≤ L := deg_le_of_lt (Finset.mem_range.1 hl)
    have e2 : ∀ m ∈ N, ∑ i ∈ N, v p l f * w p m f * r p (deg l) * (D l i * D m i) =
        v p l f * w p m f * r p (deg l) * (if l = m then 1 else 0) := by
      intro m _
      rw [← Finset.mul_sum]
      congr 1
      rw [hN, sum_row_extend hb (fun i => D m i) hl' (le_refl (deg l))]
      exact (ho l m).1
    rw [Finset.sum_congr rfl e2, Finset.sum_eq_single l]
    · simp
    · intro m _ hm; simp [Ne.symm hm]
    · intro hc; exact absurd hl hc
  dense features b P x := C12_dense_rotate features b P x D hb h0
  gated g x := C13_gated_rotate g x D hb h0
  change x L ps := C08_rotate x L ps D hb
  tensor := ht
  slice _ _ _ := rfl
  sum x y z hz := by
    obtain ⟨r, r', h1, h2, h3⟩ := C09_add_rotate [x, y] (by simp) (add_features hz) D hb
    rw [hz] at h1; injection h1 with h1; subst h1
    exact ⟨r', h2, h3⟩

theorem symFacts_rotate (cg : ℕ → ℕ → ℕ → ℝ) (D : ℕ → ℕ → ℝ) (h : IsRotation cg D) :
    SymFacts cg cg (fun x => rotate x D) :=
  symFacts_matrix cg cg D h.blockDiag h.scalar h.orthogonal fun cfg T x y z hz => anyTensor_rotate cfg T cg D h x y z hz

theorem symFacts_of_isSymmetry {cg : ℕ → ℕ → ℕ → ℝ} {A : Feat → Feat} (h : IsSymmetry cg A) : SymFacts cg cg A := by
  cases h with
  | rotate D h => exact symFacts_rotate cg D h
  | reflect => exact symFacts_reflect cg

end E3x
