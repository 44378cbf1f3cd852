import Verif.Model.Tensor
import Verif.Spec.Tensor
import Verif.Props.Features

/-! Lemmas about tensor product layers: masks, duplication indices, and the invariance of the couplings. -/

namespace E3x

open Spec
open Finset (range)

theorem replicate_blocks {α : Type _} (g : ℕ → α) (L : ℕ) :
    ((List.range (L + 1)).flatMap fun l => List.replicate (2 * l + 1) (g l)) =
      (List.range ((L + 1) ^ 2)).map fun i => g (deg i) := by
  rw [← concat_blocks (fun l _ => g l) L]
  congr 1
  funext l
  rw [show (l + 1) ^ 2 - l ^ 2 = 2 * l + 1 by rw [show (l + 1) ^ 2 = l ^ 2 + (2 * l + 1) by ring]; omega]
  simp

theorem dup_eq {L i : ℕ} (h : i < (L + 1) ^ 2) : dup L i = deg i := by
  unfold dup duplicationIndices
  rw [replicate_blocks (fun l => l)]
  simp [List.getD_eq_getElem?_getD, List.getElem?_range h]

theorem fusedMask_eq {M i : ℕ} (odd : Bool) (h : i < (M + 1) ^ 2) :
    fusedMask M odd i = if deg i % 2 = (if odd then 1 else 0) then 1 else 0 := by
  unfold fusedMask
  rw [replicate_blocks (fun d => if odd = true then d % 2 else (d + 1) % 2)]
  rw [List.getD_eq_getElem?_getD, List.getElem?_map, List.getElem?_range h]
  simp only [Option.map_some, Option.getD_some]
  cases odd
  · simp only [Bool.false_eq_true, if_false]
    rcases Nat.mod_two_eq_zero_or_one (deg i) with h | h
    · rw [if_pos h, show (deg i + 1) % 2 = 1 by omega]; simp
    · rw [if_neg (by omega), show (deg i + 1) % 2 = 0 by omega]; simp
  · simp only [if_true]
    rcases Nat.mod_two_eq_zero_or_one (deg i) with h | h
    · rw [if_neg (by omega), h]; simp
    · rw [if_pos h, h]; simp

theorem mem_indexCombinations (S L p l d : ℕ) :
    (p, l, d) ∈ indexCombinations S L ↔
      l ≤ L ∧ ((S = 2 ∧ p < 2 ∧ d = p) ∨ (S ≠ 2 ∧ p = 0 ∧ d = l % 2)) := by
  unfold indexCombinations
  split
  · rename_i h
    simp only [List.mem_append, List.mem_map, List.mem_range, Prod.mk.injEq, h, true_and, ne_eq, not_true_eq_false,
      false_and, or_false]
    constructor
    · rintro (⟨a, ha, rfl, rfl, rfl⟩ | ⟨a, ha, rfl, rfl, rfl⟩) <;> omega
    · rintro ⟨h1, h2, rfl⟩
      have : d = 0 ∨ d = 1 := by omega
      rcases this with rfl | rfl
      · exact Or.inl ⟨l, by omega, rfl, rfl, rfl⟩
      · exact Or.inr ⟨l, by omega, rfl, rfl, rfl⟩
  · rename_i h
    simp only [List.mem_map, List.mem_range, Prod.mk.injEq, h, false_and, false_or, ne_eq, not_false_eq_true, true_and]
    constructor
    · rintro ⟨a, ha, rfl, rfl, rfl⟩; exact ⟨by omega, rfl, rfl⟩
    · rintro ⟨h1, rfl, rfl⟩; exact ⟨l, by omega, rfl, rfl, rfl⟩

/-- The parity of the entry (parity index `p`, degree `l`) of an axis with `S` parity channels. -/
def entryParity (S p l : ℕ) : ℕ := if S = 2 then p else l % 2

theorem foldl_mask {α : Type} (v : Mask → ℝ) (g : Mask → α → Mask) (P : α → Prop)
    (hg : ∀ m a, (P a → v (g m a) = 0) ∧ (¬ P a → v (g m a) = v m)) (as : List α) (m : Mask) :
    ((∃ a ∈ as, P a) → v (as.foldl g m) = 0) ∧ ((¬ ∃ a ∈ as, P a) → v (as.foldl g m) = v m) := by
  induction as generalizing m with
  | nil => simp
  | cons a as ih =>
    rw [List.foldl_cons]
    obtain ⟨i1, i2⟩ := ih (g m a)
    constructor
    · rintro ⟨b, hb, hP⟩
      by_cases h : ∃ b ∈ as, P b
      · exact i1 h
      · rw [i2 h]
        rcases List.mem_cons.1 hb with rfl | hb
        · exact (hg _ _).1 hP
        · exact absurd ⟨b, hb, hP⟩ h
    · intro h
      rw [i2 (fun ⟨b, hb, hP⟩ => h ⟨b, List.mem_cons_of_mem _ hb, hP⟩)]
      exact (hg _ _).2 (fun hP => h ⟨a, List.mem_cons_self, hP⟩)

theorem mask_raw (s : MaskShape) (p1 l1 p2 l2 p3 l3 : ℕ) :
    ((∃ a ∈ indexCombinations s.S1 s.L1, ∃ b ∈ indexCombinations s.S2 s.L2, ∃ c ∈ indexCombinations s.S3 s.L3,
        (a.2.2 + b.2.2) % 2 ≠ c.2.2 ∧ p1 = a.1 ∧ l1 = a.2.1 ∧ p2 = b.1 ∧ l2 = b.2.1 ∧ p3 = c.1 ∧ l3 = c.2.1) →
      makeTensorProductMask s p1 l1 p2 l2 p3 l3 = 0) ∧
    ((¬ ∃ a ∈ indexCombinations s.S1 s.L1, ∃ b ∈ indexCombinations s.S2 s.L2, ∃ c ∈ indexCombinations s.S3 s.L3,
        (a.2.2 + b.2.2) % 2 ≠ c.2.2 ∧ p1 = a.1 ∧ l1 = a.2.1 ∧ p2 = b.1 ∧ l2 = b.2.1 ∧ p3 = c.1 ∧ l3 = c.2.1) →
      makeTensorProductMask s p1 l1 p2 l2 p3 l3 = 1) := by
  unfold makeTensorProductMask
  apply foldl_mask (fun m => m p1 l1 p2 l2 p3 l3)
  intro m a
  apply foldl_mask (fun m => m p1 l1 p2 l2 p3 l3)
  intro m b
  apply foldl_mask (fun m => m p1 l1 p2 l2 p3 l3)
  intro m c
  constructor
  · rintro ⟨h, e⟩
    simp only [if_pos h, Mask.setZero, if_pos e]
  · intro h
    by_cases hv : (a.2.2 + b.2.2) % 2 ≠ c.2.2
    · simp only [if_pos hv, Mask.setZero]
      rw [if_neg (fun e => h ⟨hv, e⟩)]
    · simp only [if_neg hv]

/-- Inside its shape, the mask is one exactly at the parity conserving couplings. -/
theorem mask_eq (s : MaskShape) (h1 : s.S1 = 1 ∨ s.S1 = 2) (h2 : s.S2 = 1 ∨ s.S2 = 2) (h3 : s.S3 = 1 ∨ s.S3 = 2)
    (p1 l1 p2 l2 p3 l3 : ℕ) (hp1 : p1 < s.S1) (hp2 : p2 < s.S2) (hp3 : p3 < s.S3)
    (hl1 : l1 < s.L1) (hl2 : l2 < s.L2) (hl3 : l3 < s.L3) :
    makeTensorProductMask s p1 l1 p2 l2 p3 l3 =
      if (entryParity s.S1 p1 l1 + entryParity s.S2 p2 l2) % 2 = entryParity s.S3 p3 l3 then 1 else 0 := by
  have mem : ∀ S p l L, (S = 1 ∨ S = 2) → p < S → l < L → ∀ d,
      (p, l, d) ∈ indexCombinations S L ↔ d = entryParity S p l := by
    intro S p l L hS hp hl d
    rw [mem_indexCombinations]
    unfold entryParity
    rcases hS with rfl | rfl
    · simp; omega
    · simp; omega
  by_cases h : (entryParity s.S1 p1 l1 + entryParity s.S2 p2 l2) % 2 = entryParity s.S3 p3 l3
  · rw [if_pos h]
    apply (mask_raw _ _ _ _ _ _ _).2
    rintro ⟨⟨a1, a2, a3⟩, ha, ⟨b1, b2, b3⟩, hb, ⟨c1, c2, c3⟩, hc, hne, e1, e2, e3, e4, e5, e6⟩
    simp only at hne e1 e2 e3 e4 e5 e6
    subst e1 e2 e3 e4 e5 e6
    rw [mem _ _ _ _ h1 hp1 hl1] at ha
    rw [mem _ _ _ _ h2 hp2 hl2] at hb
    rw [mem _ _ _ _ h3 hp3 hl3] at hc
    rw [ha, hb, hc] at hne
    exact hne h
  · rw [if_neg h]
    apply (mask_raw _ _ _ _ _ _ _).1
    exact ⟨(p1, l1, entryParity s.S1 p1 l1), (mem _ _ _ _ h1 hp1 hl1 _).2 rfl,
      (p2, l2, entryParity s.S2 p2 l2), (mem _ _ _ _ h2 hp2 hl2 _).2 rfl,
      (p3, l3, entryParity s.S3 p3 l3), (mem _ _ _ _ h3 hp3 hl3 _).2 rfl, h, rfl, rfl, rfl, rfl, rfl, rfl⟩

/-- A sum over the parity channels of an array is a sum over the parities. -/
theorem sum_chan (x : Feat) (l f : ℕ) (hl : l < (x.L + 1) ^ 2) (G : ℕ → ℕ → ℝ) :
    ∑ p ∈ range (chan x.pseudo), x.val p l f * G p (entryParity (chan x.pseudo) p (deg l)) =
      ∑ p ∈ range 2, comp x p l f * G (slot x.pseudo p) p := by
  cases hp : x.pseudo
  · have hc : chan false = 1 := rfl
    rw [hc]
    simp only [Finset.sum_range_succ, Finset.sum_range_zero, zero_add, slot, entryParity, comp, hp,
      Bool.false_eq_true, if_false]
    rcases Nat.mod_two_eq_zero_or_one (deg l) with h | h
    · simp [h, not_le.2 hl]
    · simp [h, not_le.2 hl]
  · have hc : chan true = 2 := rfl
    rw [hc]
    simp only [Finset.sum_range_succ, Finset.sum_range_zero, zero_add, slot, entryParity, comp, hp, if_true]
    simp [not_le.2 hl]

/-! ## Block diagonal sums -/

/-- A sum against a column of a block-diagonal matrix may be taken over any leading range that contains the degree. -/
theorem sum_col_extend {D : ℕ → ℕ → ℝ} (hD : BlockDiag D) (g : ℕ → ℝ) {i L L' : ℕ} (h : deg i ≤ L) (h' : deg i ≤ L') :
    ∑ j ∈ range ((L + 1) ^ 2), g j * D j i = ∑ j ∈ range ((L' + 1) ^ 2), g j * D j i :=
  sum_blockDiag_extend D hD g i L L' ((deg_le_iff _ _).1 h) ((deg_le_iff _ _).1 h')

theorem sum_row_extend {D : ℕ → ℕ → ℝ} (hD : BlockDiag D) (g : ℕ → ℝ) {i L L' : ℕ} (h : deg i ≤ L) (h' : deg i ≤ L') :
    ∑ j ∈ range ((L + 1) ^ 2), D i j * g j = ∑ j ∈ range ((L' + 1) ^ 2), D i j * g j := by
  have := sum_blockDiag_extend (fun a b => D b a) (fun a b hab => hD b a (Ne.symm hab)) g i L L'
    ((deg_le_iff _ _).1 h) ((deg_le_iff _ _).1 h')
  simpa only [mul_comm] using this

/-- Intertwining, with sums over arbitrary sufficiently large ranges. -/
theorem intertwines_ranges {cg : ℕ → ℕ → ℕ → ℝ} {D : ℕ → ℕ → ℝ} (hD : BlockDiag D) (hI : Intertwines cg D)
    {a b n L1 L2 L3 : ℕ} (h1 : deg a ≤ L1) (h2 : deg b ≤ L2) (h3 : deg n ≤ L3) :
    ∑ l ∈ range ((L1 + 1) ^ 2), ∑ m ∈ range ((L2 + 1) ^ 2), D a l * D b m * cg l m n =
      ∑ k ∈ range ((L3 + 1) ^ 2), cg a b k * D k n := by
  rw [sum_col_extend hD (fun k => cg a b k) h3 (le_refl (deg n)), ← hI a b n]
  have e : ∀ N M, ∑ l ∈ range N, ∑ m ∈ range M, D a l * D b m * cg l m n =
      ∑ l ∈ range N, D a l * ∑ m ∈ range M, D b m * cg l m n := by
    intro N M
    apply Finset.sum_congr rfl
    intro l _
    rw [Finset.mul_sum]
    apply Finset.sum_congr rfl
    intro m _
    ring
  rw [e, e, sum_row_extend hD _ h1 (le_refl (deg a))]
  apply Finset.sum_congr rfl
  intro l _
  rw [sum_row_extend hD _ h2 (le_refl (deg b))]

/-- The bilinear coupling with weights that depend on degrees only is equivariant. -/
theorem bilinear_rotate {cg : ℕ → ℕ → ℕ → ℝ} {D : ℕ → ℕ → ℝ} (hD : BlockDiag D) (hI : Intertwines cg D)
    (u v : ℕ → ℝ) (w : ℕ → ℕ → ℕ → ℝ) {L1 L2 L3 n : ℕ} (hn : deg n ≤ L3) :
    ∑ l ∈ range ((L1 + 1) ^ 2), ∑ m ∈ range ((L2 + 1) ^ 2),
      (∑ a ∈ range ((L1 + 1) ^ 2), u a * D a l) * (∑ b ∈ range ((L2 + 1) ^ 2), v b * D b m) *
        w (deg l) (deg m) (deg n) * cg l m n =
    ∑ k ∈ range ((L3 + 1) ^ 2),
      (∑ l ∈ range ((L1 + 1) ^ 2), ∑ m ∈ range ((L2 + 1) ^ 2), u l * v m * w (deg l) (deg m) (deg k) * cg l m k) *
        D k n := by
  -- left side: bring the sums over a, b to the front
  have lhs : ∀ l ∈ range ((L1 + 1) ^ 2), ∀ m ∈ range ((L2 + 1) ^ 2),
      (∑ a ∈ range ((L1 + 1) ^ 2), u a * D a l) * (∑ b ∈ range ((L2 + 1) ^ 2), v b * D b m) *
        w (deg l) (deg m) (deg n) * cg l m n =
      ∑ a ∈ range ((L1 + 1) ^ 2), ∑ b ∈ range ((L2 + 1) ^ 2),
        u a * v b * w (deg a) (deg b) (deg n) * (D a l * D b m * cg l m n) := by
    intro l _ m _
    rw [Finset.sum_mul_sum, Finset.sum_mul, Finset.sum_mul]
    apply Finset.sum_congr rfl
    intro a _
    rw [Finset.sum_mul, Finset.sum_mul]
    apply Finset.sum_congr rfl
    intro b _
    by_cases h1 : deg a = deg l
    · by_cases h2 : deg b = deg m
      · rw [h1, h2]; ring
      · rw [hD b m h2]; ring
    · rw [hD a l h1]; ring
  rw [Finset.sum_congr rfl fun l hl => Finset.sum_congr rfl fun m hm => lhs l hl m hm]
  have rhs : ∑ k ∈ range ((L3 + 1) ^ 2),
      (∑ l ∈ range ((L1 + 1) ^ 2), ∑ m ∈ range ((L2 + 1) ^ 2), u l * v m * w (deg l) (deg m) (deg k) * cg l m k) *
        D k n =
      ∑ a ∈ range ((L1 + 1) ^ 2), ∑ b ∈ range ((L2 + 1) ^ 2),
        u a * v b * w (deg a) (deg b) (deg n) * ∑ k ∈ range ((L3 + 1) ^ 2), cg a b k * D k n := by
    simp only [Finset.sum_mul, Finset.mul_sum]
    rw [Finset.sum_comm]
    apply Finset.sum_congr rfl
    intro a _
    rw [Finset.sum_comm]
    apply Finset.sum_congr rfl
    intro b _
    apply Finset.sum_congr rfl
    intro k _
    by_cases h : deg k = deg n
    · rw [h]; ring
    · rw [hD k n h]; ring
  rw [rhs]
  -- now exchange the order of summation on the left
  have ex : ∑ l ∈ range ((L1 + 1) ^ 2), ∑ m ∈ range ((L2 + 1) ^ 2), ∑ a ∈ range ((L1 + 1) ^ 2),
      ∑ b ∈ range ((L2 + 1) ^ 2), u a * v b * w (deg a) (deg b) (deg n) * (D a l * D b m * cg l m n) =
      ∑ a ∈ range ((L1 + 1) ^ 2), ∑ b ∈ range ((L2 + 1) ^ 2), u a * v b * w (deg a) (deg b) (deg n) *
        ∑ l ∈ range ((L1 + 1) ^ 2), ∑ m ∈ range ((L2 + 1) ^ 2), D a l * D b m * cg l m n := by
    simp only [Finset.mul_sum]
    calc _ = ∑ l ∈ range ((L1 + 1) ^ 2), ∑ a ∈ range ((L1 + 1) ^ 2), ∑ m ∈ range ((L2 + 1) ^ 2),
          ∑ b ∈ range ((L2 + 1) ^ 2), u a * v b * w (deg a) (deg b) (deg n) * (D a l * D b m * cg l m n) :=
          Finset.sum_congr rfl fun l _ => Finset.sum_comm
      _ = ∑ a ∈ range ((L1 + 1) ^ 2), ∑ l ∈ range ((L1 + 1) ^ 2), ∑ m ∈ range ((L2 + 1) ^ 2),
          ∑ b ∈ range ((L2 + 1) ^ 2), u a * v b * w (deg a) (deg b) (deg n) * (D a l * D b m * cg l m n) :=
          Finset.sum_comm
      _ = ∑ a ∈ range ((L1 + 1) ^ 2), ∑ l ∈ range ((L1 + 1) ^ 2), ∑ b ∈ range ((L2 + 1) ^ 2),
          ∑ m ∈ range ((L2 + 1) ^ 2), u a * v b * w (deg a) (deg b) (deg n) * (D a l * D b m * cg l m n) :=
          Finset.sum_congr rfl fun a _ => Finset.sum_congr rfl fun l _ => Finset.sum_comm
      _ = _ := Finset.sum_congr rfl fun a _ => Finset.sum_comm
  rw [ex]
  apply Finset.sum_congr rfl
  intro a ha
  apply Finset.sum_congr rfl
  intro b hb
  rw [intertwines_ranges hD hI (deg_le_of_lt (Finset.mem_range.1 ha)) (deg_le_of_lt (Finset.mem_range.1 hb)) hn]

end E3x
