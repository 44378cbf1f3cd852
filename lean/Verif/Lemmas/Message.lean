import Verif.Lemmas.Symmetry
import Verif.Props.Reduce

/-!
# Relational lemmas: every operation on arrays over nodes and edges preserves relations between entries
-/

namespace E3x

open Spec
open Finset (range)

/-! ## Relations between lists and arrays -/

/-- Same shape and related entries. -/
inductive Lead.Rel {α β : Type} (R : α → β → Prop) : Lead α → Lead β → Prop where
  | vec {xs ys} (h : List.Forall₂ R xs ys) : Lead.Rel R (.vec xs) (.vec ys)
  | mat {xs ys} (h : List.Forall₂ (List.Forall₂ R) xs ys) : Lead.Rel R (.mat xs) (.mat ys)

/-- Equal exceptions or related values. -/
inductive ExRel {α β : Type} (R : α → β → Prop) : Except Err α → Except Err β → Prop where
  | ok {a b} (h : R a b) : ExRel R (.ok a) (.ok b)
  | error (e) : ExRel R (.error e) (.error e)

/-- Both absent or related values. -/
inductive OptRel {α β : Type} (R : α → β → Prop) : Option α → Option β → Prop where
  | some {a b} (h : R a b) : OptRel R (some a) (some b)
  | none : OptRel R none none

theorem forall2_length {α β : Type} {R : α → β → Prop} {xs : List α} {ys : List β} (h : List.Forall₂ R xs ys) :
    xs.length = ys.length := h.length_eq

theorem forall2_get {α β : Type} {R : α → β → Prop} {xs : List α} {ys : List β} (h : List.Forall₂ R xs ys) (i : ℕ) :
    OptRel R xs[i]? ys[i]? := by
  induction h generalizing i with
  | nil => simpa using OptRel.none
  | cons hab _ ih =>
    cases i with
    | zero => simpa using OptRel.some hab
    | succ i => simpa using ih i

theorem forall2_map {α β γ δ : Type} {R : α → β → Prop} {S : γ → δ → Prop} {xs : List α} {ys : List β}
    (h : List.Forall₂ R xs ys) {f : α → γ} {g : β → δ} (hfg : ∀ a b, R a b → S (f a) (g b)) :
    List.Forall₂ S (xs.map f) (ys.map g) := by
  induction h with
  | nil => exact .nil
  | cons hab _ ih => exact .cons (hfg _ _ hab) ih

theorem forall2_zipWith {α β γ α' β' γ' : Type} {R : α → α' → Prop} {S : β → β' → Prop} {T : γ → γ' → Prop}
    {f : α → β → γ} {f' : α' → β' → γ'} (hf : ∀ a a' b b', R a a' → S b b' → T (f a b) (f' a' b')) :
    ∀ {xs : List α} {xs' : List α'} {ys : List β} {ys' : List β'}, List.Forall₂ R xs xs' → List.Forall₂ S ys ys' →
      List.Forall₂ T (List.zipWith f xs ys) (List.zipWith f' xs' ys') := by
  intro xs xs' ys ys' h
  induction h generalizing ys ys' with
  | nil => intro _; simp
  | cons hab _ ih =>
    intro h2
    cases h2 with
    | nil => simp
    | cons h2 h3 => exact .cons (hf _ _ _ _ hab h2) (ih h3)

theorem forall2_rows_length {α β : Type} {R : α → β → Prop} {xs : List (List α)} {ys : List (List β)}
    (h : List.Forall₂ (List.Forall₂ R) xs ys) : xs.map List.length = ys.map List.length := by
  induction h with
  | nil => rfl
  | cons hab _ ih => simp [hab.length_eq, ih]

theorem mapM_rel {α β γ : Type} {R : β → γ → Prop} (f : α → Option β) (g : α → Option γ)
    (h : ∀ a, OptRel R (f a) (g a)) : ∀ l : List α, OptRel (List.Forall₂ R) (l.mapM f) (l.mapM g) := by
  intro l
  induction l with
  | nil => simpa using OptRel.some List.Forall₂.nil
  | cons a l ih =>
    simp only [List.mapM_cons]
    have h1 := h a
    cases hfa : f a <;> cases hga : g a <;> rw [hfa, hga] at h1 <;> cases h1
    · simpa using OptRel.none
    · rename_i h1
      cases hfl : l.mapM f <;> cases hgl : l.mapM g <;> rw [hfl, hgl] at ih <;> cases ih
      · simpa using OptRel.none
      · rename_i h2
        simpa using OptRel.some (List.Forall₂.cons h1 h2)

theorem gatherSparse_rel {α β : Type} {R : α → β → Prop} {xs : List α} {ys : List β} (h : List.Forall₂ R xs ys)
    (idx : List ℕ) : OptRel (List.Forall₂ R) (gatherSparse xs idx) (gatherSparse ys idx) := by
  apply mapM_rel
  intro i
  unfold clampGet
  rw [h.length_eq]
  exact forall2_get h _

theorem gatherDense_rel {α β : Type} {R : α → β → Prop} {xs : List α} {ys : List β} (h : List.Forall₂ R xs ys)
    (idx : List (List ℕ)) :
    OptRel (List.Forall₂ (List.Forall₂ R)) (gatherDense xs idx) (gatherDense ys idx) :=
  mapM_rel _ _ (gatherSparse_rel h) idx

theorem gatherSrc_rel {α β : Type} {R : α → β → Prop} {xs : List α} {ys : List β} (h : List.Forall₂ R xs ys)
    (ix : IndexArgs) : ExRel (Lead.Rel R) (gatherSrc xs ix) (gatherSrc ys ix) := by
  unfold gatherSrc
  generalize determineIndexType _ _ _ = t
  cases t with
  | error e => exact .error _
  | ok t =>
    cases t with
    | dense =>
      cases ix.adj with
      | none => exact .error _
      | some a =>
        dsimp only
        have := gatherDense_rel h a
        generalize gatherDense xs a = u at this
        generalize gatherDense ys a = w at this
        cases this with
        | some h => exact .ok (.mat h)
        | none => exact .error _
    | sparse =>
      cases ix.src with
      | none => exact .error _
      | some s =>
        dsimp only
        have := gatherSparse_rel h s
        generalize gatherSparse xs s = u at this
        generalize gatherSparse ys s = w at this
        cases this with
        | some h => exact .ok (.vec h)
        | none => exact .error _

theorem gatherDst_rel {α β : Type} {R : α → β → Prop} {xs : List α} {ys : List β} (h : List.Forall₂ R xs ys)
    (ix : IndexArgs) : ExRel (Lead.Rel R) (gatherDst xs ix) (gatherDst ys ix) := by
  unfold gatherDst
  generalize determineIndexType _ _ _ = t
  cases t with
  | error e => exact .error _
  | ok t =>
    cases t with
    | dense =>
      cases ix.adj with
      | none => exact .error _
      | some a =>
        dsimp only
        rw [h.length_eq]
        split
        · refine .ok (.mat ?_)
          refine forall2_zipWith (R := R) (S := Eq) ?_ h (List.forall₂_refl a)
          rintro x x' row _ hx rfl
          induction row with
          | nil => exact .nil
          | cons _ _ ih => exact .cons hx ih
        · exact .error _
    | sparse =>
      cases ix.dst with
      | none => exact .error _
      | some s =>
        dsimp only
        have := gatherSparse_rel h s
        generalize gatherSparse xs s = u at this
        generalize gatherSparse ys s = w at this
        cases this with
        | some h => exact .ok (.vec h)
        | none => exact .error _

theorem forall2_modify {α β : Type} {R : α → β → Prop} {f : α → α} {g : β → β} (hfg : ∀ a b, R a b → R (f a) (g b)) :
    ∀ (i : ℕ) {xs : List α} {ys : List β}, List.Forall₂ R xs ys →
      List.Forall₂ R (xs.modify i f) (ys.modify i g) := by
  intro i
  induction i with
  | zero =>
    intro xs ys h
    cases h with
    | nil => simp
    | cons h1 h2 => simpa using ⟨hfg _ _ h1, h2⟩
  | succ i ih =>
    intro xs ys h
    cases h with
    | nil => simp
    | cons h1 h2 => simpa using ⟨h1, ih h2⟩

section Sum

variable {α β : Type} [Add α] [Zero α] [Add β] [Zero β] {R : α → β → Prop}

theorem segmentSum_rel (h0 : R 0 0) (hadd : ∀ a b c d, R a b → R c d → R (a + c) (b + d)) {xs : List α} {ys : List β}
    (h : List.Forall₂ R xs ys) (dst : List ℕ) (n : ℕ) :
    List.Forall₂ R (segmentReduce (· + ·) 0 xs dst n) (segmentReduce (· + ·) 0 ys dst n) := by
  unfold segmentReduce
  have hz : ∀ (dst : List ℕ) {xs : List α} {ys : List β}, List.Forall₂ R xs ys →
      List.Forall₂ (fun p q => p.1 = q.1 ∧ R p.2 q.2) (dst.zip xs) (dst.zip ys) := by
    intro dst xs ys h
    exact forall2_zipWith (R := Eq) (S := R) (by rintro a _ b b' rfl hb; exact ⟨rfl, hb⟩) (List.forall₂_refl dst) h
  have hr : List.Forall₂ R (List.replicate n (0 : α)) (List.replicate n (0 : β)) := by
    induction n with
    | zero => exact .nil
    | succ n ih => exact .cons h0 ih
  have := hz dst h
  generalize dst.zip xs = e at this
  generalize dst.zip ys = e' at this
  clear hz h
  generalize List.replicate n (0 : α) = acc at hr
  generalize List.replicate n (0 : β) = acc' at hr
  induction this generalizing acc acc' with
  | nil => exact hr
  | cons h1 _ ih =>
    simp only [List.foldl_cons]
    apply ih
    rw [h1.1]
    exact forall2_modify (fun a b hab => hadd _ _ _ _ hab h1.2) _ hr

theorem maskedSum_rel (h0 : R 0 0) (hadd : ∀ a b c d, R a b → R c d → R (a + c) (b + d)) {xs : List α} {ys : List β}
    (h : List.Forall₂ R xs ys) (mask : List Bool) :
    R (maskedFold (· + ·) 0 xs mask) (maskedFold (· + ·) 0 ys mask) := by
  unfold maskedFold
  generalize hacc : (0 : α) = acc
  generalize hacc' : (0 : β) = acc'
  have hr : R acc acc' := by rw [← hacc, ← hacc']; exact h0
  clear hacc hacc'
  induction h generalizing mask acc acc' with
  | nil => simpa using hr
  | cons h1 _ ih =>
    cases mask with
    | nil => simpa using hr
    | cons m mask =>
      cases m
      · simpa using ih mask acc acc' hr
      · simpa using ih mask _ _ (hadd _ _ _ _ hr h1)

theorem indexedSum_rel (h0 : R 0 0) (hadd : ∀ a b c d, R a b → R c d → R (a + c) (b + d)) {x : Lead α} {y : Lead β}
    (h : Lead.Rel R x y) (ix : IndexArgs) : ExRel (List.Forall₂ R) (indexedSum x ix) (indexedSum y ix) := by
  unfold indexedSum
  generalize determineIndexType _ _ _ = t
  cases h with
  | vec h =>
    cases t with
    | error e => exact .error _
    | ok t =>
      cases t <;> cases ix.adj <;> cases ix.dst <;> try exact .error _
      all_goals
        dsimp only
        cases ix.num with
        | none => exact .error _
        | some n =>
          dsimp only
          rw [h.length_eq]
          split
          · exact .error _
          · exact .ok (segmentSum_rel h0 hadd h _ _)
  | mat h =>
    cases t with
    | error e => exact .error _
    | ok t =>
      cases t <;> cases ix.adj <;> cases ix.dst <;> try exact .error _
      all_goals
        dsimp only
        cases ix.mask with
        | none => exact .error _
        | some m =>
          dsimp only
          rw [forall2_rows_length h]
          split
          · exact .error _
          · refine .ok ?_
            unfold denseReduce
            exact forall2_zipWith (R := List.Forall₂ R) (S := Eq)
              (by rintro a a' b _ ha rfl; exact maskedSum_rel h0 hadd ha b) h (List.forall₂_refl m)

end Sum

theorem zipWith?_rel {α β γ α' β' γ' : Type} {R : α → α' → Prop} {S : β → β' → Prop} {T : γ → γ' → Prop}
    {f : α → β → γ} {f' : α' → β' → γ'} (hf : ∀ a a' b b', R a a' → S b b' → T (f a b) (f' a' b'))
    {x : Lead α} {x' : Lead α'} {y : Lead β} {y' : Lead β'} (hx : Lead.Rel R x x') (hy : Lead.Rel S y y') :
    OptRel (Lead.Rel T) (Lead.zipWith? f x y) (Lead.zipWith? f' x' y') := by
  cases hx with
  | vec hx =>
    cases hy with
    | vec hy =>
      simp only [Lead.zipWith?, hx.length_eq, hy.length_eq]
      split
      · exact .some (.vec (forall2_zipWith hf hx hy))
      · exact .none
    | mat hy => exact .none
  | mat hx =>
    cases hy with
    | vec hy => exact .none
    | mat hy =>
      simp only [Lead.zipWith?, forall2_rows_length hx, forall2_rows_length hy]
      split
      · exact .some (.mat (forall2_zipWith (f := List.zipWith f) (f' := List.zipWith f') (R := List.Forall₂ R)
          (S := List.Forall₂ S) (fun _ _ _ _ h1 h2 => forall2_zipWith hf h1 h2) hx hy))
      · exact .none

theorem Lead.Rel.map {α β γ δ : Type} {R : α → β → Prop} {S : γ → δ → Prop} {x : Lead α} {y : Lead β}
    (h : Lead.Rel R x y) {f : α → γ} {g : β → δ} (hfg : ∀ a b, R a b → S (f a) (g b)) :
    Lead.Rel S (x.map f) (y.map g) := by
  cases h with
  | vec h => exact .vec (forall2_map h hfg)
  | mat h => exact .mat (forall2_map h fun _ _ hab => forall2_map hab hfg)

theorem Lead.Rel.refl {α : Type} {R : α → α → Prop} (hR : ∀ a, R a a) (x : Lead α) : Lead.Rel R x x := by
  have h : ∀ l : List α, List.Forall₂ R l l := by
    intro l; induction l with
    | nil => exact .nil
    | cons a l ih => exact .cons (hR a) ih
  cases x with
  | vec xs => exact .vec (h xs)
  | mat xs =>
    refine .mat ?_
    induction xs with
    | nil => exact .nil
    | cons a l ih => exact .cons (h a) ih

theorem Lead.Rel.mono {α β : Type} {R S : α → β → Prop} (hRS : ∀ a b, R a b → S a b) {x : Lead α} {y : Lead β}
    (h : Lead.Rel R x y) : Lead.Rel S x y := by
  cases h with
  | vec h => exact .vec (h.imp hRS)
  | mat h => exact .mat (h.imp fun _ _ h => h.imp hRS)

/-! ## Transformed arrays -/

/-- `v'` holds the entries of the array with entries `v`, transformed by `A`. -/
def Tr (A : Feat → Feat) (ps : Bool) (L F : ℕ) (v v' : Ent) : Prop :=
  Feat.Same ⟨ps, L, F, v'⟩ (A ⟨ps, L, F, v⟩)

def NodesTr (A : Feat → Feat) (x x' : Nodes) : Prop :=
  x.pseudo = x'.pseudo ∧ x.L = x'.L ∧ x.F = x'.F ∧ List.Forall₂ (Tr A x.pseudo x.L x.F) x.rows x'.rows

def EdgesTr (A : Feat → Feat) (x x' : Edges) : Prop :=
  x.pseudo = x'.pseudo ∧ x.L = x'.L ∧ x.F = x'.F ∧ Lead.Rel (Tr A x.pseudo x.L x.F) x.rows x'.rows

section

variable {cg cg' : ℕ → ℕ → ℕ → ℝ} {A : Feat → Feat} (hA : SymFacts cg cg' A)

include hA

theorem Tr.zero (ps : Bool) (L F : ℕ) : Tr A ps L F 0 0 := by
  obtain ⟨h1, h2, h3⟩ := hA.hdr ⟨ps, L, F, 0⟩
  refine ⟨h1.symm, h2.symm, h3.symm, ?_⟩
  intro p i f _ _ _
  rw [hA.zero]; rfl

theorem Tr.add {ps : Bool} {L F : ℕ} {v v' w w' : Ent} (h : Tr A ps L F v v') (h' : Tr A ps L F w w') :
    Tr A ps L F (v + w) (v' + w') := by
  obtain ⟨h1, h2, h3⟩ := hA.hdr ⟨ps, L, F, v + w⟩
  refine ⟨h1.symm, h2.symm, h3.symm, ?_⟩
  intro p i f hp hi hf
  rw [hA.add]
  have e1 := h.2.2.2 p i f hp hi hf
  have e2 := h'.2.2.2 p i f hp hi hf
  simp only at e1 e2
  rw [← e1, ← e2]; rfl

theorem Tr.scale {ps : Bool} {L F : ℕ} {v v' : Ent} (c c' : ℕ → ℝ) (hc : ∀ f < F, c f = c' f)
    (h : Tr A ps L F v v') : Tr A ps L F (fun p i f => c f * v p i f) (fun p i f => c' f * v' p i f) := by
  obtain ⟨h1, h2, h3⟩ := hA.hdr ⟨ps, L, F, fun p i f => c f * v p i f⟩
  refine ⟨h1.symm, h2.symm, h3.symm, ?_⟩
  intro p i f hp hi hf
  rw [hA.scale]
  have e1 := h.2.2.2 p i f hp hi hf
  simp only at e1
  rw [← e1, hc f hf]

theorem Tr.scalar {ps : Bool} {L F : ℕ} {v v' : Ent} (h : Tr A ps L F v v') {f : ℕ} (hf : f < F) :
    v' 0 0 f = v 0 0 f := by
  have e1 := h.2.2.2 0 0 f (by unfold chan; split <;> norm_num) (by change 0 < (L + 1) ^ 2; positivity) hf
  simp only at e1
  rw [e1, hA.scalar]

omit hA in
/-- A layer that commutes with `A`. -/
theorem Tr.apply {g : Feat → Feat} (hg : ∀ x, (g (A x)).Same (A (g x)))
    (hs : ∀ {x y : Feat}, x.Same y → (g x).Same (g y))
    (hh : ∀ ps L F (v w : Ent), (g ⟨ps, L, F, v⟩).pseudo = (g ⟨ps, L, F, w⟩).pseudo ∧
      (g ⟨ps, L, F, v⟩).L = (g ⟨ps, L, F, w⟩).L ∧ (g ⟨ps, L, F, v⟩).F = (g ⟨ps, L, F, w⟩).F)
    {ps : Bool} {L F : ℕ} {v v' : Ent} (h : Tr A ps L F v v') :
    Tr A (g ⟨ps, L, F, 0⟩).pseudo (g ⟨ps, L, F, 0⟩).L (g ⟨ps, L, F, 0⟩).F (g ⟨ps, L, F, v⟩).val
      (g ⟨ps, L, F, v'⟩).val := by
  have h1 := (hs h).trans (hg _)
  have e : ∀ w, g ⟨ps, L, F, w⟩ = ⟨(g ⟨ps, L, F, 0⟩).pseudo, (g ⟨ps, L, F, 0⟩).L, (g ⟨ps, L, F, 0⟩).F,
      (g ⟨ps, L, F, w⟩).val⟩ := by
    intro w
    obtain ⟨h1, h2, h3⟩ := hh ps L F 0 w
    rw [h1, h2, h3]
  rw [e v, e v'] at h1
  exact h1

omit hA in
theorem dense_hdr (features : ℕ) (b : Bool) (P : DenseParams) (ps : Bool) (L F : ℕ) (v w : Ent) :
    (dense features b P ⟨ps, L, F, v⟩).pseudo = (dense features b P ⟨ps, L, F, w⟩).pseudo ∧
    (dense features b P ⟨ps, L, F, v⟩).L = (dense features b P ⟨ps, L, F, w⟩).L ∧
    (dense features b P ⟨ps, L, F, v⟩).F = (dense features b P ⟨ps, L, F, w⟩).F := by
  obtain ⟨a1, a2, a3, _⟩ := C12_dense features b P ⟨ps, L, F, v⟩
  obtain ⟨b1, b2, b3, _⟩ := C12_dense features b P ⟨ps, L, F, w⟩
  exact ⟨a1.trans b1.symm, a2.trans b2.symm, a3.trans b3.symm⟩

end

/-- Exceptions and extents of a tensor product do not depend on the entries. -/
theorem anyTensor_header (cfg : TensorCfg) (T : TensorParams) (cg cg' : ℕ → ℕ → ℕ → ℝ) {x y x' y' : Feat}
    (hx : x.pseudo = x'.pseudo ∧ x.L = x'.L ∧ x.F = x'.F) (hy : y.pseudo = y'.pseudo ∧ y.L = y'.L ∧ y.F = y'.F) :
    ExRel (fun z z' : Feat => z.pseudo = z'.pseudo ∧ z.L = z'.L ∧ z.F = z'.F) (anyTensor cfg T cg x y)
      (anyTensor cfg T cg' x' y') := by
  obtain ⟨x1, x2, x3⟩ := hx
  obtain ⟨y1, y2, y3⟩ := hy
  by_cases hok : cfg.maxDegree.getD (max x.L y.L) ≤ x.L + y.L ∧ x.F = y.F
  · have hok' := hok
    rw [x2, x3, y2, y3] at hok'
    cases T with
    | tensor K =>
      obtain ⟨z, h0, h1, h2, h3, _⟩ := C15_tensor cfg K cg x y hok.1 hok.2
      obtain ⟨z', g0, g1, g2, g3, _⟩ := C15_tensor cfg K cg' x' y' hok'.1 hok'.2
      simp only [anyTensor, h0, g0]
      refine .ok ⟨?_, ?_, ?_⟩
      · rw [Bool.eq_iff_iff, h3, g3, x1, x2, y1, y2]
      · rw [h1, g1, x2, y2]
      · rw [h2, g2, x3]
    | fused K =>
      obtain ⟨z, h0, h1, h2, h3, _⟩ := C16_fused cfg K cg x y hok.1 hok.2
      obtain ⟨z', g0, g1, g2, g3, _⟩ := C16_fused cfg K cg' x' y' hok'.1 hok'.2
      simp only [anyTensor, h0, g0]
      refine .ok ⟨?_, ?_, ?_⟩
      · rw [Bool.eq_iff_iff, h3, g3, x1, x2, y1, y2]
      · rw [h1, g1, x2, y2]
      · rw [h2, g2, x3]
  · have e : x.L + y.L < cfg.maxDegree.getD (max x.L y.L) ∨ x.F ≠ y.F := by
      by_contra hc; push Not at hc; exact hok hc
    have e' := e
    rw [x2, x3, y2, y3] at e'
    cases T with
    | tensor K =>
      simp only [anyTensor, (C15_tensor_error cfg K cg x y _).2 ⟨rfl, e⟩, (C15_tensor_error cfg K cg' x' y' _).2 ⟨rfl, e'⟩]
      exact .error _
    | fused K =>
      simp only [anyTensor, (C16_fused_error cfg K cg x y _).2 ⟨rfl, e⟩, (C16_fused_error cfg K cg' x' y' _).2 ⟨rfl, e'⟩]
      exact .error _

end E3x
