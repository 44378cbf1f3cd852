import Verif.Model.Softmax
import Verif.Spec.Softmax
import Verif.Props.Reduce
import Mathlib.Algebra.BigOperators.Ring.List
import Mathlib.Algebra.Order.BigOperators.Group.List
import Mathlib.Tactic.FieldSimp
import Mathlib.Tactic.Ring
import Mathlib.Tactic.Positivity

/-!
# C04: indexed softmax
-/

namespace E3x

/-- the multiplicative mask, all ones when absent -/
noncomputable def weightsOf (mult : Option (List ℝ)) (n : Nat) : List ℝ := mult.getD (List.replicate n 1)

theorem gatherSparse_eq {α : Type _} (d : α) (l : List α) (hl : l ≠ []) (idx : List Nat) :
    gatherSparse l idx = some (idx.map fun i => (l[min i (l.length - 1)]?).getD d) := by
  unfold gatherSparse
  have : ∀ i, clampGet l i = some ((l[min i (l.length - 1)]?).getD d) := by
    intro i
    unfold clampGet
    have : min i (l.length - 1) < l.length := by
      have := List.length_pos_of_ne_nil hl; omega
    simp [List.getElem?_eq_getElem this]
  induction idx with
  | nil => simp
  | cons a idx ih => simp [this, ih]

theorem applyMult_eq (mult : Option (List ℝ)) (l : List ℝ) :
    applyMult mult l = List.zipWith (· * ·) l (weightsOf mult l.length) := by
  cases mult with
  | some w => simp [applyMult, weightsOf]
  | none =>
    simp only [applyMult, weightsOf, Option.getD_none]
    induction l with
    | nil => simp
    | cons a l ih => simp [List.replicate_succ, ← ih]

theorem sum_shift (M : ℝ) (l : List (ℝ × ℝ)) :
    (l.map fun q => Real.exp (q.1 - M) * q.2).sum =
      Real.exp (-M) * (l.map fun q => Real.exp q.1 * q.2).sum := by
  rw [← List.sum_map_mul_left]
  congr 1
  apply List.map_congr_left
  intro q _
  rw [sub_eq_add_neg, Real.exp_add]; ring

theorem softmax_shift_div (M : ℝ) (l : List (ℝ × ℝ)) (e : ℝ × ℝ) :
    Real.exp (e.1 - M) * e.2 / (l.map fun q => Real.exp (q.1 - M) * q.2).sum = Spec.softmaxValue l e := by
  rw [sum_shift, sub_eq_add_neg, Real.exp_add]
  unfold Spec.softmaxValue
  have := Real.exp_ne_zero (-M)
  rw [show Real.exp e.1 * Real.exp (-M) * e.2 = Real.exp (-M) * (Real.exp e.1 * e.2) by ring]
  rw [mul_div_mul_left _ _ this]

/-- **C04 (closed form, sparse).** The outputs at the edges ending in node `i` are exactly the (weighted)
softmax values of the logits of these edges: no other node's logits, no padding entries and no stabilising
maximum appear in the result. -/
theorem C04_sparse (ninf : ℝ) (xs : List ℝ) (mult : Option (List ℝ)) (dst : List Nat) (num : Nat)
    (hx : xs.length = dst.length) (hm : (weightsOf mult xs.length).length = xs.length)
    (hnum : 0 < num) :
    ∃ ys, softmaxSparse ninf xs mult dst num = some ys ∧ ys.length = dst.length ∧
      ∀ i < num,
        let nbrs := ((dst.zip (xs.zip (weightsOf mult xs.length))).filter fun p => p.1 = i).map Prod.snd
        ((dst.zip ys).filter fun p => p.1 = i).map Prod.snd = nbrs.map (Spec.softmaxValue nbrs) := by
  unfold softmaxSparse
  have hne : ∀ (op : ℝ → ℝ → ℝ) init l, segmentReduce op init l dst num ≠ [] := by
    intro op init l h
    have := congrArg List.length h
    rw [segmentReduce_length] at this; simp at this; omega
  set w := weightsOf mult xs.length with hw
  rw [gatherSparse_eq 0 _ (hne _ _ _)]
  set M : Nat → ℝ := fun i => ((segmentReduce max ninf xs dst num)[min i ((segmentReduce max ninf xs dst num).length - 1)]?).getD 0 with hM
  simp only [Option.bind_eq_bind, Option.bind_some]
  rw [gatherSparse_eq 0 _ (hne _ _ _)]
  simp only [Option.bind_some, Option.pure_def, Option.some.injEq, exists_eq_left']
  have hlen : (List.zipWith (fun x m => Real.exp (x - m)) xs (dst.map M)).length = xs.length := by
    simp [hx]
  have hnumer : applyMult mult (List.zipWith (fun x m => Real.exp (x - m)) xs (dst.map M)) =
      (dst.zip (xs.zip w)).map fun p => Real.exp (p.2.1 - M p.1) * p.2.2 := by
    rw [applyMult_eq, hlen, ← hw]
    clear_value w M
    clear hw hM hlen
    induction dst generalizing xs w with
    | nil => simp
    | cons d dst ih =>
      cases xs with
      | nil => simp at hx
      | cons x xs =>
        cases w with
        | nil => simp at hm
        | cons w ws => 
          have := ih xs (by simpa using hx) (fun _ _ _ h => by
              have := congrArg List.length h
              rw [segmentReduce_length] at this; simp at this; omega) ws (by simpa using hm)
          simp [this]
  rw [hnumer]
  set numer := (dst.zip (xs.zip w)).map fun p => Real.exp (p.2.1 - M p.1) * p.2.2 with hn
  refine ⟨by simp [numer, hx, hm], ?_⟩
  intro i hi
  have hD : ∀ i < num, ((segmentReduce (· + ·) 0 numer dst num)[min i ((segmentReduce (· + ·) 0 numer dst num).length - 1)]?).getD 0
      = (((dst.zip (xs.zip w)).filter fun p => p.1 = i).map fun p => Real.exp (p.2.1 - M i) * p.2.2).sum := by
    intro i hi
    rw [segmentReduce_length, Nat.min_eq_left (by omega), C03_segment_sum _ _ _ _ hi]
    simp only [Option.getD_some]
    congr 1
    rw [hn]
    have e : dst.zip (List.map (fun p => Real.exp (p.2.1 - M p.1) * p.2.2) (dst.zip (xs.zip w))) =
        (dst.zip (xs.zip w)).map fun p => (p.1, Real.exp (p.2.1 - M p.1) * p.2.2) := by
      have : ∀ (d : List Nat) (l : List (ℝ × ℝ)), d.zip ((d.zip l).map fun p => Real.exp (p.2.1 - M p.1) * p.2.2) =
          (d.zip l).map fun p => (p.1, Real.exp (p.2.1 - M p.1) * p.2.2) := by
        intro d
        induction d with
        | nil => simp
        | cons a d ih => intro l; cases l <;> simp [ih]
      exact this _ _
    rw [e, List.filter_map, List.map_map]
    simp only [Function.comp_def]
    apply List.map_congr_left
    intro p hp
    have : p.1 = i := by simpa using (List.mem_filter.1 hp).2
    simp [this]
  set D : Nat → ℝ := fun i => ((segmentReduce (· + ·) 0 numer dst num)[min i ((segmentReduce (· + ·) 0 numer dst num).length - 1)]?).getD 0 with hDdef
  have hys : dst.zip (List.zipWith (· / ·) numer (dst.map D)) =
      (dst.zip (xs.zip w)).map fun p => (p.1, Real.exp (p.2.1 - M p.1) * p.2.2 / D p.1) := by
    have : ∀ (d : List Nat) (l : List (ℝ × ℝ)),
        d.zip (List.zipWith (· / ·) ((d.zip l).map fun p => Real.exp (p.2.1 - M p.1) * p.2.2) (d.map D)) =
        (d.zip l).map fun p => (p.1, Real.exp (p.2.1 - M p.1) * p.2.2 / D p.1) := by
      intro d
      induction d with
      | nil => simp
      | cons a d ih =>
        intro l
        cases l with
        | nil => simp
        | cons b l => simp only [List.zip_cons_cons, List.map_cons, List.zipWith_cons_cons, ih]
    exact this _ _
  rw [hys, List.filter_map, List.map_map, List.map_map]
  simp only [Function.comp_def]
  apply List.map_congr_left
  intro p hp
  have hpi : p.1 = i := by simpa using (List.mem_filter.1 hp).2
  have hDi := hD i hi
  change D i = _ at hDi
  rw [hpi, hDi, ← softmax_shift_div (M i), List.map_map]
  rfl

/-- **C04 (closed form, dense).** Every entry of a dense row is its weight times its exponential divided by
the sum over the unmasked entries of that row. -/
theorem C04_dense (lo : ℝ) (xs : List ℝ) (mult : Option (List ℝ)) (mask : List Bool) :
    let nbrs := (((xs.zip (weightsOf mult xs.length)).zip mask).filter (·.2)).map Prod.fst
    softmaxDenseRow lo xs mult mask = (xs.zip (weightsOf mult xs.length)).map (Spec.softmaxValue nbrs) := by
  intro nbrs
  unfold softmaxDenseRow
  simp only
  set M := maskedFold max lo xs mask
  set w := weightsOf mult xs.length with hw
  have hnumer : applyMult mult (xs.map fun x => Real.exp (x - M)) =
      (xs.zip w).map fun p => Real.exp (p.1 - M) * p.2 := by
    rw [applyMult_eq, List.length_map, ← hw]
    clear_value w
    simp [List.zipWith_map_left, List.zip, List.map_zipWith]
  rw [hnumer]
  have hden : maskedFold (· + ·) 0 ((xs.zip w).map fun p => Real.exp (p.1 - M) * p.2) mask =
      (nbrs.map fun p => Real.exp (p.1 - M) * p.2).sum := by
    unfold maskedFold
    rw [List.zip_map_left, List.filter_map, List.foldl_map]
    simp only [nbrs, List.map_map, List.sum_eq_foldl, List.foldl_map]
    rfl
  rw [hden, List.map_map]
  apply List.map_congr_left
  intro p _
  exact softmax_shift_div M nbrs p

theorem sum_pos_of_weights (nbrs : List (ℝ × ℝ)) (hw : ∀ e ∈ nbrs, 0 ≤ e.2) (hpos : ∃ e ∈ nbrs, 0 < e.2) :
    0 < (nbrs.map fun q => Real.exp q.1 * q.2).sum := by
  obtain ⟨e, he, hpe⟩ := hpos
  have h1 : ∀ x ∈ nbrs.map (fun q : ℝ × ℝ => Real.exp q.1 * q.2), 0 ≤ x := by
    intro x hx
    obtain ⟨q, hq, rfl⟩ := List.mem_map.1 hx
    exact mul_nonneg (Real.exp_pos _).le (hw q hq)
  have h2 := List.single_le_sum h1 _ (List.mem_map.2 ⟨e, he, rfl⟩)
  have : 0 < Real.exp e.1 * e.2 := mul_pos (Real.exp_pos _) hpe
  linarith

theorem softmaxValue_sum (nbrs : List (ℝ × ℝ)) (hw : ∀ e ∈ nbrs, 0 ≤ e.2) (hpos : ∃ e ∈ nbrs, 0 < e.2) :
    (nbrs.map (Spec.softmaxValue nbrs)).sum = 1 := by
  have := sum_pos_of_weights nbrs hw hpos
  unfold Spec.softmaxValue
  simp only [div_eq_mul_inv]
  rw [List.sum_map_mul_right]
  exact mul_inv_cancel₀ this.ne'

theorem softmaxValue_bounds (nbrs : List (ℝ × ℝ)) (hw : ∀ e ∈ nbrs, 0 ≤ e.2) (e : ℝ × ℝ) (he : e ∈ nbrs)
    (hpe : 0 < e.2) : 0 < Spec.softmaxValue nbrs e ∧ Spec.softmaxValue nbrs e ≤ 1 := by
  have hs := sum_pos_of_weights nbrs hw ⟨e, he, hpe⟩
  have h1 : ∀ x ∈ nbrs.map (fun q : ℝ × ℝ => Real.exp q.1 * q.2), 0 ≤ x := by
    intro x hx
    obtain ⟨q, hq, rfl⟩ := List.mem_map.1 hx
    exact mul_nonneg (Real.exp_pos _).le (hw q hq)
  have h2 := List.single_le_sum h1 _ (List.mem_map.2 ⟨e, he, rfl⟩)
  unfold Spec.softmaxValue
  exact ⟨div_pos (mul_pos (Real.exp_pos _) hpe) hs, (div_le_one hs).2 h2⟩

theorem softmaxValue_shift (nbrs : List (ℝ × ℝ)) (c : ℝ) (e : ℝ × ℝ) :
    Spec.softmaxValue (nbrs.map fun q => (q.1 + c, q.2)) (e.1 + c, e.2) = Spec.softmaxValue nbrs e := by
  have := softmax_shift_div (-c) nbrs e
  rw [← this]
  unfold Spec.softmaxValue
  simp [List.map_map, Function.comp_def]

/-- **C04 (normalisation, sparse).** The softmax values of a node with at least one edge sum to one, and each
lies in `(0, 1]` (strictly positive where its weight is). -/
theorem C04_sparse_normalised (ninf : ℝ) (xs : List ℝ) (mult : Option (List ℝ)) (dst : List Nat) (num : Nat)
    (hx : xs.length = dst.length) (hm : (weightsOf mult xs.length).length = xs.length)
    (hw : ∀ w ∈ weightsOf mult xs.length, 0 < w) (i : Nat) (hi : i < num) (hne : i ∈ dst) :
    ∃ ys, softmaxSparse ninf xs mult dst num = some ys ∧
      (((dst.zip ys).filter fun p => p.1 = i).map Prod.snd).sum = 1 ∧
      ∀ p ∈ dst.zip ys, p.1 = i → 0 < p.2 ∧ p.2 ≤ 1 := by
  obtain ⟨ys, h1, h2, h3⟩ := C04_sparse ninf xs mult dst num hx hm (by omega)
  refine ⟨ys, h1, ?_⟩
  have h3 := h3 i hi
  simp only at h3
  set nbrs := ((dst.zip (xs.zip (weightsOf mult xs.length))).filter fun p => p.1 = i).map Prod.snd with hn
  have hwn : ∀ e ∈ nbrs, 0 < e.2 := by
    intro e he
    obtain ⟨p, hp, rfl⟩ := List.mem_map.1 he
    exact hw _ (List.of_mem_zip (List.of_mem_zip (a := p.1) (b := p.2) (List.mem_of_mem_filter hp)).2).2
  have hex : ∃ e ∈ nbrs, 0 < e.2 := by
    obtain ⟨k, hk, hki⟩ := List.getElem_of_mem hne
    have hk' : k < (xs.zip (weightsOf mult xs.length)).length := by simp [hm]; omega
    refine ⟨(xs.zip (weightsOf mult xs.length))[k], ?_, ?_⟩
    · rw [hn]
      refine List.mem_map.2 ⟨(dst[k], (xs.zip (weightsOf mult xs.length))[k]), ?_, rfl⟩
      refine List.mem_filter.2 ⟨?_, by simpa using hki⟩
      rw [← List.getElem_zip (h := by simp [hm]; omega)]
      exact List.getElem_mem _
    · apply hwn
      rw [hn]
      refine List.mem_map.2 ⟨(dst[k], (xs.zip (weightsOf mult xs.length))[k]), ?_, rfl⟩
      refine List.mem_filter.2 ⟨?_, by simpa using hki⟩
      rw [← List.getElem_zip (h := by simp [hm]; omega)]
      exact List.getElem_mem _
  rw [h3]
  refine ⟨softmaxValue_sum nbrs (fun e he => (hwn e he).le) hex, ?_⟩
  intro p hp hpi
  have hmem : p.2 ∈ nbrs.map (Spec.softmaxValue nbrs) := by
    rw [← h3]
    exact List.mem_map.2 ⟨p, List.mem_filter.2 ⟨hp, by simpa using hpi⟩, rfl⟩
  obtain ⟨e, he, hpe⟩ := List.mem_map.1 hmem
  rw [← hpe]
  exact softmaxValue_bounds nbrs (fun e he => (hwn e he).le) e he (hwn e he)

/-- **C04 (normalisation, dense).** The softmax values at the unmasked positions of a row with at least one
unmasked position sum to one and lie in `(0, 1]`. -/
theorem C04_dense_normalised (lo : ℝ) (xs : List ℝ) (mult : Option (List ℝ)) (mask : List Bool)
    (hx : xs.length = mask.length) (hm : (weightsOf mult xs.length).length = xs.length)
    (hw : ∀ w ∈ weightsOf mult xs.length, 0 < w) (hne : true ∈ mask) :
    let out := (((softmaxDenseRow lo xs mult mask).zip mask).filter (·.2)).map Prod.fst
    out.sum = 1 ∧ ∀ y ∈ out, 0 < y ∧ y ≤ 1 := by
  intro out
  have h := C04_dense lo xs mult mask
  simp only at h
  set w := weightsOf mult xs.length
  set nbrs := (((xs.zip w).zip mask).filter (·.2)).map Prod.fst with hn
  have hout : out = nbrs.map (Spec.softmaxValue nbrs) := by
    simp only [out, h, List.zip_map_left, List.filter_map, List.map_map]
    rw [hn, List.map_map]
    rfl
  have hwn : ∀ e ∈ nbrs, 0 < e.2 := by
    intro e he
    obtain ⟨p, hp, rfl⟩ := List.mem_map.1 he
    exact hw _ (List.of_mem_zip (List.of_mem_zip (a := p.1) (b := p.2) (List.mem_of_mem_filter hp)).1).2
  have hex : ∃ e ∈ nbrs, 0 < e.2 := by
    obtain ⟨k, hk, hki⟩ := List.getElem_of_mem hne
    have hk' : k < (xs.zip w).length := by simp [hm]; omega
    have : (xs.zip w)[k] ∈ nbrs := by
      refine List.mem_map.2 ⟨((xs.zip w)[k], mask[k]), List.mem_filter.2 ⟨?_, by simpa using hki⟩, rfl⟩
      rw [← List.getElem_zip (h := by simp [hm]; omega)]
      exact List.getElem_mem _
    exact ⟨_, this, hwn _ this⟩
  rw [hout]
  refine ⟨softmaxValue_sum nbrs (fun e he => (hwn e he).le) hex, ?_⟩
  intro y hy
  obtain ⟨e, he, rfl⟩ := List.mem_map.1 hy
  exact softmaxValue_bounds nbrs (fun e he => (hwn e he).le) e he (hwn e he)

/-- **C04 (shift invariance, sparse).** Adding a constant `c i` to all logits of node `i`, for all nodes at
once, does not change the output at real edges (`dst < num`). -/
theorem C04_sparse_shift (ninf : ℝ) (xs : List ℝ) (mult : Option (List ℝ)) (dst : List Nat) (num : Nat)
    (hx : xs.length = dst.length) (hm : (weightsOf mult xs.length).length = xs.length)
    (hnum : 0 < num) (c : Nat → ℝ) :
    ∃ ys ys', softmaxSparse ninf xs mult dst num = some ys ∧
      softmaxSparse ninf (List.zipWith (fun x d => x + c d) xs dst) mult dst num = some ys' ∧
      ∀ i < num, ((dst.zip ys).filter fun p => p.1 = i).map Prod.snd =
        ((dst.zip ys').filter fun p => p.1 = i).map Prod.snd := by
  have hl : (List.zipWith (fun x d => x + c d) xs dst).length = xs.length := by simp [hx]
  obtain ⟨ys, h1, hly, h3⟩ := C04_sparse ninf xs mult dst num hx hm hnum
  obtain ⟨ys', h1', hly', h3'⟩ := C04_sparse ninf (List.zipWith (fun x d => x + c d) xs dst) mult dst num
    (by rw [hl, hx]) (by rw [hl, hm]) hnum
  refine ⟨ys, ys', h1, h1', ?_⟩
  intro i hi
  rw [h3 i hi, h3' i hi]
  simp only [hl]
  set w := weightsOf mult xs.length with hw
  have e : ((dst.zip ((List.zipWith (fun x d => x + c d) xs dst).zip w)).filter fun p => decide (p.1 = i)).map Prod.snd =
      (((dst.zip (xs.zip w)).filter fun p => decide (p.1 = i)).map Prod.snd).map fun q => (q.1 + c i, q.2) := by
    clear_value w
    clear h3 h3' h1 h1' hl hw hm hly hly'
    induction dst generalizing xs w with
    | nil => simp
    | cons d dst ih =>
      cases xs with
      | nil => simp at hx
      | cons x xs =>
        cases w with
        | nil => simp
        | cons w ws =>
          have := ih xs (by simpa using hx) ws
          by_cases hd : d = i
          · simp only [List.map_map] at this
            simp [hd, this]
          · simp only [List.map_map] at this
            simp [hd, this]
  rw [e]
  generalize ((dst.zip (xs.zip w)).filter fun p => decide (p.1 = i)).map Prod.snd = nb
  rw [List.map_map]
  apply List.map_congr_left
  intro q _
  exact (softmaxValue_shift _ _ _).symm

/-- **C04 (formats agree).** The unmasked outputs of the dense softmax of row `i` (mask `adj < pad`) are
exactly the outputs of the sparse softmax at the edges of node `i` in the converted list, in order; what is
stored at masked positions is irrelevant. -/
theorem C04_dense_eq_sparse (lo ninf : ℝ) (pad : Nat) (adj : List (List Nat)) (x w : List (List ℝ))
    (hshape : adj.map List.length = x.map List.length) (hshapew : adj.map List.length = w.map List.length)
    (i : Nat) (hi : i < adj.length) (hix : i < x.length) (hiw : i < w.length) :
    ∃ ys, softmaxSparse ninf (Spec.keptValues pad adj x) (some (Spec.keptValues pad adj w))
        (denseToSparseOne pad adj).1 adj.length = some ys ∧
      (((denseToSparseOne pad adj).1.zip ys).filter fun p => p.1 = i).map Prod.snd =
      (((softmaxDenseRow lo x[i] (some w[i]) (adj[i].map fun j => decide (j < pad))).zip
        (adj[i].map fun j => decide (j < pad))).filter (·.2)).map Prod.fst := by
  -- lengths
  have zipkept : ∀ (adj : List (List Nat)) (x w : List (List ℝ)),
      adj.map List.length = x.map List.length → adj.map List.length = w.map List.length →
      (Spec.keptValues pad adj x).zip (Spec.keptValues pad adj w) =
        Spec.keptValues pad adj (List.zipWith List.zip x w) ∧
      (Spec.keptValues pad adj x).length = (denseToSparseOne pad adj).1.length ∧
      (Spec.keptValues pad adj w).length = (Spec.keptValues pad adj x).length := by
    intro adj
    have rowlen : ∀ {β : Type} (r : List Nat) (v : List β), r.length = v.length →
        (((r.zip v).filter fun q => decide (q.1 < pad)).map Prod.snd).length = (r.filter (· < pad)).length := by
      intro β r
      induction r with
      | nil => simp
      | cons a r ih =>
        intro v hv
        cases v with
        | nil => simp at hv
        | cons b v =>
          have := ih v (by simpa using hv)
          by_cases h : a < pad <;> simp [h] at this ⊢ <;> omega
    have rowzip : ∀ (r : List Nat) (v u : List ℝ),
        (((r.zip v).filter fun q => decide (q.1 < pad)).map Prod.snd).zip
          (((r.zip u).filter fun q => decide (q.1 < pad)).map Prod.snd) =
        (((r.zip (v.zip u)).filter fun q => decide (q.1 < pad)).map Prod.snd) := by
      intro r
      induction r with
      | nil => simp
      | cons a r ih =>
        intro v u
        cases v with
        | nil => simp
        | cons b v =>
          cases u with
          | nil => simp
          | cons d u => by_cases h : a < pad <;> simp [h, ih]
    have klen : ∀ {β : Type} (adj : List (List Nat)) (x : List (List β)),
        adj.map List.length = x.map List.length →
        (Spec.keptValues pad adj x).length = ((adj.map fun r => r.filter (· < pad)).map List.length).sum := by
      intro β adj
      induction adj with
      | nil => simp [Spec.keptValues]
      | cons r adj ih =>
        intro x hs
        cases x with
        | nil => simp at hs
        | cons v x =>
          simp only [List.map_cons, List.cons.injEq] at hs
          have := ih x hs.2
          have hr := rowlen r v hs.1
          simp only [Spec.keptValues, List.zip_cons_cons, List.flatMap_cons, List.length_append] at this ⊢
          rw [this, hr]; simp
    intro x w hx hw
    refine ⟨?_, ?_, ?_⟩
    · induction adj generalizing x w with
      | nil => simp [Spec.keptValues]
      | cons r adj ih =>
        cases x with
        | nil => simp at hx
        | cons v x =>
          cases w with
          | nil => simp at hw
          | cons u w =>
            simp only [List.map_cons, List.cons.injEq] at hx hw
            have := ih x w hx.2 hw.2
            simp only [Spec.keptValues, List.zip_cons_cons, List.flatMap_cons, List.zipWith_cons_cons] at this ⊢
            rw [List.zip_append (by rw [rowlen r v hx.1, rowlen r u hw.1]), this, rowzip]
    · rw [klen adj x hx]
      have : ∀ (l : List (List Nat)) k,
          ((l.zipIdx k).map fun p => List.replicate p.1.length p.2).flatten.length = (l.map List.length).sum := by
        intro l
        induction l with
        | nil => simp
        | cons a l ih =>
          intro k
          rw [List.zipIdx_cons, List.map_cons, List.flatten_cons, List.length_append, ih]
          simp
      exact (this _ 0).symm
    · rw [klen adj x hx, klen adj w hw]
  obtain ⟨hz, hlx, hlw⟩ := zipkept adj x w hshape hshapew
  obtain ⟨ys, h1, _, h3⟩ := C04_sparse ninf (Spec.keptValues pad adj x) (some (Spec.keptValues pad adj w))
    (denseToSparseOne pad adj).1 adj.length hlx (by simp [weightsOf, hlw]) (by omega)
  refine ⟨ys, h1, ?_⟩
  have h3 := h3 i hi
  simp only [weightsOf, Option.getD_some] at h3
  have hxi : adj[i].length = x[i].length := by
    have := congrArg (fun l => l[i]?) hshape
    simpa [hi, hix] using this
  have hwi : adj[i].length = w[i].length := by
    have := congrArg (fun l => l[i]?) hshapew
    simpa [hi, hiw] using this
  have hsz : adj.map List.length = (List.zipWith List.zip x w).map List.length := by
    have hl1 : adj.length = x.length := by simpa using congrArg List.length hshape
    have hl2 : adj.length = w.length := by simpa using congrArg List.length hshapew
    apply List.ext_getElem
    · simp [← hl1, ← hl2]
    · intro k hk hk'
      have a1 := congrArg (fun l => l[k]?) hshape
      have a2 := congrArg (fun l => l[k]?) hshapew
      have b0 : k < adj.length := by simpa using hk
      have b1 : k < x.length := by omega
      have b2 : k < w.length := by omega
      simp [b0, b1, b2] at a1 a2
      simp [← a1, ← a2]
  have hkf := kept_filter pad adj (List.zipWith List.zip x w) hsz i hi (by simp [hix, hiw])
  rw [hz, hkf] at h3
  rw [h3]
  have hd := C04_dense lo x[i] (some w[i]) (adj[i].map fun j => decide (j < pad))
  simp only [weightsOf, Option.getD_some] at hd
  rw [hd]
  have e : ((adj[i].zip ((List.zipWith List.zip x w)[i]'(by simp [hix, hiw]))).filter fun q => decide (q.1 < pad)).map Prod.snd =
      (((x[i].zip w[i]).zip (adj[i].map fun j => decide (j < pad))).filter (·.2)).map Prod.fst := by
    simp only [List.getElem_zipWith]
    have : ∀ (r : List Nat) (v : List (ℝ × ℝ)), ((r.zip v).filter fun q => decide (q.1 < pad)).map Prod.snd =
        ((v.zip (r.map fun j => decide (j < pad))).filter (·.2)).map Prod.fst := by
      intro r
      induction r with
      | nil => simp
      | cons a r ih =>
        intro v
        cases v with
        | nil => simp
        | cons b v => by_cases h : a < pad <;> simp [h, ih]
    exact this _ _
  rw [e, List.zip_map_left, List.filter_map, List.map_map, List.map_map]
  rfl

/-- **C04 (refutation: padding is not zeroed).** A masked position of a dense row does not get the value zero:
it holds `exp(x)/Σ`, which is never zero when the row has an unmasked entry. -/
theorem C04_padding_not_zero :
    ∃ (xs : List ℝ) (mask : List Bool) (lo : ℝ) (y : ℝ), mask[1]? = some false ∧
      (softmaxDenseRow lo xs none mask)[1]? = some y ∧ y ≠ 0 := by
  refine ⟨[0, 0], [true, false], 0, 1, rfl, ?_, one_ne_zero⟩
  simp [softmaxDenseRow, applyMult, maskedFold]

/-- **C04 (argument checks).** The call is rejected exactly if the mask shape differs or the input is not
floating point. -/
theorem C04_check (isFloat : Bool) (inputs : List Nat) (mult : Option (List Nat)) :
    softmaxCheck isFloat inputs mult = .ok () ↔
      isFloat = true ∧ ∀ m, mult = some m → m = inputs := by
  unfold softmaxCheck
  cases mult <;> cases isFloat <;> simp

-- Non-vacuity: two edges into node 0, one into node 1, one padding edge.
example : ∃ ys, softmaxSparse 0 [1, 2, 3, 4] (some [1, 1/2, 1, 1]) [0, 0, 1, 2] 2 = some ys ∧
    (((([0, 0, 1, 2] : List Nat).zip ys).filter fun p => p.1 = 0).map Prod.snd).sum = 1 := by
  obtain ⟨ys, h1, h2, _⟩ := C04_sparse_normalised 0 [1, 2, 3, 4] (some [1, 1/2, 1, 1]) [0, 0, 1, 2] 2 rfl rfl
    (by intro w hw; simp [weightsOf] at hw; rcases hw with rfl | rfl | rfl <;> norm_num) 0 (by norm_num) (by simp)
  exact ⟨ys, h1, h2⟩

end E3x
