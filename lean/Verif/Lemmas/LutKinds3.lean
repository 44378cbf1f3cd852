import Verif.Lemmas.LutKinds2

/-!
# The Wigner-D generator satisfies `LutCorrect`
-/

namespace E3x

open Spec

/-! ## Blocks -/

theorem rotOffset_succ (l : Nat) : rotOffset (l + 1) = rotOffset l + numRotMonomials l := by
  unfold rotOffset
  rw [List.range_succ]
  simp

theorem wigOffset_succ (l : Nat) : wigOffset (l + 1) = wigOffset l + numWignerD l := by
  unfold wigOffset
  rw [List.range_succ]
  simp

theorem rotOffset_mono {a b : Nat} (h : a ≤ b) : rotOffset a ≤ rotOffset b := by
  induction h with
  | refl => exact le_refl _
  | step _ ih => rw [rotOffset_succ]; omega

theorem wigOffset_mono {a b : Nat} (h : a ≤ b) : wigOffset a ≤ wigOffset b := by
  induction h with
  | refl => exact le_refl _
  | step _ ih => rw [wigOffset_succ]; omega

theorem inRows_lt {l K i : Nat} (h : InRows l i) (hl : l < K) : i < rotOffset K := by
  have h1 := rotOffset_mono (show l + 1 ≤ K from hl)
  rw [rotOffset_succ] at h1
  have := h.2
  omega

theorem inCols_lt {l K w : Nat} (h : InCols l w) (hl : l < K) : w < wigOffset K := by
  have h1 := wigOffset_mono (show l + 1 ≤ K from hl)
  rw [wigOffset_succ] at h1
  have := h.2
  omega

theorem inRows_unique {a b i : Nat} (ha : InRows a i) (hb : InRows b i) : a = b := by
  rcases Nat.lt_trichotomy a b with h | h | h
  · have := inRows_lt ha h; have := hb.1; omega
  · exact h
  · have := inRows_lt hb h; have := ha.1; omega

theorem inCols_unique {a b w : Nat} (ha : InCols a w) (hb : InCols b w) : a = b := by
  rcases Nat.lt_trichotomy a b with h | h | h
  · have := inCols_lt ha h; have := hb.1; omega
  · exact h
  · have := inCols_lt hb h; have := ha.1; omega

theorem rotOffset_total (n : Nat) : rotOffset (n + 1) = totalRotMonomials n := by
  rw [(C21_totals n).2.2.1]
  unfold rotOffset
  rw [List.map_congr_left (fun d _ => ((C21_rotation_powers d).2.2).symm)]

theorem wigOffset_total (n : Nat) : wigOffset (n + 1) = totalWignerD n := (C21_totals n).2.2.2.1.symm

theorem inRows_exists {n i : Nat} (h : i < totalRotMonomials n) : ∃ l ≤ n, InRows l i := by
  induction n with
  | zero =>
    rw [← rotOffset_total, rotOffset_succ] at h
    exact ⟨0, le_refl _, by unfold rotOffset; simp, h⟩
  | succ n ih =>
    rcases Nat.lt_or_ge i (totalRotMonomials n) with h' | h'
    · obtain ⟨l, hl, hi⟩ := ih h'
      exact ⟨l, by omega, hi⟩
    · rw [← rotOffset_total] at h h'
      rw [rotOffset_succ] at h
      exact ⟨n + 1, le_refl _, h', h⟩

theorem inCols_exists {n w : Nat} (h : w < totalWignerD n) : ∃ l ≤ n, InCols l w := by
  induction n with
  | zero =>
    rw [← wigOffset_total, wigOffset_succ] at h
    exact ⟨0, le_refl _, by unfold wigOffset; simp, h⟩
  | succ n ih =>
    rcases Nat.lt_or_ge w (totalWignerD n) with h' | h'
    · obtain ⟨l, hl, hi⟩ := ih h'
      exact ⟨l, by omega, hi⟩
    · rw [← wigOffset_total] at h h'
      rw [wigOffset_succ] at h
      exact ⟨n + 1, le_refl _, h', h⟩

/-! ## The loop that reads the blocks -/

theorem setBlock_in (t b : Nat × Nat → ℝ) {l i w : Nat} (h : InRows l i ∧ InCols l w) :
    setBlock t (rotOffset l) (numRotMonomials l) (wigOffset l) (numWignerD l) b (i, w) =
      b (i - rotOffset l, w - wigOffset l) := if_pos h

theorem setBlock_out (t b : Nat × Nat → ℝ) {l i w : Nat} (h : ¬ (InRows l i ∧ InCols l w)) :
    setBlock t (rotOffset l) (numRotMonomials l) (wigOffset l) (numWignerD l) b (i, w) = t (i, w) := if_neg h

theorem setRows_in (t : Nat → List Nat) (rows : List (List Nat)) {l i : Nat} (h : InRows l i) :
    setRows t (rotOffset l) (numRotMonomials l) rows i = rows.getD (i - rotOffset l) [] := if_pos h

theorem setRows_out (t : Nat → List Nat) (rows : List (List Nat)) {l i : Nat} (h : ¬ InRows l i) :
    setRows t (rotOffset l) (numRotMonomials l) rows i = t i := if_neg h

theorem wdLoad_fold (blocks : List WDBlock) (bl : Nat → WDBlock) (K : Nat) (t : WDTable)
    (h : ∀ l, l < K → blocks[l]? = some (bl l) ∧ wdBlockCheck l (bl l) = none) :
    ∃ r, (List.range K).foldlM (wdLoadStep blocks) t = .ok r ∧ r.maxDegree = t.maxDegree ∧
      (∀ l, l < K → ∀ i w, InRows l i → InCols l w →
        r.cm (i, w) = assign (fun _ => 0) (bl l).entries (i - rotOffset l, w - wigOffset l)) ∧
      (∀ i w, (∀ l, l < K → ¬ (InRows l i ∧ InCols l w)) → r.cm (i, w) = t.cm (i, w)) ∧
      (∀ l, l < K → ∀ i, InRows l i → r.ls i = (bl l).ls.getD (i - rotOffset l) []) ∧
      (∀ i, (∀ l, l < K → ¬ InRows l i) → r.ls i = t.ls i) := by
  induction K with
  | zero => exact ⟨t, rfl, rfl, by omega, fun _ _ _ => rfl, by omega, fun _ _ => rfl⟩
  | succ K ih =>
    obtain ⟨r, hr, h1, h2, h3, h4, h5⟩ := ih (fun l hl => h l (by omega))
    have hK := h K (by omega)
    refine ⟨⟨r.maxDegree,
        setBlock r.cm (rotOffset K) (numRotMonomials K) (wigOffset K) (numWignerD K)
          (assign (fun _ => 0) (bl K).entries),
        setRows r.ls (rotOffset K) (numRotMonomials K) (bl K).ls⟩, ?_, h1, ?_, ?_, ?_, ?_⟩
    · rw [List.range_succ, List.foldlM_append, hr]
      simp only [List.foldlM_cons, List.foldlM_nil, bind, Except.bind, pure, Except.pure]
      unfold wdLoadStep
      rw [hK.1]
      dsimp only
      rw [hK.2]
    · intro l hl i w hi hw
      dsimp only
      by_cases hlK : l = K
      · subst hlK
        rw [setBlock_in _ _ ⟨hi, hw⟩]
      · rw [setBlock_out _ _ (fun hc => hlK (inRows_unique hi hc.1))]
        exact h2 l (by omega) i w hi hw
    · intro i w hno
      dsimp only
      rw [setBlock_out _ _ (hno K (by omega))]
      exact h3 i w (fun l hl => hno l (by omega))
    · intro l hl i hi
      dsimp only
      by_cases hlK : l = K
      · subst hlK
        rw [setRows_in _ _ hi]
      · rw [setRows_out _ _ (fun hc => hlK (inRows_unique hi hc))]
        exact h4 l (by omega) i hi
    · intro i hno
      dsimp only
      rw [setRows_out _ _ (hno K (by omega))]
      exact h5 i (fun l hl => hno l (by omega))

theorem wdLoad_fold_ok (blocks : List WDBlock) (K : Nat) (t r : WDTable)
    (h : (List.range K).foldlM (wdLoadStep blocks) t = .ok r) :
    ∃ bl : Nat → WDBlock, ∀ l, l < K → blocks[l]? = some (bl l) ∧ wdBlockCheck l (bl l) = none := by
  have key : ∀ l, l < K → ∃ b, blocks[l]? = some b ∧ wdBlockCheck l b = none := by
    induction K generalizing r with
    | zero => omega
    | succ K ih =>
      rw [List.range_succ, List.foldlM_append] at h
      cases hK : (List.range K).foldlM (wdLoadStep blocks) t with
      | error e => rw [hK] at h; simp [bind, Except.bind] at h
      | ok u =>
        rw [hK] at h
        simp only [List.foldlM_cons, List.foldlM_nil, bind, Except.bind, pure, Except.pure] at h
        intro l hl
        by_cases hlK : l = K
        · subst hlK
          unfold wdLoadStep at h
          cases hb : blocks[l]? with
          | none => rw [hb] at h; simp at h
          | some b =>
            rw [hb] at h
            dsimp only at h
            cases hc : wdBlockCheck l b with
            | some e => rw [hc] at h; simp at h
            | none => exact ⟨b, rfl, hc⟩
        · exact ih u hK l (by omega)
  refine ⟨fun l => (blocks[l]?).getD ⟨[], []⟩, fun l hl => ?_⟩
  obtain ⟨b, hb, hc⟩ := key l hl
  dsimp only
  rw [hb]
  exact ⟨rfl, hc⟩

/-! ## Tables -/

theorem wdRestrict_apply {n : Nat} {t : WDTable} (ht : BlockDiagonal n t) (L i w : Nat) :
    (∀ l, l ≤ L → InRows l i → InCols l w → (wdRestrict L t).cm (i, w) = t.cm (i, w)) ∧
      ((∀ l, l ≤ L → ¬ (InRows l i ∧ InCols l w)) → (wdRestrict L t).cm (i, w) = 0) := by
  constructor
  · intro l hl hi hw
    show slice2 _ _ _ _ = _
    unfold slice2
    have h1 := inRows_lt hi (show l < L + 1 by omega)
    have h2 := inCols_lt hw (show l < L + 1 by omega)
    rw [rotOffset_total] at h1
    rw [wigOffset_total] at h2
    rw [if_pos ⟨h1, h2⟩]
  · intro hno
    show slice2 _ _ _ _ = _
    unfold slice2
    split
    · rename_i h
      apply ht.1
      intro l hl hc
      obtain ⟨l', hl', hi'⟩ := inRows_exists h.1
      have := inRows_unique hc.1 hi'
      subst this
      exact hno l hl' hc
    · rfl

/-- Loading blocks that agree with a block-diagonal table gives the part of degree at most `L`. -/
theorem wdLoad_eq (c : WDCompressed) (n L : Nat) (hc : c.maxDegree = n) (bl : Nat → WDBlock) (t : WDTable)
    (ht : BlockDiagonal n t) (hL : L ≤ n)
    (h : ∀ l, l < n + 1 → c.blocks[l]? = some (bl l) ∧ wdBlockCheck l (bl l) = none)
    (hcm : ∀ l, l < n + 1 → ∀ i w, InRows l i → InCols l w →
      assign (fun _ => 0) (bl l).entries (i - rotOffset l, w - wigOffset l) = t.cm (i, w))
    (hls : ∀ l, l < n + 1 → ∀ i, InRows l i → (bl l).ls.getD (i - rotOffset l) [] = t.ls i) :
    wdLoad L c = .ok ((n : ℤ), wdRestrict L t) := by
  obtain ⟨r, hr, h1, h2, h3, h4, h5⟩ := wdLoad_fold c.blocks bl (L + 1) (wdEmpty L) (fun l hl => h l (by omega))
  unfold wdLoad
  rw [if_neg (by omega), hc]
  simp only [Int.toNat_natCast]
  rw [Nat.min_eq_right hL, hr]
  dsimp only
  congr 2
  obtain ⟨d, cm, ls⟩ := r
  unfold wdRestrict
  congr 1
  · funext ⟨i, w⟩
    show cm (i, w) = (wdRestrict L t).cm (i, w)
    have hap := wdRestrict_apply ht L i w
    by_cases hex : ∃ l ≤ L, InRows l i ∧ InCols l w
    · obtain ⟨l, hl, hi, hw⟩ := hex
      rw [hap.1 l hl hi hw, ← hcm l (by omega) i w hi hw]
      exact h2 l (by omega) i w hi hw
    · rw [hap.2 (fun l hl hc => hex ⟨l, hl, hc⟩)]
      exact h3 i w (fun l hl hc => hex ⟨l, by omega, hc⟩)
  · funext i
    by_cases hi : i < totalRotMonomials L
    · rw [if_pos hi]
      obtain ⟨l, hl, hin⟩ := inRows_exists hi
      rw [← hls l (by omega) i hin]
      exact h4 l (by omega) i hin
    · rw [if_neg hi]
      have h6 := h5 i (fun l hl hin => hi (by
        have := inRows_lt hin (show l < L + 1 by omega)
        rwa [rotOffset_total] at this))
      refine h6.trans ?_
      show (if _ then _ else _) = _
      rw [if_neg hi]

theorem wdCompress_block (t : WDTable) (n l : Nat) (hn : t.maxDegree = n) (hl : l < n + 1) :
    ∃ b, (wdCompress t).blocks[l]? = some b ∧ wdBlockCheck l b = none ∧
      (∀ i w, InRows l i → InCols l w →
        assign (fun _ => 0) b.entries (i - rotOffset l, w - wigOffset l) = t.cm (i, w)) ∧
      (∀ i, InRows l i → b.ls.getD (i - rotOffset l) [] = t.ls i) := by
  refine ⟨_, by
    show ((List.range (t.maxDegree + 1).toNat).map _)[l]? = _
    rw [List.getElem?_map, List.getElem?_range (by rw [hn]; omega)]
    rfl, ?_, ?_, ?_⟩
  · unfold wdBlockCheck
    rw [if_neg, if_neg]
    · simp
    · rw [not_not, List.all_eq_true]
      intro e he
      obtain ⟨p, hp, rfl⟩ := List.mem_map.1 he
      have := (List.mem_filter.1 hp).1
      obtain ⟨i, j⟩ := p
      simp only [List.mem_product, List.mem_range] at this
      simp only [Bool.and_eq_true, decide_eq_true_eq]
      exact this
  · intro i w hi hw
    dsimp only
    have := assign_entries (fun p : Nat × Nat => t.cm (rotOffset l + p.1, wigOffset l + p.2))
      ((List.range (numRotMonomials l) ×ˢ List.range (numWignerD l)).filter
        (fun p => t.cm (rotOffset l + p.1, wigOffset l + p.2) ≠ 0)) (i - rotOffset l, w - wigOffset l) ?_
    · rw [this]
      dsimp only
      rw [Nat.add_sub_cancel' hi.1, Nat.add_sub_cancel' hw.1]
    · intro hno
      by_contra hne
      apply hno
      rw [List.mem_filter]
      refine ⟨List.mem_product.2 ⟨List.mem_range.2 ?_, List.mem_range.2 ?_⟩, by simpa using hne⟩
      · have := hi.2; have := hi.1; omega
      · have := hw.2; have := hw.1; omega
  · intro i hi
    have hlt : i - rotOffset l < numRotMonomials l := by have := hi.2; have := hi.1; omega
    dsimp only
    rw [List.getD, List.getElem?_map, List.getElem?_range hlt]
    simp [Nat.add_sub_cancel' hi.1]

/-- `_compress` followed by `_load_from_cache`, at any degree not above the stored one. -/
theorem wd_roundtrip (t : WDTable) (n L : Nat) (hn : t.maxDegree = n) (ht : BlockDiagonal n t) (hL : L ≤ n) :
    wdLoad L (wdCompress t) = .ok ((n : ℤ), wdRestrict L t) := by
  have hb := fun l hl => wdCompress_block t n l hn hl
  refine wdLoad_eq _ n L hn (fun l => if h : l < n + 1 then (hb l h).choose else ⟨[], []⟩) t ht hL ?_ ?_ ?_
  · intro l hl
    rw [dif_pos hl]
    exact ⟨(hb l hl).choose_spec.1, (hb l hl).choose_spec.2.1⟩
  · intro l hl
    rw [dif_pos hl]
    exact (hb l hl).choose_spec.2.2.1
  · intro l hl
    rw [dif_pos hl]
    exact (hb l hl).choose_spec.2.2.2

/-! ## The specified table -/

/-- the entries of the matrix of degree `l` -/
def wignerDegree (l : Nat) : List (Nat × ℤ × ℤ) := (orders l).flatMap fun a => (orders l).map fun b => (l, a, b)

theorem orders_length (l : Nat) : (orders l).length = 2 * l + 1 := by simp [orders]

theorem wignerDegree_length (l : Nat) : (wignerDegree l).length = numWignerD l := by
  unfold wignerDegree numWignerD
  rw [List.length_flatMap]
  simp [orders_length]

theorem mem_wignerDegree {l : Nat} {e : Nat × ℤ × ℤ} (h : e ∈ wignerDegree l) :
    e.1 = l ∧ |e.2.1| ≤ (l : ℤ) ∧ |e.2.2| ≤ (l : ℤ) := by
  unfold wignerDegree at h
  obtain ⟨a, ha, h⟩ := List.mem_flatMap.1 h
  obtain ⟨b, hb, rfl⟩ := List.mem_map.1 h
  exact ⟨rfl, (mem_orders _ _).1 ha, (mem_orders _ _).1 hb⟩

theorem wignerEntries_eq (L : Nat) : wignerEntries L = (List.range (L + 1)).flatMap wignerDegree := rfl

theorem wignerEntries_length (L : Nat) : (wignerEntries L).length = totalWignerD L := by
  rw [wignerEntries_eq, List.length_flatMap, ← wigOffset_total]
  unfold wigOffset
  rw [List.map_congr_left (fun d _ => wignerDegree_length d)]

theorem wignerEntries_split (n L : Nat) (h : n ≤ L) :
    wignerEntries L = wignerEntries n ++ (List.range' (n + 1) (L + 1 - (n + 1))).flatMap wignerDegree :=
  flatMap_range_split wignerDegree n L h

theorem wignerEntries_get {L l w : Nat} (hl : l ≤ L) (hw : InCols l w) :
    ∃ e, (wignerEntries L)[w]? = some e ∧ e ∈ wignerDegree l := by
  have hk : w - wigOffset l < (wignerDegree l).length := by
    rw [wignerDegree_length]
    have := hw.1; have := hw.2; omega
  have := flatMap_range_get wignerDegree (L + 1) l (w - wigOffset l) (by omega) hk
  rw [show ((List.range l).map fun d => (wignerDegree d).length).sum = wigOffset l from by
    unfold wigOffset; rw [List.map_congr_left (fun d _ => wignerDegree_length d)], Nat.add_sub_cancel' hw.1] at this
  rw [wignerEntries_eq, this, List.getElem?_eq_getElem hk]
  exact ⟨_, rfl, List.getElem_mem hk⟩

theorem rotMonomials_get {L l i : Nat} (hl : l ≤ L) (hi : InRows l i) :
    ∃ m, (monomials rotationPowers L)[i]? = some m ∧ m ∈ rotationPowers l := by
  have hk : i - rotOffset l < (rotationPowers l).length := by
    rw [(C21_rotation_powers l).2.2]
    have := hi.1; have := hi.2; omega
  have := flatMap_range_get rotationPowers (L + 1) l (i - rotOffset l) (by omega) hk
  rw [show ((List.range l).map fun d => (rotationPowers d).length).sum = rotOffset l from by
    unfold rotOffset; rw [List.map_congr_left (fun d _ => (C21_rotation_powers d).2.2)], Nat.add_sub_cancel' hi.1] at this
  unfold monomials
  rw [this, List.getElem?_eq_getElem hk]
  exact ⟨_, rfl, List.getElem_mem hk⟩

/-- an entry of the specified table, by rows and columns -/
theorem wdTable_cm (wig : Nat → ℤ → ℤ → Terms) (L i w : Nat) :
    (wdTable wig L).cm (i, w) = match (wignerEntries L)[w]? with
      | some e => rowCoefficient (monomials rotationPowers L) (wig e.1 e.2.1 e.2.2) i
      | none => 0 := by
  unfold wdTable rowCoefficient
  dsimp only
  by_cases hw : w < (wignerEntries L).length
  · rw [List.getElem?_eq_getElem hw]
    by_cases hi : i < (monomials rotationPowers L).length
    · rw [dif_pos ⟨hi, hw⟩, List.getElem?_eq_getElem hi]
    · rw [dif_neg (fun h => hi h.1), List.getElem?_eq_none (l := monomials rotationPowers L) (by omega)]
  · rw [dif_neg (fun h => hw h.2), List.getElem?_eq_none (l := wignerEntries L) (by omega)]

theorem wdTable_blockDiagonal (wig : Nat → ℤ → ℤ → Terms) (hwf : WdWellFormed wig) (n : Nat) :
    BlockDiagonal n (wdTable wig n) := by
  constructor
  · intro i w hno
    rw [wdTable_cm]
    by_cases hw : w < totalWignerD n
    · obtain ⟨l, hl, hin⟩ := inCols_exists hw
      obtain ⟨e, he, hed⟩ := wignerEntries_get hl hin
      obtain ⟨h1, h2, h3⟩ := mem_wignerDegree hed
      rw [he]
      dsimp only
      unfold rowCoefficient
      by_cases hi : i < totalRotMonomials n
      · obtain ⟨l', hl', hin'⟩ := inRows_exists hi
        obtain ⟨m, hm, hmd⟩ := rotMonomials_get hl' hin'
        rw [hm]
        refine coefficient_of_notMem fun t ht htm => ?_
        subst htm
        rw [h1] at ht
        have g1 := rotationPowers_sum _ _ ((hwf l _ _ h2 h3).2 t ht)
        have g2 := rotationPowers_sum _ _ hmd
        have : l' = l := by omega
        subst this
        exact hno l' hl ⟨hin', hin⟩
      · rw [List.getElem?_eq_none (l := monomials rotationPowers n) (by rw [monomials_length_rot]; omega)]
    · rw [List.getElem?_eq_none (l := wignerEntries n) (by rw [wignerEntries_length]; omega)]
  · intro i hi
    show (monomials rotationPowers n).getD i [] = []
    rw [List.getD_eq_default _ _ (by rw [monomials_length_rot]; exact hi)]

theorem rotMonomials_mono {a b : Nat} (h : a ≤ b) : totalRotMonomials a ≤ totalRotMonomials b := by
  rw [← rotOffset_total, ← rotOffset_total]
  exact rotOffset_mono (by omega)

theorem wignerD_mono {a b : Nat} (h : a ≤ b) : totalWignerD a ≤ totalWignerD b := by
  rw [← wigOffset_total, ← wigOffset_total]
  exact wigOffset_mono (by omega)

theorem wignerEntries_get_mono {n L w : Nat} (h : n ≤ L) (hw : w < totalWignerD n) :
    (wignerEntries L)[w]? = (wignerEntries n)[w]? := by
  rw [wignerEntries_split n L h, List.getElem?_append_left (by rw [wignerEntries_length]; exact hw)]

theorem wdTable_restrict (wig : Nat → ℤ → ℤ → Terms) (hwf : WdWellFormed wig) (n L : Nat) (h : L ≤ n) :
    wdRestrict L (wdTable wig n) = wdTable wig L := by
  show WDTable.mk _ _ _ = WDTable.mk _ (wdTable wig L).cm (wdTable wig L).ls
  congr 1
  · funext ⟨i, w⟩
    unfold slice2
    split
    · rename_i hin
      rw [wdTable_cm, wdTable_cm, wignerEntries_get_mono h hin.2]
      unfold rowCoefficient
      rw [monomials_get rotationPowers L n i h (by rw [monomials_length_rot]; exact hin.1)]
    · rename_i hin
      symm
      apply (wdTable_blockDiagonal wig hwf L).1
      intro l hl hc
      apply hin
      have h1 := inRows_lt hc.1 (show l < L + 1 by omega)
      have h2 := inCols_lt hc.2 (show l < L + 1 by omega)
      rw [rotOffset_total] at h1
      rw [wigOffset_total] at h2
      exact ⟨h1, h2⟩
  · funext i
    show _ = (monomials rotationPowers L).getD i []
    split
    · rename_i hi
      show (monomials rotationPowers n).getD i [] = _
      rw [List.getD, List.getD, monomials_get rotationPowers L n i h (by rw [monomials_length_rot]; exact hi)]
    · rename_i hi
      rw [List.getD_eq_default _ _ (by rw [monomials_length_rot]; omega)]

theorem wd_columns (wig : Nat → ℤ → ℤ → Terms) (lstart L offset w : Nat) (p : Terms) :
    (w, p) ∈ ((wdEntries wig lstart L).zipIdx.map fun q => (q.2 + offset, q.1)) ↔
      offset ≤ w ∧ ∃ e, ((List.range' lstart (L + 1 - lstart)).flatMap wignerDegree)[w - offset]? = some e ∧
        p = wig e.1 e.2.1 e.2.2 := by
  have hE : wdEntries wig lstart L = ((List.range' lstart (L + 1 - lstart)).flatMap wignerDegree).map
      (fun e => wig e.1 e.2.1 e.2.2) := by
    unfold wdEntries wignerDegree
    simp only [List.map_flatMap, List.map_map]
    rfl
  rw [hE]
  simp only [List.mem_map, Prod.mk.injEq]
  constructor
  · rintro ⟨⟨q, k⟩, hq, rfl, rfl⟩
    have := ((mem_zipIdx_iff _ _ _ _).1 hq).2
    simp only [Nat.sub_zero, List.getElem?_map, Option.map_eq_some_iff] at this
    obtain ⟨e, he, hp⟩ := this
    exact ⟨by omega, e, by simpa using he, hp.symm⟩
  · rintro ⟨h1, e, he, rfl⟩
    refine ⟨(wig e.1 e.2.1 e.2.2, w - offset), (mem_zipIdx_iff _ _ _ _).2 ⟨by omega, ?_⟩, by dsimp only; omega, rfl⟩
    rw [Nat.sub_zero, List.getElem?_map, he]
    rfl

/-- the new rows and columns -/
theorem wd_extend (wig : Nat → ℤ → ℤ → Terms) (hwf : WdWellFormed wig) (lstart L : Nat) (P : List (List Nat))
    (W : List (Nat × ℤ × ℤ)) (t : WDTable)
    (hidx : (if 0 < lstart then totalRotMonomials (lstart - 1) else 0) = P.length)
    (hoff : (if 0 < lstart then totalWignerD (lstart - 1) else 0) = W.length)
    (hsplit : monomials rotationPowers L = P ++ (List.range' lstart (L + 1 - lstart)).flatMap rotationPowers)
    (hwsplit : wignerEntries L = W ++ (List.range' lstart (L + 1 - lstart)).flatMap wignerDegree)
    (hdeg : t.maxDegree = L)
    (hnew : ∀ i w, W.length ≤ w → t.cm (i, w) = 0)
    (hold : ∀ i w, w < W.length → t.cm (i, w) = (wdTable wig L).cm (i, w))
    (hls : ∀ i, i < P.length → t.ls i = P.getD i []) (hls' : ∀ i, totalRotMonomials L ≤ i → t.ls i = []) :
    wdExtend wig lstart L t = .ok (wdTable wig L) := by
  have hmono := monomials_rot_nodup L
  rw [hsplit] at hmono
  have hwell : ∀ (k : Nat) (e : Nat × ℤ × ℤ), ((List.range' lstart (L + 1 - lstart)).flatMap wignerDegree)[k]? = some e →
      ((wig e.1 e.2.1 e.2.2).map (·.1)).Nodup ∧ ∀ x ∈ wig e.1 e.2.1 e.2.2,
        x.1 ∈ (List.range' lstart (L + 1 - lstart)).flatMap rotationPowers := by
    intro k e he
    obtain ⟨l, hl, hel⟩ := List.mem_flatMap.1 (List.mem_of_getElem? he)
    obtain ⟨h1, h2, h3⟩ := mem_wignerDegree hel
    have := hwf l _ _ h2 h3
    rw [h1]
    exact ⟨this.1, fun x hx => List.mem_flatMap.2 ⟨l, hl, this.2 x hx⟩⟩
  obtain ⟨cm', h1, h2, h3⟩ := storeTerms_spec P _ hmono
    ((wdEntries wig lstart L).zipIdx.map fun q => (q.2 + W.length, q.1)) t.cm
    (by
      rintro ⟨a, pa⟩ ha ⟨b, pb⟩ hb hab
      obtain ⟨_, e, he, rfl⟩ := (wd_columns _ _ _ _ _ _).1 ha
      obtain ⟨_, e', he', rfl⟩ := (wd_columns _ _ _ _ _ _).1 hb
      dsimp only at hab ⊢
      subst hab
      rw [he] at he'
      cases he'
      rfl)
    (by
      rintro ⟨a, pa⟩ ha x hx
      obtain ⟨_, e, he, rfl⟩ := (wd_columns _ _ _ _ _ _).1 ha
      exact (hwell _ e he).2 x hx)
    (by
      rintro ⟨a, pa⟩ ha
      obtain ⟨_, e, he, rfl⟩ := (wd_columns _ _ _ _ _ _).1 ha
      exact (hwell _ e he).1)
    (by
      rintro ⟨a, pa⟩ ha i
      exact hnew i a ((wd_columns _ _ _ _ _ _).1 ha).1)
  unfold wdExtend monomialRows
  dsimp only
  rw [hidx, hoff, h1]
  dsimp only
  congr 1
  show WDTable.mk _ _ _ = WDTable.mk _ (wdTable wig L).cm (wdTable wig L).ls
  congr 1
  · funext ⟨i, w⟩
    by_cases hw : ∃ e, W.length ≤ w ∧
        ((List.range' lstart (L + 1 - lstart)).flatMap wignerDegree)[w - W.length]? = some e
    · obtain ⟨e, hw1, he⟩ := hw
      rw [h3 (w, wig e.1 e.2.1 e.2.2) ((wd_columns _ _ _ _ _ _).2 ⟨hw1, e, he, rfl⟩) i, wdTable_cm, hwsplit,
        List.getElem?_append_right hw1, he, hsplit]
    · rw [h2 i w]
      · rcases Nat.lt_or_ge w W.length with h | h
        · exact hold i w h
        · rw [hnew i w h, wdTable_cm, hwsplit, List.getElem?_append_right h]
          cases he : ((List.range' lstart (L + 1 - lstart)).flatMap wignerDegree)[w - W.length]? with
          | none => rfl
          | some e => exact absurd ⟨e, h, he⟩ hw
      · rintro ⟨a, pa⟩ ha rfl
        obtain ⟨h1, e, he, _⟩ := (wd_columns _ _ _ _ _ _).1 ha
        exact hw ⟨e, h1, he⟩
  · funext i
    rw [assign_rows]
    show _ = (monomials rotationPowers L).getD i []
    have hlen : (monomials rotationPowers L).length = P.length + ((List.range' lstart (L + 1 - lstart)).flatMap
      rotationPowers).length := by rw [hsplit, List.length_append]
    split
    · rename_i hi
      rw [hsplit, List.getD, List.getD, List.getElem?_append_right hi.1]
    · rename_i hi
      by_cases hi' : i < P.length
      · rw [hls i hi', hsplit, List.getD, List.getD, List.getElem?_append_left hi']
      · rw [hls' i (by rw [← monomials_length_rot]; omega), List.getD_eq_default _ _ (by omega)]

/-- what a successful load at the stored degree says about the blocks -/
theorem wdLoad_self {c : WDCompressed} {n : Nat} {t : WDTable} (hc : c.maxDegree = n)
    (h : wdLoad n c = .ok ((n : ℤ), t)) :
    ∃ bl : Nat → WDBlock, (∀ l, l < n + 1 → c.blocks[l]? = some (bl l) ∧ wdBlockCheck l (bl l) = none) ∧
      (∀ l, l < n + 1 → ∀ i w, InRows l i → InCols l w →
        assign (fun _ => 0) (bl l).entries (i - rotOffset l, w - wigOffset l) = t.cm (i, w)) ∧
      (∀ l, l < n + 1 → ∀ i, InRows l i → (bl l).ls.getD (i - rotOffset l) [] = t.ls i) := by
  unfold wdLoad at h
  rw [if_neg (by omega), hc] at h
  simp only [Int.toNat_natCast, Nat.min_self] at h
  cases hf : (List.range (n + 1)).foldlM (wdLoadStep c.blocks) (wdEmpty n) with
  | error e => rw [hf] at h; simp at h
  | ok r =>
    rw [hf] at h
    simp only [Except.ok.injEq, Prod.mk.injEq, true_and] at h
    subst h
    obtain ⟨bl, hbl⟩ := wdLoad_fold_ok _ _ _ _ hf
    obtain ⟨r', hr', _, h2, _, h4, _⟩ := wdLoad_fold c.blocks bl (n + 1) (wdEmpty n) hbl
    rw [hf] at hr'
    cases hr'
    exact ⟨bl, hbl, fun l hl i w hi hw => (h2 l hl i w hi hw).symm, fun l hl i hi => (h4 l hl i hi).symm⟩

theorem wd_correct (wig : Nat → ℤ → ℤ → Terms) (hwf : WdWellFormed wig) : LutCorrect (wdKind wig) (wdTable wig) where
  scratch L := by
    show wdExtend wig 0 L (wdEmpty L) = _
    apply wd_extend wig hwf 0 L [] []
    · rfl
    · rfl
    · show monomials rotationPowers L = _
      unfold monomials
      rw [List.range_eq_range']
      rfl
    · rw [wignerEntries_eq, List.range_eq_range']
      rfl
    · rfl
    · intro i j _; rfl
    · intro i j h; simp at h
    · intro i hi; simp at hi
    · intro i hi
      show (if _ then _ else _) = _
      rw [if_neg (by omega)]
  negative c L h := by
    show wdLoad L c = _
    have h' : c.maxDegree < 0 := h
    unfold wdLoad
    rw [if_pos h']
    rfl
  degree_compress n := rfl
  roundtrip n := by
    have := wd_roundtrip (wdTable wig n) n n rfl (wdTable_blockDiagonal wig hwf n) (le_refl n)
    rw [wdTable_restrict wig hwf n n (le_refl n)] at this
    exact this
  smaller c n L hc h hL := by
    obtain ⟨bl, h1, h2, h3⟩ := wdLoad_self hc h
    rw [← wdTable_restrict wig hwf n L hL]
    exact wdLoad_eq c n L hc bl _ (wdTable_blockDiagonal wig hwf n) hL h1 h2 h3
  larger c n L hc h hL := by
    obtain ⟨bl, h1, h2, h3⟩ := wdLoad_self hc h
    have hc' : c.maxDegree = (n : ℤ) := hc
    obtain ⟨r, hr, g1, g2, g3, g4, g5⟩ := wdLoad_fold c.blocks bl (n + 1) (wdEmpty L) h1
    refine ⟨r, ?_, ?_⟩
    · show wdLoad L c = _
      unfold wdLoad
      rw [if_neg (by omega), hc']
      simp only [Int.toNat_natCast]
      rw [Nat.min_eq_left (le_of_lt hL), hr]
    · have hcm : ∀ i w, r.cm (i, w) = (wdTable wig n).cm (i, w) := by
        intro i w
        by_cases hex : ∃ l ≤ n, InRows l i ∧ InCols l w
        · obtain ⟨l, hl, hi, hw⟩ := hex
          rw [g2 l (by omega) i w hi hw, h2 l (by omega) i w hi hw]
        · rw [g3 i w (fun l hl hcc => hex ⟨l, by omega, hcc⟩),
            (wdTable_blockDiagonal wig hwf n).1 i w (fun l hl hcc => hex ⟨l, hl, hcc⟩)]
          rfl
      have hln := le_of_lt hL
      apply wd_extend wig hwf (n + 1) L (monomials rotationPowers n) (wignerEntries n)
      · rw [if_pos (by omega), monomials_length_rot]
        rfl
      · rw [if_pos (by omega), wignerEntries_length]
        rfl
      · exact monomials_split rotationPowers n L hln
      · exact wignerEntries_split n L hln
      · exact g1
      · intro i w hw
        rw [hcm, wdTable_cm, List.getElem?_eq_none (by omega)]
      · intro i w hw
        rw [wignerEntries_length] at hw
        rw [hcm, wdTable_cm, wdTable_cm, wignerEntries_get_mono hln hw]
        obtain ⟨l, hl, hin⟩ := inCols_exists hw
        obtain ⟨e, he, hed⟩ := wignerEntries_get hl hin
        obtain ⟨k1, k2, k3⟩ := mem_wignerDegree hed
        rw [he]
        dsimp only
        refine (rowCoefficient_stable rotationPowers rotationPowers_sum (fun d => (C21_rotation_powers d).2.1)
          _ l n L i ?_ hl hln).symm
        rw [k1]
        exact (hwf l _ _ k2 k3).2
      · intro i hi
        rw [monomials_length_rot] at hi
        obtain ⟨l, hl, hin⟩ := inRows_exists hi
        rw [g4 l (by omega) i hin, h3 l (by omega) i hin]
        rfl
      · intro i hi
        rw [g5 i]
        · show (if _ then _ else _) = _
          rw [if_neg (by omega)]
        · intro l hl hin
          have := inRows_lt hin (show l < L + 1 by omega)
          rw [rotOffset_total] at this
          omega

end E3x
