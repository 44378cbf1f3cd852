import Verif.Lemmas.MatMatRotation

/-!
# C38 and C39: matrices assembled from irreps

The functions are those of Verif/Model/MatMat.lean. Verif/Spec/MatMat.lean explains how rows are addressed. `K` is the
largest degree of the given irreps.
-/

namespace E3x

open Finset Spec

/-! ## C38 -/

/-- **C38 (multiplicities).** `make_dict_irreps_mult` counts, for each degree, the pairs of positions for which it is
admitted by the triangle rule. -/
theorem C38_multiplicities (degrees : List ℕ) (dmax : Option ℕ) (l : ℕ) (h : ∀ k ∈ dmax, l ≤ k) :
    dictGet (makeDictIrrepsMult degrees dmax) l =
      #{x ∈ range degrees.length ×ˢ range degrees.length | Triangle (degreeAt degrees x.1) (degreeAt degrees x.2) l} := by
  rw [makeDict_get degrees dmax l h, ← count_all, Nat.count_eq_card_filter_range]
  refine card_bij (fun k _ => (k / degrees.length, k % degrees.length)) ?_ ?_ ?_
  · intro k hk
    rw [mem_filter, mem_range] at hk
    obtain ⟨h1, h2, h3⟩ := div_lt_of_lt_sq hk.1
    rw [mem_filter, mem_product, mem_range, mem_range]
    exact ⟨⟨h1, h2⟩, hk.2⟩
  · intro k _ k' _ e
    rw [Prod.mk.injEq] at e
    have h1 := Nat.div_add_mod' k degrees.length
    rw [e.1, e.2, Nat.div_add_mod' k' degrees.length] at h1
    exact h1.symm
  · rintro ⟨A, B⟩ hx
    rw [mem_filter, mem_product, mem_range, mem_range] at hx
    refine ⟨A * degrees.length + B, ?_, by rw [(div_mod_pair hx.1.2).1, (div_mod_pair hx.1.2).2]⟩
    rw [mem_filter, mem_range]
    refine ⟨?_, ?_⟩
    · calc A * degrees.length + B < A * degrees.length + degrees.length := by have := hx.1.2; omega
        _ = (A + 1) * degrees.length := by ring
        _ ≤ _ := Nat.mul_le_mul_right _ hx.1.1
    · unfold admits
      rw [(div_mod_pair hx.1.2).1, (div_mod_pair hx.1.2).2]
      exact hx.2

/-- **C38 (assembly).** With the multiplicities of `make_dict_irreps_mult` the call succeeds. For each degree `l` the
columns used by the copies `(p, q)` of the rectangles of `(A, B)` run through all columns of `irreps[l]`, each exactly
once, and the entries of the rectangle are the coupled entries of these columns. -/
theorem C38_assembly (disk : Disk CGCompressed) (hd : ValidDisk (cgKind symClebschGordan) (cgTable symClebschGordan) disk)
    (outcome : SaveOutcome) (irreps : List Arr2) (K : ℕ) (hI : IsIrreps irreps K) (degrees : List ℕ) (md : ℕ)
    (hmd : degrees.max? = some md) (mult maxDegree : ℕ) (hmax : md ≤ maxDegree) (hK : K ≤ maxDegree) (shift : Bool)
    (dmax : Option ℕ) (hdmax : ∀ k ∈ dmax, K ≤ k)
    (hc : ∀ l ≤ K, (irrepsAt irreps l).cols = dictGet (makeDictIrrepsMult degrees dmax) l * mult * mult) :
    ∃ M CG, ∃ col : ℕ → ℕ → ℕ → ℕ → ℕ → ℕ,
      makeSquareMatrix disk outcome irreps degrees mult maxDegree shift = .ok M ∧
      clebschGordan disk outcome md md maxDegree true = .ok CG ∧
      M.rows = (degrees.map fun l => 2 * l + 1).sum * mult ∧ M.cols = (degrees.map fun l => 2 * l + 1).sum * mult ∧
      (∀ l ≤ K, Set.BijOn (fun x : ℕ × ℕ × ℕ × ℕ => col l x.1 x.2.1 x.2.2.1 x.2.2.2)
        {x | (x.1 < degrees.length ∧ x.2.1 < degrees.length ∧ Triangle (degreeAt degrees x.1) (degreeAt degrees x.2.1) l) ∧
          x.2.2.1 < mult ∧ x.2.2.2 < mult}
        {c | c < (irrepsAt irreps l).cols}) ∧
      ∀ A < degrees.length, ∀ p < mult, ∀ i < 2 * degreeAt degrees A + 1,
      ∀ B < degrees.length, ∀ q < mult, ∀ j < 2 * degreeAt degrees B + 1,
        M.val (position degrees mult A p i) (position degrees mult B q j) =
          coupledEntry CG irreps K (degreeAt degrees A) (degreeAt degrees B) (fun l => col l A B p q) i j +
            if shift = true ∧ position degrees mult A p i = position degrees mult B q j then 1 else 0 := by
  have hc' : ∀ l ≤ K, (irrepsAt irreps l).cols = pairCount (degrees.product degrees) l * mult * mult := by
    intro l hl
    rw [hc l hl, makeDict_get degrees dmax l (fun k hk => hl.trans (hdmax k hk))]
  obtain ⟨M, h1, h2, h3, h4⟩ := makeSquare_ok disk hd outcome irreps degrees md mult maxDegree shift hmd hmax K hK hI
    (fun l hl => (hc' l hl).ge)
  have hs := side_eq degrees mult
  unfold computeSideLengths at hs
  refine ⟨M, _, fun l A B p q => columnOf degrees mult l A B p q, h1, clebschGordan_eq disk hd outcome md md maxDegree true,
    h2.trans hs.symm, h3.trans hs.symm, fun l hl => ?_, h4⟩
  rw [hc' l hl]
  exact column_bijection degrees mult l

/-- **C38 (coverage).** Each row (and each column) of the matrix has exactly one address: each entry lies in exactly one
rectangle. -/
theorem C38_coverage (degrees : List ℕ) (mult r : ℕ) (hr : r < (degrees.map fun l => 2 * l + 1).sum * mult) :
    ∃! x : ℕ × ℕ × ℕ, (x.1 < degrees.length ∧ x.2.1 < mult ∧ x.2.2 < 2 * degreeAt degrees x.1 + 1) ∧
      position degrees mult x.1 x.2.1 x.2.2 = r := by
  have hs := side_eq degrees mult
  unfold computeSideLengths at hs
  rw [hs] at hr
  obtain ⟨A, hA, p, hp, i, hi, h⟩ := exists_position degrees mult degrees.length r hr
  refine ⟨(A, p, i), ⟨⟨hA, hp, hi⟩, h⟩, ?_⟩
  rintro ⟨A', p', i'⟩ ⟨⟨_, hp', hi'⟩, h'⟩
  obtain ⟨e1, e2, e3⟩ := position_inj degrees mult hp' hi' hp hi (h'.trans h.symm)
  exact Prod.ext e1 (Prod.ext e2 e3)

theorem irrepsAt_get (irreps : List Arr2) (l : ℕ) (h : l < irreps.length) : irrepsAt irreps l = irreps[l] := by
  unfold irrepsAt
  rw [List.getD_eq_getElem?_getD, List.getElem?_eq_getElem h]
  rfl

theorem weights_ok (normal : ℕ → ℕ → ℕ → ℝ) (n : ℕ) (dict : List (ℕ × ℕ)) (mult : ℕ) (stddev : ℝ) (K : ℕ)
    (hK : (dict.map Prod.fst).max? = some K) :
    ∃ weights, initMatrixIrrepsWeights normal n dict mult stddev = .ok weights ∧ weights.length = K + 1 ∧
      (∀ w ∈ weights, w.rows = n) ∧ ∀ l ≤ K, (irrepsAt weights l).cols = dictGet dict l * mult * mult := by
  unfold initMatrixIrrepsWeights
  rw [hK]
  refine ⟨_, rfl, by simp, fun w hw => ?_, fun l hl => ?_⟩
  · rw [List.mem_map] at hw
    obtain ⟨l, _, rfl⟩ := hw
    rfl
  · rw [irrepsAt_get _ _ (by simp; omega), List.getElem_map, List.getElem_range]

theorem combine_ok (inputs : Arr2) (weights : List Arr2) (K : ℕ) (hlen : weights.length = K + 1)
    (hw : ∀ w ∈ weights, w.rows = inputs.cols) (hrows : (K + 1) ^ 2 ≤ inputs.rows) :
    ∃ irreps, combineIrreps inputs weights = .ok irreps ∧ IsIrreps irreps K ∧
      ∀ l ≤ K, (irrepsAt irreps l).cols = (irrepsAt weights l).cols := by
  unfold combineIrreps
  have hsq : ∀ l, l ≤ K → (l + 1) ^ 2 ≤ (K + 1) ^ 2 ∧ (l + 1) ^ 2 = l ^ 2 + 2 * l + 1 :=
    fun l hl => ⟨Nat.pow_le_pow_left (by omega) 2, by ring⟩
  rw [if_neg]
  · refine ⟨_, rfl, ⟨by simp [hlen], fun l hl => ?_⟩, fun l hl => ?_⟩
    · simp only [List.length_mapIdx] at hl
      have := hsq l (by omega)
      rw [List.getElem_mapIdx]
      dsimp only
      omega
    · rw [irrepsAt_get _ _ (by simp; omega), irrepsAt_get _ _ (by omega), List.getElem_mapIdx]
  · rw [List.any_eq_true]
    rintro ⟨w, h1, h2⟩
    simp [hw w h1] at h2

/-- **C38 (pipeline).** `init_matrix_irreps_weights`, `combine_irreps` and `make_square_matrix` fit together: for every
list of degrees, every multiplicity and features of sufficiently large degree all calls succeed. -/
theorem C38_pipeline (disk : Disk CGCompressed) (hd : ValidDisk (cgKind symClebschGordan) (cgTable symClebschGordan) disk)
    (outcome : SaveOutcome) (degrees : List ℕ) (hne : degrees ≠ []) (mult maxDegree : ℕ) (shift : Bool)
    (hmax : ∀ d ∈ degrees, d ≤ maxDegree) (normal : ℕ → ℕ → ℕ → ℝ) (stddev : ℝ) (inputs : Arr2)
    (hin : (maxDegree + 1) ^ 2 ≤ inputs.rows) :
    ∃ weights irreps M,
      initMatrixIrrepsWeights normal inputs.cols (makeDictIrrepsMult degrees (some maxDegree)) mult stddev = .ok weights ∧
      combineIrreps inputs weights = .ok irreps ∧
      makeSquareMatrix disk outcome irreps degrees mult maxDegree shift = .ok M ∧
      M.rows = (degrees.map fun l => 2 * l + 1).sum * mult ∧ M.cols = M.rows := by
  obtain ⟨md, hmd⟩ : ∃ md, degrees.max? = some md := by
    cases h : degrees.max? with
    | none => rw [List.max?_eq_none_iff] at h; exact absurd h hne
    | some md => exact ⟨md, rfl⟩
  have h0 : 0 ∈ (makeDictIrrepsMult degrees (some maxDegree)).map Prod.fst := by
    rw [makeDict_keys]
    exact ⟨md, max?_mem hmd, md, max?_mem hmd, by unfold Triangle; simp, fun k _ => by omega⟩
  obtain ⟨K, hKm⟩ : ∃ K, ((makeDictIrrepsMult degrees (some maxDegree)).map Prod.fst).max? = some K := by
    cases h : ((makeDictIrrepsMult degrees (some maxDegree)).map Prod.fst).max? with
    | none => rw [List.max?_eq_none_iff] at h; rw [h] at h0; simp at h0
    | some K => exact ⟨K, rfl⟩
  have hK : K ≤ maxDegree := by
    have := max?_mem hKm
    rw [makeDict_keys] at this
    obtain ⟨_, _, _, _, _, h⟩ := this
    exact h maxDegree rfl
  obtain ⟨weights, hw1, hw2, hw3, hw4⟩ := weights_ok normal inputs.cols (makeDictIrrepsMult degrees (some maxDegree)) mult
    stddev K hKm
  obtain ⟨irreps, hi1, hi2, hi3⟩ := combine_ok inputs weights K hw2 hw3
    (le_trans (Nat.pow_le_pow_left (by omega) 2) hin)
  obtain ⟨M, h1, h2, h3, h4⟩ := makeSquare_ok disk hd outcome irreps degrees md mult maxDegree shift hmd
    (hmax md (max?_mem hmd)) K hK hi2 (fun l hl => by
      rw [hi3 l hl, hw4 l hl, makeDict_get]
      intro k hk
      obtain rfl : maxDegree = k := by simpa using hk
      omega)
  have hs := side_eq degrees mult
  unfold computeSideLengths at hs
  exact ⟨weights, irreps, M, hw1, hi1, h1, h2.trans hs.symm, h3.trans h2.symm⟩

/-- **C38 (too few irreps).** Inputs with too few irreps of some degree are always rejected, with `ValueError` or
`TypeError` (see `C38_too_few_type_error`). -/
theorem C38_too_few (disk : Disk CGCompressed)
    (hd : ValidDisk (cgKind symClebschGordan) (cgTable symClebschGordan) disk)
    (outcome : SaveOutcome) (irreps : List Arr2) (K : ℕ) (hI : IsIrreps irreps K) (degrees : List ℕ) (md : ℕ)
    (hmd : degrees.max? = some md) (mult maxDegree : ℕ) (hmax : md ≤ maxDegree) (hK : K ≤ maxDegree) (shift : Bool)
    (dmax : Option ℕ) (hdmax : ∀ k ∈ dmax, K ≤ k) (l : ℕ) (hl : l ≤ K)
    (hfew : (irrepsAt irreps l).cols < dictGet (makeDictIrrepsMult degrees dmax) l * mult * mult) :
    makeSquareMatrix disk outcome irreps degrees mult maxDegree shift = .error .valueError ∨
      makeSquareMatrix disk outcome irreps degrees mult maxDegree shift = .error .typeError := by
  rw [makeDict_get degrees dmax l (fun k hk => hl.trans (hdmax k hk)), ← rectCount_all mult] at hfew
  rw [makeSquare_run disk hd outcome irreps degrees md mult maxDegree shift hmd hmax K hI]
  have hpos : 0 < rectCount (allRects mult degrees degrees 0) l := by
    rcases Nat.eq_zero_or_pos (rectCount (allRects mult degrees degrees 0) l) with h | h
    · rw [h] at hfew; simp at hfew
    · exact h
  rcases runRects_error irreps K hI (squareTable md maxDegree) mult shift (allRects mult degrees degrees 0)
    (largeTable_all degrees md mult maxDegree K hmd hK) (fun _ => 0) (fun _ _ => 0) l hl hpos
    (by rw [zero_add]; calc _ < _ := hfew
          _ = _ := by ring) with h | h
  · left; rw [h]
  · right; rw [h]

/-- **C38 (too few irreps), the second exception.** One irrep of degree 0 and no irrep of degree 1 for one 3 × 3 matrix: the
concatenation of arrays of different widths raises `TypeError` before the number of irreps is checked. -/
theorem C38_too_few_type_error (disk : Disk CGCompressed)
    (hd : ValidDisk (cgKind symClebschGordan) (cgTable symClebschGordan) disk) (outcome : SaveOutcome) (shift : Bool) :
    makeSquareMatrix disk outcome [⟨1, 1, fun _ _ => 1⟩, ⟨3, 0, fun _ _ => 1⟩] [1] 1 1 shift = .error .typeError := by
  have hI : IsIrreps [⟨1, 1, fun _ _ => 1⟩, ⟨3, 0, fun _ _ => 1⟩] 1 := by
    refine ⟨rfl, fun l hl => ?_⟩
    match l with
    | 0 => rfl
    | 1 => rfl
  have hrun := makeSquare_run disk hd outcome _ [1] 1 1 1 shift rfl le_rfl 1 hI
  rw [Nat.cast_one] at hrun
  rw [hrun]
  have e : makeRectangularMatrix [⟨1, 1, fun _ _ => 1⟩, ⟨3, 0, fun _ _ => 1⟩] (fun _ => 0) (2 * 1 + 1) (2 * 1 + 1)
      (squareTable 1 1) 1 = .error .typeError := by
    simp [makeRectangularMatrix, absDiff, squareTable, getAll, List.range', concatRows, sliceCols]
  have hr : allRects 1 [1] [1] 0 = [⟨0, 1, 0, 1⟩] := rfl
  rw [hr, runRects_cons]
  dsimp only
  rw [e]

/-- **C38 (validation).** -/
theorem C38_validation (disk : Disk CGCompressed) (outcome : SaveOutcome) (irreps : List Arr2) (degrees : List ℕ)
    (mult : ℕ) (maxDegree : ℤ) (shift : Bool)
    (h : degrees = [] ∨ (∃ d ∈ degrees, maxDegree < d) ∨ ∃ x ∈ irreps, Even x.rows) :
    makeSquareMatrix disk outcome irreps degrees mult maxDegree shift = .error .valueError := by
  unfold makeSquareMatrix
  cases hmd : degrees.max? with
  | none => rfl
  | some md =>
    dsimp only
    rcases h with rfl | ⟨d, hd, h⟩ | ⟨x, hx, h⟩
    · simp at hmd
    · rw [if_pos]
      have := le_of_max? hmd d hd
      omega
    · split_ifs with h1 h2
      · rfl
      · rfl
      · exfalso
        apply h2
        rw [List.any_eq_true]
        exact ⟨x, hx, by simpa using Nat.even_iff.1 h⟩

/-! ## C39 -/

theorem rotated_dMatrix {R : Fin 3 → Fin 3 → ℝ} {maxDegree K : ℕ} (hK : K ≤ maxDegree) {D : ℕ → ℕ → ℝ}
    {irreps irreps' : List Arr2} (hD : D = fun i j => if i < (maxDegree + 1) ^ 2 ∧ j < (maxDegree + 1) ^ 2 then
      dMatrix true R i j else 0) (h : RotatedIrreps D irreps irreps' K) :
    RotatedIrreps (dMatrix true R) irreps irreps' K := by
  intro l hl m hm c hc
  rw [h l hl m hm c hc, hD]
  refine sum_congr rfl fun m' hm' => ?_
  dsimp only
  rw [if_pos ⟨flat_lt (by omega) (mem_range.1 hm'), flat_lt (by omega) hm⟩]

/-- **C39 (equivariance).** Rotating all irreps conjugates the assembled matrix by the block diagonal matrix of the
rotation (and this matrix exists and is orthogonal: `C39_block_rotation`). -/
theorem C39_equivariant (cdisk : Disk CGCompressed)
    (hcd : ValidDisk (cgKind symClebschGordan) (cgTable symClebschGordan) cdisk) (wdisk : Disk WDCompressed)
    (hwd : ValidDisk (wdKind wigTerms) (wdTable wigTerms) wdisk) (outcome : SaveOutcome) (R : Fin 3 → Fin 3 → ℝ)
    (hR : IsOrthogonal R) (hdet : det3x3 R = 1)
    (irreps irreps' : List Arr2) (K : ℕ) (hI : IsIrreps irreps K) (hI' : IsIrreps irreps' K) (degrees : List ℕ) (md : ℕ)
    (hmd : degrees.max? = some md) (mult maxDegree : ℕ) (hmax : md ≤ maxDegree) (hK : K ≤ maxDegree) (shift : Bool)
    (dmax : Option ℕ) (hdmax : ∀ k ∈ dmax, K ≤ k)
    (hc : ∀ l ≤ K, (irrepsAt irreps l).cols = dictGet (makeDictIrrepsMult degrees dmax) l * mult * mult)
    (hc' : ∀ l ≤ K, (irrepsAt irreps' l).cols = (irrepsAt irreps l).cols) (D : ℕ → ℕ → ℝ)
    (hD : wignerD wdisk outcome R maxDegree true = .ok D) (hrot : RotatedIrreps D irreps irreps' K)
    (B : ℕ → ℕ → ℝ) (hB : IsBlockRotation D degrees mult B) :
    ∃ M M', makeSquareMatrix cdisk outcome irreps degrees mult maxDegree shift = .ok M ∧
      makeSquareMatrix cdisk outcome irreps' degrees mult maxDegree shift = .ok M' ∧
      ∀ r < M.rows, ∀ c < M.cols,
        M'.val r c = ∑ r' ∈ range M.rows, ∑ c' ∈ range M.cols, B r' r * M.val r' c' * B c' c := by
  have hcc : ∀ l ≤ K, (irrepsAt irreps l).cols = pairCount (degrees.product degrees) l * mult * mult := by
    intro l hl
    rw [hc l hl, makeDict_get degrees dmax l (fun k hk => hl.trans (hdmax k hk))]
  rw [wignerD_eq wdisk hwd] at hD
  have hD := (Except.ok.inj hD).symm
  have hrot := rotated_dMatrix hK hD hrot
  obtain ⟨M, h1, h2, h3, h4⟩ := makeSquare_ok cdisk hcd outcome irreps degrees md mult maxDegree shift hmd hmax K hK hI
    (fun l hl => (hcc l hl).ge)
  obtain ⟨M', h1', h2', h3', h4'⟩ := makeSquare_ok cdisk hcd outcome irreps' degrees md mult maxDegree shift hmd hmax K hK
    hI' (fun l hl => by rw [hc' l hl]; exact (hcc l hl).ge)
  refine ⟨M, M', h1, h1', fun r hr c hc => ?_⟩
  rw [h2] at hr ⊢
  rw [h3] at hc ⊢
  obtain ⟨A, hA, p, hp, i, hi, rfl⟩ := exists_position degrees mult degrees.length r hr
  obtain ⟨A', hA', q, hq, j, hj, rfl⟩ := exists_position degrees mult degrees.length c hc
  rw [h4' A hA p hp i hi A' hA' q hq j hj, squareEntry_rotated hR hdet md maxDegree irreps irreps' K hK hrot degrees hmd mult
    shift (fun l hl => (hcc l hl).ge) A p i A' q j hA hA' hp hq hi hj]
  have e : ∀ r', ∑ c' ∈ range (blockStart degrees mult degrees.length), B r' (position degrees mult A p i) * M.val r' c' *
      B c' (position degrees mult A' q j) = B r' (position degrees mult A p i) *
        ∑ k ∈ range (2 * degreeAt degrees A' + 1), D (degreeAt degrees A' ^ 2 + k) (degreeAt degrees A' ^ 2 + j) *
          M.val r' (position degrees mult A' q k) := by
    intro r'
    rw [← sum_blockRotation degrees mult B D hB (fun c => M.val r' c) hA' hq hj, mul_sum]
    exact sum_congr rfl fun _ _ => by ring
  rw [sum_congr rfl fun r' _ => e r', sum_blockRotation degrees mult B D hB _ hA hp hi]
  refine sum_congr rfl fun a ha => ?_
  rw [mul_sum]
  refine sum_congr rfl fun b hb => ?_
  rw [mem_range] at ha hb
  rw [← h4 A hA p hp a ha A' hA' q hq b hb, hD]
  dsimp only
  have := degreeAt_le hmd A
  have := degreeAt_le hmd A'
  rw [if_pos ⟨flat_lt (by omega) ha, flat_lt (by omega) hi⟩, if_pos ⟨flat_lt (by omega) hb, flat_lt (by omega) hj⟩]
  ring

/-- **C39 (the block diagonal matrix).** It exists, and it is orthogonal. -/
theorem C39_block_rotation (wdisk : Disk WDCompressed) (hwd : ValidDisk (wdKind wigTerms) (wdTable wigTerms) wdisk)
    (outcome : SaveOutcome) (R : Fin 3 → Fin 3 → ℝ) (hR : IsOrthogonal R) (degrees : List ℕ) (mult maxDegree : ℕ)
    (hmax : ∀ d ∈ degrees, d ≤ maxDegree) (D : ℕ → ℕ → ℝ) (hD : wignerD wdisk outcome R maxDegree true = .ok D) :
    (∃ B, IsBlockRotation D degrees mult B) ∧
      ∀ B, IsBlockRotation D degrees mult B → ∀ r < (degrees.map fun l => 2 * l + 1).sum * mult,
        ∀ c < (degrees.map fun l => 2 * l + 1).sum * mult,
          ∑ k ∈ range ((degrees.map fun l => 2 * l + 1).sum * mult), B k r * B k c = if r = c then 1 else 0 := by
  refine ⟨⟨_, blockRotation_spec D degrees mult⟩, fun B hB r hr c hc => ?_⟩
  have hs := side_eq degrees mult
  unfold computeSideLengths at hs
  rw [hs] at hr hc ⊢
  obtain ⟨A, hA, p, hp, i, hi, rfl⟩ := exists_position degrees mult degrees.length r hr
  obtain ⟨A', hA', q, hq, j, hj, rfl⟩ := exists_position degrees mult degrees.length c hc
  rw [sum_blockRotation degrees mult B D hB _ hA hp hi]
  have hdA : degreeAt degrees A ≤ maxDegree := by
    unfold degreeAt
    rw [List.getD_eq_getElem?_getD, List.getElem?_eq_getElem hA]
    exact hmax _ (List.getElem_mem hA)
  rw [wignerD_eq wdisk hwd] at hD
  have hD := (Except.ok.inj hD).symm
  by_cases h : A = A' ∧ p = q
  · obtain ⟨rfl, rfl⟩ := h
    have e : ∀ k ∈ range (2 * degreeAt degrees A + 1), D (degreeAt degrees A ^ 2 + k) (degreeAt degrees A ^ 2 + i) *
        B (position degrees mult A p k) (position degrees mult A p j) =
        dMatrix true R (degreeAt degrees A ^ 2 + k) (degreeAt degrees A ^ 2 + i) *
          dMatrix true R (degreeAt degrees A ^ 2 + k) (degreeAt degrees A ^ 2 + j) := by
      intro k hk
      rw [mem_range] at hk
      rw [hB A hA p hp k hk A hA p hp j hj, if_pos ⟨rfl, rfl⟩, hD]
      dsimp only
      rw [if_pos ⟨flat_lt hdA hk, flat_lt hdA hi⟩, if_pos ⟨flat_lt hdA hk, flat_lt hdA hj⟩]
    rw [sum_congr rfl e, dMatrix_block_orth hR hi]
    exact if_congr ⟨fun h => by rw [h], fun h => (position_inj degrees mult hp hi hp hj h).2.2⟩ rfl rfl
  · rw [if_neg (fun e => h ⟨(position_inj degrees mult hp hi hq hj e).1, (position_inj degrees mult hp hi hq hj e).2.1⟩),
      sum_eq_zero]
    intro k hk
    rw [hB A hA p hp k (mem_range.1 hk) A' hA' q hq j hj, if_neg h, mul_zero]

/-- **C39 (linear combinations).** `combine_irreps` of rotated features is the rotated `combine_irreps`. -/
theorem C39_combine (wdisk : Disk WDCompressed) (hwd : ValidDisk (wdKind wigTerms) (wdTable wigTerms) wdisk)
    (outcome : SaveOutcome) (R : Fin 3 → Fin 3 → ℝ) (L : ℕ) (D : ℕ → ℕ → ℝ) (hD : wignerD wdisk outcome R L true = .ok D)
    (inputs inputs' : Arr2) (hrows : inputs.rows = (L + 1) ^ 2) (hrows' : inputs'.rows = inputs.rows)
    (hcols' : inputs'.cols = inputs.cols)
    (hrot : ∀ v < inputs.rows, ∀ f < inputs.cols,
      inputs'.val v f = ∑ v' ∈ range inputs.rows, inputs.val v' f * D v' v)
    (weights : List Arr2) (K : ℕ) (hK : K ≤ L) (hlen : weights.length = K + 1) (hw : ∀ w ∈ weights, w.rows = inputs.cols) :
    ∃ irreps irreps', combineIrreps inputs weights = .ok irreps ∧ combineIrreps inputs' weights = .ok irreps' ∧
      IsIrreps irreps K ∧ IsIrreps irreps' K ∧
      (∀ l ≤ K, (irrepsAt irreps l).cols = (irrepsAt weights l).cols) ∧
      (∀ l ≤ K, (irrepsAt irreps' l).cols = (irrepsAt irreps l).cols) ∧ RotatedIrreps D irreps irreps' K := by
  rw [wignerD_eq wdisk hwd] at hD
  have hD := (Except.ok.inj hD).symm
  have hany : ∀ x : Arr2, x.cols = inputs.cols → ¬ weights.any (fun w => w.rows ≠ x.cols) = true := by
    intro x hx
    rw [List.any_eq_true]
    rintro ⟨w, h1, h2⟩
    rw [hx] at h2
    simp [hw w h1] at h2
  have hsq : ∀ l, l ≤ K → (l + 1) ^ 2 ≤ (L + 1) ^ 2 ∧ (l + 1) ^ 2 = l ^ 2 + 2 * l + 1 :=
    fun l hl => ⟨Nat.pow_le_pow_left (by omega) 2, by ring⟩
  unfold combineIrreps
  rw [if_neg (hany inputs rfl), if_neg (hany inputs' hcols')]
  refine ⟨_, _, rfl, rfl, ⟨by simp [hlen], fun l hl => ?_⟩, ⟨by simp [hlen], fun l hl => ?_⟩, fun l hl => ?_, fun l hl => ?_,
    fun l hl m hm c _ => ?_⟩
  · simp only [List.length_mapIdx] at hl
    have := hsq l (by omega)
    rw [List.getElem_mapIdx]
    dsimp only
    omega
  · simp only [List.length_mapIdx] at hl
    have := hsq l (by omega)
    rw [List.getElem_mapIdx]
    dsimp only
    omega
  · rw [irrepsAt_get _ _ (by simp; omega), irrepsAt_get _ _ (by omega), List.getElem_mapIdx]
  · rw [irrepsAt_get _ _ (by simp; omega), irrepsAt_get _ _ (by simp; omega), List.getElem_mapIdx, List.getElem_mapIdx]
  · rw [irrepsAt_get _ _ (by simp; omega), irrepsAt_get _ _ (by simp; omega), List.getElem_mapIdx, List.getElem_mapIdx]
    dsimp only
    have h2 := hsq l hl
    have e : ∀ f ∈ range (weights[l]'(by omega)).rows, inputs'.val (l ^ 2 + m) f =
        ∑ m' ∈ range (2 * l + 1), inputs.val (l ^ 2 + m') f * D (l ^ 2 + m') (l ^ 2 + m) := by
      intro f hf
      rw [mem_range, hw _ (List.getElem_mem _)] at hf
      rw [hrot (l ^ 2 + m) (by omega) f hf, hrows]
      have hz : ∀ v, degreeOf v ≠ l → inputs.val v f * D v (l ^ 2 + m) = 0 := by
        intro v hv
        rw [hD]
        dsimp only
        rw [dMatrix_block (by rw [degreeOf_flat hm]; exact hv), ite_self, mul_zero]
      rw [← sum_degree_block l (fun v => inputs.val v f * D v (l ^ 2 + m)) hz]
      symm
      apply sum_subset (range_subset_range.2 h2.1)
      intro v _ hv
      apply hz
      rw [mem_range, not_lt] at hv
      intro hd
      have : l < degreeOf v := by
        unfold degreeOf
        rw [Nat.lt_iff_add_one_le, Nat.le_sqrt']
        exact hv
      omega
    rw [sum_congr rfl fun f hf => by rw [e f hf]]
    simp only [mul_sum, sum_mul]
    rw [sum_comm]
    exact sum_congr rfl fun _ _ => sum_congr rfl fun _ _ => by ring

/-- **C39 (meaning of traces).** `get_traces` returns, for each position and each pair of copies, the trace of the square
submatrix; with `shift_by_id` the size is subtracted for the submatrices on the diagonal. -/
theorem C39_traces_meaning (mat : ℕ → ℕ → ℝ) (mult : ℕ) (shift : Bool) (degrees : List ℕ) :
    (getTraces mat mult shift degrees 0).length = degrees.length * (mult * mult) ∧
      ∀ A < degrees.length, ∀ p < mult, ∀ q < mult,
        (getTraces mat mult shift degrees 0)[A * (mult * mult) + (p * mult + q)]? = some
          (∑ i ∈ range (2 * degreeAt degrees A + 1), mat (position degrees mult A p i) (position degrees mult A q i) -
            if shift = true ∧ p = q then ((2 * degreeAt degrees A + 1 : ℕ) : ℝ) else 0) := by
  rw [getTraces_eq]
  simp only [zero_add]
  have hprod : ((List.range mult).product (List.range mult)).length = mult * mult := by
    exact (flatMap_map_length (List.range mult) (List.range mult) (fun a b => (a, b))).trans (by simp)
  refine ⟨?_, fun A hA p hp q hq => ?_⟩
  · rw [flatMap_map_length, hprod, List.length_range]
  · have hx : ((List.range mult).product (List.range mult))[p * mult + q]? = some (p, q) := by
      have := flatMap_map_get (List.range mult) (List.range mult) (fun a b => (a, b)) mult p q p q (by simp)
        (by rw [List.getElem?_range hp]) (by rw [List.getElem?_range hq])
      exact this
    exact flatMap_map_get (List.range degrees.length) ((List.range mult).product (List.range mult))
      (fun A x => ∑ i ∈ range (2 * degreeAt degrees A + 1),
        mat (position degrees mult A x.1 i) (position degrees mult A x.2 i) -
          if shift = true ∧ x.1 = x.2 then ((2 * degreeAt degrees A + 1 : ℕ) : ℝ) else 0) (mult * mult) A (p * mult + q) A
      (p, q) hprod (by rw [List.getElem?_range hA]) hx

theorem getTraces_congr (mat mat' : ℕ → ℕ → ℝ) (mult : ℕ) (shift shift' : Bool) (degrees : List ℕ)
    (h : ∀ A < degrees.length, ∀ p < mult, ∀ q < mult,
      ∑ i ∈ range (2 * degreeAt degrees A + 1), mat (position degrees mult A p i) (position degrees mult A q i) -
        (if shift = true ∧ p = q then ((2 * degreeAt degrees A + 1 : ℕ) : ℝ) else 0) =
      ∑ i ∈ range (2 * degreeAt degrees A + 1), mat' (position degrees mult A p i) (position degrees mult A q i) -
        if shift' = true ∧ p = q then ((2 * degreeAt degrees A + 1 : ℕ) : ℝ) else 0) :
    getTraces mat mult shift degrees 0 = getTraces mat' mult shift' degrees 0 := by
  rw [getTraces_eq, getTraces_eq]
  simp only [zero_add]
  apply List.flatMap_congr
  intro A hA
  apply List.map_congr_left
  rintro ⟨p, q⟩ hx
  rw [List.pair_mem_product, List.mem_range, List.mem_range] at hx
  exact h A (List.mem_range.1 hA) p hx.1 q hx.2

/-- **C39 (shift).** The shift by the identity does not change the traces, if it is used for both functions. -/
theorem C39_traces_shift (disk : Disk CGCompressed)
    (hd : ValidDisk (cgKind symClebschGordan) (cgTable symClebschGordan) disk)
    (outcome : SaveOutcome) (irreps : List Arr2) (K : ℕ) (hI : IsIrreps irreps K) (degrees : List ℕ) (md : ℕ)
    (hmd : degrees.max? = some md) (mult maxDegree : ℕ) (hmax : md ≤ maxDegree) (hK : K ≤ maxDegree)
    (dmax : Option ℕ) (hdmax : ∀ k ∈ dmax, K ≤ k)
    (hc : ∀ l ≤ K, (irrepsAt irreps l).cols = dictGet (makeDictIrrepsMult degrees dmax) l * mult * mult) :
    ∃ M M', makeSquareMatrix disk outcome irreps degrees mult maxDegree true = .ok M ∧
      makeSquareMatrix disk outcome irreps degrees mult maxDegree false = .ok M' ∧
      getTraces M.val mult true degrees 0 = getTraces M'.val mult false degrees 0 := by
  have hc' : ∀ l ≤ K, pairCount (degrees.product degrees) l * mult * mult ≤ (irrepsAt irreps l).cols := by
    intro l hl
    rw [hc l hl, makeDict_get degrees dmax l (fun k hk => hl.trans (hdmax k hk))]
  obtain ⟨M, h1, _, _, h4⟩ := makeSquare_ok disk hd outcome irreps degrees md mult maxDegree true hmd hmax K hK hI hc'
  obtain ⟨M', h1', _, _, h4'⟩ := makeSquare_ok disk hd outcome irreps degrees md mult maxDegree false hmd hmax K hK hI hc'
  refine ⟨M, M', h1, h1', getTraces_congr _ _ _ _ _ _ fun A hA p hp q hq => ?_⟩
  have e : ∀ i ∈ range (2 * degreeAt degrees A + 1), M.val (position degrees mult A p i) (position degrees mult A q i) =
      M'.val (position degrees mult A p i) (position degrees mult A q i) + if p = q then 1 else 0 := by
    intro i hi
    rw [mem_range] at hi
    rw [h4 A hA p hp i hi A hA q hq i hi, h4' A hA p hp i hi A hA q hq i hi]
    unfold squareEntry
    rw [if_neg (fun h : false = true ∧ _ => Bool.noConfusion h.1), add_zero]
    congr 1
    exact if_congr ⟨fun h => (position_inj degrees mult hp hi hq hi h.2).2.1, fun h => ⟨rfl, by rw [h]⟩⟩ rfl rfl
  rw [sum_congr rfl e, sum_add_distrib]
  by_cases hpq : p = q
  · subst hpq
    simp
  · simp [hpq]

/-- **C39 (invariance).** Traces are invariant under rotations of the irreps. -/
theorem C39_traces_invariant (cdisk : Disk CGCompressed)
    (hcd : ValidDisk (cgKind symClebschGordan) (cgTable symClebschGordan) cdisk) (wdisk : Disk WDCompressed)
    (hwd : ValidDisk (wdKind wigTerms) (wdTable wigTerms) wdisk) (outcome : SaveOutcome) (R : Fin 3 → Fin 3 → ℝ)
    (hR : IsOrthogonal R) (hdet : det3x3 R = 1)
    (irreps irreps' : List Arr2) (K : ℕ) (hI : IsIrreps irreps K) (hI' : IsIrreps irreps' K) (degrees : List ℕ) (md : ℕ)
    (hmd : degrees.max? = some md) (mult maxDegree : ℕ) (hmax : md ≤ maxDegree) (hK : K ≤ maxDegree) (shift : Bool)
    (dmax : Option ℕ) (hdmax : ∀ k ∈ dmax, K ≤ k)
    (hc : ∀ l ≤ K, (irrepsAt irreps l).cols = dictGet (makeDictIrrepsMult degrees dmax) l * mult * mult)
    (hc' : ∀ l ≤ K, (irrepsAt irreps' l).cols = (irrepsAt irreps l).cols) (D : ℕ → ℕ → ℝ)
    (hD : wignerD wdisk outcome R maxDegree true = .ok D) (hrot : RotatedIrreps D irreps irreps' K) :
    ∃ M M', makeSquareMatrix cdisk outcome irreps degrees mult maxDegree shift = .ok M ∧
      makeSquareMatrix cdisk outcome irreps' degrees mult maxDegree shift = .ok M' ∧
      getTraces M'.val mult shift degrees 0 = getTraces M.val mult shift degrees 0 := by
  have hcc : ∀ l ≤ K, (irrepsAt irreps l).cols = pairCount (degrees.product degrees) l * mult * mult := by
    intro l hl
    rw [hc l hl, makeDict_get degrees dmax l (fun k hk => hl.trans (hdmax k hk))]
  rw [wignerD_eq wdisk hwd] at hD
  have hrot := rotated_dMatrix hK (Except.ok.inj hD).symm hrot
  obtain ⟨M, h1, h2, h3, h4⟩ := makeSquare_ok cdisk hcd outcome irreps degrees md mult maxDegree shift hmd hmax K hK hI
    (fun l hl => (hcc l hl).ge)
  obtain ⟨M', h1', h2', h3', h4'⟩ := makeSquare_ok cdisk hcd outcome irreps' degrees md mult maxDegree shift hmd hmax K hK
    hI' (fun l hl => by rw [hc' l hl]; exact (hcc l hl).ge)
  refine ⟨M, M', h1, h1', getTraces_congr _ _ _ _ _ _ fun A hA p hp q hq => ?_⟩
  congr 1
  have e : ∀ k ∈ range (2 * degreeAt degrees A + 1), M'.val (position degrees mult A p k) (position degrees mult A q k) =
      ∑ i ∈ range (2 * degreeAt degrees A + 1), ∑ j ∈ range (2 * degreeAt degrees A + 1),
        dMatrix true R (degreeAt degrees A ^ 2 + i) (degreeAt degrees A ^ 2 + k) *
          M.val (position degrees mult A p i) (position degrees mult A q j) *
            dMatrix true R (degreeAt degrees A ^ 2 + j) (degreeAt degrees A ^ 2 + k) := by
    intro k hk
    rw [mem_range] at hk
    rw [h4' A hA p hp k hk A hA q hq k hk, squareEntry_rotated hR hdet md maxDegree irreps irreps' K hK hrot degrees hmd mult
      shift (fun l hl => (hcc l hl).ge) A p k A q k hA hA hp hq hk hk]
    refine sum_congr rfl fun i hi => sum_congr rfl fun j hj => ?_
    rw [h4 A hA p hp i (mem_range.1 hi) A hA q hq j (mem_range.1 hj)]
  rw [sum_congr rfl e, sum_comm]
  refine sum_congr rfl fun i hi => ?_
  rw [sum_comm]
  have e2 : ∀ j, ∑ k ∈ range (2 * degreeAt degrees A + 1),
      dMatrix true R (degreeAt degrees A ^ 2 + i) (degreeAt degrees A ^ 2 + k) *
        M.val (position degrees mult A p i) (position degrees mult A q j) *
          dMatrix true R (degreeAt degrees A ^ 2 + j) (degreeAt degrees A ^ 2 + k) =
      if i = j then M.val (position degrees mult A p i) (position degrees mult A q j) else 0 := by
    intro j
    have h := dMatrix_block_orth_rows hR (l := degreeAt degrees A) (a := i) (b := j) (mem_range.1 hi)
    calc _ = M.val (position degrees mult A p i) (position degrees mult A q j) *
          ∑ k ∈ range (2 * degreeAt degrees A + 1), dMatrix true R (degreeAt degrees A ^ 2 + i) (degreeAt degrees A ^ 2 + k) *
            dMatrix true R (degreeAt degrees A ^ 2 + j) (degreeAt degrees A ^ 2 + k) := by
          rw [mul_sum]; exact sum_congr rfl fun _ _ => by ring
      _ = _ := by rw [h]; split_ifs <;> simp
  rw [sum_congr rfl fun j _ => e2 j, sum_ite_eq, if_pos hi]

/-- the hypotheses can be met: degrees 0 and 1, two copies, irreps up to degree 2, no cache files -/
example : let degrees := [0, 1]
    let irreps : List Arr2 := [⟨1, 8, fun m c => m + c⟩, ⟨3, 12, fun m c => m * c⟩, ⟨5, 4, fun m c => m - c⟩]
    IsIrreps irreps 2 ∧ degrees.max? = some 1 ∧ makeDictIrrepsMult degrees (some 2) = [(0, 2), (1, 3), (2, 1)] ∧
      ∀ l ≤ 2, (irrepsAt irreps l).cols = dictGet (makeDictIrrepsMult degrees (some 2)) l * 2 * 2 := by
  intro degrees irreps
  refine ⟨⟨rfl, fun l hl => ?_⟩, rfl, by decide +kernel, fun l hl => ?_⟩
  · match l with
    | 0 => rfl
    | 1 => rfl
    | 2 => rfl
  · have : l = 0 ∨ l = 1 ∨ l = 2 := by omega
    rcases this with rfl | rfl | rfl <;> rfl

end E3x
