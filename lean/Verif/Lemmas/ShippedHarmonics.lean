import Verif.Lemmas.ShippedHarmonics2
import Verif.Spec.ShippedTables

/-!
# The shipped table of spherical harmonics is the table of slightly different polynomials
-/

namespace E3x.Coefficients

open Spec MvPolynomial

/-- the coefficients in the archive as a matrix -/
noncomputable def shippedCm : ℕ × ℕ → ℝ := assign (fun _ => 0) shippedSphericalHarmonics.entries

/-- The polynomials described by the archive; for higher degrees the exact ones. -/
noncomputable def shippedTerms (l : ℕ) (m : ℤ) : Terms :=
  if l ≤ 15 then
    (monomialPowers l).map fun p => (p, shippedCm ((monomials monomialPowers 15).idxOf p, lmIndex l m))
  else sphTerms l m

theorem mem_shippedEntries {x : (ℕ × ℕ) × ℝ} (h : x ∈ shippedSphericalHarmonics.entries) :
    ∃ r e, shippedRows[x.1.1]? = some r ∧ e ∈ r.2 ∧ x.1.2 = e.column ∧ x.2 = e.value := by
  obtain ⟨⟨r, i⟩, hr, hx⟩ := List.mem_flatMap.1 h
  obtain ⟨e, he, rfl⟩ := List.mem_map.1 hx
  rw [mem_zipIdx_iff] at hr
  exact ⟨r, e, by simpa using hr.2, he, rfl, rfl⟩

theorem shippedCm_row {i : ℕ} {r : List ℕ × List ShippedEntry} (h : shippedRows[i]? = some r) (j : ℕ) :
    shippedCm (i, j) = (rowEntry r.2 j).value := by
  obtain ⟨l, _, hl⟩ := shippedRows_spec r (List.mem_of_getElem? h)
  obtain ⟨a, b, c, _, _, hcol, _⟩ := frow_spec hl
  obtain ⟨_, _, hrow⟩ := fcolumns_spec hcol
  by_cases hj : ∃ e ∈ r.2, e.column = j
  · obtain ⟨e, he, rfl⟩ := hj
    unfold shippedCm
    apply assign_of_mem
    · refine ⟨((i, e.column), e.value), ?_, rfl⟩
      refine List.mem_flatMap.2 ⟨(r, i), (mem_zipIdx_iff _ _ _ _).2 ⟨Nat.zero_le _, by simpa using h⟩, ?_⟩
      exact List.mem_map.2 ⟨e, he, rfl⟩
    · intro x hx hxi
      obtain ⟨r', e', h1, h2, h3, h4⟩ := mem_shippedEntries hx
      rw [hxi] at h1 h3
      rw [h] at h1
      injection h1 with h1
      subst h1
      rw [h4, ← hrow e' h2]
      simp only at h3
      rw [← h3]
  · push Not at hj
    unfold shippedCm
    rw [assign_of_notMem, rowEntry_absent hj, value_zero]
    intro x hx hxi
    obtain ⟨r', e', h1, h2, h3, h4⟩ := mem_shippedEntries hx
    rw [hxi] at h1 h3
    rw [h] at h1
    injection h1 with h1
    subst h1
    exact hj e' h2 h3.symm

theorem shippedRows_get {i : ℕ} {p : List ℕ} (h : (monomials monomialPowers 15)[i]? = some p) :
    ∃ row, shippedRows[i]? = some (p, row) := by
  rw [← shippedRows_ls, List.getElem?_map] at h
  cases hr : shippedRows[i]? with
  | none => rw [hr] at h; simp at h
  | some r =>
    rw [hr] at h
    simp only [Option.map_some, Option.some.injEq] at h
    exact ⟨r.2, by rw [← h]⟩

/-- the coefficients in the row of a monomial -/
theorem shippedCm_spec {i : ℕ} {p : List ℕ} (h : (monomials monomialPowers 15)[i]? = some p) (l : ℕ) (m : ℤ)
    (hl : l ≤ 15) (hm : |m| ≤ l) :
    |shippedCm (i, lmIndex l m) - coefficient (sphTerms l m) p| ≤ 2⁻¹ ^ 52 * |coefficient (sphTerms l m) p| ∧
      (p ∉ monomialPowers l → shippedCm (i, lmIndex l m) = 0) := by
  obtain ⟨row, hrow⟩ := shippedRows_get h
  obtain ⟨d, hd, hf⟩ := shippedRows_spec _ (List.mem_of_getElem? hrow)
  obtain ⟨a, b, c, rfl, hsum, hcol, hclose⟩ := frow_spec hf
  simp only at hcol hclose
  rw [shippedCm_row hrow]
  simp only
  have hidx := lmIndex_cast l m hm
  have hm' := abs_le.1 hm
  by_cases hdl : d = l
  · subst hdl
    have hmem : [a, b, c] ∈ monomialPowers d := ((C21_monomial_powers d).1 _).2 ⟨a, b, c, rfl, hsum⟩
    refine ⟨?_, fun hn => absurd hmem hn⟩
    have hc : coefficient (sphTerms d m) [a, b, c] = coeff (expo a b c) (symSphericalHarmonics d m) := by
      unfold sphTerms
      rw [coefficient_power d _ _ hmem]
      congr 1
      ext i
      fin_cases i <;> simp [expo]
    rw [hc]
    have := fcolumnsClose_spec hsum hclose (m + d).toNat (by omega) (by omega)
    have e1 : (((m + d).toNat : ℕ) : ℤ) - d = m := by omega
    have e2 : d * d + (m + d).toNat = lmIndex d m := by
      zify
      rw [hidx, Int.toNat_of_nonneg (by omega)]
      ring
    rw [e1, e2] at this
    exact this
  · have hn : [a, b, c] ∉ monomialPowers l := by
      intro hmem
      have := monomialPowers_sum l _ hmem
      simp at this
      omega
    have hz : (rowEntry row (lmIndex l m)).value = 0 := by
      rw [rowEntry_absent, value_zero]
      intro e he hej
      have hb := (fcolumns_spec hcol).2.1 e he
      rw [hej] at hb
      have h1 : Spec.degreeOf (lmIndex l m) = d := by
        unfold Spec.degreeOf
        have h3 := Nat.le_sqrt.2 hb.1
        have h4 := Nat.sqrt_lt.2 hb.2
        omega
      rw [lmIndex_degree l m hm] at h1
      exact hdl h1.symm
    have hc : coefficient (sphTerms l m) [a, b, c] = 0 := by
      apply coefficient_of_notMem
      intro t ht he
      exact hn (he ▸ (sphTerms_wellFormed l m hm).2 t ht)
    rw [hz, hc]
    simp

theorem shippedCm_def (x : ℕ × ℕ) : assign (fun _ => 0) shippedSphericalHarmonics.entries x = shippedCm x := rfl

attribute [local irreducible] shippedCm shippedRows

theorem mem_monomials_idx {p : List ℕ} {l : ℕ} (hl : l ≤ 15) (hp : p ∈ monomialPowers l) :
    (monomials monomialPowers 15)[(monomials monomialPowers 15).idxOf p]? = some p := by
  have hmem : p ∈ monomials monomialPowers 15 := (mem_monomials _ _ _).2 ⟨l, hl, hp⟩
  have := List.idxOf_lt_length_of_mem hmem
  rw [List.getElem?_eq_getElem this, List.getElem_idxOf]

theorem shippedTerms_wellFormed : ShWellFormed shippedTerms := by
  intro l m hm
  unfold shippedTerms
  split_ifs with hl
  · constructor
    · rw [List.map_map]
      have : ((fun t : List ℕ × ℝ => t.1) ∘ fun p =>
          (p, shippedCm ((monomials monomialPowers 15).idxOf p, lmIndex l m))) = id := rfl
      rw [this, List.map_id]
      exact monomialPowers_nodup l
    · intro t ht
      obtain ⟨p, hp, rfl⟩ := List.mem_map.1 ht
      exact hp
  · exact sphTerms_wellFormed l m hm

theorem coefficient_shippedTerms {l : ℕ} {m : ℤ} (hl : l ≤ 15) (hm : |m| ≤ l) {p : List ℕ} (hp : p ∈ monomialPowers l) :
    coefficient (shippedTerms l m) p = shippedCm ((monomials monomialPowers 15).idxOf p, lmIndex l m) := by
  have := coefficient_of_mem (shippedTerms_wellFormed l m hm).1
    (t := (p, shippedCm ((monomials monomialPowers 15).idxOf p, lmIndex l m))) (by
      unfold shippedTerms
      rw [if_pos hl]
      exact List.mem_map.2 ⟨p, hp, rfl⟩)
  exact this

/-- every coefficient has a relative error of at most `2⁻⁵²` -/
theorem shippedTerms_close (l : ℕ) (m : ℤ) (hm : |m| ≤ l) (p : List ℕ) :
    |coefficient (shippedTerms l m) p - coefficient (sphTerms l m) p| ≤ 2⁻¹ ^ 52 * |coefficient (sphTerms l m) p| := by
  by_cases hl : l ≤ 15
  · by_cases hp : p ∈ monomialPowers l
    · rw [coefficient_shippedTerms hl hm hp]
      exact (shippedCm_spec (mem_monomials_idx hl hp) l m hl hm).1
    · rw [coefficient_of_notMem (p := shippedTerms l m), coefficient_of_notMem (p := sphTerms l m)]
      · simp
      · intro t ht he
        exact hp (he ▸ (sphTerms_wellFormed l m hm).2 t ht)
      · intro t ht he
        exact hp (he ▸ (shippedTerms_wellFormed l m hm).2 t ht)
  · unfold shippedTerms
    rw [if_neg hl, sub_self, abs_zero]
    positivity

theorem shippedRows_length : shippedRows.length = totalCartMonomials 15 := by
  rw [← monomials_length_cart, ← shippedRows_ls, List.length_map]

/-- loading the archive -/
theorem shipped_load : shLoad 15 shippedSphericalHarmonics = .ok (((15 : ℕ) : ℤ), shTable shippedTerms 15) := by
  unfold shLoad
  have hdeg : shippedSphericalHarmonics.maxDegree = ((15 : ℕ) : ℤ) := rfl
  rw [hdeg, if_neg (by omega)]
  simp only [Int.toNat_natCast]
  rw [if_pos, if_pos (le_refl _)]
  · congr 2
    show SHTable.mk _ _ _ = SHTable.mk _ (shTable shippedTerms 15).cm (shTable shippedTerms 15).ls
    congr 1
    · rw [← shTable_slice_cm shippedTerms shippedTerms_wellFormed 15 15 (le_refl _)]
      funext ⟨i, j⟩
      unfold slice2
      simp only [degree_le_iff]
      split_ifs with hij
      · obtain ⟨hi, hj⟩ := hij
        rw [shTable_cm, if_pos hj]
        rw [← monomials_length_cart] at hi
        unfold rowCoefficient
        obtain ⟨p, hp⟩ : ∃ p, (monomials monomialPowers 15)[i]? = some p := ⟨_, List.getElem?_eq_getElem hi⟩
        rw [hp]
        simp only
        rw [shippedCm_def]
        have hm := orderOf_abs j
        by_cases hmem : p ∈ monomialPowers (Spec.degreeOf j)
        · rw [coefficient_shippedTerms hj hm hmem, lmIndex_eq,
            nodup_get_inj (monomials_cart_nodup 15) (mem_monomials_idx hj hmem) hp]
        · have := (shippedCm_spec hp (Spec.degreeOf j) (Spec.orderOf j) hj hm).2 hmem
          rw [lmIndex_eq] at this
          rw [this, coefficient_of_notMem]
          intro t ht he
          exact hmem (he ▸ (shippedTerms_wellFormed _ _ hm).2 t ht)
      · rfl
    · funext i
      rw [← shTable_slice_ls shippedTerms 15 15 i (le_refl _)]
      have : shippedSphericalHarmonics.ls i = (shTable shippedTerms 15).ls i := by
        rw [shTable_ls, ← shippedRows_ls]
        rfl
      rw [this]
  · rw [List.all_eq_true]
    intro x hx
    obtain ⟨r, e, h1, h2, h3, -⟩ := mem_shippedEntries hx
    obtain ⟨l, hl, hf⟩ := shippedRows_spec r (List.mem_of_getElem? h1)
    obtain ⟨a, b, c, -, -, hcol, -⟩ := frow_spec hf
    have hb := (fcolumns_spec hcol).2.1 e h2
    have hi := (List.getElem?_eq_some_iff.1 h1).1
    rw [shippedRows_length] at hi
    rw [Bool.and_eq_true, decide_eq_true_eq, decide_eq_true_eq]
    refine ⟨hi, ?_⟩
    rw [h3, degree_le_iff]
    unfold Spec.degreeOf
    have := Nat.sqrt_lt.2 hb.2
    omega

/-! ## Histories -/

theorem shExtend_shipped (lstart L : ℕ) (h : 16 ≤ lstart) : shExtend sphTerms lstart L = shExtend shippedTerms lstart L := by
  funext t
  unfold shExtend
  have : ((List.range' lstart (L + 1 - lstart)).flatMap fun l => (orders l).map fun m => (lmIndex l m, sphTerms l m)) =
      (List.range' lstart (L + 1 - lstart)).flatMap fun l => (orders l).map fun m => (lmIndex l m, shippedTerms l m) := by
    refine List.flatMap_congr fun l hl => List.map_congr_left fun m _ => ?_
    rw [List.mem_range'_1] at hl
    unfold shippedTerms
    rw [if_neg (by omega)]
  rw [this]

/-- A state reached with the shipped archive. -/
def ShippedDisk (disk : Disk SHCompressed) : Prop :=
  disk.package = .valid shippedSphericalHarmonics ∧
    ValidDisk (shKind shippedTerms) (shTable shippedTerms) disk ∧
    ∀ path c, disk.files path = .valid c → 15 ≤ c.maxDegree

theorem shipped_degree : (shKind shippedTerms).degree shippedSphericalHarmonics = ((15 : ℕ) : ℤ) := rfl

theorem shipped_valid : ValidContent (shKind shippedTerms) (shTable shippedTerms) shippedSphericalHarmonics :=
  Or.inr ⟨15, shipped_degree, shipped_load⟩

theorem loaded_degree {disk : Disk SHCompressed} (hd : ShippedDisk disk) (L : ℕ) {r : ℤ × SHTable}
    (hr : loadLookupTableFromDisk disk (shLoad L) (shEmpty L) = .ok r) : 15 ≤ r.1 := by
  have hc : ∀ c : SHCompressed, 15 ≤ c.maxDegree → ∀ r, shLoad L c = .ok r → 15 ≤ r.1 := by
    intro c hc r hr
    unfold shLoad at hr
    rw [if_neg (by omega)] at hr
    dsimp only at hr
    split at hr
    · split at hr <;> (injection hr with hr; rw [← hr]; exact hc)
    · simp at hr
  have hp : ∀ r, loadPackage disk.package (shLoad L) (shEmpty L) = .ok r → 15 ≤ r.1 := by
    intro r hr
    rw [hd.1] at hr
    unfold loadPackage at hr
    dsimp only at hr
    obtain ⟨r', h1, -, -⟩ := goodLoad_content (sh_correct _ shippedTerms_wellFormed) shipped_valid L
    have h1' : shLoad L shippedSphericalHarmonics = .ok r' := h1
    rw [h1'] at hr
    injection hr with hr
    rw [← hr]
    exact hc _ (le_of_eq shipped_degree.symm) _ h1'
  unfold loadLookupTableFromDisk at hr
  split at hr
  · exact hp r hr
  · split at hr
    · exact hp r hr
    · rename_i c hcf
      exact hc c (hd.2.2 _ c hcf) r hr
    · simp at hr

theorem generate_shipped {disk : Disk SHCompressed} (hd : ShippedDisk disk) (L : ℤ) (outcome : SaveOutcome) :
    generateLookupTable (shKind sphTerms) L outcome disk = generateLookupTable (shKind shippedTerms) L outcome disk := by
  unfold generateLookupTable
  split_ifs with hL
  · rfl
  · have h1 : (shKind sphTerms).load = shLoad := rfl
    have h2 : (shKind shippedTerms).load = shLoad := rfl
    have h3 : (shKind sphTerms).empty = shEmpty := rfl
    have h4 : (shKind shippedTerms).empty = shEmpty := rfl
    rw [h1, h2, h3, h4]
    cases hr : loadLookupTableFromDisk disk (shLoad L.toNat) (shEmpty L.toNat) with
    | error e => rfl
    | ok r =>
      obtain ⟨n, t⟩ := r
      have hn : 15 ≤ n := loaded_degree hd L.toNat hr
      dsimp only
      split_ifs with hc
      · rfl
      · have e : (shKind sphTerms).extend (n + 1).toNat L.toNat t = (shKind shippedTerms).extend (n + 1).toNat L.toNat t :=
          congrFun (shExtend_shipped (n + 1).toNat L.toNat (by omega)) t
        rw [e]
        rfl

theorem step_shipped {disk : Disk SHCompressed} (hd : ShippedDisk disk) (op : LutOp) :
    op.step (shKind sphTerms) disk = op.step (shKind shippedTerms) disk := by
  cases op with
  | request L o => simp only [LutOp.step, generate_shipped hd]
  | crash L o => simp only [LutOp.step, generate_shipped hd]
  | setCache p => rfl
  | remove p => rfl

theorem generate_invariant {disk : Disk SHCompressed} (hd : ShippedDisk disk) (L : ℤ) (outcome : SaveOutcome)
    (ho : outcome ≠ .writeFails) : ShippedDisk (generateLookupTable (shKind shippedTerms) L outcome disk).1 := by
  have hk := sh_correct _ shippedTerms_wellFormed
  refine ⟨?_, generate_valid hk hd.2.1 L outcome ho, ?_⟩
  · rw [(generate_package _ _ _ _).1]
    exact hd.1
  · intro p c hc
    rcases lt_or_ge L 0 with h | h
    · rw [generate_negative _ _ h] at hc
      exact hd.2.2 p c hc
    · lift L to ℕ using h
      by_cases hL : L ≤ 15
      · have : (generateLookupTable (shKind shippedTerms) L outcome disk).1 = disk := by
          unfold generateLookupTable
          rw [if_neg (by omega)]
          cases hr : loadLookupTableFromDisk disk ((shKind shippedTerms).load (L : ℤ).toNat)
            ((shKind shippedTerms).empty (L : ℤ).toNat) with
          | error e => rfl
          | ok r =>
            obtain ⟨n, t⟩ := r
            have hn : 15 ≤ n := loaded_degree hd _ hr
            dsimp only
            rw [if_pos (by omega)]
        rw [this] at hc
        exact hd.2.2 p c hc
      · rcases (generate_spec hk hd.2.1 L outcome).2 with h | ⟨h, -⟩
        · rw [h] at hc
          exact hd.2.2 p c hc
        · rw [h] at hc
          unfold saveLookupTableToDisk at hc
          split at hc
          · exact hd.2.2 p c hc
          · rename_i q hq
            cases outcome with
            | success =>
              dsimp only at hc
              by_cases hpq : p = q
              · subst hpq
                rw [Function.update_self] at hc
                injection hc with hc
                rw [← hc]
                show (15 : ℤ) ≤ (L : ℤ)
                omega
              · rw [Function.update_of_ne hpq] at hc
                exact hd.2.2 p c hc
            | openFails => exact hd.2.2 p c hc
            | writeFails => exact absurd rfl ho

theorem step_invariant {disk : Disk SHCompressed} (hd : ShippedDisk disk) (op : LutOp) (hop : Clean op) :
    ShippedDisk (op.step (shKind shippedTerms) disk).1 := by
  cases op with
  | request L o => exact generate_invariant hd L o hop
  | crash L o =>
    have := generate_invariant hd L o hop
    exact ⟨this.1, this.2.1, this.2.2⟩
  | setCache p => exact hd
  | remove p =>
    refine ⟨hd.1, step_valid (sh_correct _ shippedTerms_wellFormed) hd.2.1 (.remove p) trivial, ?_⟩
    intro q c hc
    by_cases h : q = p
    · subst h
      simp [LutOp.step] at hc
    · simp only [LutOp.step, Function.update_of_ne h] at hc
      exact hd.2.2 q c hc

theorem run_shipped (ops : List LutOp) {disk : Disk SHCompressed} (hd : ShippedDisk disk) (hops : ∀ op ∈ ops, Clean op) :
    runLut (shKind sphTerms) ops disk = runLut (shKind shippedTerms) ops disk ∧
      ShippedDisk (runLut (shKind sphTerms) ops disk).1 := by
  induction ops generalizing disk with
  | nil => exact ⟨rfl, hd⟩
  | cons op ops ih =>
    have hs := step_shipped hd op
    have hi := step_invariant hd op (hops op (by simp))
    have := ih hi (fun o ho => hops o (by simp [ho]))
    simp only [runLut, hs]
    rw [this.1]
    rw [this.1] at this
    exact ⟨rfl, this.2⟩

theorem freshInstall_shipped : ShippedDisk freshInstall :=
  ⟨rfl, ⟨fun c hc => by injection hc with hc; rw [← hc]; exact shipped_valid, fun _ => trivial⟩,
    fun _ _ h => by simp [freshInstall] at h⟩

end E3x.Coefficients
