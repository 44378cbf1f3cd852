import Verif.Lemmas.LutKinds
import Mathlib.Data.List.GetD

/-!
# The spherical-harmonics and tensor-conversion generators satisfy `LutCorrect`
-/

namespace E3x

open Spec

/-! ## Lists of monomials -/

theorem monomials_length_cart (L : Nat) : (monomials monomialPowers L).length = totalCartMonomials L := by
  unfold monomials
  rw [List.length_flatMap, (C21_totals L).1]

theorem monomials_length_rot (L : Nat) : (monomials rotationPowers L).length = totalRotMonomials L := by
  unfold monomials
  rw [List.length_flatMap, (C21_totals L).2.2.1]

theorem monomials_nodup (powers : Nat → List (List Nat)) (hsum : ∀ d, ∀ p ∈ powers d, p.sum = d)
    (hnd : ∀ d, (powers d).Nodup) (L : Nat) : (monomials powers L).Nodup := by
  unfold monomials
  rw [List.nodup_flatMap]
  refine ⟨fun d _ => hnd d, ?_⟩
  apply List.Pairwise.imp _ List.nodup_range
  intro a b hab p hp hq
  exact hab ((hsum a p hp).symm.trans (hsum b p hq))

theorem monomialPowers_sum (d : Nat) (p : List Nat) (hp : p ∈ monomialPowers d) : p.sum = d := by
  obtain ⟨a, b, c, rfl, h⟩ := ((C21_monomial_powers d).1 p).1 hp
  simpa [Nat.add_assoc] using h

theorem rotationPowers_sum (d : Nat) (p : List Nat) (hp : p ∈ rotationPowers d) : p.sum = d :=
  (((C21_rotation_powers d).1 p).1 hp).2

theorem monomials_cart_nodup (L : Nat) : (monomials monomialPowers L).Nodup :=
  monomials_nodup _ monomialPowers_sum (fun d => (C21_monomial_powers d).2.1) L

theorem monomials_rot_nodup (L : Nat) : (monomials rotationPowers L).Nodup :=
  monomials_nodup _ rotationPowers_sum (fun d => (C21_rotation_powers d).2.1) L

theorem mem_monomials (powers : Nat → List (List Nat)) (L : Nat) (m : List Nat) :
    m ∈ monomials powers L ↔ ∃ d ≤ L, m ∈ powers d := by
  unfold monomials
  simp only [List.mem_flatMap, List.mem_range]
  exact ⟨fun ⟨d, h, hm⟩ => ⟨d, by omega, hm⟩, fun ⟨d, h, hm⟩ => ⟨d, by omega, hm⟩⟩

theorem monomials_split (powers : Nat → List (List Nat)) (n L : Nat) (h : n ≤ L) :
    monomials powers L = monomials powers n ++ (List.range' (n + 1) (L + 1 - (n + 1))).flatMap powers :=
  flatMap_range_split powers n L h

theorem monomials_get (powers : Nat → List (List Nat)) (n L i : Nat) (h : n ≤ L)
    (hi : i < (monomials powers n).length) : (monomials powers L)[i]? = (monomials powers n)[i]? := by
  rw [monomials_split powers n L h, List.getElem?_append_left hi]

/-! ## Spherical harmonics -/

theorem shTable_cm (sph : Nat → ℤ → Terms) (L i j : Nat) :
    (shTable sph L).cm (i, j) =
      if degreeOf j ≤ L then rowCoefficient (monomials monomialPowers L) (sph (degreeOf j) (orderOf j)) i else 0 := by
  unfold shTable rowCoefficient
  dsimp only
  by_cases hj : degreeOf j ≤ L
  · by_cases hi : i < (monomials monomialPowers L).length
    · rw [dif_pos ⟨hi, hj⟩, if_pos hj, List.getElem?_eq_getElem hi]
    · rw [dif_neg (fun h => hi h.1), if_pos hj, List.getElem?_eq_none (by omega)]
  · rw [dif_neg (fun h => hj h.2), if_neg hj]

/-- rows beyond the monomials of degree `≤ n` do not occur in harmonics of degree `≤ n` -/
theorem rowCoefficient_stable (powers : Nat → List (List Nat)) (hsum : ∀ d, ∀ p ∈ powers d, p.sum = d)
    (hnd : ∀ d, (powers d).Nodup) (p : Terms) (l n L i : Nat) (hp : ∀ t ∈ p, t.1 ∈ powers l) (hl : l ≤ n) (h : n ≤ L) :
    rowCoefficient (monomials powers L) p i = rowCoefficient (monomials powers n) p i := by
  unfold rowCoefficient
  by_cases hi : i < (monomials powers n).length
  · rw [monomials_get powers n L i h hi]
  · rw [List.getElem?_eq_none (l := monomials powers n) (by omega)]
    cases hm : (monomials powers L)[i]? with
    | none => rfl
    | some m =>
      refine coefficient_of_notMem fun t ht he => ?_
      subst he
      have hmem : t.1 ∈ monomials powers n := (mem_monomials _ _ _).2 ⟨l, hl, hp t ht⟩
      obtain ⟨k, hk, hke⟩ := List.getElem_of_mem hmem
      have h1 : (monomials powers L)[k]? = some t.1 := by
        rw [monomials_get powers n L k h hk, List.getElem?_eq_getElem hk, hke]
      have := nodup_get_inj (monomials_nodup powers hsum hnd L) h1 hm
      omega

theorem sh_columns (sph : Nat → ℤ → Terms) (lstart L j : Nat) (p : Terms) :
    (j, p) ∈ ((List.range' lstart (L + 1 - lstart)).flatMap fun l =>
      (orders l).map fun m => (lmIndex l m, sph l m)) ↔
      lstart ≤ degreeOf j ∧ degreeOf j ≤ L ∧ p = sph (degreeOf j) (orderOf j) := by
  simp only [List.mem_flatMap, List.mem_map, List.mem_range'_1, mem_orders, Prod.mk.injEq]
  constructor
  · rintro ⟨l, hl, m, hm, rfl, rfl⟩
    rw [lmIndex_degree _ _ hm, lmIndex_order _ _ hm]
    exact ⟨hl.1, by omega, rfl⟩
  · rintro ⟨h1, h2, rfl⟩
    exact ⟨degreeOf j, by omega, orderOf j, orderOf_abs j, lmIndex_eq j, rfl⟩

theorem shTable_slice_cm (sph : Nat → ℤ → Terms) (hs : ShWellFormed sph) (n L : Nat) (h : L ≤ n) :
    slice2 (totalCartMonomials L) (totalSphericalHarmonics L) (shTable sph n).cm = (shTable sph L).cm := by
  funext ⟨i, j⟩
  unfold slice2
  simp only [degree_le_iff, shTable_cm]
  by_cases hj : degreeOf j ≤ L
  · rw [if_pos hj, if_pos (by omega : degreeOf j ≤ n)]
    rw [rowCoefficient_stable monomialPowers monomialPowers_sum (fun d => (C21_monomial_powers d).2.1)
      (sph (degreeOf j) (orderOf j)) (degreeOf j) L n i (hs _ _ (orderOf_abs j)).2 hj h]
    split
    · rfl
    · rename_i hn
      unfold rowCoefficient
      rw [List.getElem?_eq_none]
      rw [monomials_length_cart]
      by_contra hc
      exact hn ⟨by omega, hj⟩
  · rw [if_neg (fun hc => hj hc.2), if_neg hj]

theorem shTable_ls (sph : Nat → ℤ → Terms) (L i : Nat) :
    (shTable sph L).ls i = (monomials monomialPowers L).getD i [] := rfl

theorem shTable_slice_ls (sph : Nat → ℤ → Terms) (n L i : Nat) (h : L ≤ n) :
    (if i < totalCartMonomials L then (shTable sph n).ls i else []) = (shTable sph L).ls i := by
  simp only [shTable_ls]
  rw [← monomials_length_cart]
  split
  · rename_i hi
    simp only [List.getD, monomials_get monomialPowers L n i h hi]
  · rename_i hi
    rw [List.getD_eq_default _ _ (by omega)]

/-- `_compress` followed by `_load_from_cache`, at any degree not above the stored one. -/
theorem sh_roundtrip (t : SHTable) (n L : Nat) (hn : t.maxDegree = n)
    (ht : ∀ i j, ¬ (i < totalCartMonomials n ∧ j < totalSphericalHarmonics n) → t.cm (i, j) = 0) (hL : L ≤ n) :
    shLoad L (shCompress t) = .ok ((n : ℤ), ⟨L, slice2 (totalCartMonomials L) (totalSphericalHarmonics L) t.cm,
      fun i => if i < totalCartMonomials L then t.ls i else []⟩) := by
  have hcm : assign (fun _ => 0) (shCompress t).entries = t.cm := by
    funext ⟨i, j⟩
    apply assign_entries t.cm
    intro hp
    by_contra hne
    apply hp
    rw [List.mem_filter]
    have hin : i < totalCartMonomials n ∧ j < totalSphericalHarmonics n := by
      by_contra h
      exact hne (ht i j h)
    simp only [hn, Int.toNat_natCast]
    refine ⟨?_, by simpa using hne⟩
    simp only [List.mem_product, List.mem_range]
    exact hin
  unfold shLoad
  have hdeg : (shCompress t).maxDegree = n := hn
  rw [if_neg (by rw [hdeg]; omega)]
  dsimp only
  rw [if_pos, hcm, hdeg, if_pos (by omega)]
  · rfl
  rw [List.all_eq_true]
  intro e he
  obtain ⟨p, hp, rfl⟩ := List.mem_map.1 he
  have := (List.mem_filter.1 hp).1
  obtain ⟨i, j⟩ := p
  simp only [List.mem_product, List.mem_range, hn, Int.toNat_natCast] at this
  simp only [hdeg, Int.toNat_natCast, Bool.and_eq_true, decide_eq_true_eq]
  exact this

theorem shLoad_self {c : SHCompressed} {n : Nat} {t : SHTable} (hc : c.maxDegree = n)
    (h : shLoad n c = .ok ((n : ℤ), t)) :
    c.entries.all (fun e => e.1.1 < totalCartMonomials n && e.1.2 < totalSphericalHarmonics n) ∧
      slice2 (totalCartMonomials n) (totalSphericalHarmonics n) (assign (fun _ => 0) c.entries) = t.cm ∧
      ∀ i, (if i < totalCartMonomials n then c.ls i else []) = t.ls i := by
  unfold shLoad at h
  rw [if_neg (by omega)] at h
  dsimp only at h
  rw [hc] at h
  simp only [Int.toNat_natCast, le_refl, if_true] at h
  split at h
  · rename_i hall
    injection h with h
    rw [← (Prod.mk.inj h).2]
    exact ⟨hall, rfl, fun i => rfl⟩
  · simp at h

theorem cartMonomials_mono {a b : Nat} (h : a ≤ b) : totalCartMonomials a ≤ totalCartMonomials b := by
  rw [← monomials_length_cart, ← monomials_length_cart, monomials_split monomialPowers a b h, List.length_append]
  omega

/-- the new rows and columns -/
theorem sh_extend (sph : Nat → ℤ → Terms) (hs : ShWellFormed sph) (lstart L : Nat) (P : List (List Nat)) (t : SHTable)
    (hidx : (if 0 < lstart then totalCartMonomials (lstart - 1) else 0) = P.length)
    (hsplit : monomials monomialPowers L = P ++ (List.range' lstart (L + 1 - lstart)).flatMap monomialPowers)
    (hdeg : t.maxDegree = L)
    (hnew : ∀ i j, lstart ≤ degreeOf j → t.cm (i, j) = 0)
    (hold : ∀ i j, degreeOf j < lstart →
      t.cm (i, j) = rowCoefficient (monomials monomialPowers L) (sph (degreeOf j) (orderOf j)) i)
    (hls : ∀ i, i < P.length → t.ls i = P.getD i []) (hls' : ∀ i, totalCartMonomials L ≤ i → t.ls i = [])
    (hL : lstart ≤ L) : shExtend sph lstart L t = .ok (shTable sph L) := by
  have hmono := monomials_cart_nodup L
  rw [hsplit] at hmono
  obtain ⟨cm', h1, h2, h3⟩ := storeTerms_spec P _ hmono
    ((List.range' lstart (L + 1 - lstart)).flatMap fun l => (orders l).map fun m => (lmIndex l m, sph l m)) t.cm
    (by
      rintro ⟨a, pa⟩ ha ⟨b, pb⟩ hb hab
      have h1 := (sh_columns _ _ _ _ _).1 ha
      have h2 := (sh_columns _ _ _ _ _).1 hb
      dsimp only at hab ⊢
      subst hab
      rw [h1.2.2, h2.2.2])
    (by
      rintro ⟨a, pa⟩ ha x hx
      obtain ⟨g1, g2, rfl⟩ := (sh_columns _ _ _ _ _).1 ha
      refine List.mem_flatMap.2 ⟨degreeOf a, List.mem_range'_1.2 (by omega), ?_⟩
      exact (hs _ _ (orderOf_abs a)).2 x hx)
    (by
      rintro ⟨a, pa⟩ ha
      obtain ⟨g1, g2, rfl⟩ := (sh_columns _ _ _ _ _).1 ha
      exact (hs _ _ (orderOf_abs a)).1)
    (by
      rintro ⟨a, pa⟩ ha i
      obtain ⟨g1, g2, rfl⟩ := (sh_columns _ _ _ _ _).1 ha
      exact hnew i a g1)
  unfold shExtend monomialRows
  dsimp only
  rw [hidx, h1]
  dsimp only
  congr 1
  show SHTable.mk _ _ _ = SHTable.mk _ (shTable sph L).cm (shTable sph L).ls
  congr 1
  · funext ⟨i, j⟩
    rw [shTable_cm]
    by_cases hj : lstart ≤ degreeOf j ∧ degreeOf j ≤ L
    · rw [if_pos hj.2, h3 (j, sph (degreeOf j) (orderOf j)) ((sh_columns _ _ _ _ _).2 ⟨hj.1, hj.2, rfl⟩) i, hsplit]
    · rw [h2 i j]
      · rcases Nat.lt_or_ge (degreeOf j) lstart with h | h
        · rw [if_pos (by omega), hold i j h]
        · rw [if_neg (by omega), hnew i j h]
      · rintro ⟨a, pa⟩ ha rfl
        have := (sh_columns _ _ _ _ _).1 ha
        exact hj ⟨this.1, this.2.1⟩
  · funext i
    rw [assign_rows, shTable_ls]
    have hlen : (monomials monomialPowers L).length = P.length + ((List.range' lstart (L + 1 - lstart)).flatMap
      monomialPowers).length := by rw [hsplit, List.length_append]
    split
    · rename_i hi
      rw [hsplit, List.getD, List.getD, List.getElem?_append_right hi.1]
    · rename_i hi
      by_cases hi' : i < P.length
      · rw [hls i hi', hsplit, List.getD, List.getD, List.getElem?_append_left hi']
      · rw [hls' i (by rw [← monomials_length_cart]; omega), List.getD_eq_default _ _ (by omega)]

theorem sh_correct (sph : Nat → ℤ → Terms) (hs : ShWellFormed sph) : LutCorrect (shKind sph) (shTable sph) where
  scratch L := by
    show shExtend sph 0 L (shEmpty L) = _
    apply sh_extend sph hs 0 L []
    · rfl
    · show monomials monomialPowers L = _
      unfold monomials
      rw [List.range_eq_range']
      rfl
    · rfl
    · intro i j _; rfl
    · intro i j h; omega
    · intro i hi; simp at hi
    · intro i hi
      show (if _ then _ else _) = _
      rw [if_neg (by omega)]
    · omega
  negative c L h := by
    show shLoad L c = _
    have h' : c.maxDegree < 0 := h
    unfold shLoad
    rw [if_pos h']
    rfl
  degree_compress n := rfl
  roundtrip n := by
    have := sh_roundtrip (shTable sph n) n n rfl ?_ (le_refl n)
    · rw [shTable_slice_cm sph hs n n (le_refl n)] at this
      rw [show (fun i => if i < totalCartMonomials n then (shTable sph n).ls i else []) = (shTable sph n).ls from
        funext fun i => shTable_slice_ls sph n n i (le_refl n)] at this
      exact this
    · intro i j h
      rw [← shTable_slice_cm sph hs n n (le_refl n)]
      unfold slice2
      rw [if_neg h]
  smaller c n L hc h hL := by
    obtain ⟨h1, h2, h3⟩ := shLoad_self hc h
    show shLoad L c = _
    unfold shLoad
    have hc' : c.maxDegree = (n : ℤ) := hc
    rw [if_neg (by omega)]
    dsimp only
    rw [hc']
    simp only [Int.toNat_natCast]
    rw [if_pos h1, if_pos (by omega)]
    congr 2
    show SHTable.mk _ _ _ = SHTable.mk _ (shTable sph L).cm (shTable sph L).ls
    have hm := cartMonomials_mono hL
    congr 1
    · rw [← shTable_slice_cm sph hs n L hL, ← h2]
      funext ⟨i, j⟩
      unfold slice2
      simp only [degree_le_iff]
      split
      · rw [if_pos ⟨by omega, by omega⟩]
      · rfl
    · funext i
      rw [← shTable_slice_ls sph n L i hL, ← h3]
      split
      · rw [if_pos (by omega)]
      · rfl
  larger c n L hc h hL := by
    obtain ⟨h1, h2, h3⟩ := shLoad_self hc h
    have hc' : c.maxDegree = (n : ℤ) := hc
    have hm := cartMonomials_mono (le_of_lt hL)
    refine ⟨⟨L, (shTable sph n).cm, fun i => if i < totalCartMonomials n then c.ls i else (shEmpty L).ls i⟩, ?_, ?_⟩
    · show shLoad L c = _
      unfold shLoad
      rw [if_neg (by omega)]
      dsimp only
      rw [hc']
      simp only [Int.toNat_natCast]
      rw [if_pos h1, if_neg (by omega)]
      rw [← h2]
      rfl
    · apply sh_extend sph hs (n + 1) L (monomials monomialPowers n)
      · rw [if_pos (by omega), monomials_length_cart]
        rfl
      · exact monomials_split monomialPowers n L (le_of_lt hL)
      · rfl
      · intro i j hj
        show (shTable sph n).cm (i, j) = 0
        rw [shTable_cm, if_neg (by omega)]
      · intro i j hj
        show (shTable sph n).cm (i, j) = _
        rw [shTable_cm, if_pos (by omega)]
        exact (rowCoefficient_stable monomialPowers monomialPowers_sum (fun d => (C21_monomial_powers d).2.1)
          (sph (degreeOf j) (orderOf j)) (degreeOf j) n L i (hs _ _ (orderOf_abs j)).2 (by omega)
          (le_of_lt hL)).symm
      · intro i hi
        rw [monomials_length_cart] at hi
        have := h3 i
        rw [if_pos hi] at this
        show (if _ then _ else _) = _
        rw [if_pos hi, this, shTable_ls]
      · intro i hi
        show (if _ then _ else (if _ then _ else _)) = _
        rw [if_neg (by omega), if_neg (by omega)]
      · omega

/-! ## Tensor conversion -/

theorem tcLoad_fold {M : Type} (c : TCCompressed M) (conv : Nat → M × M) (K : Nat) (t : TCTable M)
    (h : ∀ l, l < K → c.s2t l = some (conv l).1 ∧ c.t2s l = some (conv l).2) :
    (List.range K).foldlM (tcLoadStep c) t = .ok ⟨t.maxDegree, t.s2t ++ (List.range K).map (fun l => (conv l).1),
      t.t2s ++ (List.range K).map (fun l => (conv l).2)⟩ := by
  induction K with
  | zero => simp; rfl
  | succ K ih =>
    rw [List.range_succ, List.foldlM_append, ih (fun l hl => h l (by omega))]
    have hstep : ∀ t : TCTable M, tcLoadStep c t K =
        .ok ⟨t.maxDegree, t.s2t ++ [(conv K).1], t.t2s ++ [(conv K).2]⟩ := by
      intro t
      unfold tcLoadStep
      rw [(h K (by omega)).1, (h K (by omega)).2]
    simp only [List.foldlM_cons, List.foldlM_nil, List.map_append, List.map_cons, List.map_nil, bind, Except.bind,
      hstep, pure, Except.pure, List.append_assoc]

/-- a fold that succeeds only read existing keys, and the lists contain what was read -/
theorem tcLoad_fold_ok {M : Type} (c : TCCompressed M) (K : Nat) (t r : TCTable M)
    (h : (List.range K).foldlM (tcLoadStep c) t = .ok r) :
    r.s2t.map some = t.s2t.map some ++ (List.range K).map c.s2t ∧
      r.t2s.map some = t.t2s.map some ++ (List.range K).map c.t2s := by
  induction K generalizing r with
  | zero =>
    have : t = r := by simpa [pure, Except.pure] using h
    subst this
    simp
  | succ K ih =>
    rw [List.range_succ, List.foldlM_append] at h
    cases hK : (List.range K).foldlM (tcLoadStep c) t with
    | error e => rw [hK] at h; simp [bind, Except.bind] at h
    | ok u =>
      rw [hK] at h
      simp only [List.foldlM_cons, List.foldlM_nil, bind, Except.bind, pure, Except.pure] at h
      obtain ⟨h1, h2⟩ := ih u hK
      unfold tcLoadStep at h
      cases ha : c.s2t K with
      | none => rw [ha] at h; simp at h
      | some a =>
        cases hb : c.t2s K with
        | none => rw [ha, hb] at h; simp at h
        | some b =>
          rw [ha, hb] at h
          simp only [Except.ok.injEq] at h
          subst h
          rw [List.range_succ]
          simp [h1, h2, ha, hb]

/-- `_unpack_lists` followed by `_load_from_cache`, at any degree not above the stored one. -/
theorem tc_roundtrip {M : Type} (t : TCTable M) (n L : Nat) (hn : t.maxDegree = n) (h1 : t.s2t.length = n + 1)
    (h2 : t.t2s.length = n + 1) (hL : L ≤ n) :
    tcLoad L (tcCompress t) = .ok ((n : ℤ), ⟨L, t.s2t.take (L + 1), t.t2s.take (L + 1)⟩) := by
  have hM : Nonempty M := ⟨t.s2t[0]⟩
  have hd : (tcCompress t).maxDegree = n := hn
  unfold tcLoad
  rw [if_neg (by rw [hd]; omega), hd]
  simp only [Int.toNat_natCast]
  rw [Nat.min_eq_left hL, tcLoad_fold _ (fun l => (t.s2t.getD l hM.some, t.t2s.getD l hM.some))]
  · dsimp only [tcEmpty]
    congr 2
    simp only [List.nil_append]
    have key : ∀ xs : List M, xs.length = n + 1 → (List.range (L + 1)).map (fun l => xs.getD l hM.some) =
        xs.take (L + 1) := by
      intro xs hxs
      apply List.ext_getElem
      · simp; omega
      · intro i hi hi'
        have : i < xs.length := by simp at hi; omega
        simp [List.getElem_take, List.getElem?_eq_getElem this]
    rw [key _ h1, key _ h2]
  · intro l hl
    have hl1 : l < t.s2t.length := by omega
    have hl2 : l < t.t2s.length := by omega
    unfold tcCompress
    dsimp only
    rw [hn, if_pos (by omega), if_pos (by omega)]
    simp [List.getD, List.getElem?_eq_getElem hl1, List.getElem?_eq_getElem hl2]

theorem tcLoad_self {M : Type} (conv : Nat → M × M) {c : TCCompressed M} {n : Nat} (hc : c.maxDegree = n)
    (h : tcLoad n c = .ok ((n : ℤ), tcTable conv n)) :
    ∀ l, l < n + 1 → c.s2t l = some (conv l).1 ∧ c.t2s l = some (conv l).2 := by
  unfold tcLoad at h
  rw [if_neg (by omega), hc] at h
  simp only [Int.toNat_natCast, Nat.min_self] at h
  cases hf : (List.range (n + 1)).foldlM (tcLoadStep c) (tcEmpty n) with
  | error e => rw [hf] at h; simp at h
  | ok r =>
    rw [hf] at h
    simp only [Except.ok.injEq, Prod.mk.injEq, true_and] at h
    subst h
    obtain ⟨h1, h2⟩ := tcLoad_fold_ok c _ _ _ hf
    simp only [tcTable, tcEmpty, List.map_nil, List.nil_append, List.map_map] at h1 h2
    intro l hl
    have e1 := List.map_inj_left.1 h1 l (List.mem_range.2 hl)
    have e2 := List.map_inj_left.1 h2 l (List.mem_range.2 hl)
    exact ⟨e1.symm, e2.symm⟩

theorem tc_correct {M : Type} (conv : Nat → M × M) : LutCorrect (tcKind conv) (tcTable conv) where
  scratch L := by
    show Except.ok _ = Except.ok _
    congr 1
    unfold tcTable
    congr 1
    · simp only [List.map_map, ← List.range_eq_range', Nat.sub_zero]
      rfl
    · simp only [List.map_map, ← List.range_eq_range', Nat.sub_zero]
      rfl
  negative c L h := by
    show tcLoad L c = _
    have h' : c.maxDegree < 0 := h
    unfold tcLoad
    rw [if_pos h']
    rfl
  degree_compress n := rfl
  roundtrip n := by
    have := tc_roundtrip (tcTable conv n) n n rfl (by simp [tcTable]) (by simp [tcTable]) (le_refl n)
    refine this.trans ?_
    congr 2
    show TCTable.mk _ _ _ = TCTable.mk _ _ _
    congr 1
    · rw [List.take_of_length_le (by simp [tcTable])]; rfl
    · rw [List.take_of_length_le (by simp [tcTable])]; rfl
  smaller c n L hc h hL := by
    have hc' : c.maxDegree = (n : ℤ) := hc
    have hk := tcLoad_self conv hc' h
    show tcLoad L c = _
    unfold tcLoad
    rw [if_neg (by omega), hc']
    simp only [Int.toNat_natCast]
    rw [Nat.min_eq_left hL, tcLoad_fold c conv (L + 1) _ (fun l hl => hk l (by omega))]
    rfl
  larger c n L hc h hL := by
    have hc' : c.maxDegree = (n : ℤ) := hc
    have hk := tcLoad_self conv hc' h
    refine ⟨⟨L, (tcTable conv n).s2t, (tcTable conv n).t2s⟩, ?_, ?_⟩
    · show tcLoad L c = _
      unfold tcLoad
      rw [if_neg (by omega), hc']
      simp only [Int.toNat_natCast]
      rw [Nat.min_eq_right (le_of_lt hL), tcLoad_fold c conv (n + 1) _ hk]
      rfl
    · show Except.ok _ = Except.ok _
      congr 1
      have hr : List.range (L + 1) = List.range (n + 1) ++ List.range' (n + 1) (L + 1 - (n + 1)) := by
        have := flatMap_range_split (fun x => [x]) n L (le_of_lt hL)
        simpa using this
      unfold tcTable
      congr 1 <;> rw [hr] <;> simp

end E3x
