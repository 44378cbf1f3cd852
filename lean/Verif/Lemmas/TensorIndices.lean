import Verif.Lemmas.TensorConversion
import Verif.Spec.TensorConversion

/-!
# Index computations for tensor conversions
-/

namespace E3x

noncomputable section

open Finset Spec

/-! ## flat positions -/

theorem flatPosition_foldl (α : List ℕ) (a : ℕ) :
    α.foldl (fun acc k => 3 * acc + k) a = a * 3 ^ α.length + flatPosition α := by
  unfold flatPosition
  induction α generalizing a with
  | nil => simp
  | cons k α ih =>
    rw [List.foldl_cons, ih, List.foldl_cons, ih (3 * 0 + k), List.length_cons, pow_succ]
    ring

theorem flatPosition_cons (k : ℕ) (α : List ℕ) : flatPosition (k :: α) = k * 3 ^ α.length + flatPosition α := by
  rw [flatPosition, List.foldl_cons, flatPosition_foldl]
  ring

theorem productRepeat_length (n : ℕ) : (productRepeat ([0, 1, 2] : List (Fin 3)) n).length = 3 ^ n := by
  induction n with
  | zero => rfl
  | succ n ih =>
    simp only [productRepeat, List.flatMap_cons, List.flatMap_nil, List.length_append, List.length_map, List.length_nil, ih]
    ring

theorem productRepeat_get (n : ℕ) (α : List (Fin 3)) (hα : α.length = n) :
    (productRepeat ([0, 1, 2] : List (Fin 3)) n)[flatPosition (α.map Fin.val)]? = some α := by
  induction n generalizing α with
  | zero =>
    rw [List.length_eq_zero_iff.mp hα]
    rfl
  | succ n ih =>
    cases α with
    | nil => simp at hα
    | cons a α =>
      have hl : α.length = n := by simpa using hα
      have hi := ih α hl
      have hlt : flatPosition (α.map Fin.val) < 3 ^ n := by
        rw [← productRepeat_length]
        exact (List.getElem?_eq_some_iff.mp hi).1
      rw [List.map_cons, flatPosition_cons, List.length_map, hl]
      simp only [productRepeat, List.flatMap_cons, List.flatMap_nil, List.append_nil]
      have hlen : ∀ x : Fin 3, ((productRepeat ([0, 1, 2] : List (Fin 3)) n).map (x :: ·)).length = 3 ^ n := fun x => by
        rw [List.length_map, productRepeat_length]
      fin_cases a
      · rw [List.getElem?_append_left (by rw [hlen]; simpa using hlt)]
        simp [hi]
      · rw [List.getElem?_append_right (by rw [hlen]; simp), hlen, List.getElem?_append_left (by rw [hlen]; simpa using hlt)]
        simp [hi]
      · rw [List.getElem?_append_right (by rw [hlen]; simp; omega), hlen,
          List.getElem?_append_right (by rw [hlen]; simp; omega), hlen]
        have : (2 : Fin 3).val * 3 ^ n + flatPosition (α.map Fin.val) - 3 ^ n - 3 ^ n = flatPosition (α.map Fin.val) := by
          have : (2 : Fin 3).val = 2 := rfl
          omega
        rw [show ((⟨2, by omega⟩ : Fin 3) : ℕ) = (2 : Fin 3).val from rfl, this]
        simp [hi]

theorem productRepeat_nodup (n : ℕ) : (productRepeat ([0, 1, 2] : List (Fin 3)) n).Nodup := by
  induction n with
  | zero => simp [productRepeat]
  | succ n ih =>
    rw [productRepeat, List.nodup_flatMap]
    refine ⟨fun x _ => ih.map List.cons_injective, ?_⟩
    have hd : ∀ a b : Fin 3, a ≠ b → (Function.onFun List.Disjoint fun x : Fin 3 =>
        (productRepeat ([0, 1, 2] : List (Fin 3)) n).map (x :: ·)) a b := by
      intro a b hab x hx hy
      obtain ⟨u, -, rfl⟩ := List.mem_map.mp hx
      obtain ⟨v, -, hv⟩ := List.mem_map.mp hy
      simp only [List.cons.injEq] at hv
      exact hab hv.1.symm
    simp only [List.pairwise_cons, List.mem_cons, List.not_mem_nil, or_false, forall_eq_or_imp, forall_eq, List.Pairwise.nil,
      false_implies, implies_true, and_true]
    exact ⟨⟨hd _ _ (by decide), hd _ _ (by decide)⟩, hd _ _ (by decide)⟩

theorem flatPosition_inj {n : ℕ} {α β : List (Fin 3)} (hα : α.length = n) (hβ : β.length = n)
    (h : flatPosition (α.map Fin.val) = flatPosition (β.map Fin.val)) : α = β := by
  have h1 := productRepeat_get n α hα
  rw [h, productRepeat_get n β hβ] at h1
  exact (Option.some.inj h1).symm

theorem flatIndexMap_eq (n : ℕ) (α : List (Fin 3)) (hα : α.length = n) :
    flatIndexMap n α = some (flatPosition (α.map Fin.val)) := by
  unfold flatIndexMap
  have hget := productRepeat_get n α hα
  apply assign_of_mem
  · exact ⟨(α, some (flatPosition (α.map Fin.val))), List.mem_map.mpr
      ⟨(α, flatPosition (α.map Fin.val)), List.mem_zipIdx_iff_getElem?.mpr hget, rfl⟩, rfl⟩
  · intro p hp hpα
    obtain ⟨q, hq, rfl⟩ := List.mem_map.mp hp
    have h2 := List.mem_zipIdx_iff_getElem?.mp hq
    have h3 : q.1 = α := hpα
    rw [h3] at h2
    dsimp only
    congr 1
    obtain ⟨i1, e1⟩ := List.getElem?_eq_some_iff.mp hget
    obtain ⟨i2, e2⟩ := List.getElem?_eq_some_iff.mp h2
    exact (productRepeat_nodup n).getElem_inj_iff.mp (e2.trans e1.symm)

theorem tensorExpansionIndices_eq (n : ℕ) (α : List (Fin 3)) (hα : α.length = n) (i : ℕ) (hi : i < (storedIndices n).length)
    (hp : ((storedIndices n)[i]).Perm α) : tensorExpansionIndices n (flatPosition (α.map Fin.val)) = i := by
  unfold tensorExpansionIndices
  apply assign_of_mem
  · refine ⟨(flatPosition (α.map Fin.val), i), List.mem_flatMap.mpr ⟨((storedIndices n)[i], i), ?_, ?_⟩, rfl⟩
    · rw [List.mem_zipIdx_iff_getElem?]
      exact List.getElem?_eq_getElem hi
    · refine List.mem_map.mpr ⟨α, List.mem_dedup.mpr (List.mem_permutations.mpr hp.symm), ?_⟩
      rw [flatIndexMap_eq n α hα]
      rfl
  · intro p hp' hpα
    obtain ⟨q, hq, hpq⟩ := List.mem_flatMap.mp hp'
    obtain ⟨β, hβ, rfl⟩ := List.mem_map.mp hpq
    have hperm := List.mem_permutations.mp (List.mem_dedup.mp hβ)
    obtain ⟨hj, e⟩ := List.getElem?_eq_some_iff.mp (List.mem_zipIdx_iff_getElem?.mp hq)
    have hmem : q.1 ∈ storedIndices n := by rw [← e]; exact List.getElem_mem hj
    have hlen : β.length = n := by rw [hperm.length_eq]; exact ((mem_storedIndices n _).mp hmem).1
    dsimp only at hpα ⊢
    rw [flatIndexMap_eq n β hlen, Option.getD_some] at hpα
    have hβα := flatPosition_inj hlen hα hpα
    rw [hβα] at hperm
    have : q.1 = (storedIndices n)[i] := stored_perm_eq n hmem (List.getElem_mem hi) (hperm.symm.trans hp.symm)
    exact (storedIndices_nodup n).getElem_inj_iff.mp (e.trans this)

/-! ## indices of arrays -/

/-- the index of a tensor component in the last axes -/
def tensorIndex (l : ℕ) (α : List (Fin 3)) : List ℕ := if l = 0 then [0] else α.map Fin.val

theorem inBounds_replicate (l : ℕ) (idx : List ℕ) : InBounds idx (List.replicate l 3) ↔
    ∃ α : List (Fin 3), α.length = l ∧ idx = α.map Fin.val := by
  unfold InBounds
  induction l generalizing idx with
  | zero =>
    constructor
    · intro h
      refine ⟨[], rfl, ?_⟩
      cases h
      rfl
    · rintro ⟨α, h1, rfl⟩
      rw [List.length_eq_zero_iff.mp h1]
      exact .nil
  | succ l ih =>
    rw [List.replicate_succ]
    constructor
    · intro h
      cases h with
      | cons h1 h2 =>
        obtain ⟨α, h3, rfl⟩ := (ih _).mp h2
        exact ⟨⟨_, h1⟩ :: α, by simp [h3], rfl⟩
    · rintro ⟨α, h1, rfl⟩
      cases α with
      | nil => simp at h1
      | cons a α => exact .cons a.2 ((ih _).mpr ⟨α, by simpa using h1, rfl⟩)

theorem inBounds_append (s1 s2 idx : List ℕ) : InBounds idx (s1 ++ s2) ↔
    ∃ b c, idx = b ++ c ∧ InBounds b s1 ∧ InBounds c s2 := by
  unfold InBounds
  constructor
  · intro h
    obtain ⟨b, c, h1, h2, h3⟩ : ∃ b c, List.Forall₂ (· < ·) b s1 ∧ List.Forall₂ (· < ·) c s2 ∧ idx = b ++ c := by
      refine ⟨idx.take s1.length, idx.drop s1.length, ?_, ?_, (List.take_append_drop _ _).symm⟩
      · have := List.forall₂_take_append idx s1 s2 h
        exact this
      · exact List.forall₂_drop_append idx s1 s2 h
    exact ⟨b, c, h3, h1, h2⟩
  · rintro ⟨b, c, rfl, h1, h2⟩
    exact List.rel_append h1 h2

theorem inBounds_tensorAxes (l : ℕ) (idx : List ℕ) : InBounds idx (tensorAxes l) ↔
    ∃ α : List (Fin 3), α.length = l ∧ idx = tensorIndex l α := by
  unfold tensorAxes tensorIndex
  by_cases h : l = 0
  · subst h
    rw [if_pos rfl]
    simp only [if_true]
    unfold InBounds
    constructor
    · intro h
      cases h with
      | cons h1 h2 =>
        cases h2
        exact ⟨[], rfl, by congr 1; omega⟩
    · rintro ⟨α, -, rfl⟩
      exact .cons (by omega) .nil
  · rw [if_neg h, inBounds_replicate]
    simp only [h, if_false]

theorem inBounds_single (n : ℕ) (idx : List ℕ) : InBounds idx [n] ↔ ∃ k < n, idx = [k] := by
  unfold InBounds
  constructor
  · intro h
    cases h with
    | cons h1 h2 =>
      cases h2
      exact ⟨_, h1, rfl⟩
  · rintro ⟨k, hk, rfl⟩
    exact .cons hk .nil

/-! ## compression and expansion -/

theorem stored_get (l i : ℕ) (hi : i < numCartMonomials l) :
    ∃ h : i < (storedIndices l).length, (storedIndices l).getD i [] = (storedIndices l)[i] ∧
      ((storedIndices l)[i]).length = l := by
  have h : i < (storedIndices l).length := by rw [storedIndices_length]; exact hi
  refine ⟨h, ?_, ((mem_storedIndices l _).mp (List.getElem_mem h)).1⟩
  rw [List.getD_eq_getElem?_getD, List.getElem?_eq_getElem h, Option.getD_some]

theorem compressTensor_val (x : NdArray) (l : ℕ) (b : List ℕ) (i : ℕ) (hi : i < numCartMonomials l) :
    (compressTensor x l).val (b ++ [i]) = x.val (b ++ tensorIndex l ((storedIndices l).getD i [])) := by
  unfold compressTensor tensorIndex
  by_cases h : l = 0
  · subst h
    have : i = 0 := by
      have : numCartMonomials 0 = 1 := rfl
      omega
    simp [this]
  · rw [if_neg h, if_neg h]
    simp

theorem compressTensor_shape (batch : List ℕ) (x : NdArray) (l : ℕ) (hx : x.shape = batch ++ tensorAxes l) :
    (compressTensor x l).shape = batch ++ [numCartMonomials l] := by
  unfold compressTensor tensorAxes at *
  by_cases h : l = 0
  · subst h
    have : numCartMonomials 0 = 1 := rfl
    rw [this]
    simpa using hx
  · rw [if_neg h] at hx ⊢
    rw [hx, storedIndices_length]
    simp

theorem expandTensor_val (y : NdArray) (l : ℕ) (b : List ℕ) (α : List (Fin 3)) (hα : α.length = l) (i : ℕ)
    (hi : i < (storedIndices l).length) (hp : ((storedIndices l)[i]).Perm α) :
    (expandTensor y l).val (b ++ tensorIndex l α) = y.val (b ++ [i]) := by
  have he := tensorExpansionIndices_eq l α hα i hi hp
  unfold expandTensor tensorIndex
  by_cases h : l = 0
  · subst h
    rw [List.length_eq_zero_iff.mp hα] at he
    simp only [if_true]
    rw [List.dropLast_concat, List.getLast?_concat, Option.getD_some]
    rw [show flatPosition (([] : List (Fin 3)).map Fin.val) = 0 from rfl] at he
    rw [he]
  · rw [if_neg h, if_neg h]
    dsimp only
    have hl : (b ++ α.map Fin.val).length - l = b.length := by simp [hα]
    rw [hl, List.take_left, List.drop_left, he]

theorem expandTensor_shape (batch : List ℕ) (y : NdArray) (l n : ℕ) (hy : y.shape = batch ++ [n]) :
    (expandTensor y l).shape = batch ++ tensorAxes l := by
  unfold expandTensor tensorAxes
  by_cases h : l = 0
  · rw [if_pos h, if_pos h, hy]
    simp
  · rw [if_neg h, if_neg h, hy]
    simp

theorem matmulLast_val (x : NdArray) (n m : ℕ) (a : ℕ → ℕ → ℝ) (b : List ℕ) (j : ℕ) :
    (matmulLast x n m a).val (b ++ [j]) = ∑ c ∈ range n, x.val (b ++ [c]) * a c j := by
  simp [matmulLast]

/-! ## results of the conversions -/

/-- a valid state of the cache of tensor conversion matrices -/
abbrev TcDisk (disk : Disk (TCCompressed (Nat → Nat → ℝ))) : Prop :=
  ValidDisk (tcKind conversionMatrices) (tcTable conversionMatrices) disk

/-- the matrix `t2s` -/
def t2sMatrix (l : ℕ) : Matrix (Fin (numCartMonomials l)) (Fin (numSphericalHarmonics l)) ℝ :=
  (s2tMatrix l).transpose * (s2tMatrix l * (s2tMatrix l).transpose)⁻¹

theorem s2t_t2s (l : ℕ) : s2tMatrix l * t2sMatrix l = 1 := by
  unfold t2sMatrix
  rw [← Matrix.mul_assoc]
  exact Matrix.mul_nonsing_inv _ (isUnit_iff_ne_zero.mpr (gram_det l))

theorem conversionMatrices_eq (l : ℕ) : conversionMatrices l = (matrixArray (s2tMatrix l), matrixArray (t2sMatrix l)) := by
  unfold conversionMatrices
  rw [tensorConversionMatrices_eq]
  rfl

/-- the row of the matrix for the component `k` -/
def rowOf (cart : Bool) (l k : ℕ) : ℕ := (componentOrder cart (l ^ 2 + k) + l).toNat

theorem degreeOf_block {l k : ℕ} (hk : k < 2 * l + 1) : degreeOf (l ^ 2 + k) = l := deg_sq_add hk

theorem rowOf_order (cart : Bool) {l k : ℕ} (hk : k < 2 * l + 1) :
    (rowOf cart l k : ℤ) - l = componentOrder cart (l ^ 2 + k) := by
  have h := componentOrder_bounds cart (l ^ 2 + k)
  rw [degreeOf_block hk, abs_le] at h
  unfold rowOf
  omega

theorem rowOf_lt (cart : Bool) {l k : ℕ} (hk : k < 2 * l + 1) : rowOf cart l k < numSphericalHarmonics l := by
  have h := componentOrder_bounds cart (l ^ 2 + k)
  rw [degreeOf_block hk, abs_le] at h
  unfold rowOf numSphericalHarmonics
  omega

theorem rowOf_inj (cart : Bool) {l k k' : ℕ} (hk : k < 2 * l + 1) (hk' : k' < 2 * l + 1)
    (h : rowOf cart l k = rowOf cart l k') : k = k' := by
  have h1 := rowOf_order cart hk
  have h2 := rowOf_order cart hk'
  have := component_inj cart (i := l ^ 2 + k) (j := l ^ 2 + k') (by rw [degreeOf_block hk, degreeOf_block hk'])
    (by rw [← h1, ← h2, h])
  omega

theorem gather_row (cart : Bool) {l k : ℕ} (hk : k < 2 * l + 1) :
    (if cart then (cartPermDeg l).getD k 0 else k) = rowOf cart l k := by
  cases cart
  · have hd : degreeOf (l ^ 2 + k) = l := degreeOf_block hk
    simp only [Bool.false_eq_true, if_false, rowOf, componentOrder]
    unfold Spec.orderOf
    rw [hd]
    push_cast
    have : (l : ℤ) ^ 2 = l * l := by ring
    omega
  · simp only [if_true, rowOf, componentOrder]
    rw [List.getD_eq_getElem?_getD, cartPermDeg_get l k hk, Option.getD_some]

/-- a sum over all components is a sum over all rows -/
theorem sum_rowOf (cart : Bool) (l : ℕ) (f : Fin (numSphericalHarmonics l) → ℝ) :
    ∑ k ∈ range (numSphericalHarmonics l), (if h : rowOf cart l k < numSphericalHarmonics l then f ⟨rowOf cart l k, h⟩ else 0) =
      ∑ i, f i := by
  have hlt : ∀ k : Fin (numSphericalHarmonics l), rowOf cart l k < numSphericalHarmonics l := fun k => rowOf_lt cart k.2
  rw [← Fin.sum_univ_eq_sum_range (fun k => if h : rowOf cart l k < numSphericalHarmonics l then f ⟨rowOf cart l k, h⟩ else 0)]
  have hinj : Function.Injective fun k : Fin (numSphericalHarmonics l) => (⟨rowOf cart l k, hlt k⟩ : Fin _) := by
    intro a b h
    exact Fin.ext (rowOf_inj cart a.2 b.2 (Fin.mk.inj h))
  have hbij : Function.Bijective fun k : Fin (numSphericalHarmonics l) => (⟨rowOf cart l k, hlt k⟩ : Fin _) :=
    Finite.injective_iff_bijective.mp hinj
  rw [← hbij.sum_comp f]
  exact sum_congr rfl fun k _ => dif_pos (hlt k)

theorem checkTensorShape_ok (batch : List ℕ) (l : ℕ) : checkTensorShape (batch ++ tensorAxes l) l = .ok () := by
  unfold checkTensorShape tensorAxes
  by_cases h : l = 0
  · subst h
    simp
  · have hn : (batch ++ List.replicate l 3).length ≠ 0 := by simp [h]
    rw [if_neg h, if_neg (by omega), if_neg hn, if_neg (by omega), Int.toNat_natCast, if_neg]
    simp

/-- What `irreps_to_tensor` returns. -/
theorem irrepsToTensor_eq (disk : Disk (TCCompressed (Nat → Nat → ℝ))) (hd : TcDisk disk) (outcome : SaveOutcome)
    (batch : List ℕ) (x : NdArray) (l : ℕ) (hx : x.shape = batch ++ [2 * l + 1]) (cart : Bool) (s : String)
    (hs : s ∈ normNames) : ∃ t, irrepsToTensor disk outcome x l cart s = .ok t ∧ t.shape = batch ++ tensorAxes l ∧
      ∀ (b : List ℕ) (α : List (Fin 3)), α.length = l → t.val (b ++ tensorIndex l α) =
        ∑ k ∈ range (2 * l + 1), x.val (b ++ [k]) *
          (detraceConst l * shTensor l (componentOrder cart (l ^ 2 + k)) α / normConstant s l) := by
  unfold irrepsToTensor
  rw [if_neg (by omega), hx, List.getLast?_concat]
  dsimp only
  rw [if_neg (by push_cast; omega), generate_result (tc_correct _) hd, if_neg (by omega)]
  dsimp only
  have hget : (tcTable conversionMatrices (l : ℤ).toNat).s2t[(l : ℤ).toNat]? = some (matrixArray (s2tMatrix l)) := by
    rw [Int.toNat_natCast, tcTable]
    dsimp only
    rw [List.getElem?_map, List.getElem?_range (by omega), Option.map_some, conversionMatrices_eq]
  rw [hget]
  dsimp only
  rw [Int.toNat_natCast, normalizationConstant_eq, if_pos hs]
  dsimp only
  refine ⟨_, rfl, expandTensor_shape batch _ l (numCartMonomials l) (by simp [matmulLast, hx]), fun b α hα => ?_⟩
  obtain ⟨i, hi, hp⟩ := exists_stored l α hα
  rw [expandTensor_val _ l b α hα i hi hp, matmulLast_val]
  refine sum_congr rfl fun k hk => ?_
  have hk : k < 2 * l + 1 := mem_range.mp hk
  congr 1
  have hi' : i < numCartMonomials l := by rw [← storedIndices_length]; exact hi
  have hrow := gather_row cart hk
  have e : (if cart = true then fun m i => matrixArray (s2tMatrix l) ((cartPermDeg l).getD m 0) i / normConstant s l
      else fun m i => matrixArray (s2tMatrix l) m i / normConstant s l) k i =
      matrixArray (s2tMatrix l) (rowOf cart l k) i / normConstant s l := by
    rw [← hrow]
    cases cart <;> rfl
  rw [e, matrixArray, dif_pos ⟨rowOf_lt cart hk, hi'⟩, s2tMatrix_apply]
  dsimp only
  rw [rowOf_order cart hk, (stored_get l i hi').2.1, shTensor_perm l _ _ _ hp]

/-- What `tensor_to_irreps` returns. -/
theorem tensorToIrreps_eq (disk : Disk (TCCompressed (Nat → Nat → ℝ))) (hd : TcDisk disk) (outcome : SaveOutcome)
    (batch : List ℕ) (x : NdArray) (l : ℕ) (hx : x.shape = batch ++ tensorAxes l) (cart : Bool) (s : String)
    (hs : s ∈ normNames) : ∃ y, tensorToIrreps disk outcome x l cart s = .ok y ∧ y.shape = batch ++ [2 * l + 1] ∧
      ∀ (b : List ℕ) (k : ℕ) (hk : k < 2 * l + 1), y.val (b ++ [k]) =
        ∑ i : Fin (numCartMonomials l), x.val (b ++ tensorIndex l ((storedIndices l).getD i [])) *
          (t2sMatrix l i ⟨rowOf cart l k, rowOf_lt cart hk⟩ * normConstant s l) := by
  unfold tensorToIrreps
  rw [if_neg (by omega), hx, checkTensorShape_ok]
  dsimp only
  rw [generate_result (tc_correct _) hd, if_neg (by omega)]
  dsimp only
  have hget : (tcTable conversionMatrices (l : ℤ).toNat).t2s[(l : ℤ).toNat]? = some (matrixArray (t2sMatrix l)) := by
    rw [Int.toNat_natCast, tcTable]
    dsimp only
    rw [List.getElem?_map, List.getElem?_range (by omega), Option.map_some, conversionMatrices_eq]
  rw [hget]
  dsimp only
  rw [Int.toNat_natCast, normalizationConstant_eq, if_pos hs]
  dsimp only
  refine ⟨_, rfl, ?_, fun b k hk => ?_⟩
  · rw [matmulLast, compressTensor_shape batch x l hx]
    simp [numSphericalHarmonics]
  · rw [matmulLast_val]
    have e : ∀ i, (if cart = true then fun i m => matrixArray (t2sMatrix l) i ((cartPermDeg l).getD m 0) * normConstant s l
        else fun i m => matrixArray (t2sMatrix l) i m * normConstant s l) i k =
        matrixArray (t2sMatrix l) i (rowOf cart l k) * normConstant s l := by
      intro i
      rw [← gather_row cart hk]
      cases cart <;> rfl
    rw [← Fin.sum_univ_eq_sum_range (fun c => (compressTensor x l).val (b ++ [c]) *
      (if cart = true then fun i m => matrixArray (t2sMatrix l) i ((cartPermDeg l).getD m 0) * normConstant s l
        else fun i m => matrixArray (t2sMatrix l) i m * normConstant s l) c k)]
    refine sum_congr rfl fun i _ => ?_
    rw [e, compressTensor_val x l b i i.2, matrixArray, dif_pos ⟨i.2, rowOf_lt cart hk⟩]

theorem normConstant_pos (s : String) (l : ℕ) : 0 < normConstant s l := by
  unfold normConstant
  split
  · positivity
  · have := Real.pi_pos
    positivity
  · norm_num

end

end E3x
