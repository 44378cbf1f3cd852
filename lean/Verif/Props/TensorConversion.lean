import Verif.Lemmas.TensorCheck
import Verif.Props.SphericalHarmonics

/-!
# C31, C32: conversion between irreps and traceless symmetric tensors

The functions are `irrepsToTensor`, `tensorToIrreps` and `isTracelessSymmetric` of Verif/Model/TensorConversion.lean. The
states of the cache range over all valid states (`Spec.ValidDisk`: see C33), including states without any file. The
vocabulary (`Spec.IsSymmetric`, `Spec.IsTraceless`, `Spec.SameEntries`, `Spec.tensorAxes`) is in
Verif/Spec/TensorConversion.lean.
-/

namespace E3x

open Finset Spec

/-! ## C31 -/

/-- **C31 (the linear systems).** For every degree the two linear systems solved for the conversion matrices have
unique solutions: no exception is raised. The matrices returned satisfy `s2t @ t2s = 1`. -/
theorem C31_matrices (l : ℕ) : ∃ s2t t2s, tensorConversionMatrices l = .ok (s2t, t2s) ∧
    ∀ i < 2 * l + 1, ∀ j < 2 * l + 1,
      ∑ k ∈ range ((l + 1) * (l + 2) / 2), s2t i k * t2s k j = if i = j then 1 else 0 := by
  refine ⟨_, _, tensorConversionMatrices_eq l, fun i hi j hj => ?_⟩
  have hi : i < numSphericalHarmonics l := hi
  have hj : j < numSphericalHarmonics l := hj
  have h := congrFun (congrFun (s2t_t2s l) ⟨i, hi⟩) ⟨j, hj⟩
  rw [Matrix.mul_apply, Matrix.one_apply] at h
  have e : (l + 1) * (l + 2) / 2 = numCartMonomials l := rfl
  rw [e, ← Fin.sum_univ_eq_sum_range (fun k => matrixArray (s2tMatrix l) i k *
    matrixArray ((s2tMatrix l).transpose * (s2tMatrix l * (s2tMatrix l).transpose)⁻¹) k j)]
  rw [show (if i = j then (1 : ℝ) else 0) = if (⟨i, hi⟩ : Fin (numSphericalHarmonics l)) = ⟨j, hj⟩ then 1 else 0 by
    simp only [Fin.mk.injEq], ← h]
  refine sum_congr rfl fun k _ => ?_
  rw [matrixArray, dif_pos ⟨hi, k.2⟩, matrixArray, dif_pos ⟨k.2, hj⟩]
  rfl

/-- **C31 (round trip).** `tensor_to_irreps(irreps_to_tensor(x)) = x` for every degree, batch, ordering and
normalisation. -/
theorem C31_roundtrip (disk1 disk2 : Disk (TCCompressed (ℕ → ℕ → ℝ)))
    (hd1 : ValidDisk (tcKind conversionMatrices) (tcTable conversionMatrices) disk1)
    (hd2 : ValidDisk (tcKind conversionMatrices) (tcTable conversionMatrices) disk2) (o1 o2 : SaveOutcome)
    (batch : List ℕ) (x : NdArray) (l : ℕ) (hx : x.shape = batch ++ [2 * l + 1]) (cart : Bool) (s : String)
    (hs : s ∈ normNames) :
    ∃ t y, irrepsToTensor disk1 o1 x l cart s = .ok t ∧ tensorToIrreps disk2 o2 t l cart s = .ok y ∧
      SameEntries y x := by
  obtain ⟨t, ht, hts, htv⟩ := irrepsToTensor_eq disk1 hd1 o1 batch x l hx cart s hs
  obtain ⟨y, hy, hys, hyv⟩ := tensorToIrreps_eq disk2 hd2 o2 batch t l hts cart s hs
  refine ⟨t, y, ht, hy, by rw [hys, hx], fun idx hidx => ?_⟩
  rw [hys] at hidx
  obtain ⟨b, c, rfl, hb, hc⟩ := (inBounds_append _ _ _).mp hidx
  obtain ⟨k, hk, rfl⟩ := (inBounds_single _ _).mp hc
  have hn := (normConstant_pos s l).ne'
  rw [hyv b k hk]
  rw [sum_congr rfl fun i _ => by
    rw [htv b _ (by obtain ⟨h1, h2, h3⟩ := stored_get l i i.2; rw [h2, h3]), sum_mul], sum_comm]
  rw [← sum_subset (s₁ := {k}) (by simpa using hk)]
  · rw [sum_singleton]
    have h := toTensor_inverse cart hk hk
    rw [if_pos rfl] at h
    conv_rhs => rw [← mul_one (x.val (b ++ [k])), ← h, mul_sum]
    refine sum_congr rfl fun i _ => ?_
    rw [toTensor]
    field_simp
  · intro k' hk' hne
    have h := toTensor_inverse cart hk (mem_range.mp hk')
    rw [if_neg (by simpa using hne)] at h
    rw [← mul_zero (x.val (b ++ [k'])), ← h, mul_sum]
    refine sum_congr rfl fun i _ => ?_
    rw [toTensor]
    field_simp

/-- **C31 (symmetric and traceless).** The tensors returned by `irreps_to_tensor` are symmetric and all their traces
vanish. -/
theorem C31_traceless_symmetric (disk : Disk (TCCompressed (ℕ → ℕ → ℝ)))
    (hd : ValidDisk (tcKind conversionMatrices) (tcTable conversionMatrices) disk) (outcome : SaveOutcome)
    (batch : List ℕ) (x : NdArray) (l : ℕ) (hx : x.shape = batch ++ [2 * l + 1]) (cart : Bool) (s : String)
    (hs : s ∈ normNames) :
    ∃ t, irrepsToTensor disk outcome x l cart s = .ok t ∧ t.shape = batch ++ tensorAxes l ∧ IsSymmetric batch l t ∧
      IsTraceless batch l t := by
  obtain ⟨t, ht, hts, htv⟩ := irrepsToTensor_eq disk hd outcome batch x l hx cart s hs
  have hsym : ∀ b, InBounds b batch → ∀ α β : List (Fin 3), α.length = l → α.Perm β → tensorAt t l b α = tensorAt t l b β := by
    intro b _ α β hα hp
    rw [tensorAt, tensorAt, htv b α hα, htv b β (by rw [← hp.length_eq, hα])]
    exact sum_congr rfl fun k _ => by rw [shTensor_perm l _ _ _ hp]
  refine ⟨t, ht, hts, ?_, isTraceless_of hsym fun b hb β hβ => ?_⟩
  · by_cases hl : l = 0
    · subst hl
      intro b _ α β hα hp
      cases hα
      rw [List.nil_perm.mp hp]
    · exact (isSymmetric_iff batch (by omega) t).mpr hsym
  · unfold tensorAt
    rw [sum_congr rfl fun k _ => htv b (k :: k :: β) (by simp; omega), sum_comm]
    refine sum_eq_zero fun k hk => ?_
    have hk := mem_range.mp hk
    have hb := componentOrder_bounds cart (l ^ 2 + k)
    rw [degreeOf_block hk] at hb
    have h := shTensor_traceFree l _ hb β hβ
    rw [← mul_sum, ← sum_div, ← mul_sum, h, mul_zero, zero_div, mul_zero]

/-- **C31 (inverse).** `irreps_to_tensor(tensor_to_irreps(x)) = x` for all symmetric and traceless tensors. Together
with the round trip and `C31_traceless_symmetric`, the two functions are inverse bijections between irreps and traceless
symmetric tensors. -/
theorem C31_inverse (disk1 disk2 : Disk (TCCompressed (ℕ → ℕ → ℝ)))
    (hd1 : ValidDisk (tcKind conversionMatrices) (tcTable conversionMatrices) disk1)
    (hd2 : ValidDisk (tcKind conversionMatrices) (tcTable conversionMatrices) disk2) (o1 o2 : SaveOutcome)
    (batch : List ℕ) (x : NdArray) (l : ℕ) (hx : x.shape = batch ++ tensorAxes l) (hsym : IsSymmetric batch l x)
    (htr : IsTraceless batch l x) (cart : Bool) (s : String) (hs : s ∈ normNames) :
    ∃ y t, tensorToIrreps disk1 o1 x l cart s = .ok y ∧ irrepsToTensor disk2 o2 y l cart s = .ok t ∧
      SameEntries t x := by
  obtain ⟨y, hy, hys, hyv⟩ := tensorToIrreps_eq disk1 hd1 o1 batch x l hx cart s hs
  obtain ⟨t, ht, hts, htv⟩ := irrepsToTensor_eq disk2 hd2 o2 batch y l hys cart s hs
  refine ⟨y, t, hy, ht, by rw [hts, hx], fun idx hidx => ?_⟩
  rw [hts] at hidx
  obtain ⟨b, c, rfl, hb, hc⟩ := (inBounds_append _ _ _).mp hidx
  obtain ⟨α, hα, rfl⟩ := (inBounds_tensorAxes _ _).mp hc
  have hn := (normConstant_pos s l).ne'
  have h := tensor_reconstruct cart l (tensorAt x l b) (isSymmetric_tensorAt hsym hb) (isTraceless_tensorAt htr hb) α hα
  rw [htv b α hα]
  refine Eq.trans ?_ h
  rw [← sum_attach (range (2 * l + 1))]
  refine sum_congr rfl fun k _ => ?_
  rw [hyv b k (mem_range.mp k.2), sum_mul, sum_mul]
  refine sum_congr rfl fun i _ => ?_
  rw [toTensor, tensorAt]
  field_simp

/-- **C31 (compression).** Storing only the entries with increasing indices loses nothing: expanding the compressed
array gives back every symmetric tensor, and compressing the expanded array gives back every array with
`(l + 1)(l + 2)/2` entries. -/
theorem C31_compression (batch : List ℕ) (l : ℕ) :
    (∀ x : NdArray, x.shape = batch ++ tensorAxes l → IsSymmetric batch l x →
      SameEntries (expandTensor (compressTensor x l) l) x) ∧
    ∀ y : NdArray, y.shape = batch ++ [(l + 1) * (l + 2) / 2] →
      SameEntries (compressTensor (expandTensor y l) l) y ∧ IsSymmetric batch l (expandTensor y l) := by
  constructor
  · intro x hx hsym
    have hcs := compressTensor_shape batch x l hx
    have hes := expandTensor_shape batch _ l _ hcs
    refine ⟨by rw [hes, hx], fun idx hidx => ?_⟩
    rw [hes] at hidx
    obtain ⟨b, c, rfl, hb, hc⟩ := (inBounds_append _ _ _).mp hidx
    obtain ⟨α, hα, rfl⟩ := (inBounds_tensorAxes _ _).mp hc
    obtain ⟨i, hi, hp⟩ := exists_stored l α hα
    have hi' : i < numCartMonomials l := by rw [← storedIndices_length]; exact hi
    obtain ⟨h1, h2, h3⟩ := stored_get l i hi'
    rw [expandTensor_val _ l b α hα i hi hp, compressTensor_val x l b i hi', h2]
    exact isSymmetric_tensorAt hsym hb _ _ h3 hp
  · intro y hy
    have hes := expandTensor_shape batch y l _ hy
    have hcs := compressTensor_shape batch _ l hes
    refine ⟨⟨by rw [hcs, hy]; rfl, fun idx hidx => ?_⟩, ?_⟩
    · rw [hcs] at hidx
      obtain ⟨b, c, rfl, hb, hc⟩ := (inBounds_append _ _ _).mp hidx
      obtain ⟨i, hi', rfl⟩ := (inBounds_single _ _).mp hc
      obtain ⟨hi, h2, h3⟩ := stored_get l i hi'
      rw [compressTensor_val _ l b i hi', h2, expandTensor_val _ l b _ h3 i hi (List.Perm.refl _)]
    · by_cases hl : l = 0
      · subst hl
        intro b _ α β hα hp
        cases hα
        rw [List.nil_perm.mp hp]
      · refine (isSymmetric_iff batch (by omega) _).mpr fun b hb α β hα hp => ?_
        obtain ⟨i, hi, hp'⟩ := exists_stored l α hα
        rw [tensorAt, tensorAt, expandTensor_val _ l b α hα i hi hp',
          expandTensor_val _ l b β (by rw [← hp.length_eq, hα]) i hi (hp'.trans hp)]

/-- **C31 (rotations).** Multiplying irreps with the block of degree `l` of `wigner_d(R)` rotates all indices of the
tensor, for every matrix with `Rᵀ R = 1`: `t'[i₁, …, iₗ] = ∑ t[j₁, …, jₗ] R[j₁, i₁] ⋯ R[jₗ, iₗ]`. -/
theorem C31_equivariant (disk1 disk2 : Disk (TCCompressed (ℕ → ℕ → ℝ)))
    (hd1 : ValidDisk (tcKind conversionMatrices) (tcTable conversionMatrices) disk1)
    (hd2 : ValidDisk (tcKind conversionMatrices) (tcTable conversionMatrices) disk2) (wdisk : Disk WDCompressed)
    (hw : ValidDisk (wdKind wigTerms) (wdTable wigTerms) wdisk) (o1 o2 o3 : SaveOutcome) (R : Fin 3 → Fin 3 → ℝ)
    (hR : IsOrthogonal R) (batch : List ℕ) (x x' : NdArray) (l L : ℕ) (hL : l ≤ L) (cart : Bool) (s : String)
    (hs : s ∈ normNames) (hx : x.shape = batch ++ [2 * l + 1]) (hx' : x'.shape = batch ++ [2 * l + 1]) :
    ∃ D t t', wignerD wdisk o3 R L cart = .ok D ∧ irrepsToTensor disk1 o1 x l cart s = .ok t ∧
      irrepsToTensor disk2 o2 x' l cart s = .ok t' ∧
      ((∀ b, InBounds b batch → ∀ k < 2 * l + 1,
          x'.val (b ++ [k]) = ∑ j ∈ range (2 * l + 1), x.val (b ++ [j]) * D (l ^ 2 + j) (l ^ 2 + k)) →
        (l = 0 → ∀ b, InBounds b batch → t'.val (b ++ [0]) = t.val (b ++ [0])) ∧
        (1 ≤ l → ∀ b, InBounds b batch → ∀ i : Fin l → Fin 3,
          t'.val (b ++ List.ofFn fun k => (i k : ℕ)) = rotatedEntry R l t b i)) := by
  obtain ⟨t, ht, hts, htv⟩ := irrepsToTensor_eq disk1 hd1 o1 batch x l hx cart s hs
  obtain ⟨t', ht', hts', htv'⟩ := irrepsToTensor_eq disk2 hd2 o2 batch x' l hx' cart s hs
  refine ⟨_, t, t', wignerD_eq wdisk hw o3 R L cart, ht, ht', fun hrot => ?_⟩
  have hlt : ∀ j < 2 * l + 1, l ^ 2 + j < (L + 1) ^ 2 := fun j hj => by nlinarith
  have key : ∀ b, InBounds b batch → ∀ α : List (Fin 3), α.length = l →
      t'.val (b ++ tensorIndex l α) = rotateTensor R (tensorAt t l b) α := by
    intro b hb α hα
    have e1 : rotateTensor R (tensorAt t l b) α = ∑ k ∈ range (2 * l + 1), (x.val (b ++ [k]) / normConstant s l) *
        rotateTensor R (toTensor cart l k) α := by
      rw [← rotateTensor_add]
      refine rotateTensor_congr R l _ _ (fun β hβ => ?_) α hα
      rw [tensorAt, htv b β hβ]
      refine sum_congr rfl fun k _ => ?_
      rw [toTensor]
      ring
    have e2 : ∑ k ∈ range (2 * l + 1), (x.val (b ++ [k]) / normConstant s l) * rotateTensor R (toTensor cart l k) α =
        ∑ k ∈ range (2 * l + 1), ∑ j ∈ range (2 * l + 1), (x.val (b ++ [k]) / normConstant s l) *
          (dMatrix cart R (l ^ 2 + k) (l ^ 2 + j) * toTensor cart l j α) :=
      sum_congr rfl fun k hk => by rw [rotateTensor_toTensor cart hR (mem_range.mp hk) α hα, mul_sum]
    rw [e1, e2, htv' b α hα, sum_comm]
    refine sum_congr rfl fun k hk => ?_
    rw [hrot b hb k (mem_range.mp hk), sum_mul]
    refine sum_congr rfl fun j hj => ?_
    rw [if_pos ⟨hlt j (mem_range.mp hj), hlt k (mem_range.mp hk)⟩, toTensor]
    ring
  constructor
  · intro hl b hb
    subst hl
    exact key b hb [] rfl
  · intro hl b hb i
    have h := key b hb (List.ofFn i) (by simp)
    rw [tensorIndex_pos hl, List.map_ofFn, rotateTensor_eq] at h
    refine h.trans ?_
    unfold rotatedEntry tensorAt
    refine sum_congr rfl fun j _ => ?_
    rw [tensorIndex_pos hl, List.map_ofFn]
    rfl

/-- **C31 (rotations of tensors).** Conversely, rotating all indices of traceless symmetric tensors multiplies their
irreps with the block of degree `l` of `wigner_d(R)`. -/
theorem C31_equivariant_irreps (disk1 disk2 : Disk (TCCompressed (ℕ → ℕ → ℝ)))
    (hd1 : ValidDisk (tcKind conversionMatrices) (tcTable conversionMatrices) disk1)
    (hd2 : ValidDisk (tcKind conversionMatrices) (tcTable conversionMatrices) disk2) (wdisk : Disk WDCompressed)
    (hw : ValidDisk (wdKind wigTerms) (wdTable wigTerms) wdisk) (o1 o2 o3 : SaveOutcome) (R : Fin 3 → Fin 3 → ℝ)
    (hR : IsOrthogonal R) (batch : List ℕ) (x x' : NdArray) (l L : ℕ) (hl : 1 ≤ l) (hL : l ≤ L) (cart : Bool) (s : String)
    (hs : s ∈ normNames) (hx : x.shape = batch ++ tensorAxes l) (hx' : x'.shape = batch ++ tensorAxes l)
    (hsym : IsSymmetric batch l x) (htr : IsTraceless batch l x)
    (hrot : ∀ b, InBounds b batch → ∀ i : Fin l → Fin 3,
      x'.val (b ++ List.ofFn fun k => (i k : ℕ)) = rotatedEntry R l x b i) :
    ∃ D y y', wignerD wdisk o3 R L cart = .ok D ∧ tensorToIrreps disk1 o1 x l cart s = .ok y ∧
      tensorToIrreps disk2 o2 x' l cart s = .ok y' ∧
      ∀ b, InBounds b batch → ∀ k < 2 * l + 1,
        y'.val (b ++ [k]) = ∑ j ∈ range (2 * l + 1), y.val (b ++ [j]) * D (l ^ 2 + j) (l ^ 2 + k) := by
  obtain ⟨y, t, hy, ht, hsame⟩ := C31_inverse disk1 disk2 hd1 hd2 o1 o2 batch x l hx hsym htr cart s hs
  obtain ⟨y0, hy0, hys, -⟩ := tensorToIrreps_eq disk1 hd1 o1 batch x l hx cart s hs
  obtain rfl : y = y0 := Except.ok.inj (hy.symm.trans hy0)
  obtain ⟨y', hy', -, hyv'⟩ := tensorToIrreps_eq disk2 hd2 o2 batch x' l hx' cart s hs
  obtain ⟨D, hD⟩ : ∃ D, wignerD wdisk o3 R L cart = .ok D := ⟨_, wignerD_eq wdisk hw o3 R L cart⟩
  refine ⟨D, y, y', hD, hy, hy', fun b hb k hk => ?_⟩
  -- the rotated irreps
  let z : NdArray := ⟨batch ++ [2 * l + 1], fun idx =>
    ∑ j ∈ range (2 * l + 1), y.val (idx.dropLast ++ [j]) * D (l ^ 2 + j) (l ^ 2 + idx.getLast?.getD 0)⟩
  have hz : ∀ b k, z.val (b ++ [k]) = ∑ j ∈ range (2 * l + 1), y.val (b ++ [j]) * D (l ^ 2 + j) (l ^ 2 + k) := by
    intro b k
    simp [z]
  obtain ⟨D0, t0, t', hD0, ht0, ht', himp⟩ := C31_equivariant disk2 disk2 hd2 hd2 wdisk hw o2 o2 o3 R hR batch y z l L hL cart s
    hs hys rfl
  obtain rfl : D = D0 := Except.ok.inj (hD.symm.trans hD0)
  obtain rfl : t = t0 := Except.ok.inj (ht.symm.trans ht0)
  have h := (himp fun b _ k _ => hz b k).2 hl
  obtain ⟨t1, w, ht1, hw1, hwz⟩ := C31_roundtrip disk2 disk2 hd2 hd2 o2 o2 batch z l rfl cart s hs
  obtain rfl : t' = t1 := Except.ok.inj (ht'.symm.trans ht1)
  obtain ⟨t2, ht2, hts', -⟩ := C31_traceless_symmetric disk2 hd2 o2 batch z l rfl cart s hs
  obtain rfl : t' = t2 := Except.ok.inj (ht'.symm.trans ht2)
  obtain ⟨w', hw', hws, hwv⟩ := tensorToIrreps_eq disk2 hd2 o2 batch t' l hts' cart s hs
  obtain rfl : w = w' := Except.ok.inj (hw1.symm.trans hw')
  rw [← hz, ← hwz.2 (b ++ [k]) (by
    rw [hws, inBounds_append]
    exact ⟨b, [k], rfl, hb, (inBounds_single _ _).mpr ⟨k, hk, rfl⟩⟩), hwv b k hk, hyv' b k hk]
  refine sum_congr rfl fun i _ => ?_
  congr 1
  obtain ⟨h1, h2, h3⟩ := stored_get l i i.2
  obtain ⟨f, hf⟩ : ∃ f : Fin l → Fin 3, (storedIndices l).getD i [] = List.ofFn f := by
    rw [h2]
    exact ⟨fun k => ((storedIndices l)[(i : ℕ)]).get (k.cast h3.symm), by
      apply List.ext_getElem
      · simp [h3]
      · intro n hn1 hn2
        simp⟩
  rw [hf, tensorIndex_pos hl, List.map_ofFn]
  refine (hrot b hb f).trans (Eq.trans ?_ (h b hb f).symm)
  unfold rotatedEntry
  refine sum_congr rfl fun j _ => ?_
  rw [hsame.2]
  obtain ⟨t3, ht3, hts, -⟩ := C31_traceless_symmetric disk2 hd2 o2 batch y l hys cart s hs
  obtain rfl : t = t3 := Except.ok.inj (ht.symm.trans ht3)
  rw [hts, inBounds_append]
  refine ⟨b, _, rfl, hb, (inBounds_tensorAxes _ _).mpr ⟨List.ofFn j, by simp, ?_⟩⟩
  rw [tensorIndex_pos hl, List.map_ofFn]
  rfl

theorem detraced_small (r : Fin 3 → ℝ) (i j : Fin 3) : detraced 0 r [] = 1 ∧ detraced 1 r [i] = r i ∧
    detraced 2 r [i, j] = r i * r j - (if i = j then 1 else 0) * normSq r / 3 := by
  have hr1 : detraceRatio 2 1 = -1 / 3 := by
    unfold detraceRatio
    norm_num [Nat.doubleFactorial]
  have hd0 : multiDiracDelta ([] : List (Fin 3)) = 1 := by simp [multiDiracDelta_eq, deltaCount]
  have hd2 : multiDiracDelta [i, j] = if i = j then 1 else 0 := by
    rw [multiDiracDelta_eq]
    fin_cases i <;> fin_cases j <;> simp [deltaCount]
  refine ⟨?_, ?_, ?_⟩
  · simp [detraced, detraceRatio_zero, splitSum_zero, hd0]
  · simp [detraced, detraceRatio_zero, splitSum_zero, hd0]
  · simp only [detraced, show 2 / 2 + 1 = 2 from rfl, sum_range_succ, sum_range_zero, detraceRatio_zero, hr1, splitSum_cons,
      splitSum_nil, splitSum_zero, hd0, hd2, mul_zero, mul_one, normSq, vprod_cons, vprod_nil, Algebra.algebraMap_self,
      RingHom.id_apply]
    ring

/-- **C31 (harmonics).** The tensor of the components of degree `l` of `spherical_harmonics(r)` is the traceless part of
`r ⊗ ⋯ ⊗ r`: contracting it with any symmetric traceless tensor `u` gives `∑ r[i₁] ⋯ r[iₗ] u[i₁, …, iₗ]`. It does not
depend on the ordering and the normalisation. It is `1` for degree zero, `r` for degree one and
`r[i] r[j] - δ[i, j] |r|² / 3` for degree two. -/
theorem C31_harmonics (tiny : ℝ) (sdisk : Disk SHCompressed)
    (hsd : ValidDisk (shKind sphTerms) (shTable sphTerms) sdisk) (disk : Disk (TCCompressed (ℕ → ℕ → ℝ)))
    (hd : ValidDisk (tcKind conversionMatrices) (tcTable conversionMatrices) disk) (o1 o2 : SaveOutcome) (n : ℕ)
    (r : Fin n → Fin 3 → ℝ) (l L : ℕ) (hL : l ≤ L) (cart : Bool) (s : String) (hs : s ∈ normNames) (x : NdArray)
    (hx : x.shape = [n, 2 * l + 1]) :
    ∃ y t, sphericalHarmonics tiny sdisk o1 r L true cart s = .ok y ∧ irrepsToTensor disk o2 x l cart s = .ok t ∧
      ((∀ (b : Fin n), ∀ k < 2 * l + 1, x.val [(b : ℕ), k] = y b (l ^ 2 + k)) →
        (1 ≤ l → ∀ u : NdArray, u.shape = List.replicate l 3 → IsSymmetric [] l u → IsTraceless [] l u → ∀ b : Fin n,
          ∑ i : Fin l → Fin 3, t.val ((b : ℕ) :: List.ofFn fun k => (i k : ℕ)) * u.val (List.ofFn fun k => (i k : ℕ)) =
            ∑ i : Fin l → Fin 3, (∏ k, r b (i k)) * u.val (List.ofFn fun k => (i k : ℕ))) ∧
        (l = 0 → ∀ b : Fin n, t.val [(b : ℕ), 0] = 1) ∧
        (l = 1 → ∀ (b : Fin n) (i : Fin 3), t.val [(b : ℕ), (i : ℕ)] = r b i) ∧
        (l = 2 → ∀ (b : Fin n) (i j : Fin 3), t.val [(b : ℕ), (i : ℕ), (j : ℕ)] =
          r b i * r b j - (if i = j then 1 else 0) * normSq (r b) / 3)) := by
  obtain ⟨t, ht, hts, htv⟩ := irrepsToTensor_eq disk hd o2 [n] x l (by rw [hx]; rfl) cart s hs
  have hy := sphericalHarmonics_eq tiny sdisk hsd o1 r L true cart s
  rw [if_pos hs] at hy
  refine ⟨_, t, hy, ht, fun hxy => ?_⟩
  have hn := (normConstant_pos s l).ne'
  have key : ∀ (b : Fin n) (α : List (Fin 3)), α.length = l → t.val ([(b : ℕ)] ++ tensorIndex l α) = detraced l (r b) α := by
    intro b α hα
    rw [htv _ α hα, detraced_eq l (r b) α hα, ← sum_block_orders cart l]
    refine sum_congr rfl fun k hk => ?_
    have hk := mem_range.mp hk
    have hlt : l ^ 2 + k < (L + 1) ^ 2 := by nlinarith
    have e := hxy b k hk
    rw [harmonics, if_pos hlt, degreeOf_block hk] at e
    rw [show [(b : ℕ)] ++ [k] = [(b : ℕ), k] from rfl, e]
    field_simp
  refine ⟨fun hl u hu hsym htr b => ?_, fun hl b => ?_, fun hl b i => ?_, fun hl b i j => ?_⟩
  · have h := contract_detraced l (tensorAt u l []) (isSymmetric_tensorAt hsym .nil) (isTraceless_tensorAt htr .nil) (r b)
    rw [polyOf, sumTup_eq, sumTup_eq] at h
    have e : ∀ i : Fin l → Fin 3, tensorAt u l [] (List.ofFn i) = u.val (List.ofFn fun k => (i k : ℕ)) := by
      intro i
      rw [tensorAt, tensorIndex_pos hl, List.map_ofFn]
      rfl
    refine Eq.trans (sum_congr rfl fun i _ => ?_) (h.trans (sum_congr rfl fun i _ => ?_))
    · rw [e, mul_comm, ← key b (List.ofFn i) (by simp), tensorIndex_pos hl, List.map_ofFn]
      rfl
    · rw [e, mul_comm, vprod, List.map_ofFn, List.prod_ofFn]
      rfl
  · subst hl
    exact (key b [] rfl).trans (detraced_small (r b) 0 0).1
  · subst hl
    exact (key b [i] rfl).trans (detraced_small (r b) i 0).2.1
  · subst hl
    exact (key b [i, j] rfl).trans (detraced_small (r b) i j).2.2

theorem checkTensorShape_error (shape : List ℕ) (l : ℕ) (hsh : ¬ ∃ batch, shape = batch ++ tensorAxes l) :
    checkTensorShape shape l = .error .valueError := by
  unfold checkTensorShape
  rw [if_neg (by omega)]
  by_cases h1 : shape.length = 0
  · rw [if_pos h1]
  · rw [if_neg h1]
    by_cases h2 : (l : ℤ) = 0
    · rw [if_pos h2, if_pos]
      intro h3
      obtain ⟨batch, hb⟩ := List.getLast?_eq_some_iff.mp h3
      have : l = 0 := by omega
      exact hsh ⟨batch, by rw [tensorAxes, if_pos this]; exact hb⟩
    · rw [if_neg h2, if_pos]
      intro h3
      rw [Int.toNat_natCast] at h3
      refine hsh ⟨shape.take (shape.length - l), ?_⟩
      rw [tensorAxes, if_neg (by omega), ← h3, List.take_append_drop]

/-- **C31 (validation).** Negative degrees, arrays of other shapes and unknown normalisations raise `ValueError`. The
exception: `irreps_to_tensor` raises `IndexError` for arrays without axes. -/
theorem C31_validation (disk : Disk (TCCompressed (ℕ → ℕ → ℝ)))
    (hd : ValidDisk (tcKind conversionMatrices) (tcTable conversionMatrices) disk) (outcome : SaveOutcome) (x : NdArray)
    (degree : ℤ) (cart : Bool) (s : String) :
    ((degree < 0 ∨ (¬ ∃ batch, x.shape = batch ++ tensorAxes degree.toNat) ∨ s ∉ normNames) →
      tensorToIrreps disk outcome x degree cart s = .error .valueError) ∧
    (degree < 0 ∨ (x.shape ≠ [] ∧ ((¬ ∃ batch, x.shape = batch ++ [2 * degree.toNat + 1]) ∨ s ∉ normNames)) →
      irrepsToTensor disk outcome x degree cart s = .error .valueError) ∧
    (0 ≤ degree → x.shape = [] → irrepsToTensor disk outcome x degree cart s = .error .indexError) := by
  refine ⟨fun h => ?_, fun h => ?_, fun h0 hx => ?_⟩
  · by_cases h0 : degree < 0
    · unfold tensorToIrreps
      rw [if_pos h0]
    · obtain ⟨l, rfl⟩ : ∃ l : ℕ, degree = l := ⟨degree.toNat, by omega⟩
      rw [Int.toNat_natCast] at h
      by_cases hsh : ∃ batch, x.shape = batch ++ tensorAxes l
      · obtain ⟨batch, hx⟩ := hsh
        have hs : s ∉ normNames := by
          rcases h with h | h | h
          · omega
          · exact absurd ⟨batch, hx⟩ h
          · exact h
        unfold tensorToIrreps
        rw [if_neg h0, hx, checkTensorShape_ok]
        dsimp only
        rw [generate_result (tc_correct _) hd, if_neg (by omega)]
        dsimp only
        have hget : (tcTable conversionMatrices (l : ℤ).toNat).t2s[(l : ℤ).toNat]? = some (matrixArray (t2sMatrix l)) := by
          rw [Int.toNat_natCast, tcTable]
          dsimp only
          rw [List.getElem?_map, List.getElem?_range (by omega), Option.map_some, conversionMatrices_eq]
        rw [hget]
        dsimp only
        rw [Int.toNat_natCast, normalizationConstant_eq, if_neg hs]
      · have hc := checkTensorShape_error x.shape l hsh
        unfold tensorToIrreps
        rw [if_neg h0, hc]
  · by_cases h0 : degree < 0
    · unfold irrepsToTensor
      rw [if_pos h0]
    · obtain ⟨l, rfl⟩ : ∃ l : ℕ, degree = l := ⟨degree.toNat, by omega⟩
      rw [Int.toNat_natCast] at h
      obtain ⟨hne, h⟩ := h.resolve_left h0
      unfold irrepsToTensor
      rw [if_neg h0, List.getLast?_eq_some_getLast hne]
      dsimp only
      by_cases hlast : x.shape.getLast hne = 2 * l + 1
      · have hs : s ∉ normNames := by
          rcases h with h | h
          · exact absurd ⟨x.shape.dropLast, by rw [← hlast, List.dropLast_append_getLast]⟩ h
          · exact h
        rw [if_neg (by push_cast [hlast]; omega), generate_result (tc_correct _) hd, if_neg (by omega)]
        dsimp only
        have hget : (tcTable conversionMatrices (l : ℤ).toNat).s2t[(l : ℤ).toNat]? = some (matrixArray (s2tMatrix l)) := by
          rw [Int.toNat_natCast, tcTable]
          dsimp only
          rw [List.getElem?_map, List.getElem?_range (by omega), Option.map_some, conversionMatrices_eq]
        rw [hget]
        dsimp only
        rw [Int.toNat_natCast, normalizationConstant_eq, if_neg hs]
      · rw [if_pos (by omega)]
  · unfold irrepsToTensor
    rw [if_neg (by omega), hx]
    rfl

/-- The hypotheses can be met: the components `(1, 2, 3, 4, 5)` of degree two give a tensor that is not zero. -/
example : ∃ t y, irrepsToTensor (noFiles _) .success ⟨[5], fun idx => idx.getD 0 0 + 1⟩ (2 : ℕ) true "4pi" = .ok t ∧
    tensorToIrreps (noFiles _) .success t (2 : ℕ) true "4pi" = .ok y ∧ t.shape = [3, 3] ∧ IsSymmetric [] 2 t ∧
      IsTraceless [] 2 t ∧ y.val [0] = 1 ∧ y.val [4] = 5 ∧ ∃ idx, InBounds idx [3, 3] ∧ t.val idx ≠ 0 := by
  obtain ⟨t, y, h1, h2, h3⟩ := C31_roundtrip (noFiles _) (noFiles _) (noFiles_valid _ _) (noFiles_valid _ _) .success .success []
    ⟨[5], fun idx => idx.getD 0 0 + 1⟩ 2 rfl true "4pi" (by decide)
  obtain ⟨t', h1', h4, h5, h6⟩ := C31_traceless_symmetric (noFiles _) (noFiles_valid _ _) .success []
    ⟨[5], fun idx => idx.getD 0 0 + 1⟩ 2 rfl true "4pi" (by decide)
  obtain rfl : t = t' := Except.ok.inj (h1.symm.trans h1')
  have hb : ∀ k < 5, InBounds [k] y.shape := fun k hk => by
    rw [h3.1]
    exact .cons hk .nil
  have v0 : y.val [0] = 1 := by rw [h3.2 [0] (hb 0 (by omega))]; simp
  refine ⟨t, y, h1, h2, h4, h5, h6, v0, ?_, ?_⟩
  · rw [h3.2 [4] (hb 4 (by omega))]
    norm_num
  · by_contra hz
    push Not at hz
    obtain ⟨y', h2', -, hv⟩ := tensorToIrreps_eq (noFiles _) (noFiles_valid _ _) .success [] t 2 h4 true "4pi" (by decide)
    obtain rfl : y = y' := Except.ok.inj (h2.symm.trans h2')
    have := hv [] 0 (by omega)
    rw [sum_eq_zero fun i _ => ?_] at this
    · rw [show ([] : List ℕ) ++ [0] = [0] from rfl, v0] at this
      norm_num at this
    · obtain ⟨g1, g2, g3⟩ := stored_get 2 i i.2
      rw [List.nil_append, hz, zero_mul]
      exact (inBounds_tensorAxes 2 _).mpr ⟨_, by rw [g2, g3], rfl⟩

/-- The tensor of the harmonics of degree two of the vector `(1, 2, 2)` has the entries `1 · 2 = 2` and
`1 - 9 / 3 = -2`. -/
example : ∃ x t, x.shape = [1, 5] ∧ irrepsToTensor (noFiles _) .success x (2 : ℕ) true "racah" = .ok t ∧
    t.val [0, 0, 1] = 2 ∧ t.val [0, 0, 0] = -2 := by
  have hy := sphericalHarmonics_eq 1 (noFiles _) (noFiles_valid _ _) .success (fun _ : Fin 1 => ![1, 2, 2]) 2 true true "racah"
  rw [if_pos (by decide)] at hy
  let x : NdArray := ⟨[1, 5], fun idx => harmonics 2 true "racah" ![1, 2, 2] (2 ^ 2 + idx.getD 1 0)⟩
  obtain ⟨y, t, h1, h2, h3⟩ := C31_harmonics 1 (noFiles _) (noFiles_valid _ _) (noFiles _) (noFiles_valid _ _) .success .success 1
    (fun _ => ![1, 2, 2]) 2 2 (le_refl _) true "racah" (by decide) x rfl
  have e : y = fun b => harmonics 2 true "racah" ![1, 2, 2] := Except.ok.inj (h1.symm.trans hy)
  have h4 := (h3 fun b k _ => by rw [e]; rfl).2.2.2 rfl
  refine ⟨x, t, rfl, h2, ?_, ?_⟩
  · refine (h4 0 0 1).trans ?_
    rw [if_neg (by decide), vec3_zero, vec3_one]
    norm_num
  · refine (h4 0 0 0).trans ?_
    simp only [normSq, Fin.sum_univ_three, vec3_zero, vec3_one, vec3_two, if_true]
    norm_num

/-- The hypotheses of `C31_inverse` and `C31_equivariant` can be met: by the matrix `diag(1, 1, -2)`, and by a rotation
around the axis `z` applied to its irreps. -/
example : let x : NdArray := ⟨[3, 3], fun idx =>
      if idx.getD 0 0 = idx.getD 1 0 then (if idx.getD 0 0 = 2 then -2 else 1) else 0⟩
    let R : Fin 3 → Fin 3 → ℝ := ![![3 / 5, 4 / 5, 0], ![-4 / 5, 3 / 5, 0], ![0, 0, 1]]
    IsSymmetric [] 2 x ∧ IsTraceless [] 2 x ∧ IsOrthogonal R ∧
      ∃ y t, tensorToIrreps (noFiles _) .success x (2 : ℕ) false "4pi" = .ok y ∧
        irrepsToTensor (noFiles _) .success y (2 : ℕ) false "4pi" = .ok t ∧ t.val [2, 2] = -2 := by
  intro x R
  have hs : IsSymmetric [] 2 x := by
    intro b hb α β hα hp
    cases hb
    obtain ⟨α', ha, rfl⟩ := (inBounds_replicate 2 α).mp hα
    match α', ha with
    | [i, j], _ =>
      rcases List.perm_pair.mp hp.symm with rfl | rfl
      · rfl
      · fin_cases i <;> fin_cases j <;> simp [x]
  have ht : IsTraceless [] 2 x := by
    intro b hb α β γ hlen _
    cases hb
    have e1 : α = [] := List.length_eq_zero_iff.mp (by omega)
    have e2 : β = [] := List.length_eq_zero_iff.mp (by omega)
    have e3 : γ = [] := List.length_eq_zero_iff.mp (by omega)
    subst e1 e2 e3
    simp [sum_range_succ, x]
    norm_num
  refine ⟨hs, ht, ?_, ?_⟩
  · intro i j
    fin_cases i <;> fin_cases j <;> simp [R, Fin.sum_univ_succ] <;> norm_num
  · obtain ⟨y, t, h1, h2, h3⟩ := C31_inverse (noFiles _) (noFiles _) (noFiles_valid _ _) (noFiles_valid _ _) .success .success [] x 2
      rfl hs ht false "4pi" (by decide)
    refine ⟨y, t, h1, h2, ?_⟩
    rw [h3.2 [2, 2] (by rw [h3.1]; exact .cons (by omega) (.cons (by omega) .nil))]
    simp [x]

/-! ## C32 -/

/-- **C32 (tolerances).** For degrees of at least two, `is_traceless_symmetric` returns `True` exactly if all pairs of
entries whose indices are permutations of each other agree up to the tolerances, and the traces over the last two indices
are at most `atol`. -/
theorem C32_tolerance (batch : List ℕ) (l : ℕ) (hl : 2 ≤ l) (x : NdArray) (hx : x.shape = batch ++ List.replicate l 3)
    (rtol atol : ℝ) :
    ∃ r, isTracelessSymmetric x l rtol atol = .ok r ∧ (r = true ↔
      (∀ b, InBounds b batch → ∀ α β, InBounds α (List.replicate l 3) → α.Perm β →
        |x.val (b ++ α) - x.val (b ++ β)| ≤ atol + rtol * |x.val (b ++ β)|) ∧
      ∀ b, InBounds b batch → ∀ α, InBounds α (List.replicate (l - 2) 3) →
        |∑ k ∈ range 3, x.val (b ++ (α ++ [k, k]))| ≤ atol) :=
  isTracelessSymmetric_eq batch hl x hx rtol atol

/-- **C32.** With zero tolerances, `is_traceless_symmetric` returns `True` exactly for the tensors that are invariant
under all permutations of their indices and whose traces over all pairs of indices vanish. Scalars and vectors are
always accepted. -/
theorem C32_exact (batch : List ℕ) (l : ℕ) (x : NdArray) (hx : x.shape = batch ++ tensorAxes l) :
    ∃ r, isTracelessSymmetric x l 0 0 = .ok r ∧ (r = true ↔ IsSymmetric batch l x ∧ IsTraceless batch l x) := by
  by_cases hl : 2 ≤ l
  · rw [tensorAxes, if_neg (by omega)] at hx
    obtain ⟨r, h1, h2⟩ := isTracelessSymmetric_eq batch hl x hx 0 0
    refine ⟨r, h1, ?_⟩
    rw [h2]
    simp only [zero_mul, add_zero, abs_nonpos_iff, sub_eq_zero]
    constructor
    · rintro ⟨hs, htr⟩
      refine ⟨hs, isTraceless_of (fun b hb => isSymmetric_tensorAt (l := l) hs hb) fun b hb β hβ => ?_⟩
      have h := htr b hb (β.map Fin.val) ((inBounds_replicate _ _).mpr ⟨β, by omega, rfl⟩)
      rw [sum_range_three] at h
      rw [← h]
      refine sum_congr rfl fun k _ => ?_
      have hp : (k :: k :: β).Perm (β ++ [k, k]) := List.perm_append_comm (l₁ := [k, k]) (l₂ := β)
      rw [isSymmetric_tensorAt hs hb _ _ (by simp; omega) hp, tensorAt, tensorIndex_pos (by omega)]
      simp
    · rintro ⟨hs, htr⟩
      refine ⟨hs, fun b hb α hα => ?_⟩
      have hlen : α.length = l - 2 := by simpa using hα.length_eq
      have h := htr b hb α [] [] (by simp; omega) (by simpa using hα)
      simpa using h
  · refine ⟨true, ?_, ?_⟩
    · unfold isTracelessSymmetric
      rw [if_neg (by omega), hx, checkTensorShape_ok]
      dsimp only
      rw [if_pos (by omega)]
    · simp only [true_iff]
      constructor
      · intro b _ α β hα hp
        have hlen : α.length = l := by simpa using hα.length_eq
        rcases α with - | ⟨a, - | ⟨a', α⟩⟩
        · rw [List.nil_perm.mp hp]
        · rw [List.singleton_perm.mp hp]
        · simp at hlen
          omega
      · intro b _ α β γ h
        omega

/-- **C32 (results of conversions).** What `irreps_to_tensor` returns is accepted with all tolerances that are not
negative. -/
theorem C32_conversion (disk : Disk (TCCompressed (ℕ → ℕ → ℝ)))
    (hd : ValidDisk (tcKind conversionMatrices) (tcTable conversionMatrices) disk) (outcome : SaveOutcome)
    (batch : List ℕ) (x : NdArray) (l : ℕ) (hx : x.shape = batch ++ [2 * l + 1]) (cart : Bool) (s : String)
    (hs : s ∈ normNames) (rtol atol : ℝ) (hr : 0 ≤ rtol) (ha : 0 ≤ atol) :
    ∃ t, irrepsToTensor disk outcome x l cart s = .ok t ∧ isTracelessSymmetric t l rtol atol = .ok true := by
  obtain ⟨t, h1, h2, h3, h4⟩ := C31_traceless_symmetric disk hd outcome batch x l hx cart s hs
  refine ⟨t, h1, ?_⟩
  by_cases hl : 2 ≤ l
  · rw [tensorAxes, if_neg (by omega)] at h2
    obtain ⟨r, h5, h6⟩ := isTracelessSymmetric_eq batch hl t h2 rtol atol
    rw [h5, h6.mpr ⟨fun b hb α β hα hp => ?_, fun b hb α hα => ?_⟩]
    · rw [h3 b hb α β hα hp, sub_self, abs_zero]
      positivity
    · have hlen : α.length = l - 2 := by simpa using hα.length_eq
      have h := h4 b hb α [] [] (by simp; omega) (by simpa using hα)
      have e : ∑ k ∈ range 3, t.val (b ++ (α ++ [k, k])) = 0 := by simpa using h
      rw [e, abs_zero]
      exact ha
  · unfold isTracelessSymmetric
    rw [if_neg (by omega), h2, checkTensorShape_ok]
    dsimp only
    rw [if_pos (by omega)]

/-- **C32 (validation).** Negative degrees and arrays of other shapes raise `ValueError`. -/
theorem C32_validation (x : NdArray) (degree : ℤ) (rtol atol : ℝ)
    (h : degree < 0 ∨ ¬ ∃ batch, x.shape = batch ++ tensorAxes degree.toNat) :
    isTracelessSymmetric x degree rtol atol = .error .valueError := by
  by_cases h0 : degree < 0
  · unfold isTracelessSymmetric
    rw [if_pos h0]
  · obtain ⟨l, rfl⟩ : ∃ l : ℕ, degree = l := ⟨degree.toNat, by omega⟩
    have hc := checkTensorShape_error x.shape l (h.resolve_left h0)
    unfold isTracelessSymmetric
    rw [if_neg h0, hc]

/-- Concrete cases: the matrix `diag(1, 1, -2)` is accepted, the identity matrix (not traceless) and a strictly upper
triangular matrix (not symmetric) are not. -/
example :
    isTracelessSymmetric ⟨[3, 3], fun idx => if idx.getD 0 0 = idx.getD 1 0 then (if idx.getD 0 0 = 2 then -2 else 1) else 0⟩
      (2 : ℕ) 0 0 = .ok true ∧
    isTracelessSymmetric ⟨[3, 3], fun idx => if idx.getD 0 0 = idx.getD 1 0 then 1 else 0⟩ (2 : ℕ) 0 0 = .ok false ∧
    isTracelessSymmetric ⟨[3, 3], fun idx => if idx.getD 0 0 < idx.getD 1 0 then 1 else 0⟩ (2 : ℕ) 0 0 = .ok false := by
  refine ⟨?_, ?_, ?_⟩
  · obtain ⟨r, h1, h2⟩ := C32_exact [] 2 ⟨[3, 3], fun idx =>
      if idx.getD 0 0 = idx.getD 1 0 then (if idx.getD 0 0 = 2 then -2 else 1) else 0⟩ rfl
    rw [h1, h2.mpr ⟨fun b hb α β hα hp => ?_, fun b hb α β γ hlen _ => ?_⟩]
    · cases hb
      obtain ⟨α', ha, rfl⟩ := (inBounds_replicate 2 α).mp hα
      match α', ha with
      | [i, j], _ =>
        rcases List.perm_pair.mp hp.symm with rfl | rfl
        · rfl
        · fin_cases i <;> fin_cases j <;> simp
    · cases hb
      have e1 : α = [] := List.length_eq_zero_iff.mp (by omega)
      have e2 : β = [] := List.length_eq_zero_iff.mp (by omega)
      have e3 : γ = [] := List.length_eq_zero_iff.mp (by omega)
      subst e1 e2 e3
      simp [sum_range_succ]
      norm_num
  · obtain ⟨r, h1, h2⟩ := C32_exact [] 2 ⟨[3, 3], fun idx => if idx.getD 0 0 = idx.getD 1 0 then 1 else 0⟩ rfl
    rw [h1]
    cases r with
    | false => rfl
    | true =>
      have h := (h2.mp rfl).2 [] .nil [] [] [] rfl .nil
      simp at h
  · obtain ⟨r, h1, h2⟩ := C32_exact [] 2 ⟨[3, 3], fun idx => if idx.getD 0 0 < idx.getD 1 0 then 1 else 0⟩ rfl
    rw [h1]
    cases r with
    | false => rfl
    | true =>
      have h := (h2.mp rfl).1 [] .nil [0, 1] [1, 0] (.cons (by omega) (.cons (by omega) .nil)) (.swap _ _ _)
      simp at h

end E3x
