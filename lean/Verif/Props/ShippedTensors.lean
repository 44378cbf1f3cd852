import Verif.Lemmas.ShippedTensors
import Verif.Props.TensorConversion

/-!
# C82: the shipped matrices for tensor conversion

The package contains an archive with the matrices of `irreps_to_tensor` and `tensor_to_irreps` up to degree 15. Its numbers are
rounded to double precision. C31 is about the exact matrices; here every number of the archive is compared with them, and the
consequences for the two functions are derived. The arithmetic on top of the matrices is exact here.
-/

namespace E3x

open Spec Coefficients Finset

/-- **C82 (matrices).** A history that starts with the installed package, with any cache settings, requests, crashes between
operations and removed files, always returns the tables of one and the same family `table`. The entries of all matrices of these
tables agree with the exact ones up to a relative error of `2⁻⁵²`. -/
theorem C82_matrices : ∃ table : ℕ → TCTable (ℕ → ℕ → ℝ),
    (∀ L, (table L).maxDegree = L ∧
      List.Forall₂ EntrywiseClose (table L).s2t (tcTable conversionMatrices L).s2t ∧
      List.Forall₂ EntrywiseClose (table L).t2s (tcTable conversionMatrices L).t2s) ∧
    ∀ ops : List LutOp, (∀ op ∈ ops, Clean op) →
      (runLut (tcKind conversionMatrices) ops freshTensorInstall).2 = ops.map (expected table) := by
  refine ⟨tcTable shippedConv, fun L => ⟨rfl, ?_, ?_⟩, fun ops hops => ?_⟩
  · unfold tcTable
    dsimp only
    rw [List.forall₂_map_left_iff, List.forall₂_map_right_iff, List.forall₂_same]
    intro l _
    rw [conversionMatrices_eq]
    exact (shippedConv_near l).1
  · unfold tcTable
    dsimp only
    rw [List.forall₂_map_left_iff, List.forall₂_map_right_iff, List.forall₂_same]
    intro l _
    rw [conversionMatrices_eq]
    exact (shippedConv_near l).2
  · rw [(run_tensor ops freshTensorInstall_shipped hops).1]
    exact (C33_tensor_conversion _ _ freshTensorInstall_shipped.2.1 ops hops).1

/-- **C82 (round trip).** With the installed package, `tensor_to_irreps(irreps_to_tensor(x))` returns `x` up to an error of
`2⁻⁴⁶` times the largest component of the same irrep, for every degree, batch, ordering and normalisation, and after every
history. -/
theorem C82_roundtrip (ops1 ops2 : List LutOp) (hops1 : ∀ op ∈ ops1, Clean op) (hops2 : ∀ op ∈ ops2, Clean op)
    (o1 o2 : SaveOutcome) (batch : List ℕ) (x : NdArray) (l : ℕ) (hx : x.shape = batch ++ [2 * l + 1]) (cart : Bool) (s : String)
    (hs : s ∈ normNames) :
    ∃ t y, irrepsToTensor (runLut (tcKind conversionMatrices) ops1 freshTensorInstall).1 o1 x l cart s = .ok t ∧
      tensorToIrreps (runLut (tcKind conversionMatrices) ops2 freshTensorInstall).1 o2 t l cart s = .ok y ∧
      y.shape = x.shape ∧ ∀ b, InBounds b batch → ∀ B, (∀ k < 2 * l + 1, |x.val (b ++ [k])| ≤ B) →
        ∀ k < 2 * l + 1, |y.val (b ++ [k]) - x.val (b ++ [k])| ≤ 2⁻¹ ^ 46 * B := by
  have h1 := generate_tensor_ok (run_tensor ops1 freshTensorInstall_shipped hops1).2 o1 l
  have h2 := generate_tensor_ok (run_tensor ops2 freshTensorInstall_shipped hops2).2 o2 l
  obtain ⟨t, y, ht, hy, -, hys, hyv⟩ := roundtrip_conv h1 h2 batch x hx cart s hs
  have hv := noFiles_valid (tcKind conversionMatrices) (tcTable conversionMatrices)
  obtain ⟨t0, y0, ht0, hy0, -, hys0, hyv0⟩ :=
    roundtrip_conv (generate_exact hv .success l) (generate_exact hv .success l) batch x hx cart s hs
  obtain ⟨t1, y1, ht1, hy1, hsame⟩ := C31_roundtrip _ _ hv hv .success .success batch x l hx cart s hs
  obtain rfl : t0 = t1 := Except.ok.inj (ht0.symm.trans ht1)
  obtain rfl : y0 = y1 := Except.ok.inj (hy0.symm.trans hy1)
  refine ⟨t, y, ht, hy, by rw [hys, hx], fun b hb B hB k hk => ?_⟩
  rw [← hsame.2 (b ++ [k]) (by
    rw [hys0, inBounds_append]
    exact ⟨b, [k], rfl, hb, (inBounds_single _ _).mpr ⟨k, hk, rfl⟩⟩), hyv b k hk, hyv0 b k hk, mul_comm ((2⁻¹ : ℝ) ^ 46)]
  refine (abs_sum_sub_le _ _ _ _ (fun k' => ∑ i ∈ range ((l + 1) * (l + 2) / 2),
    |(shippedConv l).1 (rowOf cart l k') i * (shippedConv l).2 i (rowOf cart l k) -
      matrixArray (s2tMatrix l) (rowOf cart l k') i * matrixArray (t2sMatrix l) i (rowOf cart l k)|)
    (fun k' hk' => hB k' (mem_range.mp hk')) fun k' _ => ?_).trans ?_
  · rw [← sum_sub_distrib]
    exact abs_sum_le_sum_abs _ _
  · rw [sum_rowOf' cart l fun k' => ∑ i ∈ range ((l + 1) * (l + 2) / 2),
      |(shippedConv l).1 k' i * (shippedConv l).2 i (rowOf cart l k) -
        matrixArray (s2tMatrix l) k' i * matrixArray (t2sMatrix l) i (rowOf cart l k)|]
    exact mul_le_mul_of_nonneg_left ((shipped_products l).1 _ (rowOf_lt cart hk)) ((abs_nonneg _).trans (hB k hk))

/-- **C82 (inverse).** With the installed package, `irreps_to_tensor(tensor_to_irreps(x))` returns every symmetric and traceless
tensor up to an error of `2⁻⁴⁵` times its largest entry, for every degree, batch, ordering and normalisation, and after every
history. -/
theorem C82_inverse (ops1 ops2 : List LutOp) (hops1 : ∀ op ∈ ops1, Clean op) (hops2 : ∀ op ∈ ops2, Clean op)
    (o1 o2 : SaveOutcome) (batch : List ℕ) (x : NdArray) (l : ℕ) (hx : x.shape = batch ++ tensorAxes l)
    (hsym : IsSymmetric batch l x) (htr : IsTraceless batch l x) (cart : Bool) (s : String) (hs : s ∈ normNames) :
    ∃ y t, tensorToIrreps (runLut (tcKind conversionMatrices) ops1 freshTensorInstall).1 o1 x l cart s = .ok y ∧
      irrepsToTensor (runLut (tcKind conversionMatrices) ops2 freshTensorInstall).1 o2 y l cart s = .ok t ∧
      t.shape = x.shape ∧ ∀ b, InBounds b batch → ∀ B, (∀ α, InBounds α (tensorAxes l) → |x.val (b ++ α)| ≤ B) →
        ∀ α, InBounds α (tensorAxes l) → |t.val (b ++ α) - x.val (b ++ α)| ≤ 2⁻¹ ^ 45 * B := by
  have h1 := generate_tensor_ok (run_tensor ops1 freshTensorInstall_shipped hops1).2 o1 l
  have h2 := generate_tensor_ok (run_tensor ops2 freshTensorInstall_shipped hops2).2 o2 l
  obtain ⟨y, t, hy, ht, -, hts, htv⟩ := inverse_conv h1 h2 batch x hx cart s hs
  have hv := noFiles_valid (tcKind conversionMatrices) (tcTable conversionMatrices)
  obtain ⟨y0, t0, hy0, ht0, -, hts0, htv0⟩ :=
    inverse_conv (generate_exact hv .success l) (generate_exact hv .success l) batch x hx cart s hs
  obtain ⟨y1, t1, hy1, ht1, hsame⟩ := C31_inverse _ _ hv hv .success .success batch x l hx hsym htr cart s hs
  obtain rfl : y0 = y1 := Except.ok.inj (hy0.symm.trans hy1)
  obtain rfl : t0 = t1 := Except.ok.inj (ht0.symm.trans ht1)
  refine ⟨y, t, hy, ht, by rw [hts, hx], fun b hb B hB α hα => ?_⟩
  rw [← hsame.2 (b ++ α) (by
    rw [hts0, inBounds_append]
    exact ⟨b, α, rfl, hb, hα⟩)]
  have hB0 := (abs_nonneg _).trans (hB α hα)
  obtain ⟨α, hl, rfl⟩ := (inBounds_tensorAxes _ _).mp hα
  obtain ⟨i, hi, hp⟩ := exists_stored l α hl
  rw [htv b α hl i hi hp, htv0 b α hl i hi hp, mul_comm ((2⁻¹ : ℝ) ^ 45)]
  refine (abs_sum_sub_le (B := B) _ _ _ _ (fun i' => ∑ k ∈ range (2 * l + 1),
    |(shippedConv l).2 i' k * (shippedConv l).1 k i - matrixArray (t2sMatrix l) i' k * matrixArray (s2tMatrix l) k i|)
    (fun i' hi' => ?_) fun i' _ => ?_).trans ?_
  · obtain ⟨g1, g2, g3⟩ := stored_get l i' (mem_range.mp hi')
    exact hB _ ((inBounds_tensorAxes _ _).mpr ⟨_, by rw [g2, g3], rfl⟩)
  · rw [← sum_sub_distrib]
    exact abs_sum_le_sum_abs _ _
  · have hi' : i < (l + 1) * (l + 2) / 2 := by
      rw [storedIndices_length] at hi
      exact hi
    exact mul_le_mul_of_nonneg_left ((shipped_products l).2 i hi') hB0

/-- The array whose only entry different from zero is a one at position `k`. -/
def unitIrrep (l k : ℕ) : NdArray := ⟨[2 * l + 1], fun idx => if idx = [k] then 1 else 0⟩

/-- **C82 (values).** With the installed package, and after every history, each entry of `irreps_to_tensor(x)` differs from the
entry computed with exact matrices by at most `2⁻⁵² ∑ |x[k]| |e_k[α]|`, where `e_k` is the exact tensor of the `k`-th unit
vector. -/
theorem C82_values (ops : List LutOp) (hops : ∀ op ∈ ops, Clean op) (disk : Disk (TCCompressed (ℕ → ℕ → ℝ)))
    (hd : ValidDisk (tcKind conversionMatrices) (tcTable conversionMatrices) disk) (o o' : SaveOutcome) (batch : List ℕ)
    (x : NdArray) (l : ℕ) (hx : x.shape = batch ++ [2 * l + 1]) (cart : Bool) (s : String) (hs : s ∈ normNames) :
    ∃ (t t' : NdArray) (e : ℕ → NdArray),
      irrepsToTensor (runLut (tcKind conversionMatrices) ops freshTensorInstall).1 o x l cart s = .ok t ∧
      irrepsToTensor disk o' x l cart s = .ok t' ∧ t.shape = t'.shape ∧
      (∀ k < 2 * l + 1, irrepsToTensor disk o' (unitIrrep l k) l cart s = .ok (e k)) ∧
      ∀ b, InBounds b batch → ∀ α, InBounds α (tensorAxes l) →
        |t.val (b ++ α) - t'.val (b ++ α)| ≤
          2⁻¹ ^ 52 * ∑ k ∈ range (2 * l + 1), |x.val (b ++ [k])| * |(e k).val α| := by
  have h1 := generate_tensor_ok (run_tensor ops freshTensorInstall_shipped hops).2 o l
  obtain ⟨t, ht, hts, htv⟩ := irrepsToTensor_conv h1 batch x hx cart s hs
  have h2 := generate_exact hd o' l
  obtain ⟨t', ht', hts', htv'⟩ := irrepsToTensor_conv h2 batch x hx cart s hs
  choose e he hes hev using fun k => irrepsToTensor_conv h2 [] (unitIrrep l k) rfl cart s hs
  refine ⟨t, t', e, ht, ht', by rw [hts, hts'], fun k _ => he k, fun b hb α hα => ?_⟩
  obtain ⟨α, hl, rfl⟩ := (inBounds_tensorAxes _ _).mp hα
  obtain ⟨i, hi, hp⟩ := exists_stored l α hl
  rw [htv b α hl i hi hp, htv' b α hl i hi hp, ← sum_sub_distrib, mul_sum]
  refine (abs_sum_le_sum_abs _ _).trans (sum_le_sum fun k hk => ?_)
  have hk' := hev k [] α hl i hi hp
  rw [List.nil_append, sum_eq_single k (fun k' _ hne => by
    rw [show (unitIrrep l k).val ([] ++ [k']) = 0 from if_neg (by simpa using hne), zero_mul])
    (fun h => absurd hk h), show (unitIrrep l k).val ([] ++ [k]) = 1 from if_pos rfl, one_mul] at hk'
  rw [hk', ← mul_sub, ← sub_div, abs_mul, abs_div, abs_div]
  have hn := abs_pos.mpr (normConstant_pos s l).ne'
  have h := (shippedConv_near l).1 (rowOf cart l k) i
  have h' : |(shippedConv l).1 (rowOf cart l k) i - matrixArray (s2tMatrix l) (rowOf cart l k) i| / |normConstant s l| ≤
      2⁻¹ ^ 52 * (|matrixArray (s2tMatrix l) (rowOf cart l k) i| / |normConstant s l|) := by
    rw [← mul_div_assoc]
    exact div_le_div_of_nonneg_right h hn.le
  calc _ ≤ |x.val (b ++ [k])| * (2⁻¹ ^ 52 * (|matrixArray (s2tMatrix l) (rowOf cart l k) i| / |normConstant s l|)) :=
        mul_le_mul_of_nonneg_left h' (abs_nonneg _)
    _ = _ := by ring

/-! ## Non-vacuity -/

/-- Requesting degree 17 with a cache, crashing, and requesting degree 3 again is a history of the theorems. -/
example : ∀ op ∈ [LutOp.setCache (some 1), .request 17 .success, .crash 20 .openFails, .request 3 .success, .remove 1],
    Clean op := by
  simp [Clean]

/-- An entry of the shipped matrix of degree two: `1 / √3`, rounded. -/
example : sparseArray shippedS2t2 0 1 = 1300077228592327 / 2 ^ 51 := by
  unfold sparseArray shippedS2t2
  simp [ShippedEntry.value]

/-- A round trip of an irrep of degree two. -/
example : ∃ t y, irrepsToTensor freshTensorInstall .success ⟨[5], fun idx => idx.getD 0 0 + 1⟩ (2 : ℕ) true "4pi" = .ok t ∧
    tensorToIrreps freshTensorInstall .success t (2 : ℕ) true "4pi" = .ok y ∧ y.shape = [5] ∧
      |y.val [4] - 5| ≤ 2⁻¹ ^ 46 * 5 := by
  obtain ⟨t, y, h1, h2, h3, h4⟩ := C82_roundtrip [] [] (by simp) (by simp) .success .success []
    ⟨[5], fun idx => idx.getD 0 0 + 1⟩ 2 rfl true "4pi" (by decide)
  refine ⟨t, y, h1, h2, h3, ?_⟩
  have := h4 [] .nil 5 (fun k hk => by
    show |((k : ℕ) : ℝ) + 1| ≤ 5
    rw [abs_of_nonneg (by positivity)]
    have : (k : ℝ) + 1 ≤ 5 := by exact_mod_cast (by omega : k + 1 ≤ 5)
    exact this) 4 (by omega)
  have e : (4 : ℝ) + 1 = 5 := by norm_num
  simpa [e] using this

end E3x
