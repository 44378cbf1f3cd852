import Verif.Lemmas.TensorAmplify
import Verif.Spec.ShippedTensors

/-!
# The shipped table of tensor-conversion matrices
-/

namespace E3x.Coefficients

open Spec Finset

/-- the matrices of all degrees: those of the archive, then exact ones -/
noncomputable def shippedConv (l : ℕ) : (ℕ → ℕ → ℝ) × (ℕ → ℕ → ℝ) :=
  if l ≤ 15 then (sparseArray (shippedS2t.getD l []), sparseArray (shippedT2s.getD l [])) else conversionMatrices l

theorem shipped_all (l : ℕ) (hl : l ≤ 15) : ∃ rows inv den,
    checkDegree l rows inv den (shippedS2t.getD l []) (shippedT2s.getD l []) = true ∧
    (famp 15 ((l + 1) * (l + 2) / 2) (2 * l + 1) (shippedS2t.getD l []) (shippedT2s.getD l []) &&
      famp 32 (2 * l + 1) ((l + 1) * (l + 2) / 2) (shippedT2s.getD l []) (shippedS2t.getD l [])) = true := by
  unfold shippedS2t shippedT2s
  interval_cases l
  · exact ⟨_, _, _, checkDegree0, famp0⟩
  · exact ⟨_, _, _, checkDegree1, famp1⟩
  · exact ⟨_, _, _, checkDegree2, famp2⟩
  · exact ⟨_, _, _, checkDegree3, famp3⟩
  · exact ⟨_, _, _, checkDegree4, famp4⟩
  · exact ⟨_, _, _, checkDegree5, famp5⟩
  · exact ⟨_, _, _, checkDegree6, famp6⟩
  · exact ⟨_, _, _, checkDegree7, famp7⟩
  · exact ⟨_, _, _, checkDegree8, famp8⟩
  · exact ⟨_, _, _, checkDegree9, famp9⟩
  · exact ⟨_, _, _, checkDegree10, famp10⟩
  · exact ⟨_, _, _, checkDegree11, famp11⟩
  · exact ⟨_, _, _, checkDegree12, famp12⟩
  · exact ⟨_, _, _, checkDegree13, famp13⟩
  · exact ⟨_, _, _, checkDegree14, famp14⟩
  · exact ⟨_, _, _, checkDegree15, famp15⟩

theorem shippedConv_near (l : ℕ) : EntrywiseClose (shippedConv l).1 (matrixArray (s2tMatrix l)) ∧
    EntrywiseClose (shippedConv l).2 (matrixArray (t2sMatrix l)) := by
  unfold shippedConv
  split_ifs with hl
  · obtain ⟨rows, inv, den, h, -⟩ := shipped_all l hl
    exact ⟨fun i j => (degree_sound h i j).1, fun i j => (degree_sound h i j).2⟩
  · rw [conversionMatrices_eq]
    constructor <;> (intro i j; rw [sub_self, abs_zero]; positivity)

theorem checkDegree_lengths {l : ℕ} {rows : List CertRow} {inv : List (List CertEntry)} {den : ℕ}
    {s2t t2s : List (List ShippedEntry)} (h : checkDegree l rows inv den s2t t2s = true) :
    s2t.length = 2 * l + 1 ∧ t2s.length = (l + 1) * (l + 2) / 2 := by
  unfold checkDegree at h
  simp only [Bool.and_eq_true, decide_eq_true_eq] at h
  obtain ⟨h0, hQ, hU, hG, hS, hT⟩ := h
  unfold checkS at hS
  rw [Bool.and_eq_true, Nat.beq_eq] at hS
  unfold checkT at hT
  rw [Bool.and_eq_true] at hT
  exact ⟨hS.1, (fzip_spec hT.1).1.trans (cert_sound h0 hQ hU hG).length⟩

theorem product_close {u a b a' b' : ℝ} (hu0 : 0 ≤ u) (hu : u ≤ 1 / 5) (ha : |a' - a| ≤ u * |a|) (hb : |b' - b| ≤ u * |b|) :
    |a' * b' - a * b| ≤ 4 * u * (|a'| * |b'|) := by
  have h : ∀ x x' : ℝ, |x' - x| ≤ u * |x| → |x| ≤ 5 / 4 * |x'| := by
    intro x x' hx
    have h1 : |x| ≤ |x'| + |x' - x| := by
      have := abs_sub x' (x' - x)
      simpa using this
    have h2 : u * |x| ≤ 1 / 5 * |x| := mul_le_mul_of_nonneg_right hu (abs_nonneg _)
    linarith
  have h1 := h a a' ha
  have h2 := h b b' hb
  have e : a' * b' - a * b = a' * (b' - b) + b * (a' - a) := by ring
  rw [e]
  refine (abs_add_le _ _).trans ?_
  rw [abs_mul, abs_mul]
  have h3 : |a'| * |b' - b| ≤ |a'| * (u * (5 / 4 * |b'|)) :=
    mul_le_mul_of_nonneg_left (hb.trans (mul_le_mul_of_nonneg_left h2 hu0)) (abs_nonneg _)
  have h4 : |b| * |a' - a| ≤ (5 / 4 * |b'|) * (u * (5 / 4 * |a'|)) :=
    mul_le_mul h2 (ha.trans (mul_le_mul_of_nonneg_left h1 hu0)) (abs_nonneg _) (by positivity)
  have h5 : 0 ≤ u * (|a'| * |b'|) := by positivity
  nlinarith

/-- the products of the matrices -/
theorem shipped_products (l : ℕ) :
    (∀ j < 2 * l + 1, ∑ k ∈ range (2 * l + 1), ∑ i ∈ range ((l + 1) * (l + 2) / 2),
      |(shippedConv l).1 k i * (shippedConv l).2 i j - matrixArray (s2tMatrix l) k i * matrixArray (t2sMatrix l) i j| ≤
        2⁻¹ ^ 46) ∧
    ∀ j < (l + 1) * (l + 2) / 2, ∑ i ∈ range ((l + 1) * (l + 2) / 2), ∑ k ∈ range (2 * l + 1),
      |(shippedConv l).2 i k * (shippedConv l).1 k j - matrixArray (t2sMatrix l) i k * matrixArray (s2tMatrix l) k j| ≤
        2⁻¹ ^ 45 := by
  by_cases hl : l ≤ 15
  · obtain ⟨h1, h2⟩ := shippedConv_near l
    obtain ⟨rows, inv, den, hc, hf⟩ := shipped_all l hl
    rw [Bool.and_eq_true] at hf
    obtain ⟨l1, l2⟩ := checkDegree_lengths hc
    have f1 := famp_sound hf.1
    have f2 := famp_sound hf.2
    rw [l1] at f1
    rw [l2] at f2
    have e1 : (shippedConv l).1 = sparseArray (shippedS2t.getD l []) := by unfold shippedConv; rw [if_pos hl]
    have e2 : (shippedConv l).2 = sparseArray (shippedT2s.getD l []) := by unfold shippedConv; rw [if_pos hl]
    rw [← e1, ← e2] at f1 f2
    have hu : (2⁻¹ : ℝ) ^ 52 ≤ 1 / 5 := by norm_num
    constructor
    · intro j hj
      have : ∑ k ∈ range (2 * l + 1), ∑ i ∈ range ((l + 1) * (l + 2) / 2),
          |(shippedConv l).1 k i * (shippedConv l).2 i j - matrixArray (s2tMatrix l) k i * matrixArray (t2sMatrix l) i j| ≤
          4 * 2⁻¹ ^ 52 * ∑ k ∈ range (2 * l + 1), ∑ i ∈ range ((l + 1) * (l + 2) / 2),
            |(shippedConv l).1 k i| * |(shippedConv l).2 i j| := by
        rw [mul_sum]
        refine sum_le_sum fun k _ => ?_
        rw [mul_sum]
        exact sum_le_sum fun i _ => product_close (by positivity) hu (h1 k i) (h2 i j)
      refine this.trans ((mul_le_mul_of_nonneg_left (f1 j hj) (by positivity)).trans ?_)
      norm_num
    · intro j hj
      have : ∑ i ∈ range ((l + 1) * (l + 2) / 2), ∑ k ∈ range (2 * l + 1),
          |(shippedConv l).2 i k * (shippedConv l).1 k j - matrixArray (t2sMatrix l) i k * matrixArray (s2tMatrix l) k j| ≤
          4 * 2⁻¹ ^ 52 * ∑ i ∈ range ((l + 1) * (l + 2) / 2), ∑ k ∈ range (2 * l + 1),
            |(shippedConv l).2 i k| * |(shippedConv l).1 k j| := by
        rw [mul_sum]
        refine sum_le_sum fun i _ => ?_
        rw [mul_sum]
        exact sum_le_sum fun k _ => product_close (by positivity) hu (h2 i k) (h1 k j)
      refine this.trans ((mul_le_mul_of_nonneg_left (f2 j hj) (by positivity)).trans ?_)
      norm_num
  · have e : shippedConv l = (matrixArray (s2tMatrix l), matrixArray (t2sMatrix l)) := by
      unfold shippedConv
      rw [if_neg hl, conversionMatrices_eq]
    rw [e]
    constructor <;> (intro j _; simp only [sub_self, abs_zero, sum_const_zero]; positivity)

/-! ## Histories -/

theorem shippedTensor_rows {l : ℕ} (hl : l < 15 + 1) : shippedTensorConversion.s2t l = some (shippedConv l).1 ∧
    shippedTensorConversion.t2s l = some (shippedConv l).2 := by
  have h1 : l < shippedS2t.length := hl
  have h2 : l < shippedT2s.length := hl
  unfold shippedConv
  rw [if_pos (by omega)]
  show (shippedS2t[l]?).map sparseArray = _ ∧ (shippedT2s[l]?).map sparseArray = _
  rw [List.getD_eq_getElem?_getD, List.getD_eq_getElem?_getD, List.getElem?_eq_getElem h1, List.getElem?_eq_getElem h2]
  exact ⟨rfl, rfl⟩

attribute [local irreducible] shippedS2t shippedT2s shippedTensorConversion shippedConv

theorem tcExtend_shipped (lstart L : ℕ) (h : 16 ≤ lstart) :
    tcExtend conversionMatrices lstart L = tcExtend shippedConv lstart L := by
  funext t
  unfold tcExtend
  have : (List.range' lstart (L + 1 - lstart)).map conversionMatrices =
      (List.range' lstart (L + 1 - lstart)).map shippedConv := by
    refine List.map_congr_left fun l hl => ?_
    rw [List.mem_range'_1] at hl
    unfold shippedConv
    rw [if_neg (by omega)]
  rw [this]

theorem shippedTensor_degree : shippedTensorConversion.maxDegree = ((15 : ℕ) : ℤ) := by
  unfold shippedTensorConversion
  rfl

theorem shippedTensor_load : tcLoad 15 shippedTensorConversion = .ok (((15 : ℕ) : ℤ), tcTable shippedConv 15) := by
  unfold tcLoad
  rw [shippedTensor_degree, if_neg (by omega)]
  simp only [Int.toNat_natCast, Nat.min_self]
  rw [tcLoad_fold shippedTensorConversion shippedConv (15 + 1) _ fun l hl => shippedTensor_rows hl]
  rfl

/-- A state reached with the shipped archive. -/
def TensorDisk (disk : Disk (TCCompressed (ℕ → ℕ → ℝ))) : Prop :=
  disk.package = .valid shippedTensorConversion ∧
    ValidDisk (tcKind shippedConv) (tcTable shippedConv) disk ∧
    ∀ path c, disk.files path = .valid c → 15 ≤ c.maxDegree

theorem shippedTensor_valid : ValidContent (tcKind shippedConv) (tcTable shippedConv) shippedTensorConversion :=
  Or.inr ⟨15, shippedTensor_degree, shippedTensor_load⟩

theorem tensor_loaded_degree {disk : Disk (TCCompressed (ℕ → ℕ → ℝ))} (hd : TensorDisk disk) (L : ℕ)
    {r : ℤ × TCTable (ℕ → ℕ → ℝ)} (hr : loadLookupTableFromDisk disk (tcLoad L) (tcEmpty L) = .ok r) : 15 ≤ r.1 := by
  have hc : ∀ c : TCCompressed (ℕ → ℕ → ℝ), 15 ≤ c.maxDegree → ∀ r, tcLoad L c = .ok r → 15 ≤ r.1 := by
    intro c hc r hr
    unfold tcLoad at hr
    rw [if_neg (by omega)] at hr
    split at hr
    · simp at hr
    · injection hr with hr
      rw [← hr]
      exact hc
  have hp : ∀ r, loadPackage disk.package (tcLoad L) (tcEmpty L) = .ok r → 15 ≤ r.1 := by
    intro r hr
    rw [hd.1] at hr
    unfold loadPackage at hr
    dsimp only at hr
    obtain ⟨r', h1, -, -⟩ := goodLoad_content (tc_correct shippedConv) shippedTensor_valid L
    have h1' : tcLoad L shippedTensorConversion = .ok r' := h1
    rw [h1'] at hr
    injection hr with hr
    rw [← hr]
    exact hc _ (le_of_eq shippedTensor_degree.symm) _ h1'
  unfold loadLookupTableFromDisk at hr
  split at hr
  · exact hp r hr
  · split at hr
    · exact hp r hr
    · rename_i c hcf
      exact hc c (hd.2.2 _ c hcf) r hr
    · simp at hr

theorem generate_tensor {disk : Disk (TCCompressed (ℕ → ℕ → ℝ))} (hd : TensorDisk disk) (L : ℤ) (outcome : SaveOutcome) :
    generateLookupTable (tcKind conversionMatrices) L outcome disk =
      generateLookupTable (tcKind shippedConv) L outcome disk := by
  unfold generateLookupTable
  split_ifs with hL
  · rfl
  · have h1 : (tcKind conversionMatrices).load = tcLoad := rfl
    have h2 : (tcKind shippedConv).load = tcLoad := rfl
    have h3 : (tcKind conversionMatrices).empty = tcEmpty := rfl
    have h4 : (tcKind shippedConv).empty = tcEmpty := rfl
    rw [h1, h2, h3, h4]
    cases hr : loadLookupTableFromDisk disk (tcLoad L.toNat) (tcEmpty L.toNat) with
    | error e => rfl
    | ok r =>
      obtain ⟨n, t⟩ := r
      have hn : 15 ≤ n := tensor_loaded_degree hd L.toNat hr
      dsimp only
      split_ifs with hc
      · rfl
      · have e : (tcKind conversionMatrices).extend (n + 1).toNat L.toNat t =
            (tcKind shippedConv).extend (n + 1).toNat L.toNat t :=
          congrFun (tcExtend_shipped (n + 1).toNat L.toNat (by omega)) t
        rw [e]
        rfl

theorem step_tensor {disk : Disk (TCCompressed (ℕ → ℕ → ℝ))} (hd : TensorDisk disk) (op : LutOp) :
    op.step (tcKind conversionMatrices) disk = op.step (tcKind shippedConv) disk := by
  cases op with
  | request L o => simp only [LutOp.step, generate_tensor hd]
  | crash L o => simp only [LutOp.step, generate_tensor hd]
  | setCache p => rfl
  | remove p => rfl

theorem generate_tensor_invariant {disk : Disk (TCCompressed (ℕ → ℕ → ℝ))} (hd : TensorDisk disk) (L : ℤ)
    (outcome : SaveOutcome) (ho : outcome ≠ .writeFails) :
    TensorDisk (generateLookupTable (tcKind shippedConv) L outcome disk).1 := by
  have hk := tc_correct shippedConv
  refine ⟨?_, generate_valid hk hd.2.1 L outcome ho, ?_⟩
  · rw [(generate_package _ _ _ _).1]
    exact hd.1
  · intro p c hc
    rcases lt_or_ge L 0 with h | h
    · rw [generate_negative _ _ h] at hc
      exact hd.2.2 p c hc
    · lift L to ℕ using h
      by_cases hL : L ≤ 15
      · have : (generateLookupTable (tcKind shippedConv) L outcome disk).1 = disk := by
          unfold generateLookupTable
          rw [if_neg (by omega)]
          cases hr : loadLookupTableFromDisk disk ((tcKind shippedConv).load (L : ℤ).toNat)
            ((tcKind shippedConv).empty (L : ℤ).toNat) with
          | error e => rfl
          | ok r =>
            obtain ⟨n, t⟩ := r
            have hn : 15 ≤ n := tensor_loaded_degree hd _ hr
            dsimp only
            rw [if_pos (by omega)]
        rw [this] at hc
        exact hd.2.2 p c hc
      · rcases (generate_spec hk hd.2.1 L outcome).2 with h | ⟨h, -⟩
        · rw [h] at hc
          exact hd.2.2 p c hc
        · rw [h] at hc
          unfold saveLookupTableToDisk at hc
          split at hc
          · exact hd.2.2 p c hc
          · rename_i q hq
            cases outcome with
            | success =>
              dsimp only at hc
              by_cases hpq : p = q
              · subst hpq
                rw [Function.update_self] at hc
                injection hc with hc
                rw [← hc]
                show (15 : ℤ) ≤ (L : ℤ)
                omega
              · rw [Function.update_of_ne hpq] at hc
                exact hd.2.2 p c hc
            | openFails => exact hd.2.2 p c hc
            | writeFails => exact absurd rfl ho

theorem step_tensor_invariant {disk : Disk (TCCompressed (ℕ → ℕ → ℝ))} (hd : TensorDisk disk) (op : LutOp)
    (hop : Clean op) : TensorDisk (op.step (tcKind shippedConv) disk).1 := by
  cases op with
  | request L o => exact generate_tensor_invariant hd L o hop
  | crash L o =>
    have := generate_tensor_invariant hd L o hop
    exact ⟨this.1, this.2.1, this.2.2⟩
  | setCache p => exact hd
  | remove p =>
    refine ⟨hd.1, step_valid (tc_correct shippedConv) hd.2.1 (.remove p) trivial, ?_⟩
    intro q c hc
    by_cases h : q = p
    · subst h
      simp [LutOp.step] at hc
    · simp only [LutOp.step, Function.update_of_ne h] at hc
      exact hd.2.2 q c hc

theorem run_tensor (ops : List LutOp) {disk : Disk (TCCompressed (ℕ → ℕ → ℝ))} (hd : TensorDisk disk)
    (hops : ∀ op ∈ ops, Clean op) :
    runLut (tcKind conversionMatrices) ops disk = runLut (tcKind shippedConv) ops disk ∧
      TensorDisk (runLut (tcKind conversionMatrices) ops disk).1 := by
  induction ops generalizing disk with
  | nil => exact ⟨rfl, hd⟩
  | cons op ops ih =>
    have hs := step_tensor hd op
    have hi := step_tensor_invariant hd op (hops op (by simp))
    have := ih hi (fun o ho => hops o (by simp [ho]))
    simp only [runLut, hs]
    rw [this.1]
    rw [this.1] at this
    exact ⟨rfl, this.2⟩

theorem freshTensorInstall_shipped : TensorDisk freshTensorInstall :=
  ⟨rfl, ⟨fun c hc => by injection hc with hc; rw [← hc]; exact shippedTensor_valid, fun _ => trivial⟩,
    fun _ _ h => by simp [freshTensorInstall] at h⟩

/-! ## Results -/

/-- a request in a state reached with the shipped archive -/
theorem generate_tensor_ok {disk : Disk (TCCompressed (ℕ → ℕ → ℝ))} (hd : TensorDisk disk) (outcome : SaveOutcome) (l : ℕ) :
    (generateLookupTable (tcKind conversionMatrices) (l : ℤ) outcome disk).2 = .ok (tcTable shippedConv l) := by
  rw [generate_tensor hd, generate_result (tc_correct _) hd.2.1, if_neg (by omega), Int.toNat_natCast]

theorem generate_exact {disk : Disk (TCCompressed (ℕ → ℕ → ℝ))}
    (hd : ValidDisk (tcKind conversionMatrices) (tcTable conversionMatrices) disk) (outcome : SaveOutcome) (l : ℕ) :
    (generateLookupTable (tcKind conversionMatrices) (l : ℤ) outcome disk).2 =
      .ok (tcTable (fun l => (matrixArray (s2tMatrix l), matrixArray (t2sMatrix l))) l) := by
  rw [generate_result (tc_correct _) hd, if_neg (by omega), Int.toNat_natCast,
    show conversionMatrices = fun l => (matrixArray (s2tMatrix l), matrixArray (t2sMatrix l)) from
      funext conversionMatrices_eq]

/-- What `irreps_to_tensor` returns. -/
theorem irrepsToTensor_conv {conv : ℕ → (ℕ → ℕ → ℝ) × (ℕ → ℕ → ℝ)} {disk : Disk (TCCompressed (ℕ → ℕ → ℝ))}
    {outcome : SaveOutcome} {l : ℕ}
    (hd : (generateLookupTable (tcKind conversionMatrices) (l : ℤ) outcome disk).2 = .ok (tcTable conv l))
    (batch : List ℕ) (x : NdArray) (hx : x.shape = batch ++ [2 * l + 1]) (cart : Bool) (s : String)
    (hs : s ∈ normNames) : ∃ t, irrepsToTensor disk outcome x l cart s = .ok t ∧ t.shape = batch ++ tensorAxes l ∧
      ∀ (b : List ℕ) (α : List (Fin 3)), α.length = l → ∀ (i : ℕ) (hi : i < (storedIndices l).length),
        ((storedIndices l)[i]).Perm α → t.val (b ++ tensorIndex l α) =
        ∑ k ∈ range (2 * l + 1), x.val (b ++ [k]) * ((conv l).1 (rowOf cart l k) i / normConstant s l) := by
  unfold irrepsToTensor
  rw [if_neg (by omega), hx, List.getLast?_concat]
  dsimp only
  rw [if_neg (by push_cast; omega), hd]
  dsimp only
  have hget : (tcTable conv l).s2t[(l : ℤ).toNat]? = some (conv l).1 := by
    rw [Int.toNat_natCast, tcTable]
    dsimp only
    rw [List.getElem?_map, List.getElem?_range (by omega), Option.map_some]
  rw [hget]
  dsimp only
  rw [Int.toNat_natCast, normalizationConstant_eq, if_pos hs]
  dsimp only
  refine ⟨_, rfl, expandTensor_shape batch _ l (numCartMonomials l) (by simp [matmulLast, hx]), fun b α hα i hi hp => ?_⟩
  rw [expandTensor_val _ l b α hα i hi hp, matmulLast_val]
  refine sum_congr rfl fun k hk => ?_
  have hk : k < 2 * l + 1 := mem_range.mp hk
  congr 1
  rw [← gather_row cart hk]
  cases cart <;> rfl

/-- What `tensor_to_irreps` returns. -/
theorem tensorToIrreps_conv {conv : ℕ → (ℕ → ℕ → ℝ) × (ℕ → ℕ → ℝ)} {disk : Disk (TCCompressed (ℕ → ℕ → ℝ))}
    {outcome : SaveOutcome} {l : ℕ}
    (hd : (generateLookupTable (tcKind conversionMatrices) (l : ℤ) outcome disk).2 = .ok (tcTable conv l))
    (batch : List ℕ) (x : NdArray) (hx : x.shape = batch ++ tensorAxes l) (cart : Bool) (s : String)
    (hs : s ∈ normNames) : ∃ y, tensorToIrreps disk outcome x l cart s = .ok y ∧ y.shape = batch ++ [2 * l + 1] ∧
      ∀ (b : List ℕ) (k : ℕ), k < 2 * l + 1 → y.val (b ++ [k]) =
        ∑ i ∈ range (numCartMonomials l), x.val (b ++ tensorIndex l ((storedIndices l).getD i [])) *
          ((conv l).2 i (rowOf cart l k) * normConstant s l) := by
  unfold tensorToIrreps
  rw [if_neg (by omega), hx, checkTensorShape_ok]
  dsimp only
  rw [hd]
  dsimp only
  have hget : (tcTable conv l).t2s[(l : ℤ).toNat]? = some (conv l).2 := by
    rw [Int.toNat_natCast, tcTable]
    dsimp only
    rw [List.getElem?_map, List.getElem?_range (by omega), Option.map_some]
  rw [hget]
  dsimp only
  rw [Int.toNat_natCast, normalizationConstant_eq, if_pos hs]
  dsimp only
  refine ⟨_, rfl, ?_, fun b k hk => ?_⟩
  · rw [matmulLast, compressTensor_shape batch x l hx]
    simp [numSphericalHarmonics]
  · rw [matmulLast_val]
    refine sum_congr rfl fun i hi => ?_
    rw [compressTensor_val x l b i (mem_range.mp hi)]
    congr 1
    rw [← gather_row cart hk]
    cases cart <;> rfl

theorem sum_rowOf' (cart : Bool) (l : ℕ) (f : ℕ → ℝ) :
    ∑ k ∈ range (2 * l + 1), f (rowOf cart l k) = ∑ k ∈ range (2 * l + 1), f k := by
  have h := sum_rowOf cart l fun i => f i
  rw [Fin.sum_univ_eq_sum_range f] at h
  refine Eq.trans (sum_congr rfl fun k hk => ?_) h
  rw [dif_pos (rowOf_lt cart (mem_range.mp hk))]

/-- the value of `tensor_to_irreps(irreps_to_tensor(x))` -/
theorem roundtrip_conv {conv : ℕ → (ℕ → ℕ → ℝ) × (ℕ → ℕ → ℝ)} {disk1 disk2 : Disk (TCCompressed (ℕ → ℕ → ℝ))}
    {o1 o2 : SaveOutcome} {l : ℕ}
    (hd1 : (generateLookupTable (tcKind conversionMatrices) (l : ℤ) o1 disk1).2 = .ok (tcTable conv l))
    (hd2 : (generateLookupTable (tcKind conversionMatrices) (l : ℤ) o2 disk2).2 = .ok (tcTable conv l))
    (batch : List ℕ) (x : NdArray) (hx : x.shape = batch ++ [2 * l + 1]) (cart : Bool) (s : String)
    (hs : s ∈ normNames) : ∃ t y, irrepsToTensor disk1 o1 x l cart s = .ok t ∧ tensorToIrreps disk2 o2 t l cart s = .ok y ∧
      t.shape = batch ++ tensorAxes l ∧ y.shape = batch ++ [2 * l + 1] ∧ ∀ (b : List ℕ) (k : ℕ), k < 2 * l + 1 → y.val (b ++ [k]) =
        ∑ k' ∈ range (2 * l + 1), x.val (b ++ [k']) * ∑ i ∈ range (numCartMonomials l),
          (conv l).1 (rowOf cart l k') i * (conv l).2 i (rowOf cart l k) := by
  obtain ⟨t, ht, hts, htv⟩ := irrepsToTensor_conv hd1 batch x hx cart s hs
  obtain ⟨y, hy, hys, hyv⟩ := tensorToIrreps_conv hd2 batch t hts cart s hs
  refine ⟨t, y, ht, hy, hts, hys, fun b k hk => ?_⟩
  have hn := (normConstant_pos s l).ne'
  rw [hyv b k hk, sum_congr rfl fun i hi => by
    obtain ⟨h1, h2, h3⟩ := stored_get l i (mem_range.mp hi)
    rw [htv b _ (by rw [h2, h3]) i h1 (by rw [h2]), sum_mul], sum_comm]
  refine sum_congr rfl fun k' _ => ?_
  rw [mul_sum]
  refine sum_congr rfl fun i _ => ?_
  field_simp

/-- the value of `irreps_to_tensor(tensor_to_irreps(x))` -/
theorem inverse_conv {conv : ℕ → (ℕ → ℕ → ℝ) × (ℕ → ℕ → ℝ)} {disk1 disk2 : Disk (TCCompressed (ℕ → ℕ → ℝ))}
    {o1 o2 : SaveOutcome} {l : ℕ}
    (hd1 : (generateLookupTable (tcKind conversionMatrices) (l : ℤ) o1 disk1).2 = .ok (tcTable conv l))
    (hd2 : (generateLookupTable (tcKind conversionMatrices) (l : ℤ) o2 disk2).2 = .ok (tcTable conv l))
    (batch : List ℕ) (x : NdArray) (hx : x.shape = batch ++ tensorAxes l) (cart : Bool) (s : String)
    (hs : s ∈ normNames) : ∃ y t, tensorToIrreps disk1 o1 x l cart s = .ok y ∧ irrepsToTensor disk2 o2 y l cart s = .ok t ∧
      y.shape = batch ++ [2 * l + 1] ∧ t.shape = batch ++ tensorAxes l ∧
      ∀ (b : List ℕ) (α : List (Fin 3)), α.length = l → ∀ (i : ℕ) (hi : i < (storedIndices l).length),
        ((storedIndices l)[i]).Perm α → t.val (b ++ tensorIndex l α) =
        ∑ i' ∈ range (numCartMonomials l), x.val (b ++ tensorIndex l ((storedIndices l).getD i' [])) *
          ∑ k ∈ range (2 * l + 1), (conv l).2 i' k * (conv l).1 k i := by
  obtain ⟨y, hy, hys, hyv⟩ := tensorToIrreps_conv hd1 batch x hx cart s hs
  obtain ⟨t, ht, hts, htv⟩ := irrepsToTensor_conv hd2 batch y hys cart s hs
  refine ⟨y, t, hy, ht, hys, hts, fun b α hα i hi hp => ?_⟩
  have hn := (normConstant_pos s l).ne'
  rw [htv b α hα i hi hp, sum_congr rfl fun k hk => by rw [hyv b k (mem_range.mp hk), sum_mul], sum_comm]
  refine sum_congr rfl fun i' _ => ?_
  rw [← sum_rowOf' cart l fun k => (conv l).2 i' k * (conv l).1 k i, mul_sum]
  refine sum_congr rfl fun k _ => ?_
  field_simp

/-- a difference of two weighted sums -/
theorem abs_sum_sub_le {ι : Type} (S : Finset ι) (x f g e : ι → ℝ) {B : ℝ} (hx : ∀ i ∈ S, |x i| ≤ B) (h : ∀ i ∈ S, |f i - g i| ≤ e i) :
    |∑ i ∈ S, x i * f i - ∑ i ∈ S, x i * g i| ≤ B * ∑ i ∈ S, e i := by
  rw [← sum_sub_distrib, mul_sum]
  refine (abs_sum_le_sum_abs _ _).trans (sum_le_sum fun i hi => ?_)
  rw [← mul_sub, abs_mul]
  exact mul_le_mul (hx i hi) (h i hi) (abs_nonneg _) ((abs_nonneg _).trans (hx i hi))

end E3x.Coefficients
