import Verif.Lemmas.HarmonicsFloat
import Verif.Spec.HarmonicsFloat
import Verif.Props.ShippedTables

/-!
# C84: spherical harmonics in floating-point arithmetic
-/

namespace E3x

open FloatFormat Spec Finset Coefficients

variable {F : FloatFormat}

theorem tableColumn_spec (cart : Bool) {L j : ℕ} (hj : j < (L + 1) ^ 2) :
    degreeOf (tableColumn cart L j) = degreeOf j ∧ Spec.orderOf (tableColumn cart L j) = componentOrder cart j := by
  cases cart
  · exact ⟨rfl, rfl⟩
  · have hb := cartesianOrderOf_bounds j
    have e : tableColumn true L j = lmIndex (degreeOf j) (cartesianOrderOf j) := by
      unfold tableColumn
      rw [if_pos rfl, List.getD, cartPerm_get L j hj, Option.getD_some]
    rw [e]
    exact ⟨lmIndex_degree _ _ hb, lmIndex_order _ _ hb⟩

/-- the real numbers which the floating-point numbers approximate -/
noncomputable def harmonicReals (u : Fin 3 → ℝ) (t : ℕ → ℝ) (c : ℝ) : HarmonicEntry → ℝ
  | .coordinate k => u k
  | .table i => t i
  | .constant => c

theorem harmonicFloats_error (hp : 1 ≤ F.p) (u : Fin 3 → ℝ) (t : ℕ → ℝ) (c : ℝ) (k : HarmonicEntry) (b : ℝ)
    (h : harmonicFloats F (fun k => .num (u k)) t c k = .num b) :
    ErrBound F (harmonicCount k) (harmonicReals u t c k) b |harmonicReals u t c k| (max 1 |harmonicReals u t c k|) := by
  cases k with
  | coordinate k =>
    injection h with h
    subst h
    exact ErrBound.exact _
  | table i => exact ErrBound.entry (round_num_error hp h).1
  | constant => exact ErrBound.entry (round_num_error hp h).1

section

variable {L : ℕ} {cart : Bool} {s : String} {table : SHTable} {τ η c : ℝ} {j : ℕ}

theorem exact_column (hj : j < (L + 1) ^ 2) (i : ℕ) : (shTable sphTerms L).cm (i, tableColumn cart L j) =
    rowCoefficient (monomials monomialPowers L) (sphTerms (degreeOf j) (componentOrder cart j)) i := by
  obtain ⟨h1, h2⟩ := tableColumn_spec cart hj
  have hl : degreeOf j ≤ L := (deg_le_iff j L).mpr hj
  rw [shTable_cm, h1, h2, if_pos hl]

theorem abs_column (hT : AccurateTable τ L table) (hj : j < (L + 1) ^ 2) (i : ℕ) :
    |table.cm (i, tableColumn cart L j)| ≤
      (1 + τ) * |rowCoefficient (monomials monomialPowers L) (sphTerms (degreeOf j) (componentOrder cart j)) i| := by
  have h := hT.2 i (tableColumn cart L j)
  rw [exact_column hj] at h
  have := abs_add_le (table.cm (i, tableColumn cart L j) -
    rowCoefficient (monomials monomialPowers L) (sphTerms (degreeOf j) (componentOrder cart j)) i)
    (rowCoefficient (monomials monomialPowers L) (sphTerms (degreeOf j) (componentOrder cart j)) i)
  rw [sub_add_cancel] at this
  linarith

/-- the sum of the absolute values of the terms -/
theorem sum_abs_terms (hT : AccurateTable τ L table) (hτ : 0 ≤ τ) (hj : j < (L + 1) ^ 2) (u : Fin 3 → ℝ) :
    ∑ i ∈ range (totalCartMonomials L), monomialValue (fun k => |u k|) (table.ls i) * |table.cm (i, tableColumn cart L j)| ≤
      (1 + τ) * (harmonicScale (degreeOf j) * Spec.length u ^ degreeOf j) := by
  have h := abs_rows L (degreeOf j) (componentOrder cart j) ((deg_le_iff j L).mpr hj) (componentOrder_bounds cart j) u
  refine le_trans ?_ (mul_le_mul_of_nonneg_left h (by linarith))
  rw [mul_sum]
  refine sum_le_sum fun i _ => ?_
  rw [hT.1, shTable_ls]
  have hm : 0 ≤ monomialValue (fun k => |u k|) ((monomials monomialPowers L).getD i []) := by
    rw [← monomialValue_abs]
    exact abs_nonneg _
  calc _ ≤ monomialValue (fun k => |u k|) ((monomials monomialPowers L).getD i []) * _ :=
        mul_le_mul_of_nonneg_left (abs_column (cart := cart) hT hj i) hm
    _ = _ := by ring

/-- the error of the table and of the constant -/
theorem table_error (hT : AccurateTable τ L table) (hτ : 0 ≤ τ) (hη : 0 ≤ η) (hj : j < (L + 1) ^ 2)
    (hc : |c - normConstant s (degreeOf j)| ≤ η * normConstant s (degreeOf j)) (u : Fin 3 → ℝ) :
    |∑ i ∈ range (totalCartMonomials L), monomialValue u (table.ls i) * (table.cm (i, tableColumn cart L j) * c) -
        harmonics L cart s u j| ≤
      ((1 + τ) * (1 + η) - 1) * (normConstant s (degreeOf j) * (harmonicScale (degreeOf j) * Spec.length u ^ degreeOf j)) := by
  have hn := (normConstant_pos s (degreeOf j)).le
  have h := abs_rows L (degreeOf j) (componentOrder cart j) ((deg_le_iff j L).mpr hj) (componentOrder_bounds cart j) u
  unfold harmonics
  rw [if_pos hj, ← sum_sh_row L (degreeOf j) (componentOrder cart j) ((deg_le_iff j L).mpr hj) (componentOrder_bounds cart j) u,
    mul_sum, ← sum_sub_distrib]
  have hk : 0 ≤ (1 + τ) * (1 + η) - 1 := by nlinarith [mul_nonneg hτ hη]
  refine (abs_sum_le_sum_abs _ _).trans (le_trans ?_ (mul_le_mul_of_nonneg_left (mul_le_mul_of_nonneg_left h hn) hk))
  rw [mul_sum, mul_sum]
  refine sum_le_sum fun i hi => ?_
  rw [mem_range] at hi
  have hrow := row_mem hi
  rw [hT.1, shTable_ls, cartesianMonomial_eq u (powers_mem_monomials (by omega) hrow).2]
  have ht := hT.2 i (tableColumn cart L j)
  have ha := abs_column (cart := cart) hT hj i
  rw [exact_column hj] at ht
  set p := (monomials monomialPowers L).getD i []
  set e := rowCoefficient (monomials monomialPowers L) (sphTerms (degreeOf j) (componentOrder cart j)) i
  set t := table.cm (i, tableColumn cart L j)
  set n := normConstant s (degreeOf j)
  rw [show monomialValue u p * (t * c) - n * (monomialValue u p * e) = monomialValue u p * (t * (c - n) + (t - e) * n) by ring,
    abs_mul, monomialValue_abs]
  have hm : 0 ≤ monomialValue (fun k => |u k|) p := by
    rw [← monomialValue_abs]
    exact abs_nonneg _
  have key : |t * (c - n) + (t - e) * n| ≤ ((1 + τ) * (1 + η) - 1) * (n * |e|) := by
    have h1 := abs_add_le (t * (c - n)) ((t - e) * n)
    rw [abs_mul, abs_mul, abs_of_nonneg hn] at h1
    have h2 := mul_le_mul ha hc (abs_nonneg _) (mul_nonneg (by linarith) (abs_nonneg e))
    have h3 := mul_le_mul_of_nonneg_right ht hn
    nlinarith
  calc _ ≤ monomialValue (fun k => |u k|) p * (((1 + τ) * (1 + η) - 1) * (n * |e|)) := mul_le_mul_of_nonneg_left key hm
    _ = _ := by ring

/-- the sum of the products if all factors are at least one -/
theorem sum_max_terms (hT : AccurateTable τ L table) (hτ : 0 ≤ τ) (hj : j < (L + 1) ^ 2) {C : ℝ} (hc : |c| ≤ C) (u : Fin 3 → ℝ) {B : ℝ}
    (hB : Spec.length u ≤ B) :
    ∑ i ∈ range (totalCartMonomials L), monomialValue (fun k => max 1 |u k|) (table.ls i) *
        (max 1 |table.cm (i, tableColumn cart L j)| * max 1 |c|) ≤ harmonicSize τ L (degreeOf j) B C := by
  have hl : ∀ k, |u k| ≤ Spec.length u := by
    intro k
    apply Real.abs_le_sqrt
    rw [Fin.sum_univ_three]
    fin_cases k <;> simp <;> nlinarith [sq_nonneg (u 0), sq_nonneg (u 1), sq_nonneg (u 2)]
  have h3 : Spec.length (1 : Fin 3 → ℝ) = Real.sqrt 3 := by
    unfold Spec.length
    congr 1
    simp
  have hs := sum_abs_terms (cart := cart) hT hτ hj 1
  rw [h3] at hs
  have e1 : ∀ i, monomialValue (fun k => |(1 : Fin 3 → ℝ) k|) (table.ls i) = 1 := by
    intro i
    unfold monomialValue
    simp
  simp only [e1, one_mul] at hs
  have hC : max 1 |c| ≤ max 1 C := max_le_max le_rfl hc
  have hpos : (0 : ℝ) ≤ max 1 |c| := le_trans zero_le_one (le_max_left _ _)
  have hB1 : (0 : ℝ) ≤ max 1 B ^ L := pow_nonneg (le_trans zero_le_one (le_max_left _ _)) _
  calc _ ≤ ∑ i ∈ range (totalCartMonomials L), (max 1 B) ^ L * ((1 + |table.cm (i, tableColumn cart L j)|) * max 1 |c|) := by
        refine sum_le_sum fun i hi => ?_
        rw [mem_range] at hi
        refine mul_le_mul ?_ ?_ ?_ hB1
        · refine monomialValue_le (le_max_left _ _) (fun k => le_trans zero_le_one (le_max_left _ _))
            (fun k => max_le_max le_rfl ((hl k).trans hB)) ?_
          rw [hT.1, shTable_ls]
          exact row_sum hi
        · refine mul_le_mul_of_nonneg_right (max_le ?_ ?_) hpos
          · have := abs_nonneg (table.cm (i, tableColumn cart L j)); linarith
          · linarith
        · exact mul_nonneg (le_trans zero_le_one (le_max_left _ _)) hpos
    _ = max 1 B ^ L * ((totalCartMonomials L + ∑ i ∈ range (totalCartMonomials L), |table.cm (i, tableColumn cart L j)|) * max 1 |c|) := by
        rw [← mul_sum, ← sum_mul, sum_add_distrib]
        simp
    _ ≤ _ := by
        unfold harmonicSize
        have h0 : (0 : ℝ) ≤ ∑ i ∈ range (totalCartMonomials L), |table.cm (i, tableColumn cart L j)| := sum_nonneg fun _ _ => abs_nonneg _
        have hN : (0 : ℝ) ≤ (totalCartMonomials L : ℝ) := Nat.cast_nonneg _
        refine mul_le_mul_of_nonneg_left (mul_le_mul (by linarith) hC hpos (by linarith)) hB1

/-- **C84 (accuracy).** Let the lookup table have relative errors of at most `τ` and the constant of the normalisation one of at
most `η`.  In every order of evaluation in which a product undergoes at most `d` additions, `n = L + d + 6` roundings are passed,
and component `j` (of degree `l`) computed by `spherical_harmonics(r, L, r_is_normalized=True)` differs from the exact one at
most by `(1 + unit)ⁿ (1 + τ) (1 + η) - 1` times the constant of the normalisation times `√(binomial(2l, l) / 2ˡ) ‖r‖ˡ`; if there
is underflow, a multiple of the smallest positive normal number is added. -/
theorem C84_accuracy (hp : 1 ≤ F.p) (L : ℕ) (cart : Bool) (s : String) (hs : s ∈ normNames) (table : SHTable) (τ : ℝ) (hτ : 0 ≤ τ)
    (hT : AccurateTable τ L table) (constant : ℕ → ℝ) (η : ℝ) (hη : 0 ≤ η)
    (hc : ∀ l ≤ L, |constant l - normConstant s l| ≤ η * normConstant s l) (tiny : ℝ) (disk : Disk SHCompressed)
    (hd : ValidDisk (shKind sphTerms) (shTable sphTerms) disk) (outcome : SaveOutcome) {ι : Type} [Fintype ι] (r : ι → Fin 3 → ℝ) :
    ∃ Y, sphericalHarmonics tiny disk outcome r L true cart s = .ok Y ∧ ∀ (b : ι) (j d : ℕ) (y : ℝ), j < (L + 1) ^ 2 →
      SphericalHarmonicsFloat F table constant L cart (fun k => .num (r b k)) j d (.num y) →
      |y - Y b j| ≤ ((1 + F.unit) ^ (L + 6 + d) * ((1 + τ) * (1 + η)) - 1) *
          (normConstant s (degreeOf j) * (harmonicScale (degreeOf j) * Spec.length (r b) ^ degreeOf j)) +
        (1 + F.unit) ^ (L + 6 + d) * ((1 + F.tiny) ^ (L + 6 + d) - 1) *
          harmonicSize τ L (degreeOf j) (Spec.length (r b)) ((1 + η) * normConstant s (degreeOf j)) := by
  have e := sphericalHarmonics_eq tiny disk hd outcome r L true cart s
  rw [if_pos hs] at e
  refine ⟨_, e, fun b j d y hj hy => ?_⟩
  obtain ⟨e, he, hv⟩ := hy
  have hcol : (tableColumn cart L j).sqrt = degreeOf j := (tableColumn_spec cart hj).1
  rw [hcol] at hv
  set c := constant (degreeOf j)
  set u := r b
  set t : ℕ → ℝ := fun i => table.cm (i, tableColumn cart L j)
  have hc' : |c - normConstant s (degreeOf j)| ≤ η * normConstant s (degreeOf j) := hc _ ((deg_le_iff j L).mpr hj)
  have hn := (normConstant_pos s (degreeOf j)).le
  have hca : |c| ≤ (1 + η) * normConstant s (degreeOf j) := by
    have := abs_add_le (c - normConstant s (degreeOf j)) (normConstant s (degreeOf j))
    rw [sub_add_cancel, abs_of_nonneg hn] at this
    linarith
  obtain ⟨h1, h2, -⟩ := he.spec (L := L) (fun i hi => by
    rw [hT.1, shTable_ls]
    exact row_sum (List.mem_range.mp hi))
  have hb := (arith_error_from hp harmonicCount (harmonicReals u t c) _ (harmonicFloats_error hp u t c) e y hv.symm).mono h1
  have h3 := hb.err
  rw [h2, h2, h2] at h3
  simp only [list_sum_range] at h3
  set θ := (1 + F.unit) ^ (L + 6 + d)
  set ω := (1 + F.tiny) ^ (L + 6 + d)
  have hθ : 1 ≤ θ := ErrBound.pow_unit _
  have hω : 1 ≤ ω := ErrBound.pow_tiny _
  have hA : ∑ i ∈ range (totalCartMonomials L), monomialValue (fun k => |u k|) (table.ls i) * (|t i| * |c|) ≤
      (1 + τ) * (1 + η) * (normConstant s (degreeOf j) * (harmonicScale (degreeOf j) * Spec.length u ^ degreeOf j)) := by
    have h := sum_abs_terms (cart := cart) hT hτ hj u
    have h0 : 0 ≤ (1 + τ) * (harmonicScale (degreeOf j) * Spec.length u ^ degreeOf j) :=
      mul_nonneg (by linarith) (mul_nonneg (Real.sqrt_nonneg _) (pow_nonneg (Real.sqrt_nonneg _) _))
    calc _ = (∑ i ∈ range (totalCartMonomials L), monomialValue (fun k => |u k|) (table.ls i) * |t i|) * |c| := by
          rw [sum_mul]
          exact sum_congr rfl fun _ _ => by ring
      _ ≤ _ := mul_le_mul h hca (abs_nonneg _) h0
      _ = _ := by ring
  have hM := sum_max_terms (cart := cart) hT hτ hj hca u (le_refl (Spec.length u))
  have hE := table_error (cart := cart) hT hτ hη hj hc' u
  have s1 := mul_le_mul_of_nonneg_left hA (by linarith : 0 ≤ θ - 1)
  have s2 := mul_le_mul_of_nonneg_left hM (by nlinarith : 0 ≤ θ * (ω - 1))
  have tri := abs_sub_le y (∑ i ∈ range (totalCartMonomials L), monomialValue u (table.ls i) * (t i * c)) (harmonics L cart s u j)
  have h3' : |y - ∑ i ∈ range (totalCartMonomials L), monomialValue u (table.ls i) * (t i * c)| ≤
      (θ - 1) * (∑ i ∈ range (totalCartMonomials L), monomialValue (fun k => |u k|) (table.ls i) * (|t i| * |c|)) +
      θ * (ω - 1) * ∑ i ∈ range (totalCartMonomials L), monomialValue (fun k => max 1 |u k|) (table.ls i) *
        (max 1 |t i| * max 1 |c|) := h3
  change |y - harmonics L cart s u j| ≤ _
  refine tri.trans ((add_le_add (h3'.trans (add_le_add s1 s2)) hE).trans (le_of_eq ?_))
  ring

/-- **C84 (no overflow).** If the sum of the absolute values of all factors and products, enlarged by the roundings, does not exceed
the largest finite number, then every evaluation gives a finite number. -/
theorem C84_finite (hF : F.Proper) (L : ℕ) (cart : Bool) (s : String) (table : SHTable) (τ : ℝ) (hτ : 0 ≤ τ)
    (hT : AccurateTable τ L table) (constant : ℕ → ℝ) (η : ℝ) (hη : 0 ≤ η)
    (hc : ∀ l ≤ L, |constant l - normConstant s l| ≤ η * normConstant s l) (r : Fin 3 → ℝ) (j d : ℕ) (hj : j < (L + 1) ^ 2)
    (hmax : ((1 + F.unit) * (1 + F.tiny)) ^ (L + 6 + d) *
      harmonicSize τ L (degreeOf j) (Spec.length r) ((1 + η) * normConstant s (degreeOf j)) ≤ F.maxFinite) (y : FloatVal)
    (hy : SphericalHarmonicsFloat F table constant L cart (fun k => .num (r k)) j d y) : ∃ x, y = .num x := by
  obtain ⟨e, he, rfl⟩ := hy
  have hcol : (tableColumn cart L j).sqrt = degreeOf j := (tableColumn_spec cart hj).1
  rw [hcol]
  set c := constant (degreeOf j)
  set t : ℕ → ℝ := fun i => table.cm (i, tableColumn cart L j)
  have hc' : |c - normConstant s (degreeOf j)| ≤ η * normConstant s (degreeOf j) := hc _ ((deg_le_iff j L).mpr hj)
  have hn := (normConstant_pos s (degreeOf j)).le
  have hca : |c| ≤ (1 + η) * normConstant s (degreeOf j) := by
    have := abs_add_le (c - normConstant s (degreeOf j)) (normConstant s (degreeOf j))
    rw [sub_add_cancel, abs_of_nonneg hn] at this
    linarith
  have hM := sum_max_terms (cart := cart) hT hτ hj hca r (le_refl (Spec.length r))
  have hβ : 1 ≤ (1 + F.unit) * (1 + F.tiny) := by
    have := unit_pos (F := F)
    have := tiny_pos (F := F)
    exact one_le_mul_of_one_le_of_one_le (by linarith) (by linarith)
  obtain ⟨h1, h2, h3⟩ := he.spec (L := L) (fun i hi => by
    rw [hT.1, shTable_ls]
    exact row_sum (List.mem_range.mp hi))
  have hval : unmasked (fun k => max 1 |harmonicReals r t c k|) e ≤
      harmonicSize τ L (degreeOf j) (Spec.length r) ((1 + η) * normConstant s (degreeOf j)) := by
    rw [h3, h2, list_sum_range]
    exact hM
  have hone := one_le_unmasked (harmonicReals r t c) e
  have hbound : ((1 + F.unit) * (1 + F.tiny)) ^ roundingsFrom harmonicCount e *
      unmasked (fun k => max 1 |harmonicReals r t c k|) e ≤ F.maxFinite :=
    (mul_le_mul (pow_le_pow_right₀ hβ h1) hval (by linarith) (by positivity)).trans hmax
  have hsize : harmonicSize τ L (degreeOf j) (Spec.length r) ((1 + η) * normConstant s (degreeOf j)) ≤ F.maxFinite := by
    refine le_trans ?_ hmax
    exact le_mul_of_one_le_left (by linarith) (one_le_pow₀ hβ)
  have hbig : ∀ x : ℝ, |x| ≤ harmonicSize τ L (degreeOf j) (Spec.length r) ((1 + η) * normConstant s (degreeOf j)) →
      ∃ b, F.round x = .num b := fun x hx => by
    obtain ⟨b, hb, -⟩ := round_spec hF (hx.trans hsize)
    exact ⟨b, hb⟩
  have h3' : Spec.length (1 : Fin 3 → ℝ) = Real.sqrt 3 := by
    unfold Spec.length
    congr 1
    simp
  have hs1 := sum_abs_terms (cart := cart) hT hτ hj 1
  rw [h3'] at hs1
  have e1 : ∀ i, monomialValue (fun k => |(1 : Fin 3 → ℝ) k|) (table.ls i) = 1 := by
    intro i
    unfold monomialValue
    simp
  simp only [e1, one_mul] at hs1
  have hB1 : (1 : ℝ) ≤ max 1 (Spec.length r) ^ L := one_le_pow₀ (le_max_left _ _)
  have hC1 : (1 : ℝ) ≤ max 1 ((1 + η) * normConstant s (degreeOf j)) := le_max_left _ _
  have hC2 : (1 + η) * normConstant s (degreeOf j) ≤ max 1 ((1 + η) * normConstant s (degreeOf j)) := le_max_right _ _
  have hN : (1 : ℝ) ≤ (totalCartMonomials L : ℝ) := by
    have : 0 < totalCartMonomials L := by
      rw [← monomials_length_cart]
      refine List.length_pos_of_mem (a := [0, 0, 0]) ((mem_monomials _ _ _).2 ⟨0, by omega, ?_⟩)
      exact ((C21_monomial_powers 0).1 _).2 ⟨0, 0, 0, rfl, rfl⟩
    exact_mod_cast this
  have hS : 0 ≤ (1 + τ) * (harmonicScale (degreeOf j) * Real.sqrt 3 ^ degreeOf j) :=
    mul_nonneg (by linarith) (mul_nonneg (Real.sqrt_nonneg _) (by positivity))
  refine arith_finite_from hF harmonicCount (harmonicReals r t c) _ (harmonicFloats_error hF.p_pos r t c) (fun k => ?_) e hbound
  cases k with
  | coordinate k => exact ⟨_, rfl⟩
  | table i =>
    refine hbig _ ?_
    change |table.cm (i, tableColumn cart L j)| ≤ _
    by_cases hi : i < totalCartMonomials L
    · have h5 : |table.cm (i, tableColumn cart L j)| ≤
          ∑ i ∈ range (totalCartMonomials L), |table.cm (i, tableColumn cart L j)| :=
        single_le_sum (f := fun i => |table.cm (i, tableColumn cart L j)|) (fun _ _ => abs_nonneg _) (mem_range.mpr hi)
      unfold harmonicSize
      have h6 := one_le_mul_of_one_le_of_one_le hB1 hC1
      calc _ ≤ (totalCartMonomials L + (1 + τ) * (harmonicScale (degreeOf j) * Real.sqrt 3 ^ degreeOf j)) * 1 := by linarith
        _ ≤ (totalCartMonomials L + (1 + τ) * (harmonicScale (degreeOf j) * Real.sqrt 3 ^ degreeOf j)) *
            (max 1 (Spec.length r) ^ L * max 1 ((1 + η) * normConstant s (degreeOf j))) :=
          mul_le_mul_of_nonneg_left h6 (by linarith)
        _ = _ := by ring
    · have h5 := hT.2 i (tableColumn cart L j)
      have h6 : (shTable sphTerms L).cm (i, tableColumn cart L j) = 0 := by
        rw [exact_column hj]
        unfold rowCoefficient
        rw [List.getElem?_eq_none (by rw [monomials_length_cart]; omega)]
      rw [h6] at h5
      simp only [sub_zero, abs_zero, mul_zero] at h5
      refine h5.trans ?_
      linarith
  | constant =>
    refine hbig _ ?_
    change |c| ≤ _
    unfold harmonicSize
    have h6 := one_le_mul_of_one_le_of_one_le hB1 (by linarith :
      (1 : ℝ) ≤ totalCartMonomials L + (1 + τ) * (harmonicScale (degreeOf j) * Real.sqrt 3 ^ degreeOf j))
    calc |c| ≤ 1 * max 1 ((1 + η) * normConstant s (degreeOf j)) := by linarith
      _ ≤ (max 1 (Spec.length r) ^ L * (totalCartMonomials L + (1 + τ) * (harmonicScale (degreeOf j) * Real.sqrt 3 ^ degreeOf j))) *
          max 1 ((1 + η) * normConstant s (degreeOf j)) := mul_le_mul_of_nonneg_right h6 (by linarith)
      _ = _ := by ring

/-- **C84 (table).** After every history of requests, failing saves, crashes, configured paths and removed files that starts from
a new installation, a request returns a table with relative errors of at most `2⁻⁵²`. -/
theorem C84_table (ops : List LutOp) (hops : ∀ op ∈ ops, Clean op) (L : ℕ) :
    ∃ table, (runLut (shKind sphTerms) (ops ++ [.request L .success]) freshInstall).2.getLast? = some (some (.ok table)) ∧
      AccurateTable (2⁻¹ ^ 52) L table := by
  obtain ⟨table, h1, h2⟩ := C80_coefficients
  refine ⟨table L, ?_, (h1 L).2.1, (h1 L).2.2⟩
  rw [h2 _ (by
    intro op hop
    rcases List.mem_append.mp hop with h | h
    · exact hops op h
    · rw [List.mem_singleton] at h
      subst h
      simp [Clean])]
  simp [expected]

theorem isProduct_exists (k : Fin 3) (m : ℕ) : ∃ e, IsProduct k 1 m e := by
  induction m with
  | zero => exact ⟨_, .one⟩
  | succ m ih =>
    obtain ⟨e, he⟩ := ih
    exact ⟨_, .mul he .coordinate⟩

theorem isMonomial_exists (p : List ℕ) : ∃ e, IsMonomial p e := by
  obtain ⟨x, hx⟩ := isProduct_exists 0 (p.getD 0 0)
  obtain ⟨y, hy⟩ := isProduct_exists 1 (p.getD 1 0)
  obtain ⟨z, hz⟩ := isProduct_exists 2 (p.getD 2 0)
  exact ⟨_, x, y, z, hx, hy, hz, rfl⟩

theorem isContraction_exists (ls : ℕ → List ℕ) (s : List ℕ) (hs : s ≠ []) : ∃ e, IsContraction ls (s.length - 1) s e := by
  induction s with
  | nil => exact absurd rfl hs
  | cons i s ih =>
    obtain ⟨m, hm⟩ := isMonomial_exists (ls i)
    cases s with
    | nil => exact ⟨_, .term hm⟩
    | cons k s =>
      obtain ⟨e, he⟩ := ih (by simp)
      exact ⟨_, .fma hm he⟩

/-- Evaluations exist: adding the products one after the other has depth `totalCartMonomials L - 1`. -/
theorem C84_evaluation (table : SHTable) (constant : ℕ → ℝ) (L : ℕ) (cart : Bool) (r : Fin 3 → FloatVal) (j : ℕ) :
    ∃ y, SphericalHarmonicsFloat F table constant L cart r j (totalCartMonomials L - 1) y := by
  have hN : 0 < totalCartMonomials L := by
    rw [← monomials_length_cart]
    refine List.length_pos_of_mem (a := [0, 0, 0]) ((mem_monomials _ _ _).2 ⟨0, by omega, ?_⟩)
    exact ((C21_monomial_powers 0).1 _).2 ⟨0, 0, 0, rfl, rfl⟩
  obtain ⟨e, he⟩ := isContraction_exists table.ls (List.range (totalCartMonomials L)) (by
    intro h
    have := congrArg List.length h
    simp at this
    omega)
  rw [List.length_range] at he
  exact ⟨_, e, he, rfl⟩

theorem harmonicScale_le {l : ℕ} (hl : l ≤ 4) : harmonicScale l ≤ 21 / 10 := by
  unfold harmonicScale
  rw [Real.sqrt_le_left (by norm_num)]
  interval_cases l <;> norm_num [Nat.choose]

/-- **C84 (example).** In `float32`, with the table of the package, degrees up to 4, `normalization='racah'` and vectors of length at
most one, every order of evaluation gives finite numbers which differ at most by `10⁻⁵` from the exact ones. -/
theorem C84_float32 (L : ℕ) (hL : L ≤ 4) (cart : Bool) (table : SHTable) (hT : AccurateTable (2⁻¹ ^ 52) L table) (tiny : ℝ)
    (disk : Disk SHCompressed) (hd : ValidDisk (shKind sphTerms) (shTable sphTerms) disk) (outcome : SaveOutcome) {ι : Type}
    [Fintype ι] (r : ι → Fin 3 → ℝ) (hr : ∀ b, Spec.length (r b) ≤ 1) :
    ∃ Y, sphericalHarmonics tiny disk outcome r L true cart "racah" = .ok Y ∧ ∀ (b : ι) (j d : ℕ) (y : FloatVal), j < (L + 1) ^ 2 →
      d ≤ 34 → SphericalHarmonicsFloat float32 table (fun _ => 1) L cart (fun k => .num (r b k)) j d y →
      ∃ x, y = .num x ∧ |x - Y b j| ≤ 10⁻¹ ^ 5 := by
  have hn : ∀ l, normConstant "racah" l = 1 := fun l => rfl
  have hc : ∀ l ≤ L, |(fun _ => (1 : ℝ)) l - normConstant "racah" l| ≤ 0 * normConstant "racah" l := fun l _ => by simp [hn]
  obtain ⟨Y, hY, h⟩ := C84_accuracy (F := float32) (by decide) L cart "racah" (by decide) table (2⁻¹ ^ 52) (by positivity) hT
    (fun _ => 1) 0 le_rfl hc tiny disk hd outcome r
  refine ⟨Y, hY, fun b j d y hj hdle hy => ?_⟩
  have hl : degreeOf j ≤ 4 := le_trans ((deg_le_iff j L).mpr hj) hL
  have hu : float32.unit = 1 / 2 ^ 24 := by
    unfold FloatFormat.unit float32
    norm_num
  have ht : float32.tiny = 1 / 2 ^ 126 := by
    unfold FloatFormat.tiny float32
    norm_num
  have hmf : (2 : ℝ) ^ 100 ≤ float32.maxFinite := by
    unfold FloatFormat.maxFinite float32
    norm_num
  have hF : float32.Proper := by
    constructor <;> simp [float32]
  have hlen0 : 0 ≤ Spec.length (r b) := Real.sqrt_nonneg _
  have hsc := harmonicScale_le hl
  have hsc0 : 0 ≤ harmonicScale (degreeOf j) := Real.sqrt_nonneg _
  have h3 : Real.sqrt 3 ^ degreeOf j ≤ 9 := by
    have h1 : (1 : ℝ) ≤ Real.sqrt 3 := by
      rw [Real.one_le_sqrt]; norm_num
    calc Real.sqrt 3 ^ degreeOf j ≤ Real.sqrt 3 ^ 4 := pow_le_pow_right₀ h1 hl
      _ = (Real.sqrt 3 ^ 2) ^ 2 := by ring
      _ = 9 := by rw [Real.sq_sqrt (by norm_num)]; norm_num
  have hN : (totalCartMonomials L : ℝ) ≤ 35 := by
    have : totalCartMonomials L ≤ 35 := by
      interval_cases L <;> decide
    exact_mod_cast this
  have hsize : harmonicSize (2⁻¹ ^ 52) L (degreeOf j) (Spec.length (r b)) ((1 + 0) * normConstant "racah" (degreeOf j)) ≤ 60 := by
    unfold harmonicSize
    rw [hn, max_eq_left (hr b), one_pow, one_mul, add_zero, one_mul, max_self, mul_one]
    have h5 : harmonicScale (degreeOf j) * Real.sqrt 3 ^ degreeOf j ≤ 21 / 10 * 9 :=
      mul_le_mul hsc h3 (by positivity) (by norm_num)
    have h6 : (1 + (2⁻¹ : ℝ) ^ 52) * (harmonicScale (degreeOf j) * Real.sqrt 3 ^ degreeOf j) ≤ (1 + 2⁻¹ ^ 52) * (21 / 10 * 9) :=
      mul_le_mul_of_nonneg_left h5 (by positivity)
    have h7 : (1 + (2⁻¹ : ℝ) ^ 52) * (21 / 10 * 9) ≤ 25 := by norm_num
    linarith
  have hsize0 : 0 ≤ harmonicSize (2⁻¹ ^ 52) L (degreeOf j) (Spec.length (r b)) ((1 + 0) * normConstant "racah" (degreeOf j)) := by
    unfold harmonicSize
    positivity
  have hθ : (1 + float32.unit) ^ (L + 6 + d) ≤ 1 + 27 / 10 ^ 7 := by
    calc (1 + float32.unit) ^ (L + 6 + d) ≤ (1 + float32.unit) ^ 44 :=
          pow_le_pow_right₀ (by rw [hu]; norm_num) (by omega)
      _ ≤ _ := by rw [hu]; norm_num
  have hω : (1 + float32.tiny) ^ (L + 6 + d) ≤ 1 + 1 / 2 ^ 100 := by
    calc (1 + float32.tiny) ^ (L + 6 + d) ≤ (1 + float32.tiny) ^ 44 :=
          pow_le_pow_right₀ (by rw [ht]; norm_num) (by omega)
      _ ≤ _ := by rw [ht]; norm_num
  have hθ1 : 1 ≤ (1 + float32.unit) ^ (L + 6 + d) := ErrBound.pow_unit _
  have hω1 : 1 ≤ (1 + float32.tiny) ^ (L + 6 + d) := ErrBound.pow_tiny _
  obtain ⟨x, rfl⟩ := C84_finite (F := float32) hF L cart "racah" table (2⁻¹ ^ 52) (by positivity) hT (fun _ => 1) 0 le_rfl hc (r b) j d hj
    (by
      rw [mul_pow]
      generalize (1 + float32.unit) ^ (L + 6 + d) = θ at hθ hθ1
      generalize (1 + float32.tiny) ^ (L + 6 + d) = ω at hω hω1
      calc θ * ω * _ ≤ (2 * 2) * 60 := mul_le_mul (mul_le_mul (by norm_num at hθ; linarith) (by norm_num at hω; linarith)
            (by linarith) (by norm_num)) hsize hsize0 (by norm_num)
        _ ≤ 2 ^ 100 := by norm_num
        _ ≤ _ := hmf) y hy
  refine ⟨x, rfl, (h b j d x hj hy).trans ?_⟩
  generalize (1 + float32.unit) ^ (L + 6 + d) = θ at hθ hθ1
  generalize (1 + float32.tiny) ^ (L + 6 + d) = ω at hω hω1
  generalize harmonicSize (2⁻¹ ^ 52) L (degreeOf j) (Spec.length (r b)) ((1 + 0) * normConstant "racah" (degreeOf j)) = S at hsize hsize0
  rw [hn, one_mul, add_zero, mul_one]
  have hp : harmonicScale (degreeOf j) * Spec.length (r b) ^ degreeOf j ≤ 21 / 10 * 1 :=
    mul_le_mul hsc (pow_le_one₀ hlen0 (hr b)) (pow_nonneg hlen0 _) (by norm_num)
  have h0 : 0 ≤ harmonicScale (degreeOf j) * Spec.length (r b) ^ degreeOf j := mul_nonneg hsc0 (pow_nonneg hlen0 _)
  have a1 : θ * (1 + 2⁻¹ ^ 52) - 1 ≤ 28 / 10 ^ 7 := by
    have := mul_le_mul_of_nonneg_right hθ (by positivity : (0 : ℝ) ≤ 1 + 2⁻¹ ^ 52)
    have h9 : (1 + 27 / 10 ^ 7 : ℝ) * (1 + 2⁻¹ ^ 52) - 1 ≤ 28 / 10 ^ 7 := by norm_num
    linarith
  have a2 : 0 ≤ θ * (1 + 2⁻¹ ^ 52) - 1 := by
    have := mul_le_mul hθ1 (by norm_num : (1 : ℝ) ≤ 1 + 2⁻¹ ^ 52) zero_le_one (by linarith)
    linarith
  have b1 : θ * (ω - 1) ≤ 2 * (1 / 2 ^ 100) :=
    mul_le_mul (by norm_num at hθ; linarith) (by linarith) (by linarith) (by norm_num)
  calc _ ≤ 28 / 10 ^ 7 * (21 / 10 * 1) + 2 * (1 / 2 ^ 100) * 60 :=
        add_le_add (mul_le_mul a1 hp h0 (by norm_num)) (mul_le_mul b1 hsize hsize0 (by norm_num))
    _ ≤ _ := by norm_num

/-- The hypotheses can be met: the exact table, or by `C84_table` the one of a new installation. -/
example (L : ℕ) : AccurateTable (2⁻¹ ^ 52) L (shTable sphTerms L) :=
  ⟨rfl, fun i j => by rw [sub_self, abs_zero]; positivity⟩

example : ∃ y, SphericalHarmonicsFloat float32 (shTable sphTerms 4) (fun _ => 1) 4 true (fun k => .num (![1 / 2, 3 / 4, 0] k)) 17 34 y :=
  C84_evaluation _ _ 4 true _ 17

end

end E3x
