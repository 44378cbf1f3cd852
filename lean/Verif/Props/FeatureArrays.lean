import Verif.Lemmas.FeatureArrays
import Verif.Spec.FeatureArrays

/-!
# Properties of nn/features.py on whole arrays (C89)
-/

namespace E3x

open Spec NDArray

theorem featureShape_rep {x : NDArray ℝ} {batch : List ℕ} {ps : Bool} {k F : ℕ} (h : FeatureShape x.shape batch ps k F) :
    Rep x batch (if ps then 2 else 1) (k ^ 2) F fun b p i f => entry x (b ++ [p, i, f]) := Rep.mk_self h

theorem extract_featureShape {shape batch : List ℕ} {ps : Bool} {k F : ℕ} (h : FeatureShape shape batch ps k F) :
    extractMaxDegree shape = .ok ((k : ℤ) - 1) :=
  (C07_shape_check _ _).2 ⟨batch, _, _, _, h, by cases ps <;> simp, by omega, by push_cast; ring⟩

theorem featureShape_of_extract {shape : List ℕ} {L : ℤ} (h : extractMaxDegree shape = .ok L) :
    ∃ batch ps k F, FeatureShape shape batch ps k F ∧ L = (k : ℤ) - 1 := by
  obtain ⟨batch, s, n, f, h1, h2, h3, h4⟩ := (C07_shape_check _ _).1 h
  refine ⟨batch, s == 2, (L + 1).toNat, f, ?_, by omega⟩
  unfold FeatureShape
  have hn : n = (L + 1).toNat ^ 2 := by
    have : (n : ℤ) = ((L + 1).toNat : ℤ) ^ 2 := by rw [Int.toNat_of_nonneg (by omega)]; exact h4
    exact_mod_cast this
  rw [h1, hn]
  rcases h2 with rfl | rfl <;> simp

theorem featureShape_unique {shape batch batch' : List ℕ} {ps ps' : Bool} {k k' F F' : ℕ}
    (h : FeatureShape shape batch ps k F) (h' : FeatureShape shape batch' ps' k' F') :
    batch = batch' ∧ ps = ps' ∧ k = k' ∧ F = F' := by
  unfold FeatureShape at h h'
  rw [h] at h'
  obtain ⟨h1, h2⟩ := List.append_inj' h' (by simp)
  simp only [List.cons.injEq, and_true] at h2
  obtain ⟨a, b, c⟩ := h2
  refine ⟨h1, ?_, ?_, c⟩
  · cases ps <;> cases ps' <;> simp_all
  · exact Nat.pow_left_injective (n := 2) (by norm_num) b

theorem component_of_rep {x : NDArray ℝ} {batch : List ℕ} {ps : Bool} {k F : ℕ} {v : List ℕ → ℕ → ℕ → ℕ → ℝ}
    (h : Rep x batch (if ps then 2 else 1) (k ^ 2) F v) {b : List ℕ} (hb : InShape b batch) {p i f : ℕ} (hf : f < F) :
    component x b p i f =
      if k ^ 2 ≤ i ∨ 2 ≤ p then 0
      else if ps then v b p i f
      else if p = deg i % 2 then v b 0 i f else 0 := by
  unfold component
  rw [h.1, hb.length, getD_axis2, getD_axis3]
  have hdi : deg i = Nat.sqrt i := rfl
  rw [hdi]
  by_cases h1 : k ^ 2 ≤ i ∨ 2 ≤ p
  · rw [if_pos h1, if_pos h1]
  rw [if_neg h1, if_neg h1]
  cases ps
  · simp only [Bool.false_eq_true, if_false]
    rw [if_neg (by norm_num : ¬(1 : ℕ) = 2)]
    by_cases h3 : p = Nat.sqrt i % 2
    · rw [if_pos h3, if_pos h3]
      exact h.2 b hb 0 i f (by simp) (by omega) hf
    · rw [if_neg h3, if_neg h3]
  · simp only [if_true]
    exact h.2 b hb p i f (by simp; omega) (by omega) hf

/-- **C89 (change).** Changing the maximum degree and the type of features: an array with all components of degree at
most `m`, with or without pseudotensors. Every component that exists in the new array is that of the old array, zero if the old array does not have
it, for every index of the batch axes. -/
theorem C89_change (x : NDArray ℝ) (batch : List ℕ) (ps : Bool) (k F : ℕ) (hx : FeatureShape x.shape batch ps k F)
    (m : ℕ) (incl : Bool) :
    ∃ y, changeArray x (some m) (some incl) = .ok y ∧ FeatureShape y.shape batch incl (m + 1) F ∧
      ∀ b, InShape b batch → ∀ p i f, f < F → component y b p i f =
        if i < (m + 1) ^ 2 ∧ (incl = true ∨ p = Nat.sqrt i % 2) then component x b p i f else 0 := by
  have hr := featureShape_rep hx
  have e3 : x.ndim - 3 = batch.length := by rw [hr.ndim]; omega
  have e2 : x.ndim - 2 = batch.length + 1 := by rw [hr.ndim]; omega
  -- the array after the change of the degree
  obtain ⟨v, hv⟩ : ∃ v, v = if (m : ℤ) < (k : ℤ) - 1 then x.sliceAxis (x.ndim - 2) 0 (((m : ℤ) + 1) ^ 2).toNat
    else if (k : ℤ) - 1 < m then x.padAxis (x.ndim - 2) (((m : ℤ) + 1) ^ 2 - ((k : ℤ) - 1 + 1) ^ 2).toNat
    else x := ⟨_, rfl⟩
  have hsq : (((m : ℤ) + 1) ^ 2).toNat = (m + 1) ^ 2 := by
    have : ((m : ℤ) + 1) ^ 2 = (((m + 1) ^ 2 : ℕ) : ℤ) := by push_cast; ring
    rw [this, Int.toNat_natCast]
  have hvr : Rep v batch (if ps then 2 else 1) ((m + 1) ^ 2) F fun b p i f =>
      if i < k ^ 2 then entry x (b ++ [p, i, f]) else 0 := by
    rw [hv, e2]
    by_cases h1 : (m : ℤ) < (k : ℤ) - 1
    · rw [if_pos h1]
      have hle : (m + 1) ^ 2 ≤ k ^ 2 := Nat.pow_le_pow_left (by omega) 2
      have := hr.slice2 0 ((m + 1) ^ 2)
      rw [Nat.min_eq_left hle, Nat.zero_min, Nat.sub_zero] at this
      rw [hsq]
      refine this.congr fun b hb p i f _ hi _ => ?_
      rw [if_pos (by omega), Nat.zero_add]
    rw [if_neg h1]
    by_cases h2 : (k : ℤ) - 1 < (m : ℤ)
    · rw [if_pos h2]
      have hle : k ^ 2 ≤ (m + 1) ^ 2 := Nat.pow_le_pow_left (by omega) 2
      have hd : (((m : ℤ) + 1) ^ 2 - ((k : ℤ) - 1 + 1) ^ 2).toNat = (m + 1) ^ 2 - k ^ 2 := by
        have : ((m : ℤ) + 1) ^ 2 - ((k : ℤ) - 1 + 1) ^ 2 = (((m + 1) ^ 2 : ℕ) : ℤ) - ((k ^ 2 : ℕ) : ℤ) := by push_cast; ring
        rw [this]; omega
      have := hr.pad2 ((m + 1) ^ 2 - k ^ 2)
      rw [Nat.add_sub_cancel' hle] at this
      rw [hd]
      exact this
    · rw [if_neg h2]
      have hk : k = m + 1 := by omega
      rw [← hk]
      exact hr.congr fun b hb p i f _ hi _ => by rw [if_pos hi]
  -- the result
  have hmain : ∃ y, changeArray x (some m) (some incl) = .ok y ∧
      Rep y batch (if incl then 2 else 1) ((m + 1) ^ 2) F fun b p i f =>
        if k ^ 2 ≤ i then 0
        else if ps = incl then entry x (b ++ [p, i, f])
        else if ps then entry x (b ++ [deg i % 2, i, f])
        else if p = deg i % 2 then entry x (b ++ [0, i, f]) else 0 := by
    unfold changeArray
    rw [extract_featureShape hx]
    simp only [bind, Except.bind, Option.getD_some]
    rw [← hv, e3, hr.extent3, e2]
    cases ps <;> cases incl
    · refine ⟨v, by simp, ?_⟩
      exact hvr.congr fun b hb p i f _ _ _ => by
        by_cases hk : k ^ 2 ≤ i
        · rw [if_neg (by omega), if_pos hk]
        · rw [if_pos (by omega), if_neg hk, if_pos rfl]
    · obtain ⟨e, h1, h2⟩ := degreeBlocks_concat hvr m rfl (fun _ => 0) (by simp) fun l => l % 2 == 0
      obtain ⟨o, h3, h4⟩ := degreeBlocks_concat hvr m rfl (fun _ => 0) (by simp) fun l => l % 2 != 0
      obtain ⟨r, h5, h6⟩ := concat_parity h2 h4
      refine ⟨r, ?_, ?_⟩
      · show (concatAxis (degreeBlocks v (m : ℤ) (fun _ => 0) fun l => l % 2 == 0) (batch.length + 1)).bind (fun e =>
          (concatAxis (degreeBlocks v (m : ℤ) (fun _ => 0) fun l => l % 2 != 0) (batch.length + 1)).bind fun o =>
            concatAxis [e, o] batch.length) = .ok r
        rw [h1]
        show (concatAxis (degreeBlocks v (m : ℤ) (fun _ => 0) fun l => l % 2 != 0) (batch.length + 1)).bind (fun o =>
            concatAxis [e, o] batch.length) = .ok r
        rw [h3]
        exact h5
      · refine h6.congr fun b hb p i f hp _ _ => ?_
        have hp' : p = 0 ∨ p = 1 := by simp at hp; omega
        have hd : deg i % 2 = 0 ∨ deg i % 2 = 1 := by omega
        by_cases hk : k ^ 2 ≤ i
        · have hk' : ¬i < k ^ 2 := by omega
          simp [hk, hk']
        · have hk' : i < k ^ 2 := by omega
          rcases hp' with rfl | rfl <;> rcases hd with hd | hd <;> simp [hd, hk, hk']
    · obtain ⟨r, h1, h2⟩ := degreeBlocks_concat hvr m rfl (fun l => l % 2) (fun l => by simp; omega) fun _ => true
      refine ⟨r, h1, ?_⟩
      refine h2.congr fun b hb p i f hp _ _ => ?_
      by_cases hk : k ^ 2 ≤ i
      · have hk' : ¬i < k ^ 2 := by omega
        simp [hk, hk']
      · have hk' : i < k ^ 2 := by omega
        simp [hk, hk']
    · refine ⟨v, by simp, ?_⟩
      exact hvr.congr fun b hb p i f _ _ _ => by
        by_cases hk : k ^ 2 ≤ i
        · rw [if_neg (by omega), if_pos hk]
        · rw [if_pos (by omega), if_neg hk, if_pos rfl]
  obtain ⟨y, h1, h2⟩ := hmain
  refine ⟨y, h1, h2.1, fun b hb p i f hf => ?_⟩
  rw [component_of_rep h2 hb hf, component_of_rep hr hb hf]
  have hdi : deg i = Nat.sqrt i := rfl
  rw [← hdi]
  have hd : deg i % 2 < 2 := by omega
  by_cases hi : (m + 1) ^ 2 ≤ i
  · rw [if_pos (Or.inl hi), if_neg (by omega)]
  by_cases hp : 2 ≤ p
  · rw [if_pos (Or.inr hp), if_pos (Or.inr hp)]; simp
  have hi' : i < (m + 1) ^ 2 := by omega
  by_cases hk : k ^ 2 ≤ i
  · cases incl <;> simp [hi, hi', hp, hk]
  cases ps <;> cases incl <;> by_cases hpd : p = deg i % 2 <;> simp [hi, hi', hp, hk, hpd, hd]

/-- **C89 (defaults).** Without a maximum degree or type, that of the input is kept. -/
theorem C89_change_defaults (x : NDArray ℝ) (batch : List ℕ) (ps : Bool) (k F : ℕ) (hx : FeatureShape x.shape batch ps k F)
    (m : Option ℤ) (incl : Option Bool) :
    changeArray x none incl = changeArray x (some ((k : ℤ) - 1)) incl ∧
    changeArray x m none = changeArray x m (some ps) := by
  have hr := featureShape_rep hx
  have e3 : x.ndim - 3 = batch.length := by rw [hr.ndim]; omega
  have hps : (x.extent (x.ndim - 3) != 1) = ps := by rw [e3, hr.extent3]; cases ps <;> rfl
  unfold changeArray
  rw [extract_featureShape hx]
  simp only [bind, Except.bind, Option.getD_none, Option.getD_some, hps]
  exact ⟨trivial, trivial⟩

/-- **C89 (negative degrees).** A negative maximum degree `m` is not rejected unless the type changes: the first `(m + 1)²`
components are kept, as if the maximum degree were `-m - 2`. -/
theorem C89_change_negative (x : NDArray ℝ) (batch : List ℕ) (ps : Bool) (k F : ℕ) (hx : FeatureShape x.shape batch ps k F)
    (m : ℕ) :
    (∃ y, changeArray x (some (-(m : ℤ) - 1)) (some ps) = .ok y ∧ FeatureShape y.shape batch ps (min m k) F ∧
      ∀ b, InShape b batch → ∀ p i f, f < F → component y b p i f = if i < m ^ 2 then component x b p i f else 0) ∧
    changeArray x (some (-(m : ℤ) - 1)) (some !ps) = .error .valueError := by
  have hr := featureShape_rep hx
  have e3 : x.ndim - 3 = batch.length := by rw [hr.ndim]; omega
  have e2 : x.ndim - 2 = batch.length + 1 := by rw [hr.ndim]; omega
  have hps : (x.extent (x.ndim - 3) != 1) = ps := by rw [e3, hr.extent3]; cases ps <;> rfl
  have hmin : min (m ^ 2) (k ^ 2) = min m k ^ 2 := by
    rcases Nat.le_total m k with h | h
    · rw [Nat.min_eq_left h, Nat.min_eq_left (Nat.pow_le_pow_left h 2)]
    · rw [Nat.min_eq_right h, Nat.min_eq_right (Nat.pow_le_pow_left h 2)]
  have hsq : ((-(m : ℤ) - 1 + 1) ^ 2).toNat = m ^ 2 := by
    have : (-(m : ℤ) - 1 + 1) ^ 2 = ((m ^ 2 : ℕ) : ℤ) := by push_cast; ring
    rw [this, Int.toNat_natCast]
  have hblocks : ∀ (v : NDArray ℝ) c q, degreeBlocks v (-(m : ℤ) - 1) c q = [] := by
    intro v c q
    unfold degreeBlocks
    have : (-(m : ℤ) - 1 + 1).toNat = 0 := by omega
    rw [this]; rfl
  refine ⟨?_, ?_⟩
  · obtain ⟨v, hv, hvr⟩ : ∃ v, changeArray x (some (-(m : ℤ) - 1)) (some ps) = .ok v ∧
        Rep v batch (if ps then 2 else 1) (min m k ^ 2) F fun b p i f => entry x (b ++ [p, i, f]) := by
      unfold changeArray
      rw [extract_featureShape hx]
      simp only [bind, Except.bind, Option.getD_some, hps]
      rw [e2]
      refine ⟨_, by cases ps <;> rfl, ?_⟩
      by_cases h1 : (-(m : ℤ) - 1) < (k : ℤ) - 1
      · rw [if_pos h1, hsq]
        have := hr.slice2 0 (m ^ 2)
        rw [hmin, Nat.zero_min, Nat.sub_zero] at this
        exact this.congr fun b hb p i f _ _ _ => by rw [Nat.zero_add]
      · rw [if_neg h1, if_neg (by omega)]
        have hk : min m k = k := by omega
        rw [hk]
        exact hr
    refine ⟨v, hv, hvr.1, fun b hb p i f hf => ?_⟩
    rw [component_of_rep hvr hb hf, component_of_rep hr hb hf, ← hmin]
    by_cases h1 : i < m ^ 2
    · by_cases h2 : k ^ 2 ≤ i
      · have : min (m ^ 2) (k ^ 2) ≤ i := by omega
        simp [h1, h2, this]
      · have : ¬min (m ^ 2) (k ^ 2) ≤ i := by omega
        simp only [h1, h2, this, if_true]
    · have : min (m ^ 2) (k ^ 2) ≤ i := by omega
      simp only [h1, this, true_or, if_true, if_false]
  · unfold changeArray
    rw [extract_featureShape hx]
    simp only [bind, Except.bind, Option.getD_some, hps, hblocks]
    cases ps <;> rfl

/-- **C89 (accepted).** Exactly the arrays with valid shapes are accepted, if the maximum degree is not negative or the type
does not change. Everything else is a `ValueError`. -/
theorem C89_change_accepts (x : NDArray ℝ) (m : Option ℤ) (incl : Option Bool) :
    ((∃ y, changeArray x m incl = .ok y) ↔ ∃ batch ps k F, FeatureShape x.shape batch ps k F ∧
      (0 ≤ m.getD ((k : ℤ) - 1) ∨ incl.getD ps = ps)) ∧
    ∀ e, changeArray x m incl = .error e → e = .valueError := by
  cases hext : extractMaxDegree x.shape with
  | error e =>
    have he := C07_error _ _ hext
    have hc : changeArray x m incl = .error e := by unfold changeArray; rw [hext]; rfl
    rw [hc]
    refine ⟨⟨fun ⟨y, hy⟩ => by simp at hy, ?_⟩, fun e' h => by injection h with h; rw [← h, he]⟩
    rintro ⟨batch, ps, k, F, hx, _⟩
    rw [extract_featureShape hx] at hext
    simp at hext
  | ok L =>
    obtain ⟨batch, ps, k, F, hx, rfl⟩ := featureShape_of_extract hext
    -- explicit arguments
    have hdef : changeArray x m incl = changeArray x (some (m.getD ((k : ℤ) - 1))) (some (incl.getD ps)) := by
      have h1 := fun m incl => C89_change_defaults x batch ps k F hx m incl
      cases m <;> cases incl <;> simp only [Option.getD_none, Option.getD_some]
      · rw [(h1 none none).1, (h1 (some _) none).2]
      · rw [(h1 none (some _)).1]
      · rw [(h1 (some _) none).2]
    rw [hdef]
    generalize hm' : m.getD ((k : ℤ) - 1) = m'
    generalize hi' : incl.getD ps = incl'
    have hiff : (∃ batch ps k F, FeatureShape x.shape batch ps k F ∧ (0 ≤ m.getD ((k : ℤ) - 1) ∨ incl.getD ps = ps)) ↔
        (0 ≤ m' ∨ incl' = ps) := by
      constructor
      · rintro ⟨batch', ps', k', F', hx', h⟩
        obtain ⟨rfl, rfl, rfl, rfl⟩ := featureShape_unique hx hx'
        rwa [hm', hi'] at h
      · intro h
        exact ⟨batch, ps, k, F, hx, by rwa [hm', hi']⟩
    rw [hiff]
    rcases lt_or_ge m' 0 with hneg | hpos
    · obtain ⟨n, rfl⟩ : ∃ n : ℕ, m' = -(n : ℤ) - 1 := ⟨(-m' - 1).toNat, by omega⟩
      obtain ⟨⟨y, hy, _⟩, he⟩ := C89_change_negative x batch ps k F hx n
      by_cases h : incl' = ps
      · rw [h, hy]
        exact ⟨⟨fun _ => Or.inr rfl, fun _ => ⟨y, rfl⟩⟩, fun e he => by simp at he⟩
      · have : incl' = !ps := by cases incl' <;> cases ps <;> simp_all
        rw [this, he]
        refine ⟨⟨fun ⟨y, hy⟩ => by simp at hy, ?_⟩, fun e he => by injection he with he; exact he.symm⟩
        rintro (h1 | h1)
        · omega
        · cases ps <;> simp at h1
    · obtain ⟨n, rfl⟩ : ∃ n : ℕ, m' = (n : ℤ) := ⟨m'.toNat, by omega⟩
      obtain ⟨y, hy, _⟩ := C89_change x batch ps k F hx n incl'
      rw [hy]
      exact ⟨⟨fun _ => Or.inl hpos, fun _ => ⟨y, rfl⟩⟩, fun e he => by simp at he⟩

/-- **C89 (reflection).** A reflection multiplies exactly the components of odd parity by -1, for every index of the batch
axes, and keeps the shape; arrays whose shape is not valid are rejected. -/
theorem C89_reflect (x : NDArray ℝ) :
    (∀ batch ps k F, FeatureShape x.shape batch ps k F →
      ∃ y, reflectArray x = .ok y ∧ y.shape = x.shape ∧
        ∀ b, InShape b batch → ∀ p i f, f < F → component y b p i f = (-1) ^ p * component x b p i f) ∧
    ((¬∃ batch ps k F, FeatureShape x.shape batch ps k F) → reflectArray x = .error .valueError) := by
  refine ⟨fun batch ps k F hx => ?_, fun hno => ?_⟩
  · have hr := featureShape_rep hx
    have e3 : x.ndim - 3 = batch.length := by rw [hr.ndim]; omega
    have hdef : reflectArray x = if (if ps then 2 else 1) = 2 then .ok (x.negateSlice batch.length 1 2)
        else .ok ((oddDegrees ((k : ℤ) - 1).toNat).foldl
          (fun x l => x.negateSlice (x.ndim - 2) (l ^ 2) ((l + 1) ^ 2)) x) := by
      unfold reflectArray
      rw [extract_featureShape hx]
      simp only [bind, Except.bind]
      rw [e3, hr.extent3]
    rw [hdef]
    cases ps
    · rw [if_neg (by simp)]
      have hfold : ∀ (ls : List ℕ) (y : NDArray ℝ) (v : List ℕ → ℕ → ℕ → ℕ → ℝ), Rep y batch 1 (k ^ 2) F v →
          Rep (ls.foldl (fun x l => x.negateSlice (x.ndim - 2) (l ^ 2) ((l + 1) ^ 2)) y) batch 1 (k ^ 2) F
            fun b => ls.foldl negateDegree (v b) := by
        intro ls
        induction ls with
        | nil => intro y v h; exact h
        | cons l ls ih =>
          intro y v h
          rw [List.foldl_cons]
          have e2 : y.ndim - 2 = batch.length + 1 := by rw [h.ndim]; omega
          rw [e2]
          exact ih _ _ (h.negate2 (l ^ 2) ((l + 1) ^ 2))
      have H := hfold (oddDegrees ((k : ℤ) - 1).toNat) x _ hr
      refine ⟨_, rfl, H.1.trans hx.symm, fun b hb p i f hf => ?_⟩
      rw [component_of_rep (ps := false) H hb hf, component_of_rep hr hb hf]
      by_cases h1 : k ^ 2 ≤ i ∨ 2 ≤ p
      · rw [if_pos h1, if_pos h1, mul_zero]
      rw [if_neg h1, if_neg h1]
      simp only [Bool.false_eq_true, if_false]
      by_cases h2 : p = deg i % 2
      · rw [if_pos h2, if_pos h2, foldl_negateDegree _ (nodup_oddDegrees _)]
        have hdk : deg i < k := by
          by_contra hc
          have h3 : deg i ^ 2 ≤ i := by unfold deg; exact Nat.sqrt_le' i
          have : k ^ 2 ≤ deg i ^ 2 := Nat.pow_le_pow_left (by omega) 2
          omega
        have hmem : deg i ∈ oddDegrees ((k : ℤ) - 1).toNat ↔ p = 1 := by
          rw [h2]
          unfold oddDegrees
          simp only [List.mem_map, List.mem_range]
          constructor
          · rintro ⟨a, ha, h⟩; omega
          · intro h; exact ⟨deg i / 2, by omega, by omega⟩
        have hp : p = 0 ∨ p = 1 := by omega
        rcases hp with hp | hp
        · rw [if_neg (by rw [hmem]; omega), hp]; simp
        · rw [if_pos (hmem.2 hp), hp]; simp
      · rw [if_neg h2, if_neg h2, mul_zero]
    · rw [if_pos rfl]
      have H := hr.negate3 1 2
      refine ⟨_, rfl, H.1.trans hx.symm, fun b hb p i f hf => ?_⟩
      rw [component_of_rep (ps := true) H hb hf, component_of_rep hr hb hf]
      by_cases h1 : k ^ 2 ≤ i ∨ 2 ≤ p
      · rw [if_pos h1, if_pos h1, mul_zero]
      rw [if_neg h1, if_neg h1]
      simp only [if_true]
      have hp : p = 0 ∨ p = 1 := by omega
      rcases hp with rfl | rfl <;> simp
  · cases hext : extractMaxDegree x.shape with
    | error e =>
      unfold reflectArray
      rw [hext, C07_error _ _ hext]
      rfl
    | ok L =>
      obtain ⟨batch, ps, k, F, hx, _⟩ := featureShape_of_extract hext
      exact absurd ⟨batch, ps, k, F, hx⟩ hno

/-- **C89 (rotation).** `rotate` accepts exactly one Wigner-D matrix of the right size, or one for each index of the batch
axes. Every entry of the result is the sum over the degree axis of the products with the matrix (of its batch entry).
Everything else is a `ValueError`. -/
theorem C89_rotate (x D : NDArray ℝ) :
    (∀ batch ps k F, FeatureShape x.shape batch ps k F →
      (D.shape = [k ^ 2, k ^ 2] → ∃ y, rotateArray x D = .ok y ∧ y.shape = x.shape ∧
        ∀ b, InShape b batch → ∀ p m f, p < (if ps then 2 else 1) → m < k ^ 2 → f < F →
          entry y (b ++ [p, m, f]) = ∑ l ∈ Finset.range (k ^ 2), entry x (b ++ [p, l, f]) * entry D [l, m]) ∧
      (D.shape = batch ++ [k ^ 2, k ^ 2] → ∃ y, rotateArray x D = .ok y ∧ y.shape = x.shape ∧
        ∀ b, InShape b batch → ∀ p m f, p < (if ps then 2 else 1) → m < k ^ 2 → f < F →
          entry y (b ++ [p, m, f]) = ∑ l ∈ Finset.range (k ^ 2), entry x (b ++ [p, l, f]) * entry D (b ++ [l, m])) ∧
      (D.shape ≠ [k ^ 2, k ^ 2] → D.shape ≠ batch ++ [k ^ 2, k ^ 2] → rotateArray x D = .error .valueError)) ∧
    ((¬∃ batch ps k F, FeatureShape x.shape batch ps k F) → rotateArray x D = .error .valueError) := by
  refine ⟨fun batch ps k F hx => ?_, fun hno => ?_⟩
  · have hr := featureShape_rep hx
    have e3 : x.ndim - 3 = batch.length := by rw [hr.ndim]; omega
    have e2 : x.ndim - 2 = batch.length + 1 := by rw [hr.ndim]; omega
    have hdim : (((k : ℤ) - 1 + 1) ^ 2).toNat = k ^ 2 := by
      have : ((k : ℤ) - 1 + 1) ^ 2 = ((k ^ 2 : ℕ) : ℤ) := by push_cast; ring
      rw [this, Int.toNat_natCast]
    have htake : x.shape.take batch.length = batch := by rw [hr.1]; simp
    have hdef : rotateArray x D =
        if D.shape.drop (D.ndim - 2) ≠ [k ^ 2, k ^ 2] then .error .valueError
        else if D.ndim = 2 then
          .ok (ofFn x.shape fun idx => ∑ l ∈ Finset.range (k ^ 2),
            entry x (idx.set (batch.length + 1) l) * entry D [l, idx.getD (batch.length + 1) 0])
        else if batch ≠ D.shape.take (D.ndim - 2) then .error .valueError
        else .ok (ofFn x.shape fun idx => ∑ l ∈ Finset.range (k ^ 2),
            entry x (idx.set (batch.length + 1) l) *
              entry D (idx.take batch.length ++ [l, idx.getD (batch.length + 1) 0])) := by
      unfold rotateArray
      rw [extract_featureShape hx]
      simp only [bind, Except.bind, hdim, e3, e2, htake]
    have h2 : D.shape = [k ^ 2, k ^ 2] → ∃ y, rotateArray x D = .ok y ∧ y.shape = x.shape ∧
        ∀ b, InShape b batch → ∀ p m f, p < (if ps then 2 else 1) → m < k ^ 2 → f < F →
          entry y (b ++ [p, m, f]) = ∑ l ∈ Finset.range (k ^ 2), entry x (b ++ [p, l, f]) * entry D [l, m] := by
      intro hD
      have hn : D.ndim = 2 := by unfold NDArray.ndim; rw [hD]; rfl
      rw [hdef, hn, hD, if_neg (by simp), if_pos rfl]
      refine ⟨_, rfl, rfl, fun b hb p m f hp hm hf => ?_⟩
      rw [entry_ofFn _ (by rw [hr.1]; exact inShape_three hb hp hm hf), ← hb.length]
      refine Finset.sum_congr rfl fun l _ => ?_
      rw [set_axis2, getD_axis2]
    refine ⟨h2, ?_, ?_⟩
    · intro hD
      cases hbatch : batch with
      | nil =>
        subst hbatch
        obtain ⟨y, h3, h4, h5⟩ := h2 hD
        refine ⟨y, h3, h4, fun b hb => ?_⟩
        have : b = [] := List.length_eq_zero_iff.1 hb.length
        subst this
        exact h5 [] hb
      | cons n0 rest =>
        rw [← hbatch]
        have hlen : D.ndim = batch.length + 2 := by unfold NDArray.ndim; rw [hD]; simp
        have hne : batch.length ≠ 0 := by rw [hbatch]; simp
        have hdrop : D.shape.drop (D.ndim - 2) = [k ^ 2, k ^ 2] := by
          rw [hlen, hD]; simp
        have htk : D.shape.take (D.ndim - 2) = batch := by rw [hlen, hD]; simp
        rw [hdef, hdrop, htk, if_neg (by simp), if_neg (by omega), if_neg (by simp)]
        refine ⟨_, rfl, rfl, fun b hb p m f hp hm hf => ?_⟩
        rw [entry_ofFn _ (by rw [hr.1]; exact inShape_three hb hp hm hf), ← hb.length]
        refine Finset.sum_congr rfl fun l _ => ?_
        rw [set_axis2, getD_axis2]
        simp
    · intro hD1 hD2
      rw [hdef]
      by_cases h3 : D.shape.drop (D.ndim - 2) = [k ^ 2, k ^ 2]
      · have hsplit : D.shape = D.shape.take (D.ndim - 2) ++ [k ^ 2, k ^ 2] := by
          conv_lhs => rw [← List.take_append_drop (D.ndim - 2) D.shape]
          rw [h3]
        have hlen : D.ndim ≠ 2 := by
          intro h
          rw [h] at hsplit
          exact hD1 hsplit
        rw [if_neg (by simpa using h3), if_neg hlen, if_pos]
        intro h
        rw [← h] at hsplit
        exact hD2 hsplit
      · rw [if_pos h3]
  · cases hext : extractMaxDegree x.shape with
    | error e =>
      unfold rotateArray
      rw [hext, C07_error _ _ hext]
      rfl
    | ok L =>
      obtain ⟨batch, ps, k, F, hx, _⟩ := featureShape_of_extract hext
      exact absurd ⟨batch, ps, k, F, hx⟩ hno

/-! ## Sums -/

section
variable {τ : Type} [DecidableEq τ]

theorem getLast_featureShape {shape batch : List ℕ} {ps : Bool} {k F : ℕ} (h : FeatureShape shape batch ps k F) :
    shape.getLast? = some F := by rw [h]; simp

/-- When one input passes the checks. -/
theorem addCheck_ok (B : List ℕ) (F : ℕ) (d : τ) (s s' : ℤ × Bool) (x : TypedArray τ) :
    addCheck B F d s x = .ok s' ↔
      x.dtype = d ∧ ∃ ps k, FeatureShape x.array.shape B ps k F ∧ s' = (max s.1 ((k : ℤ) - 1), s.2 || ps) := by
  unfold addCheck
  constructor
  · intro h
    by_cases h1 : x.array.shape.take (x.array.ndim - 3) ≠ B
    · rw [if_pos h1] at h; simp at h
    rw [if_neg h1] at h
    cases hl : x.array.shape.getLast? with
    | none => rw [hl] at h; simp at h
    | some last =>
      rw [hl] at h
      simp only at h
      split_ifs at h with h2 h3
      cases hext : extractMaxDegree x.array.shape with
      | error e => rw [hext] at h; simp [bind, Except.bind] at h
      | ok L =>
        rw [hext] at h
        simp only [bind, Except.bind] at h
        injection h with h
        obtain ⟨batch, ps, k, F', hx, rfl⟩ := featureShape_of_extract hext
        have hr := featureShape_rep hx
        have e3 : x.array.ndim - 3 = batch.length := by rw [hr.ndim]; omega
        rw [getLast_featureShape hx] at hl
        injection hl with hl
        simp only [ne_eq, not_not] at h1 h2 h3
        rw [e3, hx] at h1
        simp only [List.take_left'] at h1
        rw [e3, hr.extent3] at h
        refine ⟨h3, ps, k, ?_, ?_⟩
        · rw [← h1, ← h2, ← hl]; exact hx
        · rw [← h]; cases ps <;> rfl
  · rintro ⟨hd, ps, k, hx, hs⟩
    have hr := featureShape_rep hx
    have e3 : x.array.ndim - 3 = B.length := by rw [hr.ndim]; omega
    have htake : x.array.shape.take (x.array.ndim - 3) = B := by rw [e3, hx]; simp
    rw [if_neg (by rw [htake]; simp), getLast_featureShape hx]
    simp only [ne_eq, not_true_eq_false, if_false, hd]
    rw [extract_featureShape hx]
    simp only [bind, Except.bind]
    rw [hs, e3, hr.extent3]
    cases ps <;> rfl

/-- Which errors the checks raise. -/
theorem addCheck_error (B : List ℕ) (F : ℕ) (d : τ) (s : ℤ × Bool) (x : TypedArray τ) (e : Err)
    (h : addCheck B F d s x = .error e) : e = if B = [] ∧ x.array.shape = [] then .indexError else .valueError := by
  unfold addCheck at h
  by_cases h1 : x.array.shape.take (x.array.ndim - 3) ≠ B
  · rw [if_pos h1] at h
    injection h with h
    rw [if_neg, h]
    rintro ⟨h2, h3⟩
    rw [h3, h2] at h1
    simp at h1
  · rw [if_neg h1] at h
    simp only [ne_eq, not_not] at h1
    cases hl : x.array.shape.getLast? with
    | none =>
      rw [hl] at h
      simp only at h
      injection h with h
      have hs : x.array.shape = [] := by simpa using hl
      rw [hs] at h1
      rw [if_pos ⟨by simpa using h1.symm, hs⟩, h]
    | some last =>
      have hne : ¬(B = [] ∧ x.array.shape = []) := by rintro ⟨_, h3⟩; rw [h3] at hl; simp at hl
      rw [if_neg hne]
      rw [hl] at h
      simp only at h
      split_ifs at h with h2 h3
      · injection h with h; exact h.symm
      · injection h with h; exact h.symm
      · cases hext : extractMaxDegree x.array.shape with
        | error e' =>
          rw [hext] at h
          simp only [bind, Except.bind] at h
          injection h with h
          rw [← h, C07_error _ _ hext]
        | ok L => rw [hext] at h; simp [bind, Except.bind] at h

/-- The loop over the checks. -/
theorem addLoop_ok (B : List ℕ) (F : ℕ) (d : τ) (xs : List (TypedArray τ)) (s : ℤ × Bool)
    (h : ∀ x ∈ xs, x.dtype = d ∧ ∃ ps k, FeatureShape x.array.shape B ps k F) :
    ∃ r, xs.foldlM (addCheck B F d) s = .ok r ∧ s.1 ≤ r.1 ∧
      (∀ x ∈ xs, ∀ ps k, FeatureShape x.array.shape B ps k F → (k : ℤ) - 1 ≤ r.1 ∧ (ps = true → r.2 = true)) ∧
      (r.1 = s.1 ∨ ∃ x ∈ xs, ∃ ps k, FeatureShape x.array.shape B ps k F ∧ r.1 = (k : ℤ) - 1) ∧
      (s.2 = true → r.2 = true) ∧
      (r.2 = true → s.2 = true ∨ ∃ x ∈ xs, ∃ k, FeatureShape x.array.shape B true k F) := by
  induction xs generalizing s with
  | nil => exact ⟨s, rfl, le_refl _, by simp, .inl rfl, id, .inl⟩
  | cons x xs ih =>
    obtain ⟨hd, ps, k, hx⟩ := h x (by simp)
    obtain ⟨r, h1, h2, h3, h4, h5, h6⟩ := ih (max s.1 ((k : ℤ) - 1), s.2 || ps) fun y hy => h y (by simp [hy])
    refine ⟨r, ?_, by simp only at h2; omega, ?_, ?_, ?_, ?_⟩
    · rw [List.foldlM_cons, (addCheck_ok B F d s _ x).2 ⟨hd, ps, k, hx, rfl⟩]
      exact h1
    · intro y hy ps' k' hy'
      rcases List.mem_cons.1 hy with rfl | hy
      · obtain ⟨-, rfl, rfl, -⟩ := featureShape_unique hx hy'
        exact ⟨by simp only at h2; omega, fun hp => h5 (by simp [hp])⟩
      · exact h3 y hy ps' k' hy'
    · rcases h4 with h4 | ⟨y, hy, h⟩
      · simp only at h4
        rcases le_total s.1 ((k : ℤ) - 1) with h | h
        · exact .inr ⟨x, by simp, ps, k, hx, by omega⟩
        · exact .inl (by omega)
      · exact .inr ⟨y, by simp [hy], h⟩
    · intro hs; exact h5 (by simp [hs])
    · intro hr
      rcases h6 hr with h | ⟨y, hy, h⟩
      · simp only [Bool.or_eq_true] at h
        rcases h with h | h
        · exact .inl h
        · exact .inr ⟨x, by simp, k, by rw [← h]; exact hx⟩
      · exact .inr ⟨y, by simp [hy], h⟩

theorem addLoop_error (B : List ℕ) (F : ℕ) (d : τ) (xs : List (TypedArray τ)) (s : ℤ × Bool) (e : Err)
    (h : xs.foldlM (addCheck B F d) s = .error e) :
    ∃ pre x post, xs = pre ++ x :: post ∧ (∀ y ∈ pre, y.dtype = d ∧ ∃ ps k, FeatureShape y.array.shape B ps k F) ∧
      ¬(x.dtype = d ∧ ∃ ps k, FeatureShape x.array.shape B ps k F) ∧
      e = if B = [] ∧ x.array.shape = [] then .indexError else .valueError := by
  induction xs generalizing s with
  | nil => simp [pure, Except.pure] at h
  | cons x xs ih =>
    rw [List.foldlM_cons] at h
    cases hc : addCheck B F d s x with
    | error e' =>
      rw [hc] at h
      simp only [bind, Except.bind] at h
      injection h with h
      subst h
      refine ⟨[], x, xs, rfl, by simp, ?_, addCheck_error B F d s x _ hc⟩
      rintro ⟨hd, ps, k, hx⟩
      rw [(addCheck_ok B F d s _ x).2 ⟨hd, ps, k, hx, rfl⟩] at hc
      simp at hc
    | ok s' =>
      rw [hc] at h
      obtain ⟨hd, ps, k, hx, _⟩ := (addCheck_ok B F d s s' x).1 hc
      obtain ⟨pre, y, post, h1, h2, h3, h4⟩ := ih s' h
      refine ⟨x :: pre, y, post, by rw [h1]; rfl, ?_, h3, h4⟩
      intro z hz
      rcases List.mem_cons.1 hz with rfl | hz
      · exact ⟨hd, ps, k, hx⟩
      · exact h2 z hz

omit [DecidableEq τ] in
/-- Sums of arrays with equal shapes. -/
theorem component_zip {x y : NDArray ℝ} {B : List ℕ} {ps : Bool} {k F : ℕ} (hx : FeatureShape x.shape B ps k F)
    (hy : FeatureShape y.shape B ps k F) :
    ∃ r, NDArray.zip (· + ·) x y = .ok r ∧ FeatureShape r.shape B ps k F ∧
      ∀ b, InShape b B → ∀ p i f, f < F → component r b p i f = component x b p i f + component y b p i f := by
  have hxy : y.shape = x.shape := hy.trans hx.symm
  obtain ⟨r, h1, h2, h3⟩ := zip_ok (· + ·) x y (by rw [hxy]; exact forall₂_self _)
  have hr : Rep r B (if ps then 2 else 1) (k ^ 2) F fun b p i f => entry x (b ++ [p, i, f]) + entry y (b ++ [p, i, f]) := by
    refine ⟨h2.trans hx, fun b hb p i f hp hi hf => ?_⟩
    have hin := inShape_three hb hp hi hf
    rw [h3 _ (by rw [hx]; exact hin), stretched_inShape y (by rw [hy]; exact hin)]
  refine ⟨r, h1, h2.trans hx, fun b hb p i f hf => ?_⟩
  rw [component_of_rep hr hb hf, component_of_rep (featureShape_rep hx) hb hf, component_of_rep (featureShape_rep hy) hb hf]
  split_ifs <;> simp

omit [DecidableEq τ] in
/-- The loop of the additions. -/
theorem addSum_ok (B : List ℕ) (F : ℕ) (ps : Bool) (m : ℕ) (xs : List (TypedArray τ))
    (h : ∀ x ∈ xs, ∃ ps' k, FeatureShape x.array.shape B ps' k F ∧ k ≤ m + 1 ∧ (ps' = true → ps = true))
    (y : NDArray ℝ) (hy : FeatureShape y.shape B ps (m + 1) F) :
    ∃ r, xs.foldlM (fun y x => do
        let c ← changeArray x.array (some (m : ℤ)) (some ps)
        NDArray.zip (· + ·) y c) y = .ok r ∧ FeatureShape r.shape B ps (m + 1) F ∧
      ∀ b, InShape b B → ∀ p i f, f < F →
        component r b p i f = component y b p i f + (xs.map fun x => component x.array b p i f).sum := by
  induction xs generalizing y with
  | nil => exact ⟨y, rfl, hy, by simp⟩
  | cons x xs ih =>
    obtain ⟨ps', k, hx, hk, hps⟩ := h x (by simp)
    obtain ⟨c, h1, h2, h3⟩ := C89_change x.array B ps' k F hx m ps
    obtain ⟨z, h4, h5, h6⟩ := component_zip hy h2
    obtain ⟨r, h7, h8, h9⟩ := ih (fun x hx => h x (by simp [hx])) z h5
    refine ⟨r, ?_, h8, fun b hb p i f hf => ?_⟩
    · rw [List.foldlM_cons, h1]
      simp only [bind, Except.bind, h4]
      exact h7
    · rw [h9 b hb p i f hf, h6 b hb p i f hf, h3 b hb p i f hf, List.map_cons, List.sum_cons]
      have : (if i < (m + 1) ^ 2 ∧ (ps = true ∨ p = Nat.sqrt i % 2) then component x.array b p i f else 0) =
          component x.array b p i f := by
        by_cases hc : i < (m + 1) ^ 2 ∧ (ps = true ∨ p = Nat.sqrt i % 2)
        · rw [if_pos hc]
        · rw [if_neg hc, component_of_rep (featureShape_rep hx) hb hf]
          have hkm : k ^ 2 ≤ (m + 1) ^ 2 := Nat.pow_le_pow_left hk 2
          by_cases hi : i < (m + 1) ^ 2
          · have hn : ¬(ps = true ∨ p = Nat.sqrt i % 2) := fun h => hc ⟨hi, h⟩
            have hps' : ps' = false := by
              cases ps'
              · rfl
              · exact absurd (Or.inl (hps rfl)) hn
            have hp : ¬p = deg i % 2 := fun h => hn (Or.inr h)
            simp [hps', hp]
          · rw [if_pos (Or.inl (by omega))]
      rw [this]
      ring

/-- **C89 (sum).** If the inputs of `add` have equal batch shapes, numbers of features and types, and valid shapes, then the
result has the highest degree of the inputs (at least zero), pseudotensors if and only if one of the inputs has, and
every component is the sum of those of the inputs, for every index of the batch axes. -/
theorem C89_add (inputs : List (TypedArray τ)) (hne : inputs ≠ []) (batch : List ℕ) (F : ℕ) (d : τ)
    (h : ∀ x ∈ inputs, x.dtype = d ∧ ∃ ps k, FeatureShape x.array.shape batch ps k F) :
    ∃ y ps K, addArrays inputs = .ok y ∧ y.dtype = d ∧ FeatureShape y.array.shape batch ps K F ∧ 1 ≤ K ∧
      (∀ x ∈ inputs, ∀ ps' k, FeatureShape x.array.shape batch ps' k F → k ≤ K) ∧
      (K = 1 ∨ ∃ x ∈ inputs, ∃ ps', FeatureShape x.array.shape batch ps' K F) ∧
      (ps = true ↔ ∃ x ∈ inputs, ∃ k, FeatureShape x.array.shape batch true k F) ∧
      ∀ b, InShape b batch → ∀ p i f, f < F →
        component y.array b p i f = (inputs.map fun x => component x.array b p i f).sum := by
  obtain ⟨x0, rest, rfl⟩ := List.exists_cons_of_ne_nil hne
  obtain ⟨hd0, ps0, k0, hx0⟩ := h x0 (by simp)
  have hr0 := featureShape_rep hx0
  have e3 : x0.array.ndim - 3 = batch.length := by rw [hr0.ndim]; omega
  have e1 : x0.array.ndim - 1 = batch.length + 2 := by rw [hr0.ndim]; omega
  have hF : x0.array.extent (x0.array.ndim - 1) = F := by
    unfold NDArray.extent; rw [e1, hr0.1, getD_axis1]
  have hB : x0.array.shape.take (x0.array.ndim - 3) = batch := by rw [e3, hr0.1]; simp
  obtain ⟨r, h1, h2, h3, h4, -, h6⟩ := addLoop_ok batch F d (x0 :: rest) (0, false) h
  obtain ⟨M, ps⟩ := r
  simp only at h2 h3 h4 h6
  obtain ⟨m, rfl⟩ : ∃ m : ℕ, M = m := ⟨M.toNat, by omega⟩
  have hsq : (((m : ℤ) + 1) ^ 2).toNat = (m + 1) ^ 2 := by
    have : ((m : ℤ) + 1) ^ 2 = (((m + 1) ^ 2 : ℕ) : ℤ) := by push_cast; ring
    rw [this, Int.toNat_natCast]
  have hy0 : FeatureShape (ofFn (batch ++ [if ps then 2 else 1, (((m : ℤ) + 1) ^ 2).toNat, F]) fun _ => (0 : ℝ)).shape
      batch ps (m + 1) F := by rw [hsq]; rfl
  obtain ⟨y, s1, s2, s3⟩ := addSum_ok batch F ps m (x0 :: rest) (fun x hx => by
    obtain ⟨_, ps', k, hx'⟩ := h x hx
    have := h3 x hx ps' k hx'
    exact ⟨ps', k, hx', by omega, this.2⟩) _ hy0
  refine ⟨⟨x0.dtype, y⟩, ps, m + 1, ?_, hd0, s2, by omega, ?_, ?_, ?_, ?_⟩
  · unfold addArrays
    simp only
    rw [if_neg (by rw [hr0.ndim]; omega), hF, hB, hd0, h1]
    simp only [bind, Except.bind] at s1 ⊢
    rw [s1]
  · intro x hx ps' k hx'
    have := (h3 x hx ps' k hx').1
    omega
  · rcases h4 with h4 | ⟨x, hx, ps', k, hx', hk⟩
    · exact .inl (by omega)
    · refine .inr ⟨x, hx, ps', ?_⟩
      have : k = m + 1 := by omega
      rw [← this]; exact hx'
  · constructor
    · intro hp
      rcases h6 hp with h | h
      · simp at h
      · exact h
    · rintro ⟨x, hx, k, hx'⟩
      exact (h3 x hx true k hx').2 rfl
  · intro b hb p i f hf
    rw [s3 b hb p i f hf]
    have hz : component (ofFn (batch ++ [if ps then 2 else 1, (((m : ℤ) + 1) ^ 2).toNat, F]) fun _ => (0 : ℝ)) b p i f = 0 := by
      have hrz : Rep (ofFn (batch ++ [if ps then 2 else 1, (m + 1) ^ 2, F]) fun _ => (0 : ℝ)) batch (if ps then 2 else 1)
        ((m + 1) ^ 2) F fun _ _ _ _ => 0 := rep_ofFn _
      rw [hsq, component_of_rep hrz hb hf]
      split_ifs <;> rfl
    rw [hz, zero_add]

/-- **C89 (inputs of sums).** `add` accepts exactly this. Otherwise it raises `ValueError`, except that it raises
`IndexError` without inputs, or if the first input that does not fit is an array without axes (after inputs without
batch axes). -/
theorem C89_add_accepts (inputs : List (TypedArray τ)) :
    ((∃ y, addArrays inputs = .ok y) ↔ inputs ≠ [] ∧ ∃ (batch : List ℕ) (F : ℕ) (d : τ),
      ∀ x ∈ inputs, x.dtype = d ∧ ∃ ps k, FeatureShape x.array.shape batch ps k F) ∧
    (addArrays inputs = .error .indexError ↔ inputs = [] ∨ ∃ pre x post, inputs = pre ++ x :: post ∧ pre ≠ [] ∧
      (∃ (F : ℕ) (d : τ), ∀ y ∈ pre, y.dtype = d ∧ ∃ ps k, FeatureShape y.array.shape [] ps k F) ∧ x.array.shape = []) ∧
    ∀ e, addArrays inputs = .error e → e = .indexError ∨ e = .valueError := by
  have noFeature : ∀ {batch ps k F}, ¬FeatureShape [] batch ps k F := by
    intro batch ps k F h
    unfold FeatureShape at h
    simp at h
  cases hin : inputs with
  | nil => simp [addArrays]
  | cons x0 rest =>
    rw [← hin]
    have hne : inputs ≠ [] := by rw [hin]; simp
    by_cases hall : ∃ (batch : List ℕ) (F : ℕ) (d : τ), ∀ x ∈ inputs, x.dtype = d ∧ ∃ ps k, FeatureShape x.array.shape batch ps k F
    · obtain ⟨batch, F, d, h⟩ := hall
      obtain ⟨y, ps, K, hy, _⟩ := C89_add inputs hne batch F d h
      rw [hy]
      refine ⟨⟨fun _ => ⟨hne, batch, F, d, h⟩, fun _ => ⟨y, rfl⟩⟩, ⟨fun h => by simp at h, ?_⟩, fun e he => by simp at he⟩
      rintro (h' | ⟨pre, x, post, h1, _, _, h4⟩)
      · exact absurd h' hne
      · obtain ⟨_, ps, k, hx⟩ := h x (by rw [h1]; simp)
        rw [h4] at hx
        exact absurd hx noFeature
    · -- the error
      obtain ⟨e, he, hee⟩ : ∃ e, addArrays inputs = .error e ∧
          ((e = .valueError ∧ ¬∃ pre x post, inputs = pre ++ x :: post ∧ pre ≠ [] ∧
            (∃ (F : ℕ) (d : τ), ∀ y ∈ pre, y.dtype = d ∧ ∃ ps k, FeatureShape y.array.shape [] ps k F) ∧ x.array.shape = []) ∨
          (e = .indexError ∧ ∃ pre x post, inputs = pre ++ x :: post ∧ pre ≠ [] ∧
            (∃ (F : ℕ) (d : τ), ∀ y ∈ pre, y.dtype = d ∧ ∃ ps k, FeatureShape y.array.shape [] ps k F) ∧ x.array.shape = [])) := by
        by_cases hnd : x0.array.ndim < 3
        · refine ⟨.valueError, by rw [hin]; unfold addArrays; simp only; rw [if_pos hnd], .inl ⟨rfl, ?_⟩⟩
          rintro ⟨pre, x, post, h1, h2, ⟨F, d, h3⟩, _⟩
          obtain ⟨z, pre', rfl⟩ := List.exists_cons_of_ne_nil h2
          rw [hin] at h1
          simp only [List.cons_append, List.cons.injEq] at h1
          obtain ⟨_, ps, k, hz⟩ := h3 z (by simp)
          rw [← h1.1] at hz
          rw [(featureShape_rep hz).ndim] at hnd
          omega
        · have hloop : ∃ B F, x0.array.shape.take (x0.array.ndim - 3) = B ∧ x0.array.extent (x0.array.ndim - 1) = F :=
            ⟨_, _, rfl, rfl⟩
          obtain ⟨B, F, hB, hF⟩ := hloop
          cases hfold : inputs.foldlM (addCheck B F x0.dtype) (0, false) with
          | ok r =>
            -- all inputs fit
            exfalso
            apply hall
            refine ⟨B, F, x0.dtype, ?_⟩
            have : ∀ (xs : List (TypedArray τ)) (s r : ℤ × Bool), xs.foldlM (addCheck B F x0.dtype) s = .ok r →
                ∀ x ∈ xs, x.dtype = x0.dtype ∧ ∃ ps k, FeatureShape x.array.shape B ps k F := by
              intro xs
              induction xs with
              | nil => simp
              | cons z zs ih =>
                intro s r h x hx
                rw [List.foldlM_cons] at h
                cases hc : addCheck B F x0.dtype s z with
                | error e => rw [hc] at h; simp [bind, Except.bind] at h
                | ok s' =>
                  rw [hc] at h
                  rcases List.mem_cons.1 hx with rfl | hx
                  · obtain ⟨hd, ps, k, hx, _⟩ := (addCheck_ok _ _ _ _ _ _).1 hc
                    exact ⟨hd, ps, k, hx⟩
                  · exact ih s' r h x hx
            exact this inputs _ _ hfold
          | error e =>
            refine ⟨e, ?_, ?_⟩
            · rw [hin]
              unfold addArrays
              simp only
              rw [if_neg hnd, hB, hF, ← hin, hfold]
              rfl
            · obtain ⟨pre, x, post, h1, h2, h3, h4⟩ := addLoop_error B F x0.dtype inputs _ e hfold
              -- the first input that does not fit is unique
              by_cases hc : B = [] ∧ x.array.shape = []
              · rw [if_pos hc] at h4
                refine .inr ⟨h4, pre, x, post, h1, ?_, ⟨F, x0.dtype, by rw [← hc.1]; exact h2⟩, hc.2⟩
                rintro rfl
                rw [hin] at h1
                simp only [List.nil_append, List.cons.injEq] at h1
                rw [← h1.1] at hc
                unfold NDArray.ndim at hnd
                rw [hc.2] at hnd
                simp at hnd
              · rw [if_neg hc] at h4
                refine .inl ⟨h4, ?_⟩
                rintro ⟨pre', x', post', h1', h2', ⟨F', d', h3'⟩, h4'⟩
                -- x0 belongs to both prefixes or is x
                obtain ⟨z, pre'', rfl⟩ := List.exists_cons_of_ne_nil h2'
                have hz : z = x0 := by
                  rw [hin] at h1'
                  simp only [List.cons_append, List.cons.injEq] at h1'
                  exact h1'.1.symm
                obtain ⟨hd', ps', k', hz'⟩ := h3' z (by simp)
                rw [hz] at hz' hd'
                have hr0 := featureShape_rep hz'
                have hB' : B = [] := by
                  rw [← hB, hr0.ndim]
                  simp
                have hF' : F' = F := by
                  rw [← hF]; unfold NDArray.extent; rw [hr0.ndim, hz']; simp
                have hlt : pre.length = (z :: pre'').length := by
                  rcases Nat.lt_trichotomy pre.length (z :: pre'').length with hl | hl | hl
                  · -- x would be in the second prefix
                    exfalso
                    apply h3
                    have hx : x ∈ z :: pre'' := by
                      have e1 : inputs[pre.length]? = some x := by rw [h1]; simp
                      have e2 : inputs[pre.length]? = (z :: pre'')[pre.length]? := by
                        rw [h1']; exact List.getElem?_append_left hl
                      rw [e1] at e2
                      exact List.mem_of_getElem? e2.symm
                    obtain ⟨a, ps, k, b⟩ := h3' x hx
                    exact ⟨a.trans hd'.symm, ps, k, by rw [hB', ← hF']; exact b⟩
                  · exact hl
                  · exfalso
                    have hx : x' ∈ pre := by
                      have e1 : inputs[(z :: pre'').length]? = some x' := by rw [h1']; simp
                      have e2 : inputs[(z :: pre'').length]? = pre[(z :: pre'').length]? := by
                        rw [h1]; exact List.getElem?_append_left hl
                      rw [e1] at e2
                      exact List.mem_of_getElem? e2.symm
                    obtain ⟨_, ps, k, b⟩ := h2 x' hx
                    rw [h4'] at b
                    exact noFeature b
                have hxx : x = x' := by
                  have e1 : inputs[pre.length]? = some x := by rw [h1]; simp
                  have e2 : inputs[(z :: pre'').length]? = some x' := by rw [h1']; simp
                  rw [hlt, e2] at e1
                  injection e1 with e1
                  exact e1.symm
                exact hc ⟨hB', by rw [hxx]; exact h4'⟩
      rw [he]
      refine ⟨⟨fun ⟨y, hy⟩ => by simp at hy, fun h => absurd h.2 hall⟩, ?_, ?_⟩
      · rcases hee with ⟨h1, h2⟩ | ⟨h1, h2⟩
        · constructor
          · intro h; injection h with h; rw [h1] at h; simp at h
          · rintro (h | h)
            · exact absurd h hne
            · exact absurd h h2
        · exact ⟨fun _ => .inr h2, fun _ => by rw [h1]⟩
      · intro e' h
        injection h with h
        rcases hee with ⟨h1, _⟩ | ⟨h1, _⟩
        · exact .inr (by rw [← h, h1])
        · exact .inl (by rw [← h, h1])

end

/-! ## The model of one batch entry -/

theorem featAt_facts {x : NDArray ℝ} {batch : List ℕ} {ps : Bool} {L F : ℕ} (hx : FeatureShape x.shape batch ps (L + 1) F)
    {b : List ℕ} (hb : InShape b batch) :
    (featAt x b).pseudo = ps ∧ (featAt x b).L = L ∧ (featAt x b).F = F ∧
      ∀ p i f, comp (featAt x b) p i f = component x b p i f := by
  have h1 : x.shape.getD b.length 0 = if ps then 2 else 1 := by rw [hx, hb.length, getD_axis3]
  have h2 : x.shape.getD (b.length + 1) 0 = (L + 1) ^ 2 := by rw [hx, hb.length, getD_axis2]
  have h3 : x.shape.getD (b.length + 2) 0 = F := by rw [hx, hb.length, getD_axis1]
  have hps : (featAt x b).pseudo = ps := by unfold featAt; simp only [h1]; cases ps <;> rfl
  have hL : (featAt x b).L = L := by
    unfold featAt; simp only [h2]; rw [Nat.sqrt_eq']; omega
  refine ⟨hps, hL, h3, fun p i f => ?_⟩
  unfold comp component
  rw [hps, hL, h1, h2]
  cases ps <;> rfl

/-- **C89 (one batch entry).** For one index of the batch axes the functions on whole arrays do what the definitions for one
index (Model/Features.lean) do, so that all statements about those hold for every batch entry. -/
theorem C89_one_index (x : NDArray ℝ) (batch : List ℕ) (ps : Bool) (L F : ℕ) (hx : FeatureShape x.shape batch ps (L + 1) F)
    (b : List ℕ) (hb : InShape b batch) :
    (∀ (m : ℕ) (incl : Bool), ∃ y, changeArray x (some m) (some incl) = .ok y ∧
      (changeMaxDegreeOrType (featAt x b) (some m) (some incl)).Same (featAt y b)) ∧
    (∃ y, reflectArray x = .ok y ∧ (reflect (featAt x b)).Same (featAt y b)) ∧
    (∀ D : NDArray ℝ, D.shape = [(L + 1) ^ 2, (L + 1) ^ 2] → ∃ y, rotateArray x D = .ok y ∧
      (rotate (featAt x b) fun l m => entry D [l, m]).Same (featAt y b)) ∧
    (∀ D : NDArray ℝ, D.shape = batch ++ [(L + 1) ^ 2, (L + 1) ^ 2] → ∃ y, rotateArray x D = .ok y ∧
      (rotate (featAt x b) fun l m => entry D (b ++ [l, m])).Same (featAt y b)) := by
  obtain ⟨x1, x2, x3, x4⟩ := featAt_facts hx hb
  have hrot : ∀ (y : NDArray ℝ) (D : ℕ → ℕ → ℝ), y.shape = x.shape →
      (∀ p m f, p < (if ps then 2 else 1) → m < (L + 1) ^ 2 → f < F →
        entry y (b ++ [p, m, f]) = ∑ l ∈ Finset.range ((L + 1) ^ 2), entry x (b ++ [p, l, f]) * D l m) →
      (rotate (featAt x b) D).Same (featAt y b) := by
    intro y D hs h
    have hy : FeatureShape y.shape batch ps (L + 1) F := by rw [hs]; exact hx
    obtain ⟨y1, y2, y3, y4⟩ := featAt_facts hy hb
    refine ⟨x1.trans y1.symm, x2.trans y2.symm, x3.trans y3.symm, ?_⟩
    intro p i f hp hi hf
    have hp' : p < if ps then 2 else 1 := by
      have : chan (featAt x b).pseudo = if ps then 2 else 1 := by rw [x1]; rfl
      rw [← this]; exact hp
    have hi' : i < (L + 1) ^ 2 := by
      have : (rotate (featAt x b) D).L = L := x2
      rwa [this] at hi
    have hf' : f < F := by
      have : (rotate (featAt x b) D).F = F := x3
      rwa [this] at hf
    have e := h p i f hp' hi' hf'
    show _ = entry y (b ++ [p, i, f])
    rw [e]
    unfold rotate
    simp only [x2]
    rfl
  refine ⟨fun m incl => ?_, ?_, fun D hD => ?_, fun D hD => ?_⟩
  · obtain ⟨y, h1, h2, h3⟩ := C89_change x batch ps (L + 1) F hx m incl
    obtain ⟨y1, y2, y3, y4⟩ := featAt_facts h2 hb
    obtain ⟨c1, c2, c3, c4⟩ := C08_change (featAt x b) (some m) (some incl)
    simp only [Option.getD_some] at c1 c2 c4
    refine ⟨y, h1, same_of_comp _ _ (c2.trans y1.symm) (c1.trans y2.symm) (c3.trans (x3.trans y3.symm)) ?_⟩
    intro p i f hf
    rw [c3, x3] at hf
    rw [c4, x4, y4, h3 b hb p i f hf]
    rfl
  · obtain ⟨y, h1, h2, h3⟩ := (C89_reflect x).1 batch ps (L + 1) F hx
    have hy : FeatureShape y.shape batch ps (L + 1) F := by rw [h2]; exact hx
    obtain ⟨y1, y2, y3, y4⟩ := featAt_facts hy hb
    obtain ⟨-, c2, c3, c4⟩ := C10_reflect (featAt x b) 0 0 0
    refine ⟨y, h1, same_of_comp _ _ (c2.trans (x1.trans y1.symm)) (c3.trans (x2.trans y2.symm))
      (c4.trans (x3.trans y3.symm)) ?_⟩
    intro p i f hf
    rw [c4, x3] at hf
    rw [(C10_reflect (featAt x b) p i f).1, x4, y4, h3 b hb p i f hf]
  · obtain ⟨y, h1, h2, h3⟩ := ((C89_rotate x D).1 batch ps (L + 1) F hx).1 hD
    exact ⟨y, h1, hrot y _ h2 (h3 b hb)⟩
  · obtain ⟨y, h1, h2, h3⟩ := ((C89_rotate x D).1 batch ps (L + 1) F hx).2.1 hD
    exact ⟨y, h1, hrot y _ h2 (h3 b hb)⟩

/-- Non-vacuity: a batch of two scalars and a batch of two vectors with pseudotensors are added to an array of vectors with
pseudotensors; the even scalar component of the first batch entry is the sum. -/
example (u v : ℕ → ℝ) :
    ∃ y, addArrays [⟨"float32", ⟨[2, 1, 1, 3], u⟩⟩, ⟨"float32", ⟨[2, 2, 4, 3], v⟩⟩] = .ok y ∧
      y.dtype = "float32" ∧ y.array.shape = [2, 2, 4, 3] ∧ component y.array [1] 0 0 2 = u 5 + v 26 := by
  obtain ⟨y, ps, K, h1, h2, h3, h4, h5, h6, h7, h8⟩ := C89_add
    [⟨"float32", ⟨[2, 1, 1, 3], u⟩⟩, ⟨"float32", ⟨[2, 2, 4, 3], v⟩⟩] (by simp) [2] 3 "float32" (by
      intro x hx
      simp only [List.mem_cons, List.not_mem_nil, or_false] at hx
      rcases hx with rfl | rfl
      · exact ⟨rfl, false, 1, rfl⟩
      · exact ⟨rfl, true, 2, rfl⟩)
  have hps : ps = true := h7.2 ⟨_, List.mem_cons_of_mem _ (List.mem_cons_self ..), 2, rfl⟩
  have hK : K = 2 := by
    have := h5 _ (List.mem_cons_of_mem _ (List.mem_cons_self ..)) true 2 rfl
    rcases h6 with h | ⟨x, hx, ps', h⟩
    · omega
    · simp only [List.mem_cons, List.not_mem_nil, or_false] at hx
      rcases hx with rfl | rfl
      · have := (featureShape_unique h (show FeatureShape [2, 1, 1, 3] [2] false 1 3 from rfl)).2.2.1
        omega
      · exact (featureShape_unique h (show FeatureShape [2, 2, 4, 3] [2] true 2 3 from rfl)).2.2.1
  refine ⟨y, h1, h2, ?_, ?_⟩
  · rw [hps, hK] at h3; exact h3
  · rw [h8 [1] (inShape_cons.2 ⟨by norm_num, inShape_nil⟩) 0 0 2 (by norm_num)]
    simp [component, entry, ravel]

/-- Non-vacuity: arrays of different types are not added. -/
example (u v : ℕ → ℝ) :
    addArrays [⟨"float32", ⟨[1, 1, 3], u⟩⟩, ⟨"float64", ⟨[1, 1, 3], v⟩⟩] = .error .valueError := by
  have h := C89_add_accepts [⟨"float32", ⟨[1, 1, 3], u⟩⟩, ⟨"float64", ⟨[1, 1, 3], v⟩⟩]
  have hno : ¬∃ y, addArrays [⟨"float32", ⟨[1, 1, 3], u⟩⟩, ⟨"float64", ⟨[1, 1, 3], v⟩⟩] = .ok y := by
    rw [h.1]
    rintro ⟨-, batch, F, d, hd⟩
    have h1 := (hd _ (List.mem_cons_self ..)).1
    have h2 := (hd _ (List.mem_cons_of_mem _ (List.mem_cons_self ..))).1
    simp only at h1 h2
    rw [← h2] at h1
    exact absurd h1 (by decide)
  have hni : ¬addArrays [⟨"float32", ⟨[1, 1, 3], u⟩⟩, ⟨"float64", ⟨[1, 1, 3], v⟩⟩] = .error .indexError := by
    rw [h.2.1]
    rintro (h' | ⟨pre, x, post, h1, -, -, h4⟩)
    · simp at h'
    · have hx : x ∈ pre ++ x :: post := by simp
      rw [← h1] at hx
      simp only [List.mem_cons, List.not_mem_nil, or_false] at hx
      rcases hx with rfl | rfl <;> simp at h4
  cases hr : addArrays [⟨"float32", ⟨[1, 1, 3], u⟩⟩, ⟨"float64", ⟨[1, 1, 3], v⟩⟩] with
  | ok y => exact absurd ⟨y, hr⟩ hno
  | error e =>
    rcases h.2.2 e hr with he | he
    · rw [he] at hr; exact absurd hr hni
    · rw [he]

/-- Non-vacuity: `change_max_degree_or_type(x, max_degree=-3)` keeps four of nine components. -/
example (u : ℕ → ℝ) : ∃ y, changeArray ⟨[5, 1, 9, 2], u⟩ (some (-3)) (some false) = .ok y ∧ y.shape = [5, 1, 4, 2] := by
  obtain ⟨⟨y, h1, h2, _⟩, _⟩ := C89_change_negative ⟨[5, 1, 9, 2], u⟩ [5] false 3 2 rfl 2
  exact ⟨y, h1, h2⟩

/-- Non-vacuity: a scalar among inputs without batch axes is an `IndexError`. -/
example (u v : ℕ → ℝ) : addArrays [⟨(), ⟨[1, 4, 2], u⟩⟩, ⟨(), ⟨[], v⟩⟩] = .error .indexError :=
  ((C89_add_accepts _).2.1).2 (.inr ⟨[⟨(), ⟨[1, 4, 2], u⟩⟩], ⟨(), ⟨[], v⟩⟩, [], rfl, by simp,
    ⟨2, (), by intro y hy; simp only [List.mem_cons, List.not_mem_nil, or_false] at hy; subst hy; exact ⟨rfl, false, 2, rfl⟩⟩, rfl⟩)

end E3x
