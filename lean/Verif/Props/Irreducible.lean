import Verif.Lemmas.Schur
import Verif.Lemmas.MatMatRotation
import Verif.Spec.Irreducible
import Mathlib.Analysis.InnerProductSpace.Projection.Basic
import Mathlib.Analysis.InnerProductSpace.PiL2
import Mathlib.Analysis.InnerProductSpace.Projection.FiniteDimensional

/-!
# C71: the irreps of the library are irreducible and inequivalent
-/

namespace E3x

noncomputable section

open Finset Spec

/-- what `wigner_d` returns for a matrix -/
theorem isWignerD (cart : Bool) (R : Fin 3 → Fin 3 → ℝ) (L : ℕ) :
    IsWignerD cart R L fun i j => if i < (L + 1) ^ 2 ∧ j < (L + 1) ^ 2 then dMatrix cart R i j else 0 :=
  fun disk hd o => wignerD_eq disk hd o R L cart

theorem isWignerD_unique {cart : Bool} {R : Fin 3 → Fin 3 → ℝ} {L : ℕ} {D E : ℕ → ℕ → ℝ} (hD : IsWignerD cart R L D)
    (hE : IsWignerD cart R L E) : D = E := by
  have hv : ValidDisk (wdKind wigTerms) (wdTable wigTerms) ⟨.absent, fun _ => .absent, none⟩ :=
    ⟨fun c h => (by cases h), fun _ => trivial⟩
  exact Except.ok.inj ((hD _ hv .success).symm.trans (hE _ hv .success))

theorem block_degree {l i : ℕ} (h : degreeOf i = l) : l ^ 2 ≤ i ∧ i - l ^ 2 < 2 * l + 1 := by
  unfold degreeOf at h
  have h1 := Nat.sqrt_le' i
  have h2 := Nat.lt_succ_sqrt' i
  rw [h] at h1 h2
  have : (l + 1) ^ 2 = l ^ 2 + 2 * l + 1 := by ring
  simp only [Nat.succ_eq_add_one] at h2
  omega

theorem dMatrix_block' (cart : Bool) {R : Fin 3 → Fin 3 → ℝ} {a b : ℕ} (h : degreeOf a ≠ degreeOf b) :
    dMatrix cart R a b = 0 := by
  unfold dMatrix
  rw [if_neg h]

/-- the matrix with its rows and columns at the flat positions -/
def flatten (l k : ℕ) (T : Fin (2 * l + 1) → Fin (2 * k + 1) → ℝ) (i j : ℕ) : ℝ :=
  if h : degreeOf i = l ∧ degreeOf j = k then T ⟨i - l ^ 2, (block_degree h.1).2⟩ ⟨j - k ^ 2, (block_degree h.2).2⟩ else 0

theorem flatten_at (l k : ℕ) (T) (i : Fin (2 * l + 1)) (j : Fin (2 * k + 1)) : flatten l k T (l ^ 2 + i) (k ^ 2 + j) = T i j := by
  unfold flatten
  rw [dif_pos ⟨degreeOf_flat i.2, degreeOf_flat j.2⟩]
  congr 1 <;> exact Fin.ext (by simp)

theorem flatten_left {l k : ℕ} (T) {i j : ℕ} (h : degreeOf i ≠ l) : flatten l k T i j = 0 := by
  unfold flatten
  rw [dif_neg (fun h' => h h'.1)]

theorem flatten_right {l k : ℕ} (T) {i j : ℕ} (h : degreeOf j ≠ k) : flatten l k T i j = 0 := by
  unfold flatten
  rw [dif_neg (fun h' => h h'.2)]

/-- Schur's lemma for two irreps of the library. -/
theorem intertwiner (cart : Bool) (l k : ℕ) (T : Fin (2 * l + 1) → Fin (2 * k + 1) → ℝ) (hT : RespectsRotations cart l k T) :
    ∃ c : ℝ, ∀ i j, T i j = if l = k ∧ (i : ℕ) = j then c else 0 := by
  obtain ⟨c, hc⟩ := schur cart l k (flatten l k T) (by
    intro R hR hdet i hi j hj
    by_cases hdi : degreeOf i = l
    swap
    · rw [sum_eq_zero, sum_eq_zero]
      · intro j' _
        rw [flatten_left T hdi, zero_mul]
      · intro i' _
        by_cases hi' : degreeOf i' = l
        · rw [dMatrix_block' cart (by rw [hi']; exact hdi), zero_mul]
        · rw [flatten_left T hi', mul_zero]
    by_cases hdj : degreeOf j = k
    swap
    · rw [sum_eq_zero, sum_eq_zero]
      · intro j' _
        by_cases hj' : degreeOf j' = k
        · rw [dMatrix_block' cart (by rw [hj']; exact Ne.symm hdj), mul_zero]
        · rw [flatten_right T hj', zero_mul]
      · intro i' _
        rw [flatten_right T hdj, mul_zero]
    obtain ⟨hi1, hi2⟩ := block_degree hdi
    obtain ⟨hj1, hj2⟩ := block_degree hdj
    have h := hT R ⟨hR, hdet⟩ _ _ (isWignerD cart R l) (isWignerD cart R k) ⟨i - l ^ 2, hi2⟩ ⟨j - k ^ 2, hj2⟩
    simp only [Nat.add_sub_cancel' hi1, Nat.add_sub_cancel' hj1] at h
    rw [sum_degree_block l _ (fun c hc => by rw [flatten_left T hc, mul_zero]),
      sum_degree_block k _ (fun c hc => by rw [flatten_right T hc, zero_mul]), sum_range, sum_range]
    refine Eq.trans (sum_congr rfl fun a _ => ?_) (h.trans (sum_congr rfl fun a _ => ?_))
    · rw [if_pos ⟨hi, flat_lt le_rfl a.2⟩]
      have := flatten_at l k T a ⟨j - k ^ 2, hj2⟩
      simp only [Nat.add_sub_cancel' hj1] at this
      rw [this]
    · rw [if_pos ⟨flat_lt le_rfl a.2, hj⟩]
      have := flatten_at l k T ⟨i - l ^ 2, hi2⟩ a
      simp only [Nat.add_sub_cancel' hi1] at this
      rw [this])
  refine ⟨c k, fun i j => ?_⟩
  rw [← flatten_at l k T i j, hc _ (flat_lt le_rfl i.2) _ (flat_lt le_rfl j.2), degreeOf_flat j.2]
  by_cases hlk : l = k
  · subst hlk
    simp
  · rw [if_neg, if_neg (fun h => hlk h.1)]
    intro h
    have := congrArg degreeOf h
    rw [degreeOf_flat i.2, degreeOf_flat j.2] at this
    exact hlk this

/-- **C71 (maps between different irreps).** A linear map between irreps of different degrees which respects all rotations
is zero. -/
theorem C71_different_degrees (cart : Bool) (l k : ℕ) (hlk : l ≠ k) (T : Fin (2 * l + 1) → Fin (2 * k + 1) → ℝ)
    (hT : RespectsRotations cart l k T) : ∀ i j, T i j = 0 := by
  obtain ⟨c, hc⟩ := intertwiner cart l k T hT
  intro i j
  rw [hc, if_neg (fun h => hlk h.1)]

/-- **C71 (maps of an irrep to itself).** The linear maps of irreps of degree `l` to irreps of degree `l` which respect all
rotations are exactly the multiplications of all components by the same factor. -/
theorem C71_same_degree (cart : Bool) (l : ℕ) (T : Fin (2 * l + 1) → Fin (2 * l + 1) → ℝ) :
    RespectsRotations cart l l T ↔ ∃ c : ℝ, ∀ i j, T i j = if i = j then c else 0 := by
  constructor
  · intro hT
    obtain ⟨c, hc⟩ := intertwiner cart l l T hT
    refine ⟨c, fun i j => ?_⟩
    rw [hc]
    simp only [true_and, Fin.ext_iff]
  · rintro ⟨c, hc⟩ R hR D E hD hE i j
    have e : D = E := by
      exact isWignerD_unique hD hE
    subst e
    simp only [hc]
    simp [mul_comm]

/-- **C71 (the dimension distinguishes irreps).** Irreps of degrees `l` and `k` are related by an invertible change of
coordinates which respects all rotations only if `l = k`. -/
theorem C71_inequivalent (cart : Bool) (l k : ℕ) (T : Fin (2 * l + 1) → Fin (2 * k + 1) → ℝ)
    (hT : RespectsRotations cart l k T) (hne : ∃ i j, T i j ≠ 0) : l = k := by
  by_contra h
  obtain ⟨i, j, hij⟩ := hne
  exact hij (C71_different_degrees cart l k h T hT i j)

/-- **C71 (irreducibility).** A subspace of the irreps of degree `l` which every rotation maps to itself contains only zero
or everything: irreps cannot be decomposed into smaller parts. -/
theorem C71_irreducible (cart : Bool) (l : ℕ) (V : Submodule ℝ (Fin (2 * l + 1) → ℝ))
    (hV : ∀ R, IsSpatialRotation R → ∀ D, IsWignerD cart R l D → ∀ x ∈ V, turnedIrrep l D x ∈ V) : V = ⊥ ∨ V = ⊤ := by
  classical
  set e := (WithLp.linearEquiv 2 ℝ (Fin (2 * l + 1) → ℝ)) with he
  set W : Submodule ℝ (EuclideanSpace ℝ (Fin (2 * l + 1))) := V.comap e.toLinearMap with hW
  set P := W.starProjection with hP
  set T : Fin (2 * l + 1) → Fin (2 * l + 1) → ℝ := fun i j => (P (e.symm (Pi.single i 1))) j with hT
  have hPx : ∀ x : EuclideanSpace ℝ (Fin (2 * l + 1)), ∀ j, P x j = ∑ i, x i * T i j := by
    intro x j
    have hx : x = ∑ i, x i • e.symm (Pi.single i 1) := by
      apply e.injective
      rw [map_sum]
      simp only [map_smul, LinearEquiv.apply_symm_apply]
      funext a
      rw [Finset.sum_apply]
      simp [Pi.single_apply, he]
    conv_lhs => rw [hx]
    rw [map_sum]
    simp only [map_smul]
    simp [hT]
  have hin : ∀ u v : EuclideanSpace ℝ (Fin (2 * l + 1)), inner ℝ u v = ∑ i, e u i * e v i := by
    intro u v
    rw [PiLp.inner_apply]
    exact sum_congr rfl fun i _ => by rw [RCLike.inner_apply, conj_trivial, mul_comm]; rfl
  have adj : ∀ (D D' : ℕ → ℕ → ℝ) (x w : Fin (2 * l + 1) → ℝ),
      (∀ a b : Fin (2 * l + 1), D (l ^ 2 + a) (l ^ 2 + b) = D' (l ^ 2 + b) (l ^ 2 + a)) →
      ∑ m, turnedIrrep l D x m * w m = ∑ k, x k * turnedIrrep l D' w k := by
    intro D D' x w h
    unfold turnedIrrep
    simp only [sum_mul, mul_sum]
    rw [sum_comm]
    refine sum_congr rfl fun k _ => sum_congr rfl fun m _ => ?_
    rw [h]
    ring
  have hinter : RespectsRotations cart l l T := by
    intro R hR D E hD hE i j
    have eDE : D = E := by
      exact isWignerD_unique hD hE
    subst eDE
    have hRt : IsSpatialRotation (transpose3 R) := ⟨hR.1.transpose, by
      have := hR.2
      unfold det3x3 transpose3 at *
      linarith⟩
    have hDd : ∀ a b : Fin (2 * l + 1), D (l ^ 2 + a) (l ^ 2 + b) = dMatrix cart R (l ^ 2 + a) (l ^ 2 + b) := by
      intro a b
      rw [isWignerD_unique hD (isWignerD cart R l)]
      dsimp only
      rw [if_pos ⟨flat_lt le_rfl a.2, flat_lt le_rfl b.2⟩]
    have key : P (e.symm (turnedIrrep l D (Pi.single i 1))) = e.symm (turnedIrrep l D (e (P (e.symm (Pi.single i 1))))) := by
      apply Submodule.eq_starProjection_of_mem_of_inner_eq_zero
      · change e (e.symm _) ∈ V
        rw [LinearEquiv.apply_symm_apply]
        exact hV R hR D hD _ (W.starProjection_apply_mem _)
      · intro w hw
        have hw' : e.symm (turnedIrrep l (fun a b => if a < (l + 1) ^ 2 ∧ b < (l + 1) ^ 2 then dMatrix cart (transpose3 R) a b else 0)
            (e w)) ∈ W := by
          change e (e.symm _) ∈ V
          rw [LinearEquiv.apply_symm_apply]
          exact hV _ hRt _ (isWignerD cart _ l) _ hw
        have h0 := W.starProjection_inner_eq_zero (e.symm (Pi.single i 1)) _ hw'
        rw [hin] at h0 ⊢
        rw [map_sub] at h0 ⊢
        simp only [LinearEquiv.apply_symm_apply] at h0 ⊢
        simp only [Pi.sub_apply, sub_mul, sum_sub_distrib] at h0 ⊢
        rw [adj, adj]
        exact h0
        all_goals
          intro a b
          rw [hDd]
          rw [if_pos ⟨flat_lt le_rfl b.2, flat_lt le_rfl a.2⟩, dMatrix_transpose cart hR.1]
    have h2 := congrArg (fun v => v j) key
    dsimp only at h2
    rw [hPx] at h2
    have e1 : ∀ a, (e.symm (turnedIrrep l D (Pi.single i 1))) a = D (l ^ 2 + i) (l ^ 2 + a) := by
      intro a
      change turnedIrrep l D (Pi.single i 1) a = _
      unfold turnedIrrep
      simp [Pi.single_apply]
    simp only [e1] at h2
    exact h2
  obtain ⟨c, hc⟩ := (C71_same_degree cart l T).1 hinter
  have hcx : ∀ x : EuclideanSpace ℝ (Fin (2 * l + 1)), P x = c • x := by
    intro x
    ext j
    rw [hPx]
    simp [hc, mul_comm]
  by_cases hbot : V = ⊥
  · exact Or.inl hbot
  · right
    obtain ⟨x, hx, hx0⟩ := Submodule.exists_mem_ne_zero_of_ne_bot hbot
    have hxW : e.symm x ∈ W := by
      change e (e.symm x) ∈ V
      rw [LinearEquiv.apply_symm_apply]
      exact hx
    have h1 : P (e.symm x) = e.symm x := W.starProjection_eq_self_iff.2 hxW
    rw [hcx] at h1
    have hc1 : c = 1 := by
      have h2 : (c - 1) • e.symm x = 0 := by rw [sub_smul, h1, one_smul, sub_self]
      rcases smul_eq_zero.1 h2 with h | h
      · linarith
      · exact absurd (by simpa using h) hx0
    rw [eq_top_iff]
    intro y _
    have hy : P (e.symm y) ∈ W := W.starProjection_apply_mem _
    rw [hcx, hc1, one_smul] at hy
    have : e (e.symm y) ∈ V := hy
    rwa [LinearEquiv.apply_symm_apply] at this

/-- The hypotheses are met: doubling irreps of degree two respects all rotations; exchanging the first two components of a
vector does not. -/
example : RespectsRotations true 2 2 (fun i j => if i = j then 2 else 0) ∧
    ¬ RespectsRotations true 1 1 (fun i j => if i.val = 1 - j.val then 1 else 0) := by
  refine ⟨(C71_same_degree true 2 _).2 ⟨2, fun _ _ => rfl⟩, fun h => ?_⟩
  obtain ⟨c, hc⟩ := (C71_same_degree true 1 _).1 h
  have h1 := hc 0 0
  have h2 := hc 0 1
  simp at h1 h2

/-- The hypothesis of irreducibility excludes subspaces: vectors with a vanishing last component are not mapped to such
vectors by all rotations. -/
example : ∃ V : Submodule ℝ (Fin (2 * 1 + 1) → ℝ), V ≠ ⊥ ∧ V ≠ ⊤ ∧
    ¬ ∀ R, IsSpatialRotation R → ∀ D, IsWignerD true R 1 D → ∀ x ∈ V, turnedIrrep 1 D x ∈ V := by
  have hb : (LinearMap.ker (LinearMap.proj (2 : Fin (2 * 1 + 1)) : (Fin (2 * 1 + 1) → ℝ) →ₗ[ℝ] ℝ)) ≠ ⊥ := by
    intro h
    have : (Pi.single (0 : Fin (2 * 1 + 1)) (1 : ℝ)) ∈
        LinearMap.ker (LinearMap.proj (2 : Fin (2 * 1 + 1)) : (Fin (2 * 1 + 1) → ℝ) →ₗ[ℝ] ℝ) := by
      simp
    rw [h] at this
    have := congrFun ((Submodule.mem_bot ℝ).1 this) 0
    simp at this
  have ht : (LinearMap.ker (LinearMap.proj (2 : Fin (2 * 1 + 1)) : (Fin (2 * 1 + 1) → ℝ) →ₗ[ℝ] ℝ)) ≠ ⊤ := by
    intro h
    have : (Pi.single (2 : Fin (2 * 1 + 1)) (1 : ℝ)) ∈
        LinearMap.ker (LinearMap.proj (2 : Fin (2 * 1 + 1)) : (Fin (2 * 1 + 1) → ℝ) →ₗ[ℝ] ℝ) := by
      rw [h]
      trivial
    simp at this
  refine ⟨_, hb, ht, fun h => ?_⟩
  rcases C71_irreducible true 1 _ h with h | h
  · exact hb h
  · exact ht h

end

end E3x
