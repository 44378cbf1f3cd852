import Verif.Model.Initializers
import Verif.Spec.Initializers
import Verif.Lemmas.Tensor
import Verif.Lemmas.MatMat

/-!
# C40 (second part): initialisation of tensor product kernels

The shape is `(S1, N1, S2, N2, S3, N3, F)` with one or two parity channels and `N` degrees per axis.
-/

namespace E3x

open Spec Finset

/-- the triple of one axis -/
def axisTriple (S p l : ℕ) : ℕ × ℕ × ℕ := (p, l, parityOf S p l)

theorem parityList_ok {S : ℕ} (hS : S = 1 ∨ S = 2) (N : ℕ) : ∃ xs, parityDegreeIndexParityList S N = .ok xs ∧
    ∀ f : ℕ × ℕ × ℕ → ℕ, (xs.map f).sum = ∑ p ∈ range S, ∑ l ∈ range N, f (axisTriple S p l) := by
  have hsum : ∀ g : ℕ → ℕ, ((List.range N).map g).sum = ∑ l ∈ range N, g l := fun g => by
    rw [← List.sum_toFinset _ List.nodup_range, List.toFinset_range]
  rcases hS with rfl | rfl
  · refine ⟨_, rfl, fun f => ?_⟩
    rw [List.map_map, hsum, sum_range_one]
    rfl
  · refine ⟨_, rfl, fun f => ?_⟩
    rw [List.map_append, List.sum_append, List.map_map, List.map_map, hsum, hsum, sum_range_succ, sum_range_one]
    rfl

theorem sum_product_list {α β : Type} (xs : List α) (ys : List β) (f : α × β → ℕ) :
    ((xs.product ys).map f).sum = (xs.map fun x => (ys.map fun y => f (x, y)).sum).sum := by
  induction xs with
  | nil => rfl
  | cons x xs ih =>
    show ((List.map (Prod.mk x) ys ++ xs.product ys).map f).sum = _
    rw [List.map_append, List.sum_append, ih, List.map_map, List.map_cons, List.sum_cons]
    rfl

/-- the condition of the loop -/
def allowedTriple (t : (ℕ × ℕ × ℕ) × (ℕ × ℕ × ℕ) × (ℕ × ℕ × ℕ)) : Prop :=
  (t.1.2.2 + t.2.1.2.2) % 2 = t.2.2.2.2 ∧ Triangle t.1.2.1 t.2.1.2.1 t.2.2.2.1

instance : DecidablePred allowedTriple := fun _ => inferInstanceAs (Decidable (_ ∧ _))

theorem fansStep_eq (s : Fans) (t : (ℕ × ℕ × ℕ) × (ℕ × ℕ × ℕ) × (ℕ × ℕ × ℕ)) :
    (∀ p3 l3, (fansStep s t).fanIn p3 l3 = s.fanIn p3 l3 +
      if allowedTriple t ∧ t.2.2.1 = p3 ∧ t.2.2.2.1 = l3 then 1 else 0) ∧
    (∀ p1 l1 p2 l2, (fansStep s t).fanOut p1 l1 p2 l2 = s.fanOut p1 l1 p2 l2 +
      if allowedTriple t ∧ (t.1.1 = p1 ∧ t.1.2.1 = l1) ∧ t.2.1.1 = p2 ∧ t.2.1.2.1 = l2 then 1 else 0) ∧
    ∀ p1 l1 p2 l2 p3 l3, (fansStep s t).mask p1 l1 p2 l2 p3 l3 = false ↔ s.mask p1 l1 p2 l2 p3 l3 = false ∨
      ¬ allowedTriple t ∧ (t.1.1 = p1 ∧ t.1.2.1 = l1) ∧ (t.2.1.1 = p2 ∧ t.2.1.2.1 = l2) ∧ t.2.2.1 = p3 ∧
        t.2.2.2.1 = l3 := by
  obtain ⟨⟨p1, l1, d1⟩, ⟨p2, l2, d2⟩, ⟨p3, l3, d3⟩⟩ := t
  have hiff : ((d1 + d2) % 2 ≠ d3 ∨ ¬ (absDiff l1 l2 ≤ l3 ∧ l3 ≤ l1 + l2)) ↔
      ¬ allowedTriple ((p1, l1, d1), (p2, l2, d2), (p3, l3, d3)) := by
    unfold allowedTriple
    rw [triangle_iff]
    tauto
  unfold fansStep
  dsimp only
  by_cases h : allowedTriple ((p1, l1, d1), (p2, l2, d2), (p3, l3, d3))
  · rw [if_neg (by rw [hiff]; simpa using h)]
    dsimp only
    refine ⟨fun a b => ?_, fun a b c d => ?_, fun a b c d e f => by simp [h]⟩
    · by_cases hh : a = p3 ∧ b = l3
      · rw [if_pos hh, if_pos ⟨h, hh.1.symm, hh.2.symm⟩]
      · rw [if_neg hh, if_neg (fun g => hh ⟨g.2.1.symm, g.2.2.symm⟩), add_zero]
    · by_cases hh : a = p1 ∧ b = l1 ∧ c = p2 ∧ d = l2
      · obtain ⟨rfl, rfl, rfl, rfl⟩ := hh
        simp [h]
      · rw [if_neg hh, if_neg, add_zero]
        rintro ⟨_, ⟨rfl, rfl⟩, rfl, rfl⟩
        exact hh ⟨rfl, rfl, rfl, rfl⟩
  · rw [if_pos (hiff.2 h)]
    dsimp only
    refine ⟨fun a b => by simp [h], fun a b c d => by simp [h], fun a b c d e f => ?_⟩
    by_cases hh : a = p1 ∧ b = l1 ∧ c = p2 ∧ d = l2 ∧ e = p3 ∧ f = l3
    · obtain ⟨rfl, rfl, rfl, rfl, rfl, rfl⟩ := hh
      simp [h]
    · rw [if_neg hh]
      constructor
      · exact Or.inl
      · rintro (g | ⟨_, ⟨rfl, rfl⟩, ⟨rfl, rfl⟩, rfl, rfl⟩)
        · exact g
        · exact absurd ⟨rfl, rfl, rfl, rfl, rfl, rfl⟩ hh

theorem fans_fold (ts : List ((ℕ × ℕ × ℕ) × (ℕ × ℕ × ℕ) × (ℕ × ℕ × ℕ))) (s : Fans) :
    (∀ p3 l3, (ts.foldl fansStep s).fanIn p3 l3 = s.fanIn p3 l3 +
      ((ts.map fun t => if allowedTriple t ∧ t.2.2.1 = p3 ∧ t.2.2.2.1 = l3 then 1 else 0).sum : ℕ)) ∧
    (∀ p1 l1 p2 l2, (ts.foldl fansStep s).fanOut p1 l1 p2 l2 = s.fanOut p1 l1 p2 l2 +
      ((ts.map fun t => if allowedTriple t ∧ (t.1.1 = p1 ∧ t.1.2.1 = l1) ∧ t.2.1.1 = p2 ∧ t.2.1.2.1 = l2
        then 1 else 0).sum : ℕ)) ∧
    ∀ p1 l1 p2 l2 p3 l3, (ts.foldl fansStep s).mask p1 l1 p2 l2 p3 l3 = false ↔ s.mask p1 l1 p2 l2 p3 l3 = false ∨
      0 < (ts.map fun t => if ¬ allowedTriple t ∧ (t.1.1 = p1 ∧ t.1.2.1 = l1) ∧ (t.2.1.1 = p2 ∧ t.2.1.2.1 = l2) ∧
        t.2.2.1 = p3 ∧ t.2.2.2.1 = l3 then 1 else 0).sum := by
  induction ts generalizing s with
  | nil => simp
  | cons t ts ih =>
    obtain ⟨i1, i2, i3⟩ := ih (fansStep s t)
    obtain ⟨s1, s2, s3⟩ := fansStep_eq s t
    refine ⟨fun a b => ?_, fun a b c d => ?_, fun a b c d e f => ?_⟩
    · rw [List.foldl_cons, i1, s1, List.map_cons, List.sum_cons, Nat.cast_add, add_assoc, Nat.cast_ite]
      simp
    · rw [List.foldl_cons, i2, s2, List.map_cons, List.sum_cons, Nat.cast_add, add_assoc, Nat.cast_ite]
      simp
    · rw [List.foldl_cons, i3, s3, List.map_cons, List.sum_cons]
      by_cases h : ¬ allowedTriple t ∧ (t.1.1 = a ∧ t.1.2.1 = b) ∧ (t.2.1.1 = c ∧ t.2.1.2.1 = d) ∧ t.2.2.1 = e ∧
          t.2.2.2.1 = f
      · rw [if_pos h]
        constructor
        · intro _; right; omega
        · intro _; left; right; exact h
      · rw [if_neg h, zero_add, or_iff_left h]

/-- a sum over one axis with a condition that fixes the entry -/
theorem sum_axis_single {S N p l : ℕ} (hp : p < S) (hl : l < N) (g : ℕ → ℕ → ℕ) :
    ∑ p' ∈ range S, ∑ l' ∈ range N, (if p' = p ∧ l' = l then g p' l' else 0) = g p l := by
  rw [sum_eq_single p, sum_eq_single l]
  · simp
  · intro l' _ h; rw [if_neg (fun h' => h h'.2)]
  · intro h; exact absurd (mem_range.2 hl) h
  · intro p' _ h; exact sum_eq_zero fun l' _ => if_neg (fun h' => h h'.1)
  · intro h; exact absurd (mem_range.2 hp) h

/-- **C40 (fans and mask).** `fan_in` of an output is the number of pairs of inputs that contribute to it, `fan_out` of a
pair of inputs is the number of outputs to which it contributes, and the mask selects exactly the allowed couplings. -/
theorem C40_fans (S1 N1 S2 N2 S3 N3 F : ℕ) (h1 : S1 = 1 ∨ S1 = 2) (h2 : S2 = 1 ∨ S2 = 2) (h3 : S3 = 1 ∨ S3 = 2) :
    ∃ s, computeTensorFansAndMask [S1, N1, S2, N2, S3, N3, F] = .ok s ∧
      ∀ p1 < S1, ∀ l1 < N1, ∀ p2 < S2, ∀ l2 < N2, ∀ p3 < S3, ∀ l3 < N3,
        s.fanIn p3 l3 = inputPaths S1 N1 S2 N2 S3 p3 l3 ∧ s.fanOut p1 l1 p2 l2 = outputPaths S1 S2 S3 N3 p1 l1 p2 l2 ∧
        (s.mask p1 l1 p2 l2 p3 l3 = true ↔ AllowedCoupling S1 S2 S3 p1 l1 p2 l2 p3 l3) := by
  obtain ⟨xs, hx, sx⟩ := parityList_ok h1 N1
  obtain ⟨ys, hy, sy⟩ := parityList_ok h2 N2
  obtain ⟨zs, hz, sz⟩ := parityList_ok h3 N3
  unfold computeTensorFansAndMask
  dsimp only
  rw [hx, hy, hz]
  refine ⟨_, rfl, fun p1 hp1 l1 hl1 p2 hp2 l2 hl2 p3 hp3 l3 hl3 => ?_⟩
  obtain ⟨f1, f2, f3⟩ := fans_fold (xs.product (ys.product zs)) ⟨fun _ _ => 0, fun _ _ _ _ => 0, fun _ _ _ _ _ _ => true⟩
  have hall : ∀ a b c d e f, allowedTriple (axisTriple S1 a b, axisTriple S2 c d, axisTriple S3 e f) ↔
      AllowedCoupling S1 S2 S3 a b c d e f := fun _ _ _ _ _ _ => Iff.rfl
  simp only [sum_product_list, sx, sy, sz, hall] at f1 f2 f3
  simp only [axisTriple] at f1 f2 f3
  refine ⟨?_, ?_, ?_⟩
  · rw [f1, zero_add]
    congr 1
    unfold inputPaths
    rw [card_filter, sum_product, sum_product]
    refine sum_congr rfl fun a _ => sum_congr rfl fun b _ => ?_
    rw [sum_product]
    refine sum_congr rfl fun c _ => sum_congr rfl fun d _ => ?_
    rw [← sum_axis_single hp3 hl3 (fun e f => if AllowedCoupling S1 S2 S3 a b c d e f then 1 else 0)]
    refine sum_congr rfl fun e _ => sum_congr rfl fun f _ => ?_
    rw [← ite_and]
    exact if_congr and_comm rfl rfl
  · rw [f2, zero_add]
    congr 1
    unfold outputPaths
    rw [card_filter, sum_product]
    rw [← sum_axis_single hp2 hl2 (fun c d => ∑ e ∈ range S3, ∑ f ∈ range N3,
      if AllowedCoupling S1 S2 S3 p1 l1 c d e f then 1 else 0)]
    rw [← sum_axis_single hp1 hl1 (fun a b => ∑ c ∈ range S2, ∑ d ∈ range N2, if c = p2 ∧ d = l2 then
      ∑ e ∈ range S3, ∑ f ∈ range N3, if AllowedCoupling S1 S2 S3 a b c d e f then 1 else 0 else 0)]
    refine sum_congr rfl fun a _ => sum_congr rfl fun b _ => ?_
    by_cases hab : a = p1 ∧ b = l1
    · rw [if_pos hab]
      refine sum_congr rfl fun c _ => sum_congr rfl fun d _ => ?_
      by_cases hcd : c = p2 ∧ d = l2
      · rw [if_pos hcd]
        exact sum_congr rfl fun e _ => sum_congr rfl fun f _ => if_congr (by tauto) rfl rfl
      · rw [if_neg hcd]
        exact sum_eq_zero fun e _ => sum_eq_zero fun f _ => if_neg (by tauto)
    · rw [if_neg hab]
      exact sum_eq_zero fun c _ => sum_eq_zero fun d _ => sum_eq_zero fun e _ => sum_eq_zero fun f _ => if_neg (by tauto)
  · have hm := f3 p1 l1 p2 l2 p3 l3
    simp only [Bool.true_eq_false, false_or] at hm
    rw [← Bool.not_eq_false, not_iff_comm, hm]
    constructor
    · intro h
      have e1 : ∑ a ∈ range S1, ∑ b ∈ range N1, ∑ c ∈ range S2, ∑ d ∈ range N2, ∑ e ∈ range S3, ∑ f ∈ range N3,
          (if ¬ AllowedCoupling S1 S2 S3 a b c d e f ∧ (a = p1 ∧ b = l1) ∧ (c = p2 ∧ d = l2) ∧ e = p3 ∧ f = l3
            then 1 else 0) = 1 := by
        refine Eq.trans ?_ (sum_axis_single hp1 hl1 (fun _ _ => 1))
        refine sum_congr rfl fun a _ => sum_congr rfl fun b _ => ?_
        by_cases hab : a = p1 ∧ b = l1
        · rw [if_pos hab]
          refine Eq.trans ?_ (sum_axis_single hp2 hl2 (fun _ _ => 1))
          refine sum_congr rfl fun c _ => sum_congr rfl fun d _ => ?_
          by_cases hcd : c = p2 ∧ d = l2
          · rw [if_pos hcd]
            refine Eq.trans ?_ (sum_axis_single hp3 hl3 (fun _ _ => 1))
            refine sum_congr rfl fun e _ => sum_congr rfl fun f _ => ?_
            obtain ⟨rfl, rfl⟩ := hab
            obtain ⟨rfl, rfl⟩ := hcd
            by_cases hef : e = p3 ∧ f = l3
            · obtain ⟨rfl, rfl⟩ := hef
              rw [if_pos ⟨h, ⟨rfl, rfl⟩, ⟨rfl, rfl⟩, rfl, rfl⟩, if_pos ⟨rfl, rfl⟩]
            · rw [if_neg hef, if_neg (fun g => hef g.2.2.2)]
          · rw [if_neg hcd]
            exact sum_eq_zero fun e _ => sum_eq_zero fun f _ => if_neg (by tauto)
        · rw [if_neg hab]
          exact sum_eq_zero fun c _ => sum_eq_zero fun d _ => sum_eq_zero fun e _ => sum_eq_zero fun f _ => if_neg (by tauto)
      refine lt_of_lt_of_eq zero_lt_one ?_
      symm
      convert e1 using 12
      exact if_congr Iff.rfl rfl rfl
    · intro h hA
      have e0 : ∑ a ∈ range S1, ∑ b ∈ range N1, ∑ c ∈ range S2, ∑ d ∈ range N2, ∑ e ∈ range S3, ∑ f ∈ range N3,
          (if ¬ AllowedCoupling S1 S2 S3 a b c d e f ∧ (a = p1 ∧ b = l1) ∧ (c = p2 ∧ d = l2) ∧ e = p3 ∧ f = l3
            then 1 else 0) = 0 := by
        refine sum_eq_zero fun a _ => sum_eq_zero fun b _ => sum_eq_zero fun c _ => sum_eq_zero fun d _ =>
          sum_eq_zero fun e _ => sum_eq_zero fun f _ => if_neg ?_
        rintro ⟨hn, ⟨rfl, rfl⟩, ⟨rfl, rfl⟩, rfl, rfl⟩
        exact hn hA
      refine absurd h (not_lt.2 (le_of_eq ?_))
      convert e0 using 12
      exact if_congr Iff.rfl rfl rfl

/-- **C40 (fans: validation).** Shapes of another length and other numbers of parity channels raise `ValueError`. -/
theorem C40_fans_validation (shape : List ℕ)
    (h : shape.length ≠ 7 ∨ ∃ k ∈ [0, 2, 4], shape[k]? ≠ some 1 ∧ shape[k]? ≠ some 2) :
    computeTensorFansAndMask shape = .error .valueError := by
  unfold computeTensorFansAndMask
  split
  · rename_i s1 n1 s2 n2 s3 n3 f
    simp only [List.length_cons, List.length_nil, ne_eq, not_true_eq_false, false_or, List.mem_cons, List.not_mem_nil,
      or_false] at h
    have hn : ∀ s n, s ≠ 1 → s ≠ 2 → parityDegreeIndexParityList s n = .error .valueError := by
      intro s n h1 h2
      unfold parityDegreeIndexParityList
      rw [if_neg h2, if_neg h1]
    obtain ⟨k, hk, h1, h2⟩ := h
    rcases hk with rfl | rfl | rfl
    · rw [hn s1 n1 (by simpa using h1) (by simpa using h2)]
    · rw [hn s2 n2 (by simpa using h1) (by simpa using h2)]
      cases parityDegreeIndexParityList s1 n1 <;> rfl
    · rw [hn s3 n3 (by simpa using h1) (by simpa using h2)]
      cases parityDegreeIndexParityList s1 n1 <;> cases parityDegreeIndexParityList s2 n2 <;> rfl
  · rfl

/-- The documented denominators. -/
noncomputable def fanOf (mode : String) (fanIn fanOut : ℝ) : ℝ :=
  if mode = "fan_in" then fanIn else if mode = "fan_out" then fanOut else (fanIn + fanOut) / 2

/-- The factor that gives numbers from a standard distribution unit variance: `uniform` on `(-1, 1)` has variance
`1 / 3`, the truncated normal distribution has standard deviation `0.8796...`. -/
noncomputable def unitFactor (distribution : String) : ℝ :=
  if distribution = "uniform" then Real.sqrt 3 else if distribution = "truncated_normal" then 1 / 0.87962566103423978 else 1

theorem randomEntry_eq (distribution : String) (draw : String → ℝ) (v : ℝ)
    (hd : distribution ∈ ["truncated_normal", "normal", "uniform"]) :
    randomEntry distribution draw v = .ok (Real.sqrt v * (unitFactor distribution * draw distribution)) := by
  simp only [List.mem_cons, List.not_mem_nil, or_false] at hd
  unfold randomEntry unitFactor
  rcases hd with rfl | rfl | rfl
  · simp; ring
  · simp
  · simp [Real.sqrt_mul]; ring

/-- **C40 (variances).** Forbidden couplings are initialised with zero; allowed ones with random numbers (of unit
variance, see `unitFactor`) times the square root of `scale / fan`, where the fan is the documented one and is
positive. -/
theorem C40_variance_scaling (S1 N1 S2 N2 S3 N3 F : ℕ) (h1 : S1 = 1 ∨ S1 = 2) (h2 : S2 = 1 ∨ S2 = 2)
    (h3 : S3 = 1 ∨ S3 = 2) (scale : ℝ) (mode distribution : String) (hm : mode ∈ ["fan_in", "fan_out", "fan_avg"])
    (hd : distribution ∈ ["truncated_normal", "normal", "uniform"])
    (draws : String → ℕ → ℕ → ℕ → ℕ → ℕ → ℕ → ℕ → ℝ) :
    ∃ W, tensorVarianceScaling scale mode distribution draws [S1, N1, S2, N2, S3, N3, F] = .ok W ∧
      ∀ p1 < S1, ∀ l1 < N1, ∀ p2 < S2, ∀ l2 < N2, ∀ p3 < S3, ∀ l3 < N3, ∀ f,
        (¬ AllowedCoupling S1 S2 S3 p1 l1 p2 l2 p3 l3 → W p1 l1 p2 l2 p3 l3 f = 0) ∧
        (AllowedCoupling S1 S2 S3 p1 l1 p2 l2 p3 l3 →
          0 < fanOf mode (inputPaths S1 N1 S2 N2 S3 p3 l3) (outputPaths S1 S2 S3 N3 p1 l1 p2 l2) ∧
          W p1 l1 p2 l2 p3 l3 f =
            Real.sqrt (scale / fanOf mode (inputPaths S1 N1 S2 N2 S3 p3 l3) (outputPaths S1 S2 S3 N3 p1 l1 p2 l2)) *
              (unitFactor distribution * draws distribution p1 l1 p2 l2 p3 l3 f)) := by
  obtain ⟨s, hs, hfans⟩ := C40_fans S1 N1 S2 N2 S3 N3 F h1 h2 h3
  unfold tensorVarianceScaling
  rw [hs]
  dsimp only
  have hm' : ¬ (mode ≠ "fan_in" ∧ mode ≠ "fan_out" ∧ mode ≠ "fan_avg") := by
    simp only [List.mem_cons, List.not_mem_nil, or_false] at hm
    tauto
  rw [if_neg hm', randomEntry_eq distribution _ _ hd]
  refine ⟨_, rfl, fun p1 hp1 l1 hl1 p2 hp2 l2 hl2 p3 hp3 l3 hl3 f => ?_⟩
  obtain ⟨e1, e2, e3⟩ := hfans p1 hp1 l1 hl1 p2 hp2 l2 hl2 p3 hp3 l3 hl3
  refine ⟨fun hn => ?_, fun ha => ?_⟩
  · rw [if_neg (fun h => hn (e3.1 h))]
  · have i1 : (0 : ℝ) < inputPaths S1 N1 S2 N2 S3 p3 l3 := by
      rw [Nat.cast_pos]
      unfold inputPaths
      rw [card_pos]
      exact ⟨((p1, l1), p2, l2), by
        simp only [mem_filter, mem_product, mem_range]; exact ⟨⟨⟨hp1, hl1⟩, hp2, hl2⟩, ha⟩⟩
    have i2 : (0 : ℝ) < outputPaths S1 S2 S3 N3 p1 l1 p2 l2 := by
      rw [Nat.cast_pos]
      unfold outputPaths
      rw [card_pos]
      exact ⟨(p3, l3), by simp only [mem_filter, mem_product, mem_range]; exact ⟨⟨hp3, hl3⟩, ha⟩⟩
    have hpos : 0 < fanOf mode (inputPaths S1 N1 S2 N2 S3 p3 l3) (outputPaths S1 S2 S3 N3 p1 l1 p2 l2) := by
      unfold fanOf
      split_ifs
      · exact i1
      · exact i2
      · positivity
    refine ⟨hpos, ?_⟩
    rw [if_pos (e3.2 ha)]
    simp only [e1, e2]
    rw [randomEntry_eq distribution _ _ hd]
    unfold fanOf at hpos ⊢
    rw [if_pos hpos]

/-- **C40 (variances: validation).** Unknown modes and distributions raise `ValueError`. -/
theorem C40_variance_scaling_validation (shape : List ℕ) (scale : ℝ) (mode distribution : String)
    (draws : String → ℕ → ℕ → ℕ → ℕ → ℕ → ℕ → ℕ → ℝ)
    (h : mode ∉ ["fan_in", "fan_out", "fan_avg"] ∨ distribution ∉ ["truncated_normal", "normal", "uniform"]) :
    tensorVarianceScaling scale mode distribution draws shape = .error .valueError := by
  unfold tensorVarianceScaling
  have hf : ∀ e, computeTensorFansAndMask shape = .error e → e = .valueError := by
    intro e he
    unfold computeTensorFansAndMask at he
    split at he
    · split at he
      · cases he
      · exact (Except.error.inj he).symm
    · exact (Except.error.inj he).symm
  cases hc : computeTensorFansAndMask shape with
  | error e => rw [hf e hc]
  | ok s =>
    dsimp only
    by_cases hm : mode ≠ "fan_in" ∧ mode ≠ "fan_out" ∧ mode ≠ "fan_avg"
    · rw [if_pos hm]
    · rw [if_neg hm]
      have hd : distribution ∉ ["truncated_normal", "normal", "uniform"] := by
        simp only [List.mem_cons, List.not_mem_nil, or_false] at h ⊢
        tauto
      have : randomEntry distribution (fun _ => 0) 0 = .error .valueError := by
        simp only [List.mem_cons, List.not_mem_nil, or_false, not_or] at hd
        unfold randomEntry
        rw [if_neg hd.1, if_neg hd.2.1, if_neg hd.2.2]
      rw [this]

/-- **C40 (named initializers).** The named initializers have the documented modes, scales and distributions. -/
theorem C40_named :
    tensorGlorotUniform = tensorVarianceScaling 1 "fan_avg" "uniform" ∧
    tensorGlorotNormal = tensorVarianceScaling 1 "fan_avg" "truncated_normal" ∧
    tensorLecunUniform = tensorVarianceScaling 1 "fan_in" "uniform" ∧
    tensorLecunNormal = tensorVarianceScaling 1 "fan_in" "truncated_normal" ∧
    tensorHeUniform = tensorVarianceScaling 2 "fan_in" "uniform" ∧
    tensorHeNormal = tensorVarianceScaling 2 "fan_in" "truncated_normal" :=
  ⟨rfl, rfl, rfl, rfl, rfl, rfl⟩

/-- **C40 (fused tensor products).** Entries outside of the mask are zero, the others are random numbers of variance
`scale`. -/
theorem C40_fused_init (draw : String → ℝ) (scale : ℝ) (mask : Bool) :
    fusedTensorNormal draw scale mask = .ok (if mask then
      Real.sqrt scale * (unitFactor "truncated_normal" * draw "truncated_normal") else 0) ∧
    fusedTensorUniform draw scale mask = .ok (if mask then
      Real.sqrt scale * (unitFactor "uniform" * draw "uniform") else 0) := by
  unfold fusedTensorNormal fusedTensorUniform fusedTensorInit
  rw [randomEntry_eq _ _ _ (by simp), randomEntry_eq _ _ _ (by simp)]
  exact ⟨rfl, rfl⟩

/-- a vector and a vector of one parity channel each: three paths lead to the vector part, as in `0⊗1`, `1⊗0`
(and `1⊗1` is forbidden by parity); into the scalars lead `0⊗0` and `1⊗1` -/
example : inputPaths 1 2 1 2 1 0 1 = 2 ∧ inputPaths 1 2 1 2 1 0 0 = 2 ∧ inputPaths 2 2 2 2 2 1 1 = 6 := by
  decide +kernel

end E3x
