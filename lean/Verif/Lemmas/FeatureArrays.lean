import Verif.Model.FeatureArrays
import Verif.Lemmas.Arrays
import Verif.Lemmas.IndexedArrays
import Verif.Props.IndexedArrays
import Verif.Props.Features

/-!
# Arrays of features: shapes and entries of slices, pads and concatenations
-/

namespace E3x

open Spec NDArray

/-- An array of shape `(*batch, s, n, F)` with given entries. -/
def Rep (x : NDArray ℝ) (batch : List ℕ) (s n F : ℕ) (v : List ℕ → ℕ → ℕ → ℕ → ℝ) : Prop :=
  x.shape = batch ++ [s, n, F] ∧
    ∀ b, InShape b batch → ∀ p i f, p < s → i < n → f < F → entry x (b ++ [p, i, f]) = v b p i f

theorem inShape_three {b batch : List ℕ} (hb : InShape b batch) {p i f s n F : ℕ} (hp : p < s) (hi : i < n) (hf : f < F) :
    InShape (b ++ [p, i, f]) (batch ++ [s, n, F]) :=
  inShape_append hb (inShape_cons.2 ⟨hp, inShape_cons.2 ⟨hi, inShape_cons.2 ⟨hf, inShape_nil⟩⟩⟩)

theorem Rep.mk_self {x : NDArray ℝ} {batch : List ℕ} {s n F : ℕ} (h : x.shape = batch ++ [s, n, F]) :
    Rep x batch s n F fun b p i f => entry x (b ++ [p, i, f]) := ⟨h, fun _ _ _ _ _ _ _ _ => rfl⟩

theorem Rep.congr {x : NDArray ℝ} {batch : List ℕ} {s n F : ℕ} {v w : List ℕ → ℕ → ℕ → ℕ → ℝ} (h : Rep x batch s n F v)
    (e : ∀ b, InShape b batch → ∀ p i f, p < s → i < n → f < F → v b p i f = w b p i f) : Rep x batch s n F w :=
  ⟨h.1, fun b hb p i f hp hi hf => (h.2 b hb p i f hp hi hf).trans (e b hb p i f hp hi hf)⟩

theorem Rep.ndim {x : NDArray ℝ} {batch : List ℕ} {s n F : ℕ} {v} (h : Rep x batch s n F v) : x.ndim = batch.length + 3 := by
  unfold NDArray.ndim; rw [h.1]; simp

theorem getD_axis3 (b : List ℕ) (p i f : ℕ) : (b ++ [p, i, f]).getD b.length 0 = p := by simp
theorem getD_axis2 (b : List ℕ) (p i f : ℕ) : (b ++ [p, i, f]).getD (b.length + 1) 0 = i := by simp
theorem getD_axis1 (b : List ℕ) (p i f : ℕ) : (b ++ [p, i, f]).getD (b.length + 2) 0 = f := by simp
theorem set_axis3 (b : List ℕ) (p i f q : ℕ) : (b ++ [p, i, f]).set b.length q = b ++ [q, i, f] := by
  rw [List.set_append_right _ _ (le_refl _)]; simp
theorem set_axis2 (b : List ℕ) (p i f q : ℕ) : (b ++ [p, i, f]).set (b.length + 1) q = b ++ [p, q, f] := by
  rw [List.set_append_right _ _ (by omega)]; simp
theorem eraseIdx_axis3 (b : List ℕ) (p i f : ℕ) : (b ++ [p, i, f]).eraseIdx b.length = b ++ [i, f] := by
  rw [List.eraseIdx_append_of_length_le (le_refl _)]; simp
theorem eraseIdx_axis2 (b : List ℕ) (p i f : ℕ) : (b ++ [p, i, f]).eraseIdx (b.length + 1) = b ++ [p, f] := by
  rw [List.eraseIdx_append_of_length_le (by omega)]; simp

section
variable {x : NDArray ℝ} {batch : List ℕ} {s n F : ℕ} {v : List ℕ → ℕ → ℕ → ℕ → ℝ}

theorem Rep.extent3 (h : Rep x batch s n F v) : x.extent batch.length = s := by
  unfold NDArray.extent; rw [h.1, getD_axis3]

theorem Rep.extent2 (h : Rep x batch s n F v) : x.extent (batch.length + 1) = n := by
  unfold NDArray.extent; rw [h.1, getD_axis2]

theorem rep_ofFn (g : List ℕ → ℝ) : Rep (ofFn (batch ++ [s, n, F]) g) batch s n F fun b p i f => g (b ++ [p, i, f]) :=
  ⟨rfl, fun _ hb _ _ _ hp hi hf => entry_ofFn g (inShape_three hb hp hi hf)⟩

theorem Rep.slice2 (h : Rep x batch s n F v) (a c : ℕ) :
    Rep (x.sliceAxis (batch.length + 1) a c) batch s (min c n - min a n) F fun b p i f => v b p (min a n + i) f := by
  unfold NDArray.sliceAxis
  rw [h.extent2]
  have hs : x.shape.set (batch.length + 1) (min c n - min a n) = batch ++ [s, min c n - min a n, F] := by
    rw [h.1, set_axis2]
  rw [hs]
  refine (rep_ofFn _).congr fun b hb p i f hp hi hf => ?_
  rw [← hb.length, getD_axis2, set_axis2]
  exact h.2 b hb p _ f hp (by omega) hf

theorem Rep.slice3 (h : Rep x batch s n F v) (a c : ℕ) :
    Rep (x.sliceAxis batch.length a c) batch (min c s - min a s) n F fun b p i f => v b (min a s + p) i f := by
  unfold NDArray.sliceAxis
  rw [h.extent3]
  have hs : x.shape.set batch.length (min c s - min a s) = batch ++ [min c s - min a s, n, F] := by
    rw [h.1, set_axis3]
  rw [hs]
  refine (rep_ofFn _).congr fun b hb p i f hp hi hf => ?_
  rw [← hb.length, getD_axis3, set_axis3]
  exact h.2 b hb _ i f (by omega) hi hf

theorem Rep.pad2 (h : Rep x batch s n F v) (k : ℕ) :
    Rep (x.padAxis (batch.length + 1) k) batch s (n + k) F fun b p i f => if i < n then v b p i f else 0 := by
  unfold NDArray.padAxis
  rw [h.extent2]
  have hs : x.shape.set (batch.length + 1) (n + k) = batch ++ [s, n + k, F] := by rw [h.1, set_axis2]
  rw [hs]
  refine (rep_ofFn _).congr fun b hb p i f hp hi hf => ?_
  rw [← hb.length, getD_axis2]
  by_cases hin : i < n
  · rw [if_pos hin, if_pos hin]; exact h.2 b hb p i f hp hin hf
  · rw [if_neg hin, if_neg hin]

theorem Rep.zeros (h : Rep x batch s n F v) : Rep x.zerosLike batch s n F fun _ _ _ _ => 0 := by
  unfold NDArray.zerosLike
  rw [h.1]
  exact rep_ofFn _

theorem Rep.negate3 (h : Rep x batch s n F v) (a c : ℕ) :
    Rep (x.negateSlice batch.length a c) batch s n F fun b p i f => if a ≤ p ∧ p < c then v b p i f * (-1) else v b p i f := by
  unfold NDArray.negateSlice
  rw [h.1]
  refine (rep_ofFn _).congr fun b hb p i f hp hi hf => ?_
  rw [← hb.length, getD_axis3, h.2 b hb p i f hp hi hf]

theorem Rep.negate2 (h : Rep x batch s n F v) (a c : ℕ) :
    Rep (x.negateSlice (batch.length + 1) a c) batch s n F
      fun b p i f => if a ≤ i ∧ i < c then v b p i f * (-1) else v b p i f := by
  unfold NDArray.negateSlice
  rw [h.1]
  refine (rep_ofFn _).congr fun b hb p i f hp hi hf => ?_
  rw [← hb.length, getD_axis2, h.2 b hb p i f hp hi hf]

end

/-- The block that contains a position. -/
theorem locate_eq (ns : List ℕ) (b o : ℕ) (hb : b < ns.length) (ho : o < ns.getD b 0) :
    locate ns ((ns.take b).sum + o) = (b, o) := by
  induction ns generalizing b with
  | nil => simp at hb
  | cons n ns ih =>
    cases b with
    | zero => simp at ho; simp [locate, ho]
    | succ b =>
      simp only [List.length_cons, Nat.add_lt_add_iff_right] at hb
      simp only [List.getD_cons_succ] at ho
      rw [List.take_succ_cons, List.sum_cons, locate, if_neg (by omega)]
      have : n + (ns.take b).sum + o - n = (ns.take b).sum + o := by omega
      rw [this, ih b hb ho]

theorem sum_odd (k : ℕ) : ((List.range k).map fun l => 2 * l + 1).sum = k ^ 2 := by
  induction k with
  | zero => rfl
  | succ k ih => rw [List.range_succ, List.map_append, List.sum_append, ih]; simp; ring

theorem locate_degree (K i : ℕ) (hi : i < K ^ 2) :
    locate ((List.range K).map fun l => 2 * l + 1) i = (deg i, i - deg i ^ 2) := by
  have h1 : deg i ^ 2 ≤ i := by unfold deg; exact Nat.sqrt_le' i
  have h2 : i < (deg i + 1) ^ 2 := by unfold deg; exact Nat.lt_succ_sqrt' i
  have hk : deg i < K := by
    by_contra hc
    have : K ^ 2 ≤ deg i ^ 2 := Nat.pow_le_pow_left (by omega) 2
    omega
  have h3 : (((List.range K).map fun l => 2 * l + 1).take (deg i)).sum = deg i ^ 2 := by
    rw [← List.map_take, List.take_range, Nat.min_eq_left hk.le, sum_odd]
  have := locate_eq ((List.range K).map fun l => 2 * l + 1) (deg i) (i - deg i ^ 2) (by simpa using hk) (by
    have hg : ((List.range K).map fun l => 2 * l + 1).getD (deg i) 0 = 2 * deg i + 1 := by
      simp [List.getD_eq_getElem?_getD, hk]
    rw [hg]
    have : (deg i + 1) ^ 2 = deg i ^ 2 + (2 * deg i + 1) := by ring
    omega)
  rw [h3] at this
  rwa [Nat.add_sub_cancel' h1] at this

/-- Concatenation of blocks of degrees. -/
theorem concat_degrees {batch : List ℕ} {s F : ℕ} (K : ℕ) (hK : 0 < K) (g : ℕ → NDArray ℝ)
    (u : ℕ → List ℕ → ℕ → ℕ → ℕ → ℝ) (hg : ∀ l < K, Rep (g l) batch s (2 * l + 1) F (u l)) :
    ∃ r, concatAxis ((List.range K).map g) (batch.length + 1) = .ok r ∧
      Rep r batch s (K ^ 2) F fun b p i f => u (deg i) b p (i - deg i ^ 2) f := by
  obtain ⟨xs, hxs⟩ : ∃ xs, xs = (List.range K).map g := ⟨_, rfl⟩
  rw [← hxs]
  have hlen : xs.length = K := by rw [hxs]; simp
  have hget : ∀ l (d : NDArray ℝ), l < K → xs.getD l d = g l := by
    intro l d hl
    simp [hxs, List.getD_eq_getElem?_getD, hl]
  have hmem : ∀ x ∈ xs, ∃ l < K, x = g l := by
    intro x hx
    rw [hxs] at hx
    obtain ⟨l, hl, rfl⟩ := List.mem_map.1 hx
    exact ⟨l, by simpa using hl, rfl⟩
  have hsizes : (xs.map fun x => x.extent (batch.length + 1)) = (List.range K).map fun l => 2 * l + 1 := by
    rw [hxs, List.map_map]
    refine List.map_congr_left fun l hl => ?_
    exact (hg l (by simpa using hl)).extent2
  cases xs with
  | nil => simp at hlen; omega
  | cons x0 rest =>
    have hx0 : x0 = g 0 := by simpa using hget 0 x0 hK
    have hany : ((x0 :: rest).any fun x => x.shape.eraseIdx (batch.length + 1) != x0.shape.eraseIdx (batch.length + 1)) = false := by
      rw [List.any_eq_false]
      intro x hx
      obtain ⟨l, hl, rfl⟩ := hmem x hx
      rw [hx0, (hg l hl).1, (hg 0 hK).1, eraseIdx_axis2, eraseIdx_axis2]
      simp
    refine ⟨_, by unfold concatAxis; dsimp only; rw [hany]; rfl, ?_⟩
    simp only [hsizes]
    have hs : x0.shape.set (batch.length + 1) ((List.range K).map fun l => 2 * l + 1).sum = batch ++ [s, K ^ 2, F] := by
      rw [hx0, (hg 0 hK).1, set_axis2, sum_odd]
    rw [hs]
    refine (rep_ofFn _).congr fun b hb p i f hp hi hf => ?_
    have h1 : deg i ^ 2 ≤ i := by unfold deg; exact Nat.sqrt_le' i
    have h2 : i < (deg i + 1) ^ 2 := by unfold deg; exact Nat.lt_succ_sqrt' i
    have hk : deg i < K := by
      by_contra hc
      have : K ^ 2 ≤ deg i ^ 2 := Nat.pow_le_pow_left (by omega) 2
      omega
    rw [← hb.length, getD_axis2, locate_degree K i hi]
    simp only
    rw [hget _ _ hk, set_axis2]
    refine (hg _ hk).2 b hb p _ f hp ?_ hf
    have : (deg i + 1) ^ 2 = deg i ^ 2 + (2 * deg i + 1) := by ring
    omega

/-- Concatenation of two parity channels. -/
theorem concat_parity {batch : List ℕ} {n F : ℕ} {e o : NDArray ℝ} {ve vo : List ℕ → ℕ → ℕ → ℕ → ℝ}
    (he : Rep e batch 1 n F ve) (ho : Rep o batch 1 n F vo) :
    ∃ r, concatAxis [e, o] batch.length = .ok r ∧
      Rep r batch 2 n F fun b p i f => if p = 0 then ve b 0 i f else vo b 0 i f := by
  have hany : ([e, o].any fun x => x.shape.eraseIdx batch.length != e.shape.eraseIdx batch.length) = false := by
    rw [List.any_eq_false]
    intro x hx
    simp only [List.mem_cons, List.not_mem_nil, or_false] at hx
    rcases hx with rfl | rfl
    · simp
    · rw [he.1, ho.1, eraseIdx_axis3]; simp
  refine ⟨_, by unfold concatAxis; dsimp only; rw [hany]; rfl, ?_⟩
  have hsizes : ([e, o].map fun x => x.extent batch.length) = [1, 1] := by simp [he.extent3, ho.extent3]
  simp only [hsizes]
  have hs : e.shape.set batch.length [1, 1].sum = batch ++ [2, n, F] := by rw [he.1, set_axis3]; simp
  rw [hs]
  refine (rep_ofFn _).congr fun b hb p i f hp hi hf => ?_
  rw [← hb.length, getD_axis3]
  have hp' : p = 0 ∨ p = 1 := by omega
  rcases hp' with rfl | rfl
  · simp only [locate, Nat.lt_add_one, if_true, List.getD_cons_zero, set_axis3]
    exact he.2 b hb 0 i f (by omega) hi hf
  · simp only [locate, Nat.lt_irrefl, if_false, Nat.sub_self, Nat.lt_add_one, if_true, Nat.zero_add, List.getD_cons_succ,
      List.getD_cons_zero, set_axis3, Nat.one_ne_zero]
    exact ho.2 b hb 0 i f (by omega) hi hf

/-- The block of one degree. -/
theorem degreeBlock {x : NDArray ℝ} {batch : List ℕ} {s n F : ℕ} {v : List ℕ → ℕ → ℕ → ℕ → ℝ} (h : Rep x batch s n F v)
    (c l : ℕ) (hc : c < s) (hl : (l + 1) ^ 2 ≤ n) (k : Bool) :
    Rep (if k then (x.sliceAxis (x.ndim - 3) c (c + 1)).sliceAxis (x.ndim - 2) (l ^ 2) ((l + 1) ^ 2)
      else ((x.sliceAxis (x.ndim - 3) c (c + 1)).sliceAxis (x.ndim - 2) (l ^ 2) ((l + 1) ^ 2)).zerosLike)
      batch 1 (2 * l + 1) F fun b p i f => if k then v b (c + p) (l ^ 2 + i) f else 0 := by
  have e3 : x.ndim - 3 = batch.length := by rw [h.ndim]; omega
  have e2 : x.ndim - 2 = batch.length + 1 := by rw [h.ndim]; omega
  rw [e3, e2]
  have hll : (l + 1) ^ 2 = l ^ 2 + (2 * l + 1) := by ring
  have m1 : min (c + 1) s - min c s = 1 := by omega
  have m2 : min ((l + 1) ^ 2) n - min (l ^ 2) n = 2 * l + 1 := by omega
  have m3 : min c s = c := by omega
  have m4 : min (l ^ 2) n = l ^ 2 := by omega
  have H := (h.slice3 c (c + 1)).slice2 (l ^ 2) ((l + 1) ^ 2)
  rw [m1, m2, m3, m4] at H
  cases k
  · exact H.zeros
  · exact H

theorem degreeBlocks_concat {x : NDArray ℝ} {batch : List ℕ} {s n F : ℕ} {v : List ℕ → ℕ → ℕ → ℕ → ℝ}
    (h : Rep x batch s n F v) (m : ℕ) (hn : n = (m + 1) ^ 2) (c : ℕ → ℕ) (hc : ∀ l, c l < s) (k : ℕ → Bool) :
    ∃ r, concatAxis (degreeBlocks x (m : ℤ) c k) (batch.length + 1) = .ok r ∧
      Rep r batch 1 n F fun b _ i f => if k (deg i) then v b (c (deg i)) i f else 0 := by
  unfold degreeBlocks
  have hm : ((m : ℤ) + 1).toNat = m + 1 := by omega
  rw [hm]
  obtain ⟨r, h1, h2⟩ := concat_degrees (batch := batch) (s := 1) (F := F) (m + 1) (by omega) _ _ fun l hl =>
    degreeBlock h (c l) l (hc l) (by rw [hn]; exact Nat.pow_le_pow_left (by omega) 2) (k l)
  refine ⟨r, h1, ?_⟩
  rw [hn]
  refine h2.congr fun b _ p i f hp _ _ => ?_
  have h1 : deg i ^ 2 ≤ i := by unfold deg; exact Nat.sqrt_le' i
  have hp0 : p = 0 := by omega
  rw [Nat.add_sub_cancel' h1, hp0, Nat.add_zero]

end E3x
