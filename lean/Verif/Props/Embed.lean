import Verif.Model.Embed
import Verif.Model.Dense
import Verif.Spec.Embed
import Verif.Props.FeatureArrays

/-!
# C92: embeddings of arrays of integers
-/

namespace E3x

open Spec NDArray

/-- **C92 (lookup).** Embedding an array of integers of any shape gives an array of scalar features: for each integer its own
row of the parameters; the rows are counted from the end for negative integers, and integers that are out of range in both
directions give NaN instead of an error. -/
theorem C92_lookup (init : List ℕ → NDArray ℝ) (hinit : ∀ s, (init s).shape = s) (n F : ℕ) (inputs : NDArray ℤ) :
    ∃ y, embedArray (embedSetup init n F) ⟨true, inputs⟩ = .ok y ∧ FeatureShape y.shape inputs.shape false 1 F ∧
      ∀ b, InShape b inputs.shape → ∀ f < F, entry y (b ++ [0, 0, f]) =
        (rowOf n (entry inputs b)).map fun row => entry (init [n, 1, 1, F]) [row, 0, 0, f] := by
  refine ⟨_, rfl, ?_, ?_⟩
  · simp [takeFill, embedSetup, hinit, FeatureShape]
  · intro b hb f hf
    have hlen : b.length = inputs.shape.length := List.Forall₂.length_eq hb
    unfold takeFill
    rw [entry_ofFn]
    · have h1 : (b ++ [0, 0, f]).take inputs.ndim = b := by
        rw [NDArray.ndim, ← hlen]; simp
      have h2 : (b ++ [0, 0, f]).drop inputs.ndim = [0, 0, f] := by
        rw [NDArray.ndim, ← hlen]; simp
      simp only [h1, h2, embedSetup, hinit, List.headD_cons, rowOf]
      generalize entry inputs b = z
      by_cases hz : z < 0
      · rw [if_pos hz, if_neg (show ¬ (0 ≤ z ∧ z < (n : ℤ)) by omega)]
        by_cases hz' : -(n : ℤ) ≤ z
        · rw [if_pos (show 0 ≤ z + n ∧ z + n < n by omega), if_pos ⟨hz', hz⟩]; rfl
        · rw [if_neg (show ¬ (0 ≤ z + n ∧ z + n < n) by omega), if_neg (fun h => hz' h.1)]; rfl
      · rw [if_neg hz]
        by_cases hz' : z < n
        · rw [if_pos (show 0 ≤ z ∧ z < (n : ℤ) by omega), if_pos (show 0 ≤ z ∧ z < (n : ℤ) by omega)]; rfl
        · rw [if_neg (show ¬ (0 ≤ z ∧ z < (n : ℤ)) by omega), if_neg (show ¬ (0 ≤ z ∧ z < (n : ℤ)) by omega),
            if_neg (fun h => hz h.2)]; rfl
    · simp only [embedSetup, hinit, List.tail_cons]
      exact inShape_three hb (by omega) (by omega) hf

/-- **C92 (types).** Arrays of other types are rejected. -/
theorem C92_dtype (embedding : NDArray ℝ) (inputs : NDArray ℤ) :
    embedArray embedding ⟨false, inputs⟩ = .error .valueError := rfl

/-- **C92 (range).** The result contains no NaN exactly if every integer has a row. -/
theorem C92_range (init : List ℕ → NDArray ℝ) (hinit : ∀ s, (init s).shape = s) (n F : ℕ) (hF : 0 < F)
    (inputs : NDArray ℤ) (y : NDArray (Option ℝ)) (hy : embedArray (embedSetup init n F) ⟨true, inputs⟩ = .ok y) :
    (∃ x, Complete y x) ↔ ∀ b, InShape b inputs.shape → -(n : ℤ) ≤ entry inputs b ∧ entry inputs b < n := by
  obtain ⟨y', h1, h2, h3⟩ := C92_lookup init hinit n F inputs
  rw [hy] at h1
  injection h1 with h1
  subst h1
  have hrow : ∀ z : ℤ, (rowOf n z).isSome ↔ -(n : ℤ) ≤ z ∧ z < n := by
    intro z
    unfold rowOf
    split_ifs with ha hb
    · simp; omega
    · simp; omega
    · simp; omega
  constructor
  · rintro ⟨x, hx1, hx2⟩ b hb
    have h4 := h3 b hb 0 hF
    rw [hx2 (b ++ [0, 0, 0]) (by rw [h2]; exact inShape_three hb (by simp) (by simp) hF)] at h4
    rw [← hrow]
    cases hr : rowOf n (entry inputs b) with
    | none => rw [hr] at h4; cases h4
    | some r => rfl
  · intro hall
    refine ⟨ofFn y.shape fun idx => (entry y idx).getD 0, rfl, fun idx hidx => ?_⟩
    rw [entry_ofFn _ hidx]
    rw [h2] at hidx
    obtain ⟨b, t, rfl, hb, ht⟩ : ∃ b t, idx = b ++ t ∧ InShape b inputs.shape ∧
        InShape t [if false = true then 2 else 1, 1 ^ 2, F] := by
      refine ⟨idx.take inputs.shape.length, idx.drop inputs.shape.length, (List.take_append_drop _ _).symm, ?_, ?_⟩
      · have := List.forall₂_take inputs.shape.length hidx
        rwa [List.take_left'  rfl] at this
      · have := List.forall₂_drop inputs.shape.length hidx
        rwa [List.drop_left' rfl] at this
    obtain ⟨p, t1, hp, ht1, rfl⟩ := List.forall₂_cons_right_iff.mp ht
    obtain ⟨i, t2, hi, ht2, rfl⟩ := List.forall₂_cons_right_iff.mp ht1
    obtain ⟨f, t3, hf, ht3, rfl⟩ := List.forall₂_cons_right_iff.mp ht2
    obtain rfl := List.forall₂_nil_right_iff.mp ht3
    have hp0 : p = 0 := by simpa using hp
    have hi0 : i = 0 := by simpa using hi
    subst hp0 hi0
    rw [h3 b hb f hf]
    obtain ⟨r, hr⟩ := Option.isSome_iff_exists.mp ((hrow _).mpr (hall b hb))
    rw [hr]
    rfl

/-- **C92 (local).** The features of an integer do not depend on its position, on other integers of the array, or on the
parameters in other rows. -/
theorem C92_local (init init' : List ℕ → NDArray ℝ) (hinit : ∀ s, (init s).shape = s) (hinit' : ∀ s, (init' s).shape = s)
    (n F : ℕ) (u v : NDArray ℤ) (y z : NDArray (Option ℝ)) (hy : embedArray (embedSetup init n F) ⟨true, u⟩ = .ok y)
    (hz : embedArray (embedSetup init' n F) ⟨true, v⟩ = .ok z) (b c : List ℕ) (hb : InShape b u.shape)
    (hc : InShape c v.shape) (hbc : entry u b = entry v c)
    (hrow : ∀ row, rowOf n (entry u b) = some row → ∀ f < F,
      entry (init [n, 1, 1, F]) [row, 0, 0, f] = entry (init' [n, 1, 1, F]) [row, 0, 0, f]) (f : ℕ) (hf : f < F) :
    entry y (b ++ [0, 0, f]) = entry z (c ++ [0, 0, f]) := by
  obtain ⟨y', h1, -, h2⟩ := C92_lookup init hinit n F u
  obtain ⟨z', h3, -, h4⟩ := C92_lookup init' hinit' n F v
  rw [hy] at h1
  rw [hz] at h3
  injection h1 with h1
  injection h3 with h3
  subst h1 h3
  rw [h2 b hb f hf, h4 c hc f hf, ← hbc]
  cases hr : rowOf n (entry u b) with
  | none => rfl
  | some r => simp only [Option.map_some]; rw [hrow r hr f hf]

/-- **C92 (scalars).** Where there is no NaN, embedded integers are scalar features: they do not change if they are
rotated (with the Wigner-D matrix of degree 0) or reflected, and each of them is the embedding of Model/Dense.lean used for
whole networks (C62). -/
theorem C92_scalars (init : List ℕ → NDArray ℝ) (hinit : ∀ s, (init s).shape = s) (n F : ℕ) (inputs : NDArray ℤ)
    (y : NDArray (Option ℝ)) (hy : embedArray (embedSetup init n F) ⟨true, inputs⟩ = .ok y) (x : NDArray ℝ)
    (hx : Complete y x) (D : NDArray ℝ) (hD : D.shape = [1, 1]) (hD1 : entry D [0, 0] = 1) (b : List ℕ)
    (hb : InShape b inputs.shape) :
    (∃ r, rotateArray x D = .ok r ∧ r.shape = x.shape ∧ ∀ f < F, entry r (b ++ [0, 0, f]) = entry x (b ++ [0, 0, f])) ∧
    (∃ r, reflectArray x = .ok r ∧ r.shape = x.shape ∧ ∀ f < F, component r b 0 0 f = component x b 0 0 f) ∧
    ∀ z : ℕ, entry inputs b = z → z < n →
      (featAt x b).Same (embed F (fun z f => entry (init [n, 1, 1, F]) [z, 0, 0, f]) z) := by
  obtain ⟨y', h1, h2, h3⟩ := C92_lookup init hinit n F inputs
  rw [hy] at h1
  injection h1 with h1
  subst h1
  have hxs : FeatureShape x.shape inputs.shape false 1 F := hx.1.trans h2
  have hlen : b.length = inputs.shape.length := List.Forall₂.length_eq hb
  refine ⟨?_, ?_, ?_⟩
  · obtain ⟨r, e1, e2, e3⟩ := ((C89_rotate x D).1 _ _ _ _ hxs).1 hD
    refine ⟨r, e1, e2, fun f hf => ?_⟩
    rw [e3 b hb 0 0 f (by simp) (by simp) hf]
    simp [hD1]
  · obtain ⟨r, e1, e2, e3⟩ := (C89_reflect x).1 _ _ _ _ hxs
    refine ⟨r, e1, e2, fun f hf => ?_⟩
    rw [e3 b hb 0 0 f hf]
    simp
  · intro z hz hzn
    have hxs' : x.shape = inputs.shape ++ [1, 1, F] := by simpa [FeatureShape] using hxs
    refine ⟨?_, ?_, ?_, ?_⟩
    · simp [featAt, embed, hxs', hlen]
    · simp [featAt, embed, hxs', hlen]
    · simp [featAt, embed, hxs', hlen]
    · intro p i f hp hi hf
      have hp0 : p = 0 := by
        simp [featAt, hxs', hlen, chan] at hp; omega
      have hi0 : i = 0 := by
        simp [featAt, hxs', hlen] at hi; omega
      have hf' : f < F := by simpa [featAt, hxs', hlen] using hf
      subst hp0 hi0
      have e := hx.2 (b ++ [0, 0, f]) (by rw [← hx.1, hxs']; exact inShape_three hb (by omega) (by omega) hf')
      rw [h3 b hb f hf', hz] at e
      have hr : rowOf n (z : ℤ) = some z := by
        unfold rowOf
        rw [if_pos (by omega)]; simp
      rw [hr] at e
      exact (Option.some.inj e).symm

/-- A molecule with the atomic numbers 8, 1, 1 padded with -1, and an atomic number that is too large: the padding has the
features of the last element, the large number has NaN. -/
example (w : ℕ → ℝ) :
    ∃ y, embedArray (embedSetup (fun s => ⟨s, w⟩) 10 2) ⟨true, ⟨[5], fun k => [8, 1, 1, -1, 92].getD k 0⟩⟩ = .ok y ∧
      y.shape = [5, 1, 1, 2] ∧ entry y [0, 0, 0, 1] = some (w 17) ∧ entry y [2, 0, 0, 0] = some (w 2) ∧
      entry y [3, 0, 0, 1] = some (w 19) ∧ entry y [4, 0, 0, 0] = none := by
  obtain ⟨y, h1, h2, h3⟩ := C92_lookup (fun s => ⟨s, w⟩) (fun _ => rfl) 10 2 ⟨[5], fun k => [8, 1, 1, -1, 92].getD k 0⟩
  have hin : ∀ k < 5, InShape [k] [5] := fun k hk => List.Forall₂.cons hk List.Forall₂.nil
  refine ⟨y, h1, h2, ?_, ?_, ?_, ?_⟩
  · exact (h3 [0] (hin 0 (by omega)) 1 (by omega)).trans rfl
  · exact (h3 [2] (hin 2 (by omega)) 0 (by omega)).trans rfl
  · exact (h3 [3] (hin 3 (by omega)) 1 (by omega)).trans rfl
  · exact (h3 [4] (hin 4 (by omega)) 0 (by omega)).trans rfl

/-- The hypotheses of `C92_range`, `C92_local` and `C92_scalars` are met: integers in range give a complete array. -/
example (w : ℕ → ℝ) :
    ∃ y x, embedArray (embedSetup (fun s => ⟨s, w⟩) 10 2) ⟨true, ⟨[2, 2], fun k => (k : ℤ) + 3⟩⟩ = .ok y ∧ Complete y x ∧
      InShape [1, 0] [2, 2] := by
  obtain ⟨y, h1, -, -⟩ := C92_lookup (fun s => ⟨s, w⟩) (fun _ => rfl) 10 2 ⟨[2, 2], fun k => (k : ℤ) + 3⟩
  obtain ⟨x, hx⟩ := (C92_range (fun s => ⟨s, w⟩) (fun _ => rfl) 10 2 (by omega) _ y h1).mpr (by
    intro b hb
    have h := ravel_lt hb
    have h' : ravel [2, 2] b < 4 := h
    show _ ≤ ((ravel [2, 2] b : ℕ) : ℤ) + 3 ∧ ((ravel [2, 2] b : ℕ) : ℤ) + 3 < _
    omega)
  exact ⟨y, x, h1, hx, List.Forall₂.cons (by omega) (List.Forall₂.cons (by omega) List.Forall₂.nil)⟩

end E3x
