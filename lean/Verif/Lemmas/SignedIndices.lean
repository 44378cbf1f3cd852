import Verif.Spec.SignedIndices
import Mathlib.Data.List.Basic

/-!
# Lemmas for C81: index lists with negative entries
-/

namespace E3x

open Spec

theorem wrapGet_eq {α : Type} (xs : List α) (i : ℤ) : wrapGet xs i = clampGet xs (countedFromEnd xs.length i) := by
  unfold wrapGet clampGet countedFromEnd
  rcases Nat.eq_zero_or_pos xs.length with h | h
  · rw [List.length_eq_zero_iff.mp h]; simp
  · dsimp only
    congr 1
    split <;> omega

/-- With entries `≥ -1`, reading with a destination list is reading with the padded list. -/
theorem wrapGet_pad {α : Type} (xs : List α) (i : ℤ) (hi : -1 ≤ i) (pad : ℕ) (hp : xs.length ≤ pad) :
    wrapGet xs i = clampGet xs (if i < 0 then pad else i.toNat) := by
  rw [wrapGet_eq]
  unfold clampGet countedFromEnd
  congr 1
  split <;> omega

theorem gatherSparseZ_eq {α : Type} (xs : List α) (idx : List ℤ) :
    gatherSparseZ xs idx = gatherSparse xs (idx.map (countedFromEnd xs.length)) := by
  unfold gatherSparseZ gatherSparse
  induction idx with
  | nil => rfl
  | cons i idx ih => rw [List.map_cons, List.mapM_cons, List.mapM_cons, ih, wrapGet_eq]

theorem gatherSparseZ_pad {α : Type} (xs : List α) (idx : List ℤ) (hi : ∀ i ∈ idx, -1 ≤ i) (pad : ℕ)
    (hp : xs.length ≤ pad) :
    gatherSparseZ xs idx = gatherSparse xs (idx.map fun i => if i < 0 then pad else i.toNat) := by
  unfold gatherSparseZ gatherSparse
  induction idx with
  | nil => rfl
  | cons i idx ih =>
    rw [List.map_cons, List.mapM_cons, List.mapM_cons, ih fun j hj => hi j (by simp [hj]),
      wrapGet_pad xs i (hi i (by simp)) pad hp]

theorem gatherDenseZ_eq {α : Type} (xs : List α) (idx : List (List ℤ)) :
    gatherDenseZ xs idx = gatherDense xs (idx.map fun row => row.map (countedFromEnd xs.length)) := by
  unfold gatherDenseZ gatherDense
  induction idx with
  | nil => rfl
  | cons i idx ih => rw [List.map_cons, List.mapM_cons, List.mapM_cons, ih, gatherSparseZ_eq]

theorem segmentReduceZ_eq {α : Type} (op : α → α → α) (init : α) (x : List α) (dst : List ℤ) (num pad : ℕ)
    (hp : num ≤ pad) :
    segmentReduceZ op init x dst num =
      segmentReduce op init x (dst.map fun i => if i < 0 then pad else i.toNat) num := by
  unfold segmentReduceZ segmentReduce
  have hl : (List.replicate num init).length = num := List.length_replicate
  generalize List.replicate num init = acc at hl
  induction dst generalizing x acc with
  | nil => rfl
  | cons i dst ih =>
    cases x with
    | nil => rfl
    | cons v x =>
      rw [List.map_cons, List.zip_cons_cons, List.zip_cons_cons, List.foldl_cons, List.foldl_cons]
      dsimp only
      have : (if 0 ≤ i ∧ i < (num : ℤ) then acc.modify i.toNat (fun a => op a v) else acc) =
          acc.modify (if i < 0 then pad else i.toNat) (fun a => op a v) := by
        by_cases h : 0 ≤ i ∧ i < (num : ℤ)
        · rw [if_pos h, if_neg (by omega)]
        · rw [if_neg h, List.modify_eq_self]
          rw [hl]
          split <;> omega
      rw [this]
      exact ih x _ (by rw [List.length_modify, hl])

theorem lengths_map (f : ℤ → ℕ) (a : List (List ℤ)) : (a.map fun row => row.map f).map List.length = a.map List.length := by
  rw [List.map_map]
  exact List.map_congr_left fun _ _ => List.length_map _

theorem adj_lengths (n pad : ℕ) (ix : SignedArgs) :
    ((naturalArgs n pad ix).adj.map fun a => a.map List.length) = ix.adj.map fun a => a.map List.length := by
  unfold naturalArgs
  rw [Option.map_map]
  exact congrArg (fun f => ix.adj.map f) (funext fun a => lengths_map _ a)

theorem dst_lengths (n pad : ℕ) (ix : SignedArgs) :
    ((naturalArgs n pad ix).dst.map fun a => [a.length]) = ix.dst.map fun a => [a.length] := by
  unfold naturalArgs
  rw [Option.map_map]
  exact congrArg (fun f => ix.dst.map f) (funext fun a => by simp)

theorem src_lengths (n pad : ℕ) (ix : SignedArgs) :
    ((naturalArgs n pad ix).src.map fun a => [a.length]) = ix.src.map fun a => [a.length] := by
  unfold naturalArgs
  rw [Option.map_map]
  exact congrArg (fun f => ix.src.map f) (funext fun a => by simp)

theorem gatherSrcZ_eq {α : Type} (xs : List α) (n pad : ℕ) (hn : xs.length = n) (ix : SignedArgs) :
    gatherSrcZ xs ix = gatherSrc xs (naturalArgs n pad ix) := by
  subst hn
  unfold gatherSrcZ gatherSrc
  rw [adj_lengths, src_lengths]
  obtain ⟨adj, mask, dst, src, num⟩ := ix
  generalize determineIndexType _ _ _ = t
  rcases t with e | (_ | _) <;> cases adj <;> cases src <;>
    simp only [naturalArgs, Option.map_some, Option.map_none, gatherSparseZ_eq, gatherDenseZ_eq] <;> rfl

theorem gatherDstZ_eq {α : Type} (xs : List α) (n pad : ℕ) (hn : xs.length ≤ pad) (ix : SignedArgs)
    (hd : ∀ d ∈ ix.dst, ∀ i ∈ d, -1 ≤ i) : gatherDstZ xs ix = gatherDst xs (naturalArgs n pad ix) := by
  unfold gatherDstZ gatherDst
  rw [adj_lengths, dst_lengths]
  obtain ⟨adj, mask, dst, src, num⟩ := ix
  generalize determineIndexType _ _ _ = t
  rcases t with e | (_ | _) <;> cases adj <;> cases dst <;>
    simp only [naturalArgs, Option.map_some, Option.map_none, List.length_map, List.zipWith_map_right, List.map_map]
  · rfl
  · rfl
  all_goals
    rw [gatherSparseZ_pad xs _ (hd _ rfl) pad hn]
    rfl

theorem indexedSumZ_eq {α : Type} [Add α] [Zero α] (x : Lead α) (n pad : ℕ) (ix : SignedArgs)
    (hp : ∀ k ∈ ix.num, k ≤ pad) : indexedSumZ x ix = indexedSum x (naturalArgs n pad ix) := by
  unfold indexedSumZ indexedSum
  rw [adj_lengths, dst_lengths]
  obtain ⟨adj, mask, dst, src, num⟩ := ix
  generalize determineIndexType _ _ _ = t
  rcases t with e | (_ | _) <;> cases adj <;> cases dst <;> cases x <;> cases mask <;> cases num <;>
    simp only [naturalArgs, Option.map_some, Option.map_none, List.length_map, lengths_map]
  all_goals rw [segmentReduceZ_eq _ _ _ _ _ pad (hp _ rfl)]

theorem convZ_eq (cfg : ConvCfg) (P : ConvParams) (cg : ℕ → ℕ → ℕ → ℝ) (inputs : Edges) (basis : Option Edges)
    (n pad : ℕ) (ix : SignedArgs) (hp : ∀ k ∈ ix.num, k ≤ pad) :
    convZ cfg P cg inputs basis ix = conv cfg P cg inputs basis (naturalArgs n pad ix) := by
  unfold convZ conv
  simp only [indexedSumZ_eq _ n pad ix hp]
  rfl

theorem autoSignedArgs_eq (ix : SignedArgs) (n pad k : ℕ) (hn : 0 < n) :
    naturalArgs n pad (autoSignedArgs ix k n) = autoIndexArgs (naturalArgs n pad ix) k n := by
  obtain ⟨adj, mask, dst, src, num⟩ := ix
  cases adj <;> cases mask <;> simp only [naturalArgs, autoSignedArgs, autoIndexArgs, Option.map_some, Option.map_none]
  rename_i a
  congr 2
  rw [List.map_map]
  refine List.map_congr_left fun row _ => ?_
  rw [Function.comp, List.map_map]
  refine List.map_congr_left fun j _ => ?_
  simp only [Function.comp, countedFromEnd]
  refine decide_eq_decide.mpr ?_
  split <;> omega

theorem messagePassZ_eq (cfg : ConvCfg) (P : ConvParams) (cg : ℕ → ℕ → ℕ → ℝ) (x : Nodes) (basis : Edges)
    (weights : Option (Lead Ent)) (ix : SignedArgs) (hx : x.rows ≠ []) (pad : ℕ) (hp : ix.num.getD x.rows.length ≤ pad) :
    messagePassZ cfg P cg x basis weights ix =
      messagePass cfg P cg x basis weights (naturalArgs x.rows.length pad ix) := by
  unfold messagePassZ messagePass
  rw [gatherSrcZ_eq x.rows _ pad rfl ix]
  simp only [← autoSignedArgs_eq ix x.rows.length pad x.rows.length (List.length_pos_of_ne_nil hx)]
  simp only [convZ_eq cfg P cg _ _ x.rows.length pad (autoSignedArgs ix x.rows.length x.rows.length)
    (by intro k hk; simp only [autoSignedArgs, Option.mem_some_iff] at hk; omega)]
  rfl

theorem length_segmentReduceZ {α : Type} (op : α → α → α) (init : α) (x : List α) (dst : List ℤ) (num : ℕ) :
    (segmentReduceZ op init x dst num).length = num := by
  unfold segmentReduceZ
  have hl : (List.replicate num init).length = num := List.length_replicate
  generalize List.replicate num init = acc at hl
  generalize dst.zip x = l
  induction l generalizing acc with
  | nil => exact hl
  | cons p l ih =>
    rw [List.foldl_cons]
    refine ih _ ?_
    split
    · rw [List.length_modify, hl]
    · exact hl

theorem softmaxSparseZ_eq (ninf : ℝ) (xs : List ℝ) (mult : Option (List ℝ)) (dst : List ℤ) (num pad : ℕ)
    (hd : ∀ i ∈ dst, -1 ≤ i) (hp : num ≤ pad) :
    softmaxSparseZ ninf xs mult dst num =
      softmaxSparse ninf xs mult (dst.map fun i => if i < 0 then pad else i.toNat) num := by
  have h {β : Type} (op : β → β → β) (init : β) (x : List β) := gatherSparseZ_pad
    (segmentReduceZ op init x dst num) dst hd pad (by rw [length_segmentReduceZ]; exact hp)
  unfold softmaxSparseZ softmaxSparse
  simp only [h]
  simp only [segmentReduceZ_eq _ _ _ _ _ pad hp]

theorem softmaxLeadZ_eq (lo ninf : ℝ) (xs : Lead ℝ) (mult : Option (Lead ℝ)) (n pad : ℕ) (ix : SignedArgs)
    (hd : ∀ d ∈ ix.dst, ∀ i ∈ d, -1 ≤ i) (hp : ∀ k ∈ ix.num, k ≤ pad) :
    softmaxLeadZ lo ninf xs mult ix = softmaxLead lo ninf xs mult (naturalArgs n pad ix) := by
  unfold softmaxLeadZ softmaxLead
  rw [adj_lengths, dst_lengths]
  obtain ⟨adj, mask, dst, src, num⟩ := ix
  generalize determineIndexType _ _ _ = t
  rcases t with e | (_ | _) <;> rcases mult with - | ⟨w | w⟩ <;> cases adj <;> cases dst <;> cases xs <;> cases mask <;> cases num <;>
    simp only [naturalArgs, Option.map_some, Option.map_none, List.length_map, lengths_map]
  all_goals
    rw [softmaxSparseZ_eq _ _ _ _ _ pad (hd _ rfl) (hp _ rfl)]
    rfl

theorem attentionZ_eq (lo ninf : ℝ) (cfg : AttnCfg) (P : AttnParams) (cg : ℕ → ℕ → ℕ → ℝ) (q kv : Nodes)
    (basis : Option Edges) (cutoff : Option (Lead ℝ)) (ix : SignedArgs) (hkv : kv.rows ≠ [])
    (hd : ∀ d ∈ ix.dst, ∀ i ∈ d, -1 ≤ i) (pad : ℕ) (hq : q.rows.length ≤ pad)
    (hp : ix.num.getD q.rows.length ≤ pad) :
    attentionZ lo ninf cfg P cg q kv basis cutoff ix =
      attention lo ninf cfg P cg q kv basis cutoff (naturalArgs kv.rows.length pad ix) := by
  have hnum : ∀ k ∈ (autoSignedArgs ix q.rows.length kv.rows.length).num, k ≤ pad := by
    intro k hk; simp only [autoSignedArgs, Option.mem_some_iff] at hk; omega
  have hw : ∀ F, attnWeightsZ lo ninf cfg P F q kv basis cutoff ix =
      attnWeights lo ninf cfg P F q kv basis cutoff (naturalArgs kv.rows.length pad ix) := by
    intro F
    unfold attnWeightsZ attnWeights attnDotsZ attnDots
    rw [gatherSrcZ_eq _ kv.rows.length pad (by unfold attnKey; rw [List.length_map]) ix,
      gatherDstZ_eq _ kv.rows.length pad (by unfold attnQuery; rw [List.length_map]; exact hq) ix hd]
    simp only [softmaxLeadZ_eq lo ninf _ _ kv.rows.length pad (autoSignedArgs ix q.rows.length kv.rows.length) hd hnum,
      autoSignedArgs_eq ix kv.rows.length pad q.rows.length (List.length_pos_of_ne_nil hkv)]
    rfl
  unfold attentionZ attention
  simp only [hw, ← autoSignedArgs_eq ix kv.rows.length pad q.rows.length (List.length_pos_of_ne_nil hkv),
    convZ_eq _ _ _ _ _ kv.rows.length pad (autoSignedArgs ix q.rows.length kv.rows.length) hnum]
  simp only [gatherSrcZ_eq _ kv.rows.length pad (show (kv.apply _).rows.length = _ by
    unfold Nodes.apply; exact List.length_map _) ix]
  rfl

end E3x
