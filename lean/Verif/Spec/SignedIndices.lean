import Verif.Model.SignedIndices

/-!
# Vocabulary for C81: negative entries of index lists
-/

namespace E3x.Spec

/-- The number that an index `i` into an axis of extent `n` stands for: negative indices count from the end as in Python
(`-1` is the last entry); indices below `-n` stand for the first entry. -/
def countedFromEnd (n : ℕ) (i : ℤ) : ℕ := if i < 0 then (i + n).toNat else i.toNat

/-- Non-negative index lists: negative entries of `adj_idx` and `src_idx` are counted from the end of `n` nodes, negative
entries of `dst_idx` are replaced by the padding index `pad`. -/
def naturalArgs (n pad : ℕ) (ix : SignedArgs) : IndexArgs where
  adj := ix.adj.map fun a => a.map fun row => row.map (countedFromEnd n)
  mask := ix.mask
  dst := ix.dst.map fun d => d.map fun i => if i < 0 then pad else i.toNat
  src := ix.src.map fun s => s.map (countedFromEnd n)
  num := ix.num

/-- The edges `(destination, source)` of a sparse list with non-negative destinations. -/
def nonnegEdges (dst src : List ℤ) : List (ℤ × ℤ) := (dst.zip src).filter fun e => 0 ≤ e.1

end E3x.Spec
