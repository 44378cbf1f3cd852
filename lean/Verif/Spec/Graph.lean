import Mathlib.Data.List.Forall2

/-!
# Specification vocabulary for index lists

A graph is described by its list of edges `(destination, source)`.
-/

namespace E3x.Spec

/-- All ordered pairs `(i, j)` with `i, j < n`, lexicographically; without `i = j` if `noLoops`. -/
def allPairs (n : Nat) (noLoops : Bool) : List (Nat × Nat) :=
  (List.range n).flatMap fun i =>
    ((List.range n).filter fun j => !(noLoops && i == j)).map fun j => (i, j)

/-- The edges of a dense index list with padding value `pad`: row `i` lists the sources of the edges
that end in `i`; entries `≥ pad` are not edges. -/
def denseEdges (pad : Nat) (adj : List (List Nat)) : List (Nat × Nat) :=
  adj.zipIdx.flatMap fun p => (p.1.filter (· < pad)).map fun j => (p.2, j)

/-- Two shapes broadcast to a common shape `r` in the sense of NumPy: aligned at the right end,
missing axes count as extent one, and an axis of extent one is stretched. -/
def BroadcastTo (s r : List Nat) : Prop :=
  ∃ pre suf, r = pre ++ suf ∧ List.Forall₂ (fun a b => a = b ∨ a = 1) s suf

end E3x.Spec

namespace E3x.Spec

/-- The sources of the edges that end in node `i`, in the order of the edge list. -/
def sourcesAt (edges : List (Nat × Nat)) (i : Nat) : List Nat :=
  (edges.filter fun e => e.1 = i).map Prod.snd

end E3x.Spec

namespace E3x.Spec

/-- The values stored at the non-padding positions of a dense index list, row by row (what a user
gets by computing one value per edge of the converted sparse list). -/
def keptValues {α : Type _} (pad : Nat) (adj : List (List Nat)) (x : List (List α)) : List α :=
  (adj.zip x).flatMap fun p => ((p.1.zip p.2).filter fun q => q.1 < pad).map Prod.snd

end E3x.Spec
