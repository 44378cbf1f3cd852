import Verif.Spec.Message
import Verif.Spec.Tensor

/-!
# Specification of the dot products of attention layers

In terms of components and parameters only.
-/

namespace E3x.Spec

open Finset (range)

/-- Component `(p, i)`, feature `o` of a linear map of features with one matrix for every parity and degree, plus a bias for
proper scalars. -/
noncomputable def projection (useBias : Bool) (P : DenseParams) (x : Feat) (p i o : ℕ) : ℝ :=
  (∑ f ∈ range x.F, comp x p i f * P.kernel p (deg i) f o) + (if useBias = true ∧ p = 0 ∧ i = 0 then P.bias o else 0)

/-- The factor for component `(p, i)`, feature `o`: an affine function of the scalar part of the basis functions of the edge
with one matrix for every parity and degree, or one. -/
noncomputable def positionFactor (cfg : AttnCfg) (P : AttnParams) (both : Bool) (bF L F : ℕ) (b : Ent) (p i o : ℕ) : ℝ :=
  if cfg.relQK then
    (∑ k ∈ range bF, b 0 0 k * P.relKernel k ((slot both p * (L + 1) + deg i) * F + o)) +
      (if cfg.conv.useBasisBias then P.relBias ((slot both p * (L + 1) + deg i) * F + o) else 0)
  else 1

/-- The dot product of an edge in head `h` of `H`: over all components that both inputs have, and every `H`-th feature from
`h` on, divided by the square root of the number of products. -/
noncomputable def documentedLogit (cfg : AttnCfg) (P : AttnParams) (F : ℕ) (q kv : Nodes) (bF : ℕ) (e : AttnEdge)
    (h : ℕ) : ℝ :=
  let both := q.pseudo && kv.pseudo
  let L := min q.L kv.L
  (∑ p ∈ range 2, ∑ i ∈ range ((L + 1) ^ 2), if both = true ∨ p = deg i % 2 then
    ∑ f ∈ range (F / cfg.numHeads),
      projection cfg.qBias P.query (q.feat (q.rows.getD e.dst 0)) p i (f * cfg.numHeads + h) *
      projection cfg.kBias P.key (kv.feat (kv.rows.getD e.src 0)) p i (f * cfg.numHeads + h) *
      positionFactor cfg P both bF L F e.basis p i (f * cfg.numHeads + h)
    else 0) /
  Real.sqrt ((if both then 2 else 1) * ((L : ℝ) + 1) ^ 2 * ((F / cfg.numHeads : ℕ) : ℝ))

end E3x.Spec
