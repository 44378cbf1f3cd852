import Verif.Spec.Irreps

/-!
# Specification vocabulary for the initialisation of tensor products
-/

namespace E3x.Spec

open Finset

/-- The parity of the entry with parity index `p` and degree `l` of an array with `S` parity channels: with two
channels the channel, with one channel the parity of the degree. -/
def parityOf (S p l : ℕ) : ℕ := if S = 2 then p else l % 2

/-- A coupling is allowed, if the parities multiply and the degrees obey the triangle rule. -/
def AllowedCoupling (S1 S2 S3 p1 l1 p2 l2 p3 l3 : ℕ) : Prop :=
  (parityOf S1 p1 l1 + parityOf S2 p2 l2) % 2 = parityOf S3 p3 l3 ∧ Triangle l1 l2 l3

instance (S1 S2 S3 p1 l1 p2 l2 p3 l3 : ℕ) : Decidable (AllowedCoupling S1 S2 S3 p1 l1 p2 l2 p3 l3) :=
  inferInstanceAs (Decidable (_ ∧ _))

/-- The number of pairs of inputs that contribute to an output. -/
def inputPaths (S1 N1 S2 N2 S3 p3 l3 : ℕ) : ℕ :=
  #{x ∈ (range S1 ×ˢ range N1) ×ˢ range S2 ×ˢ range N2 | AllowedCoupling S1 S2 S3 x.1.1 x.1.2 x.2.1 x.2.2 p3 l3}

/-- The number of outputs to which a pair of inputs contributes. -/
def outputPaths (S1 S2 S3 N3 p1 l1 p2 l2 : ℕ) : ℕ :=
  #{x ∈ range S3 ×ˢ range N3 | AllowedCoupling S1 S2 S3 p1 l1 p2 l2 x.1 x.2}

end E3x.Spec
