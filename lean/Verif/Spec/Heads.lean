import Verif.Spec.Message

/-!
# Specification of the heads of attention layers
-/

namespace E3x.Spec

/-- Two dense layers compute the same output features among those in `S`. -/
def SameColumns (S : ℕ → Prop) (P P' : DenseParams) : Prop :=
  ∀ o, S o → (∀ p l f, P'.kernel p l f o = P.kernel p l f o) ∧ P'.bias o = P.bias o

/-- Two attention layers with `H` heads and `F` features for queries, keys and values agree in head `h`: queries, keys and
relative positional encodings agree in the features `h, h + H, h + 2 H, …`, values agree in the `h`-th block of `F / H`
consecutive features, and so do the filters. The tensor products and output layers are the same. -/
structure SameHead (H F h : ℕ) (P P' : AttnParams) : Prop where
  query : SameColumns (fun o => o % H = h) P.query P'.query
  key : SameColumns (fun o => o % H = h) P.key P'.key
  rel : ∀ s o, o % H = h → (∀ k, P'.relKernel k (s * F + o) = P.relKernel k (s * F + o)) ∧
    P'.relBias (s * F + o) = P.relBias (s * F + o)
  value : SameColumns (fun o => o / (F / H) = h) P.value P'.value
  filter : SameColumns (fun o => o / (F / H) = h) P.conv.filter P'.conv.filter
  tens : P'.conv.tens = P.conv.tens
  out : P'.out = P.out

/-- An output layer reads only the `h`-th block of features. -/
def ReadsHead (H F h : ℕ) (P : DenseParams) : Prop :=
  ∀ f < F, f / (F / H) ≠ h → ∀ p l o, P.kernel p l f o = 0

end E3x.Spec
