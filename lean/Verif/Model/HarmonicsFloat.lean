import Verif.Model.FloatLayers
import Verif.Model.Irreps

/-!
# Spherical harmonics in floating-point arithmetic

The operations of so3/irreps.py:134-170 for one vector and one component.  The compiler chooses the order of the multiplications in
`jnp.cumprod` and of the additions in `jnp.matmul`, and whether products and sums are fused.
-/

namespace E3x

noncomputable section

/-- The numbers which are read: a coordinate of the vector, an entry of a column of the table, the constant of the normalisation. -/
inductive HarmonicEntry where
  | coordinate (k : Fin 3)
  | table (i : ℕ)
  | constant

/-- A product of `a` ones and `m` copies of a coordinate in some order: an entry of `_integer_powers` (so3/_common.py:154-164)
is the product of the first entries of `1, x, x, …`. -/
inductive IsProduct (k : Fin 3) : ℕ → ℕ → Arith HarmonicEntry → Prop where
  | one : IsProduct k 1 0 (.mask true)
  | coordinate : IsProduct k 0 1 (.entry (.coordinate k))
  | mul {a b m n : ℕ} {x y : Arith HarmonicEntry} : IsProduct k a m x → IsProduct k b n y → IsProduct k (a + b) (m + n) (.mul x y)

/-- A monomial with the powers `p`, so3/irreps.py:162-167. -/
def IsMonomial (p : List ℕ) (e : Arith HarmonicEntry) : Prop :=
  ∃ x y z, IsProduct 0 1 (p.getD 0 0) x ∧ IsProduct 1 1 (p.getD 1 0) y ∧ IsProduct 2 1 (p.getD 2 0) z ∧ e = .mul (.mul x y) z

/-- `cm[i, j]` after so3/irreps.py:146-149: an entry of the table times a constant. -/
def scaledEntry (i : ℕ) : Arith HarmonicEntry := .mul (.entry (.table i)) (.entry .constant)

/-- `jnp.matmul(monomials, cm)`, so3/irreps.py:170: the sum of the products for the rows in a list, in some order; `d` is the
largest number of additions which a product undergoes.  Adding a product to an initial zero is omitted, it is exact. -/
inductive IsContraction (ls : ℕ → List ℕ) : ℕ → List ℕ → Arith HarmonicEntry → Prop where
  | term {i : ℕ} {m : Arith HarmonicEntry} : IsMonomial (ls i) m → IsContraction ls 0 [i] (.mul m (scaledEntry i))
  | add {d d' : ℕ} {s t : List ℕ} {a b : Arith HarmonicEntry} : IsContraction ls d s a → IsContraction ls d' t b →
      IsContraction ls (max d d' + 1) (s ++ t) (.add a b)
  | fma {d i : ℕ} {s : List ℕ} {m a : Arith HarmonicEntry} : IsMonomial (ls i) m → IsContraction ls d s a →
      IsContraction ls (d + 1) (i :: s) (.fma m (scaledEntry i) a)
  | perm {d : ℕ} {s t : List ℕ} {a : Arith HarmonicEntry} : s.Perm t → IsContraction ls d s a → IsContraction ls d t a

/-- The column of the table for a component, so3/irreps.py:151-152. -/
def tableColumn (cart : Bool) (L j : ℕ) : ℕ := if cart then (cartPerm L).getD j 0 else j

/-- The numbers in floating-point arithmetic: `jnp.asarray` rounds the entries of the table (so3/irreps.py:143), and the constant,
which Python computes, is rounded as well. -/
def harmonicFloats (F : FloatFormat) (r : Fin 3 → FloatVal) (t : ℕ → ℝ) (c : ℝ) : HarmonicEntry → FloatVal
  | .coordinate k => r k
  | .table i => F.round (t i)
  | .constant => F.round c

/-- Component `j` of `spherical_harmonics(r, L, r_is_normalized=True)` (so3/irreps.py:41-170) can be `y` if sums are evaluated with
depth `d`.  `table` is the lookup table, `constant l` what Python computes for the constant of the normalisation. -/
def SphericalHarmonicsFloat (F : FloatFormat) (table : SHTable) (constant : ℕ → ℝ) (L : ℕ) (cart : Bool) (r : Fin 3 → FloatVal)
    (j d : ℕ) (y : FloatVal) : Prop :=
  ∃ e, IsContraction table.ls d (List.range (totalCartMonomials L)) e ∧
    y = e.float F (harmonicFloats F r (fun i => table.cm (i, tableColumn cart L j)) (constant (tableColumn cart L j).sqrt))

end

end E3x
