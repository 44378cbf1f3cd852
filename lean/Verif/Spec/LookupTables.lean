import Verif.Model.LookupTables

/-!
# What the lookup tables should contain

Each table is described by a formula for its entries which does not mention caches, requested degrees other than the
extents, or the order of computation.
-/

namespace E3x.Spec

/-- the degree of the spherical harmonic with flat index `i` -/
def degreeOf (i : Nat) : Nat := Nat.sqrt i

/-- the order of the spherical harmonic with flat index `i = l² + l + m` -/
def orderOf (i : Nat) : ℤ := (i : ℤ) - ((degreeOf i : ℤ) * degreeOf i + degreeOf i)

/-- The Clebsch-Gordan table: `(l₁ m₁, l₂ m₂, l₃ m₃) ↦ sym l₁ m₁ l₂ m₂ l₃ m₃` if `l₃` is compatible with `l₁`, `l₂`
and `m₃ ∈ {±m₁ ± m₂}`; zero otherwise. -/
noncomputable def cgTable (sym : Nat → ℤ → Nat → ℤ → Nat → ℤ → ℝ) (L : Nat) : CGTable where
  maxDegree := L
  cg := fun (i, j, k) =>
    if (degreeOf i ≤ L ∧ degreeOf j ≤ L ∧ degreeOf k ≤ L) ∧
        (degreeOf k ≤ degreeOf i + degreeOf j ∧ degreeOf i ≤ degreeOf j + degreeOf k ∧
          degreeOf j ≤ degreeOf i + degreeOf k) ∧
        (orderOf k = orderOf i + orderOf j ∨ orderOf k = orderOf i - orderOf j ∨
          orderOf k = orderOf j - orderOf i ∨ orderOf k = -orderOf i - orderOf j) then
      sym (degreeOf i) (orderOf i) (degreeOf j) (orderOf j) (degreeOf k) (orderOf k)
    else 0

/-- the coefficient of a monomial in a polynomial given by its list of terms -/
noncomputable def coefficient (p : Terms) (monomial : List Nat) : ℝ :=
  ((p.find? fun t => t.1 = monomial).map (·.2)).getD 0

/-- all monomials of degree at most `L`, by degree -/
def monomials (powers : Nat → List (List Nat)) (L : Nat) : List (List Nat) := (List.range (L + 1)).flatMap powers

/-- The spherical-harmonics table: row `i` is the `i`-th monomial `x^a y^b z^c`, column `l² + l + m` contains the
coefficients of `sph l m`. -/
noncomputable def shTable (sph : Nat → ℤ → Terms) (L : Nat) : SHTable where
  maxDegree := L
  ls := fun i => (monomials monomialPowers L).getD i []
  cm := fun (i, j) =>
    if h : i < (monomials monomialPowers L).length ∧ degreeOf j ≤ L then
      coefficient (sph (degreeOf j) (orderOf j)) ((monomials monomialPowers L)[i]'h.1)
    else 0

/-- all entries of Wigner-D matrices up to degree `L`, by degree, row and column -/
def wignerEntries (L : Nat) : List (Nat × ℤ × ℤ) :=
  (List.range (L + 1)).flatMap fun l => (orders l).flatMap fun a => (orders l).map fun b => (l, a, b)

/-- The Wigner-D table: row `i` is the `i`-th monomial in the entries of the rotation matrix, column `w` contains the
coefficients of the `w`-th entry of the matrices. -/
noncomputable def wdTable (wig : Nat → ℤ → ℤ → Terms) (L : Nat) : WDTable where
  maxDegree := L
  ls := fun i => (monomials rotationPowers L).getD i []
  cm := fun (i, w) =>
    if h : i < (monomials rotationPowers L).length ∧ w < (wignerEntries L).length then
      let e := (wignerEntries L)[w]'h.2
      coefficient (wig e.1 e.2.1 e.2.2) ((monomials rotationPowers L)[i]'h.1)
    else 0

/-- The tensor-conversion table: the matrices of the degrees `0 … L`. -/
def tcTable {M : Type} (conv : Nat → M × M) (L : Nat) : TCTable M where
  maxDegree := L
  s2t := (List.range (L + 1)).map fun l => (conv l).1
  t2s := (List.range (L + 1)).map fun l => (conv l).2

/-- A file content is *valid* if it declares itself empty, or if reading it at the degree it declares gives the table
`table` of that degree. -/
def ValidContent {T C : Type} (kind : LutKind T C) (table : Nat → T) (c : C) : Prop :=
  kind.degree c < 0 ∨ ∃ n : Nat, kind.degree c = n ∧ kind.load n c = .ok ((n : ℤ), table n)

/-- a file is absent or its content is valid -/
def ValidFile {T C : Type} (kind : LutKind T C) (table : Nat → T) : CacheFile C → Prop
  | .absent => True
  | .valid c => ValidContent kind table c
  | .corrupt => False

/-- A state is valid if every configured file is absent or valid. The file shipped with the package may also be
damaged. -/
def ValidDisk {T C : Type} (kind : LutKind T C) (table : Nat → T) (disk : Disk C) : Prop :=
  (∀ c, disk.package = .valid c → ValidContent kind table c) ∧ ∀ path, ValidFile kind table (disk.files path)

/-- the degree stored in a file (`-1`: nothing) -/
def storedDegree {T C : Type} (kind : LutKind T C) : CacheFile C → ℤ
  | .valid c => max (-1) (kind.degree c)
  | _ => -1

/-- what a step should return: requests return the table of the requested degree, or `ValueError` for a negative
one -/
def expected {T : Type} (table : Nat → T) : LutOp → Option (Except Err T)
  | .request L _ => some (if L < 0 then .error .valueError else .ok (table L.toNat))
  | _ => none

/-- the step does not leave an incompletely written file behind -/
def Clean : LutOp → Prop
  | .request _ outcome => outcome ≠ .writeFails
  | .crash _ progress => progress ≠ .writeFails
  | _ => True

/-- What sympy guarantees about the terms of the polynomial of a spherical harmonic: no monomial is listed twice, and
the polynomial is homogeneous of its degree. -/
def ShWellFormed (sph : Nat → ℤ → Terms) : Prop :=
  ∀ (l : Nat) (m : ℤ), |m| ≤ (l : ℤ) → ((sph l m).map (·.1)).Nodup ∧ ∀ t ∈ sph l m, t.1 ∈ monomialPowers l

/-- What sympy guarantees about the terms of the entries of the Wigner-D matrix of degree `l`. -/
def WdWellFormed (wig : Nat → ℤ → ℤ → Terms) : Prop :=
  ∀ (l : Nat) (a b : ℤ), |a| ≤ (l : ℤ) → |b| ≤ (l : ℤ) →
    ((wig l a b).map (·.1)).Nodup ∧ ∀ t ∈ wig l a b, t.1 ∈ rotationPowers l

/-- row `i` belongs to the monomials of degree `l` -/
def InRows (l i : Nat) : Prop := rotOffset l ≤ i ∧ i < rotOffset l + numRotMonomials l

/-- column `w` belongs to the Wigner-D matrix of degree `l` -/
def InCols (l w : Nat) : Prop := wigOffset l ≤ w ∧ w < wigOffset l + numWignerD l

/-- The table has entries only in the diagonal blocks of degree `≤ n`, and rows only for monomials of degree `≤ n`. -/
def BlockDiagonal (n : Nat) (t : WDTable) : Prop :=
  (∀ i w, (∀ l, l ≤ n → ¬ (InRows l i ∧ InCols l w)) → t.cm (i, w) = 0) ∧
    ∀ i, totalRotMonomials n ≤ i → t.ls i = []

/-- the part of a table of degree at most `L` -/
noncomputable def wdRestrict (L : Nat) (t : WDTable) : WDTable :=
  ⟨L, slice2 (totalRotMonomials L) (totalWignerD L) t.cm, fun i => if i < totalRotMonomials L then t.ls i else []⟩

/-- the four generators, each with the table it should produce -/
inductive Generator : {T C : Type} → LutKind T C → (Nat → T) → Prop where
  | clebschGordan (sym : Nat → ℤ → Nat → ℤ → Nat → ℤ → ℝ) : Generator (cgKind sym) (cgTable sym)
  | sphericalHarmonics (sph : Nat → ℤ → Terms) (h : ShWellFormed sph) : Generator (shKind sph) (shTable sph)
  | wignerD (wig : Nat → ℤ → ℤ → Terms) (h : WdWellFormed wig) : Generator (wdKind wig) (wdTable wig)
  | tensorConversion {M : Type} (conv : Nat → M × M) : Generator (tcKind conv) (tcTable conv)

end E3x.Spec
