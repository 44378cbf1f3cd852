import Verif.Model.Basic
import Mathlib.Data.List.Permutation
import Mathlib.Data.List.Lex
import Mathlib.Data.List.Sort
import Mathlib.Data.Nat.Choose.Basic

/-!
# Model of so3/_common.py
-/

namespace E3x

/-- `_cartesian_permutation_for_degree`, so3/_common.py:34-45 (the loop writes the entries in order). -/
def cartPermDeg (l : Nat) : List Nat :=
  ((List.range l).flatMap fun m => [2 * l + 1 - (m + 1), m]) ++ [(2 * l + 1) / 2]

/-- `_cartesian_permutation`, so3/_common.py:48-58: the blocks `l² : (l+1)²` in order of `l`. -/
def cartPerm (L : Nat) : List Nat :=
  (List.range (L + 1)).flatMap fun l => (cartPermDeg l).map (· + l ^ 2)

/-- `_number_of_cartesian_monomials_of_degree`, so3/_common.py:78-80. -/
def numCartMonomials (d : Nat) : Nat := ((d + 1) * (d + 2)) / 2

/-- `_number_of_spherical_harmonics_of_degree`, so3/_common.py:83-85. -/
def numSphericalHarmonics (d : Nat) : Nat := 2 * d + 1

/-- `_number_of_rotation_matrix_monomials_of_degree`, so3/_common.py:88-90. -/
def numRotMonomials (d : Nat) : Nat := Nat.choose (d + 8) d

/-- `_number_of_wigner_d_entries_of_degree`, so3/_common.py:93-96. -/
def numWignerD (d : Nat) : Nat := let num := 2 * d + 1; num * num

/-- `_total_number_of_cartesian_monomials`, so3/_common.py:99-101. -/
def totalCartMonomials (L : Nat) : Nat := ((L + 1) * (L + 2) * (L + 3)) / 6

/-- `_total_number_of_spherical_harmonics`, so3/_common.py:104-107. -/
def totalSphericalHarmonics (L : Nat) : Nat := (L + 1) * (L + 1)

/-- `_total_number_of_rotation_matrix_monomials`, so3/_common.py:110-112. -/
def totalRotMonomials (L : Nat) : Nat := ((L + 1) * Nat.choose (L + 9) (L + 1)) / 9

/-- `_total_number_of_wigner_d_entries`, so3/_common.py:115-117. -/
def totalWignerD (L : Nat) : Nat := ((L + 1) * (2 * L + 1) * (2 * L + 3)) / 3

/-- `_cartesian_permutation_wigner_d_entries`, so3/_common.py:61-75: `pmat[pvec, :][:, pvec]` flattened. The
running `offset` is the sum of the sizes of the previous blocks. -/
def cartPermWignerD (L : Nat) : List Nat :=
  (List.range (L + 1)).flatMap fun l =>
    ((cartPermDeg l).flatMap fun a => (cartPermDeg l).map fun b => a * (2 * l + 1) + b).map
      (· + ((List.range l).map numWignerD).sum)

/-- `_partitions`, so3/_common.py:120-130 (argument order: k, n, l). -/
def partitions : Nat → Nat → Nat → List (List Nat)
  | 0, _, _ => []
  | 1, n, l => if l ≤ n then [[n]] else []
  | k + 2, n, l => (List.range' l (n + 1 - l)).flatMap fun i =>
      (partitions (k + 1) (n - i) i).map (i :: ·)

/-- `more_itertools.distinct_permutations`: the distinct permutations of a list in lexicographic order. -/
def distinctPermutations (p : List Nat) : List (List Nat) := p.permutations.dedup.insertionSort (· ≤ ·)

/-- `_multicombinations`, so3/_common.py:133-137. -/
def multicombinations (n k : Nat) : List (List Nat) :=
  (partitions k n 0).flatMap distinctPermutations

/-- `_monomial_powers_of_degree`, so3/_common.py:140-143. -/
def monomialPowers (d : Nat) : List (List Nat) := multicombinations d 3

/-- `_rotation_matrix_powers_of_degree`, so3/_common.py:146-151. -/
def rotationPowers (d : Nat) : List (List Nat) := multicombinations d 9

/-- `_integer_powers`, so3/_common.py:154-164, along the power axis for one entry: cumulative product of
`1, x, …, x`. -/
def integerPowers {α : Type _} [One α] [Mul α] (x : α) (maxDegree : Nat) : List α :=
  (List.replicate maxDegree x).scanl (· * ·) 1

end E3x
