import Verif.Lemmas.ShippedCheck

/-!
# All rows of the shipped table of spherical harmonics
-/

namespace E3x.Coefficients

/-- the entry of a row in column `j` -/
def rowEntry (row : List ShippedEntry) (j : ℕ) : ShippedEntry :=
  List.rec ⟨j, false, 0, 0⟩ (fun e _ ih => bif Nat.beq e.column j then e else ih) row

/-- the columns are increasing and in the given range -/
def fcolumns (row : List ShippedEntry) : ℕ → ℕ → Bool :=
  List.rec (motive := fun _ => ℕ → ℕ → Bool) (fun lo hi => Nat.ble lo hi)
    (fun e _ ih lo hi => Nat.ble lo e.column && ih (Nat.add e.column 1) hi) row

/-- the entries of the columns `l² + k`, `k < n`, of the row of `xᵃ yᵇ z^(l-a-b)` -/
noncomputable def fcolumnsClose (l a b : ℕ) (row : List ShippedEntry) (n : ℕ) : Bool :=
  Nat.rec true (fun k ih => (ShippedEntry.rec (fun _ neg M E =>
    fentry l (fdist k l) (bif Nat.ble l k then 0 else 1) a b neg M E) (rowEntry row (Nat.add (Nat.mul l l) k))) && ih) n

/-- one row -/
noncomputable def frow (l : ℕ) (p : List ℕ) (row : List ShippedEntry) : Bool :=
  match p with
  | [a, b, c] => Nat.beq (Nat.add (Nat.add a b) c) l &&
      (fcolumns row (Nat.mul l l) (Nat.mul (Nat.add l 1) (Nat.add l 1)) && fcolumnsClose l a b row (2 * l + 1))
  | _ => false

/-- all rows of one degree -/
noncomputable def frows (l : ℕ) (rows : List (List ℕ × List ShippedEntry)) : Bool :=
  List.rec true (fun r _ ih => frow l r.1 r.2 && ih) rows

theorem frows0 : frows 0 shippedRows0 = true := by decide +kernel

theorem frows1 : frows 1 shippedRows1 = true := by decide +kernel

theorem frows2 : frows 2 shippedRows2 = true := by decide +kernel

theorem frows3 : frows 3 shippedRows3 = true := by decide +kernel

theorem frows4 : frows 4 shippedRows4 = true := by decide +kernel

theorem frows5 : frows 5 shippedRows5 = true := by decide +kernel

theorem frows6 : frows 6 shippedRows6 = true := by decide +kernel

theorem frows7 : frows 7 shippedRows7 = true := by decide +kernel

theorem frows8 : frows 8 shippedRows8 = true := by decide +kernel

theorem frows9 : frows 9 shippedRows9 = true := by decide +kernel

theorem frows10 : frows 10 shippedRows10 = true := by decide +kernel

theorem frows11 : frows 11 shippedRows11 = true := by decide +kernel

theorem frows12 : frows 12 shippedRows12 = true := by decide +kernel

theorem frows13 : frows 13 shippedRows13 = true := by decide +kernel

theorem frows14 : frows 14 shippedRows14 = true := by decide +kernel

theorem frows15 : frows 15 shippedRows15 = true := by decide +kernel

end E3x.Coefficients
