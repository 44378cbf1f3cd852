import Verif.Model.QuadratureGrid

/-!
# A check of the moments of a quadrature rule which the kernel can evaluate

Powers of the squared coordinates are rounded down to multiples of `2⁻⁶⁴`, and the powers of one coordinate are packed
into one number, so that all moments with the same exponents of the two other coordinates are computed at once.
The recursors are used directly because the kernel evaluates them fastest.
-/

namespace E3x

namespace QuadratureCheck

/-- `k n`, but the kernel evaluates `n` first. -/
noncomputable def force {α : Type} (n : ℕ) (k : ℕ → α) : α :=
  Nat.rec (motive := fun _ => α) (k 0) (fun m _ => k (Nat.succ m)) n

/-- `⌊2⁶⁴ (x / 2⁷⁰)²ᵃ⌋` -/
def fix (x a : ℕ) : ℕ :=
  Nat.shiftRight (Nat.shiftLeft (Nat.pow x (Nat.mul 2 a)) 64) (Nat.mul 140 a)

/-- `∑ₐ fix x a 2²⁷²ᵃ` for `a ≤ n` -/
noncomputable def pack (x n : ℕ) : ℕ :=
  Nat.rec (motive := fun _ => ℕ) (fix x 0)
    (fun m ih => Nat.add ih (Nat.shiftLeft (fix x (Nat.succ m)) (Nat.mul 272 (Nat.succ m)))) n

/-- An orbit together with the packed powers of its coordinates and its total weight. -/
structure Packed where
  x : ℕ
  y : ℕ
  z : ℕ
  gx : ℕ
  gy : ℕ
  gz : ℕ
  v : ℕ

/-- The number of arrangements of three coordinates. -/
def numArrangements (x y z : ℕ) : ℕ :=
  cond (Nat.beq x y) (cond (Nat.beq y z) 1 3) (cond (Nat.beq y z) 3 (cond (Nat.beq x z) 3 6))

/-- The number of signs of a coordinate. -/
def numSigns (x : ℕ) : ℕ := cond (Nat.beq x 0) 1 2

/-- The weight of all points of the orbit together. -/
def total (o : QuadratureOrbit) : ℕ :=
  Nat.mul o.w (Nat.mul (numArrangements o.x o.y o.z) (Nat.mul (numSigns o.x) (Nat.mul (numSigns o.y) (numSigns o.z))))

/-- Packs all orbits. -/
noncomputable def packAll (n : ℕ) (l : List QuadratureOrbit) (k : List Packed → Bool) : List Packed → Bool :=
  List.rec (motive := fun _ => List Packed → Bool) k
    (fun o _ ih acc => force (pack o.x n) fun gx => force (pack o.y n) fun gy => force (pack o.z n) fun gz =>
      force (total o) fun v => ih (⟨o.x, o.y, o.z, gx, gy, gz, v⟩ :: acc)) l

/-- `x²ᵇ y²ᶜ + y²ᵇ x²ᶜ`, rounded. -/
def cross (x y b c : ℕ) : ℕ := Nat.add (Nat.mul (fix x b) (fix y c)) (Nat.mul (fix y b) (fix x c))

/-- All moments with exponents `b` and `c` of the squares of two coordinates, packed. -/
noncomputable def row (b c : ℕ) (l : List Packed) : ℕ :=
  List.rec (motive := fun _ => ℕ) 0 (fun p _ ih => Nat.add ih (Nat.mul p.v
    (Nat.add (Nat.mul p.gx (cross p.y p.z b c))
      (Nat.add (Nat.mul p.gy (cross p.x p.z b c)) (Nat.mul p.gz (cross p.x p.y b c)))))) l

/-- The entry `a` of a packed number. -/
def digit (g a : ℕ) : ℕ := Nat.mod (Nat.shiftRight g (Nat.mul 272 a)) (Nat.pow 2 272)

/-- The scale of the moments, `6 · 2⁷⁰ · (2⁶⁴)³`. -/
def scale : ℕ := 6 * 2 ^ 262

/-- Whether `(p - q) / scale` and `num / den` differ by at most `1 / e`. -/
def close (e p q num den : ℕ) : Bool :=
  and (Nat.ble (Nat.mul e (Nat.mul p den)) (Nat.add (Nat.mul e (Nat.add (Nat.mul q den) (Nat.mul num scale))) (Nat.mul scale den)))
    (Nat.ble (Nat.mul e (Nat.add (Nat.mul q den) (Nat.mul num scale))) (Nat.add (Nat.mul e (Nat.mul p den)) (Nat.mul scale den)))

/-- Checks the exponents `a`, `a + 1`, … (`fuel` of them), those below `b` excepted. `num / den` is the mean value of
`x²ᵃ y²ᵇ z²ᶜ`. -/
noncomputable def loopA (e b s gp gn : ℕ) (fuel : ℕ) : ℕ → ℕ → ℕ → Bool :=
  Nat.rec (motive := fun _ => ℕ → ℕ → ℕ → Bool) (fun _ _ _ => true)
    (fun _ ih a num den =>
      and (or (Nat.blt a b) (close e (digit gp a) (digit gn a) num den))
        (force (Nat.succ a) fun a' => force (Nat.mul num (Nat.add (Nat.mul 2 a) 1)) fun num' =>
          force (Nat.mul den (Nat.add (Nat.mul 2 (Nat.add a s)) 3)) fun den' => ih a' num' den')) fuel

/-- Checks the exponents `b`, `b + 1`, … (`fuel` of them), those below `c` excepted. -/
noncomputable def loopB (e n c : ℕ) (lp ln : List Packed) (fuel : ℕ) : ℕ → ℕ → ℕ → Bool :=
  Nat.rec (motive := fun _ => ℕ → ℕ → ℕ → Bool) (fun _ _ _ => true)
    (fun _ ih b num den =>
      and (or (or (Nat.blt b c) (Nat.blt n (Nat.add (Nat.add b b) c)))
          (force (row b c lp) fun gp => force (row b c ln) fun gn =>
            loopA e b (Nat.add b c) gp gn (Nat.succ (Nat.sub n (Nat.add b c))) 0 num den))
        (force (Nat.succ b) fun b' => force (Nat.mul num (Nat.add (Nat.mul 2 b) 1)) fun num' =>
          force (Nat.mul den (Nat.add (Nat.mul 2 (Nat.add b c)) 3)) fun den' => ih b' num' den')) fuel

/-- Checks the exponents `c`, `c + 1`, … (`fuel` of them). -/
noncomputable def loopC (e n : ℕ) (lp ln : List Packed) (fuel : ℕ) : ℕ → ℕ → ℕ → Bool :=
  Nat.rec (motive := fun _ => ℕ → ℕ → ℕ → Bool) (fun _ _ _ => true)
    (fun _ ih c num den =>
      and (loopB e n c lp ln (Nat.succ (Nat.sub n c)) 0 num den)
        (force (Nat.succ c) fun c' => force (Nat.mul num (Nat.add (Nat.mul 2 c) 1)) fun num' =>
          force (Nat.mul den (Nat.add (Nat.mul 2 c) 3)) fun den' => ih c' num' den')) fuel

/-- The coordinates are at most `1`. -/
noncomputable def small (l : List QuadratureOrbit) : Bool :=
  List.rec (motive := fun _ => Bool) true (fun o _ ih =>
    and (and (Nat.ble o.x (Nat.pow 2 70)) (and (Nat.ble o.y (Nat.pow 2 70)) (Nat.ble o.z (Nat.pow 2 70)))) ih) l

/-- The sum of the absolute values of the weights. -/
noncomputable def weight (l : List QuadratureOrbit) : ℕ :=
  List.rec (motive := fun _ => ℕ) 0 (fun o _ ih => Nat.add (total o) ih) l

/-- Checks all moments of `x²ᵃ y²ᵇ z²ᶜ` with `a ≥ b ≥ c` and `a + b + c ≤ n`. -/
noncomputable def check (e n : ℕ) (R : QuadratureRule) : Bool :=
  and (and (small R.pos) (small R.neg))
    (and (Nat.ble (Nat.add (weight R.pos) (weight R.neg)) (Nat.pow 2 71))
      (packAll n R.pos (fun lp => packAll n R.neg (fun ln =>
        loopC e n lp ln (Nat.succ (Nat.div n 3)) 0 1 1) []) []))

end QuadratureCheck

end E3x
