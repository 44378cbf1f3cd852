import Verif.Model.Basic
import Mathlib.Analysis.SpecialFunctions.Pow.NNReal
import Mathlib.Algebra.Order.Round
import Mathlib.Algebra.BigOperators.Group.Finset.Basic

/-!
# Model of nn/features.py

A feature array of shape `(..., S, (L+1)², F)` is modelled for a fixed index of the leading axes (every
operation below acts pointwise in them) by its extents and its entries. Entries are real numbers.
`pseudo` says whether `S = 2`. Entries outside the extents have no meaning; no definition reads them.
-/

namespace E3x

/-- One feature array (one index of the leading axes). -/
structure Feat where
  /-- `S = 2` (both parity channels) or `S = 1` -/
  pseudo : Bool
  /-- maximum degree -/
  L : ℕ
  /-- number of features -/
  F : ℕ
  /-- entry at (parity channel, degree component, feature) -/
  val : ℕ → ℕ → ℕ → ℝ

/-- Size of the parity axis. -/
def chan (pseudo : Bool) : ℕ := if pseudo then 2 else 1

/-- Degree of the component at position `i` of the degree axis: components of degree `l` are stored at
`l² ≤ i < (l+1)²` (docs/source/overview.rst; so3/irreps.py). -/
def deg (i : ℕ) : ℕ := Nat.sqrt i

/-- Two arrays with equal extents and equal entries. -/
def Feat.Same (x y : Feat) : Prop :=
  x.pseudo = y.pseudo ∧ x.L = y.L ∧ x.F = y.F ∧
    ∀ p i f, p < chan x.pseudo → i < (x.L + 1) ^ 2 → f < x.F → x.val p i f = y.val p i f

noncomputable section

/-- `_extract_max_degree_and_check_shape`, nn/features.py:28-69. `round(math.sqrt(n) - 1)` with exact square
root. (Python rounds halves to even, Mathlib upwards; the square root of an integer is never a half.) -/
def extractMaxDegree (shape : List ℕ) : Except Err ℤ :=
  match shape.reverse with
  | _ :: n :: s :: _ =>
    if !(s == 1 || s == 2) then .error .valueError
    else
      let maxDegree := round (Real.sqrt n - 1)
      let expected := (maxDegree + 1) ^ 2
      if (n : ℤ) ≠ expected then .error .valueError
      else .ok maxDegree
  | _ => .error .valueError

/-- `_extract_max_degree_and_check_shape`, nn/features.py:28-69, with any implementation of `round(math.sqrt(n) - 1)` in
line 59 (for floating point numbers). -/
def extractMaxDegreeRounded (roundSqrtMinusOne : ℕ → ℤ) (shape : List ℕ) : Except Err ℤ :=
  match shape.reverse with
  | _ :: n :: s :: _ =>
    if !(s == 1 || s == 2) then .error .valueError
    else
      let maxDegree := roundSqrtMinusOne n
      let expected := (maxDegree + 1) ^ 2
      if (n : ℤ) ≠ expected then .error .valueError
      else .ok maxDegree
  | _ => .error .valueError

/-- `even_degree_mask`, nn/features.py:72-82 (`jnp.repeat` with per-entry counts). -/
def evenDegreeMask (L : ℕ) : List Bool :=
  (List.range (L + 1)).flatMap fun l => List.replicate (2 * l + 1) (l % 2 == 0)

/-- `odd_degree_mask`, nn/features.py:85-87. -/
def oddDegreeMask (L : ℕ) : List Bool := (evenDegreeMask L).map not

/-- `rotate`, nn/features.py:90-134: `einsum('...slf,lm->...smf')` (either branch; the batched branch uses a
different matrix for each index of the leading axes). -/
def rotate (x : Feat) (D : ℕ → ℕ → ℝ) : Feat :=
  { x with val := fun s m f => ∑ l ∈ Finset.range ((x.L + 1) ^ 2), x.val s l f * D l m }

/-- `range(1, max_degree + 1, 2)`, nn/features.py:158. -/
def oddDegrees (L : ℕ) : List ℕ := (List.range ((L + 1) / 2)).map (2 * · + 1)

/-- One in-place update `x.at[..., l**2 : (l + 1) ** 2, :].multiply(-1)`, nn/features.py:159. -/
def negateDegree (v : ℕ → ℕ → ℕ → ℝ) (l : ℕ) : ℕ → ℕ → ℕ → ℝ :=
  fun p i f => if l ^ 2 ≤ i ∧ i < (l + 1) ^ 2 then v p i f * (-1) else v p i f

/-- `reflect`, nn/features.py:137-161. -/
def reflect (x : Feat) : Feat :=
  if x.pseudo then
    { x with val := fun p i f => if p = 1 then x.val p i f * (-1) else x.val p i f }
  else
    { x with val := (oddDegrees x.L).foldl negateDegree x.val }

/-- `jnp.concatenate([g(l) restricted to positions l²..(l+1)² for l in range(max_degree + 1)], axis=-2)`:
position `i` of the result comes from the block of its degree (`concat_blocks` in Lemmas/Degrees.lean shows
this for lists). -/
def concatDegrees (g : ℕ → ℕ → ℕ → ℝ) : ℕ → ℕ → ℝ := fun i f => g (deg i) i f

/-- `change_max_degree_or_type`, nn/features.py:164-254. -/
def changeMaxDegreeOrType (x : Feat) (maxDegree : Option ℕ) (includePseudo : Option Bool) : Feat :=
  let L := maxDegree.getD x.L
  let incl := includePseudo.getD x.pseudo
  -- slice (215-216) / pad with zeros (219-222)
  let v : ℕ → ℕ → ℕ → ℝ :=
    if L < x.L then x.val
    else if x.L < L then fun p i f => if i < (x.L + 1) ^ 2 then x.val p i f else 0
    else x.val
  if x.pseudo && !incl then
    { pseudo := false, L := L, F := x.F, val := fun _ => concatDegrees fun l i f => v (l % 2) i f }
  else if incl && !x.pseudo then
    let e := concatDegrees fun l i f => if l % 2 = 0 then v 0 i f else 0
    let o := concatDegrees fun l i f => if l % 2 ≠ 0 then v 0 i f else 0
    { pseudo := true, L := L, F := x.F, val := fun p i f => if p = 0 then e i f else o i f }
  else { pseudo := x.pseudo, L := L, F := x.F, val := v }

/-- `add`, nn/features.py:257-338. Batch shape and dtype checks are not modelled (one batch index, reals);
the checks on the number of features are. Without inputs Python raises `IndexError`. -/
def add (inputs : List Feat) : Except Err Feat :=
  match inputs with
  | [] => .error .indexError
  | x0 :: _ =>
    if inputs.any fun x => x.F != x0.F then .error .valueError
    else
      let maxDegree := inputs.foldl (fun m x => max m x.L) 0
      let hasPseudo := inputs.foldl (fun b x => b || x.pseudo) false
      let y0 : Feat := { pseudo := hasPseudo, L := maxDegree, F := x0.F, val := fun _ _ _ => 0 }
      .ok (inputs.foldl (fun y x =>
        let c := changeMaxDegreeOrType x (some maxDegree) (some hasPseudo)
        { y with val := fun p i f => y.val p i f + c.val p i f }) y0)

end

end E3x
