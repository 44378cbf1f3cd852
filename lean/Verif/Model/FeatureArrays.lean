import Verif.Model.Arrays
import Verif.Model.Features

/-!
# Model of nn/features.py on whole arrays

The functions of nn/features.py on arrays of any rank, with all checks of shapes and types. (Model/Features.lean is the
same for one index of the leading axes.) Entries are real numbers. The first definitions model the library functions
`x[..., a:b, ...]`, `jnp.pad`, `jnp.concatenate` and `x.at[...].multiply`; they are part of the trusted base.
-/

namespace E3x

variable {α : Type}

namespace NDArray

/-- The extent of an axis. -/
def extent (x : NDArray α) (axis : ℕ) : ℕ := x.shape.getD axis 0

/-- `x[..., start:stop, ...]` along one axis: both bounds are clamped to the extent. -/
def sliceAxis (x : NDArray α) (axis start stop : ℕ) : NDArray α :=
  ofFn (x.shape.set axis (min stop (x.extent axis) - min start (x.extent axis))) fun idx =>
    Spec.entry x (idx.set axis (min start (x.extent axis) + idx.getD axis 0))

/-- `jnp.pad(x, ..., mode='constant', constant_values=0)` with `n` entries after the end of one axis. -/
def padAxis [Zero α] (x : NDArray α) (axis n : ℕ) : NDArray α :=
  ofFn (x.shape.set axis (x.extent axis + n)) fun idx =>
    if idx.getD axis 0 < x.extent axis then Spec.entry x idx else 0

/-- The block that contains a position, and the position within the block, for consecutive blocks of given lengths. -/
def locate : List ℕ → ℕ → ℕ × ℕ
  | [], i => (0, i)
  | n :: ns, i => if i < n then (0, i) else ((locate ns (i - n)).1 + 1, (locate ns (i - n)).2)

/-- `jnp.concatenate(xs, axis)`: there must be at least one array (`ValueError`), and the extents of all other axes must
be equal (`TypeError`). -/
def concatAxis (xs : List (NDArray α)) (axis : ℕ) : Except Err (NDArray α) :=
  match xs with
  | [] => .error .valueError
  | x0 :: _ =>
    if xs.any fun x => x.shape.eraseIdx axis != x0.shape.eraseIdx axis then .error .typeError
    else
      let sizes := xs.map fun x => x.extent axis
      .ok (ofFn (x0.shape.set axis sizes.sum) fun idx =>
        let q := locate sizes (idx.getD axis 0)
        Spec.entry (xs.getD q.1 x0) (idx.set axis q.2))

/-- `jnp.zeros_like(x)`. -/
def zerosLike [Zero α] (x : NDArray α) : NDArray α := ofFn x.shape fun _ => 0

/-- `x.at[..., start:stop, ...].multiply(-1)` along one axis. -/
def negateSlice [Mul α] [One α] [Neg α] (x : NDArray α) (axis start stop : ℕ) : NDArray α :=
  ofFn x.shape fun idx =>
    if start ≤ idx.getD axis 0 ∧ idx.getD axis 0 < stop then Spec.entry x idx * (-1) else Spec.entry x idx

end NDArray

open NDArray

noncomputable section

/-- `rotate`, nn/features.py:90-134, with the check of the shape of the Wigner-D matrices and both branches. -/
def rotateArray (x wignerD : NDArray ℝ) : Except Err (NDArray ℝ) := do
  let maxDegree ← extractMaxDegree x.shape
  let dim := ((maxDegree + 1) ^ 2).toNat
  if wignerD.shape.drop (wignerD.ndim - 2) ≠ [dim, dim] then .error .valueError
  else if wignerD.ndim = 2 then
    -- '...slf,lm->...smf'
    .ok (ofFn x.shape fun idx =>
      ∑ l ∈ Finset.range dim,
        Spec.entry x (idx.set (x.ndim - 2) l) * Spec.entry wignerD [l, idx.getD (x.ndim - 2) 0])
  else if x.shape.take (x.ndim - 3) ≠ wignerD.shape.take (wignerD.ndim - 2) then .error .valueError
  else
    -- '...slf,...lm->...smf'
    .ok (ofFn x.shape fun idx =>
      ∑ l ∈ Finset.range dim,
        Spec.entry x (idx.set (x.ndim - 2) l) *
          Spec.entry wignerD (idx.take (x.ndim - 3) ++ [l, idx.getD (x.ndim - 2) 0]))

/-- `reflect`, nn/features.py:137-161. (`x.at[..., 1, :, :]` is the slice `1:2` of axis -3.) -/
def reflectArray (x : NDArray ℝ) : Except Err (NDArray ℝ) := do
  let maxDegree ← extractMaxDegree x.shape
  if x.extent (x.ndim - 3) = 2 then
    .ok (x.negateSlice (x.ndim - 3) 1 2)
  else
    -- range(1, max_degree + 1, 2)
    .ok ((oddDegrees maxDegree.toNat).foldl (fun x l => x.negateSlice (x.ndim - 2) (l ^ 2) ((l + 1) ^ 2)) x)

/-- The blocks of degrees `0, …, max_degree` (`range(max_degree + 1)` is empty if `max_degree` is negative),
nn/features.py:221-227, 232-240 and 242-250: `x[..., c(l) : c(l) + 1, l**2 : (l + 1) ** 2, :]`, or zeros of this shape. -/
def degreeBlocks (x : NDArray ℝ) (maxDegree : ℤ) (channel : ℕ → ℕ) (keep : ℕ → Bool) : List (NDArray ℝ) :=
  (List.range (maxDegree + 1).toNat).map fun l =>
    let block := (x.sliceAxis (x.ndim - 3) (channel l) (channel l + 1)).sliceAxis (x.ndim - 2) (l ^ 2) ((l + 1) ^ 2)
    if keep l then block else block.zerosLike

/-- `change_max_degree_or_type`, nn/features.py:164-254. -/
def changeArray (x : NDArray ℝ) (maxDegree : Option ℤ) (includePseudo : Option Bool) : Except Err (NDArray ℝ) := do
  -- 198-207
  let inMaxDegree ← extractMaxDegree x.shape
  let inPseudo := x.extent (x.ndim - 3) != 1
  let m := maxDegree.getD inMaxDegree
  let incl := includePseudo.getD inPseudo
  -- 209-217
  let v :=
    if m < inMaxDegree then x.sliceAxis (x.ndim - 2) 0 ((m + 1) ^ 2).toNat
    else if inMaxDegree < m then x.padAxis (x.ndim - 2) ((m + 1) ^ 2 - (inMaxDegree + 1) ^ 2).toNat
    else x
  if inPseudo && !incl then
    -- 219-227
    concatAxis (degreeBlocks v m (fun l => l % 2) fun _ => true) (x.ndim - 2)
  else if incl && !inPseudo then do
    -- 229-252
    let e ← concatAxis (degreeBlocks v m (fun _ => 0) fun l => l % 2 == 0) (x.ndim - 2)
    let o ← concatAxis (degreeBlocks v m (fun _ => 0) fun l => l % 2 != 0) (x.ndim - 2)
    concatAxis [e, o] (x.ndim - 3)
  else .ok v

/-- An array and its `dtype`. -/
structure TypedArray (τ : Type) where
  dtype : τ
  array : NDArray ℝ

/-- The checks on one input of `add` and the update of the two variables, nn/features.py:295-321. `x.shape[-1]` raises
`IndexError` for an array without axes. `except ValueError ... raise ValueError` keeps the kind of the error. -/
def addCheck {τ : Type} [DecidableEq τ] (batchShape : List ℕ) (features : ℕ) (dtype : τ) (s : ℤ × Bool)
    (x : TypedArray τ) : Except Err (ℤ × Bool) := do
  if x.array.shape.take (x.array.ndim - 3) ≠ batchShape then .error .valueError
  else
    match x.array.shape.getLast? with
    | none => .error .indexError
    | some last =>
      if last ≠ features then .error .valueError
      else if x.dtype ≠ dtype then .error .valueError
      else do
        let xMaxDegree ← extractMaxDegree x.array.shape
        .ok (max s.1 xMaxDegree, s.2 || x.array.extent (x.array.ndim - 3) == 2)

/-- `add`, nn/features.py:257-338, with all checks. Without inputs Python raises `IndexError`. Sums of real numbers, for
every `dtype`. -/
def addArrays {τ : Type} [DecidableEq τ] (inputs : List (TypedArray τ)) : Except Err (TypedArray τ) :=
  match inputs with
  | [] => .error .indexError
  | x0 :: _ =>
    if x0.array.ndim < 3 then .error .valueError
    else do
      -- 288-321
      let features := x0.array.extent (x0.array.ndim - 1)
      let batchShape := x0.array.shape.take (x0.array.ndim - 3)
      let (maxDegree, hasPseudo) ← inputs.foldlM (addCheck batchShape features x0.dtype) (0, false)
      -- 323-338
      let y0 : NDArray ℝ := ofFn (batchShape ++ [if hasPseudo then 2 else 1, ((maxDegree + 1) ^ 2).toNat, features]) fun _ => 0
      let y ← inputs.foldlM (fun y x => do
        let c ← changeArray x.array (some maxDegree) (some hasPseudo)
        NDArray.zip (· + ·) y c) y0
      .ok ⟨x0.dtype, y⟩

end

end E3x
