import Verif.Model.Irreps

/-!
# Model of matrix/matmat.py

A two-dimensional array is a function of its indices together with its shape. `degrees` are natural numbers (a negative
degree would lead to arrays of negative size), `mult` is a natural number. `precision` and dtypes have no counterpart.
-/

namespace E3x

noncomputable section

open Finset (range)

/-- A two-dimensional array. -/
structure Arr2 where
  rows : ℕ
  cols : ℕ
  val : ℕ → ℕ → ℝ

/-- `compute_side_lengths`, matrix/matmat.py:57-66. -/
def computeSideLengths (degrees : List ℕ) : List ℕ := degrees.map fun l => 2 * l + 1

/-- `result[l] += 1` for a `defaultdict(int)`, as a list of pairs of keys and values in the order of insertion. -/
def dictIncr (l : ℕ) : List (ℕ × ℕ) → List (ℕ × ℕ)
  | [] => [(l, 1)]
  | (k, c) :: d => if k = l then (k, c + 1) :: d else (k, c) :: dictIncr l d

/-- `result[l]` for a `defaultdict(int)`. -/
def dictGet (d : List (ℕ × ℕ)) (l : ℕ) : ℕ := (d.lookup l).getD 0

/-- `abs(la - lb)` -/
def absDiff (la lb : ℕ) : ℕ := ((la : ℤ) - lb).natAbs

/-- `make_dict_irreps_mult`, matrix/matmat.py:69-93. -/
def makeDictIrrepsMult (degrees : List ℕ) (maxDegree : Option ℕ) : List (ℕ × ℕ) :=
  (degrees.product degrees).foldl (fun result (la, lb) =>
    let maxL := match maxDegree with
      | none => la + lb
      | some d => min (la + lb) d
    (List.range' (absDiff la lb) (maxL + 1 - absDiff la lb)).foldl (fun result l => dictIncr l result) result) []

/-- `init_matrix_irreps_weights`, matrix/matmat.py:96-119. `normal l` is the array of random numbers drawn with the
key number `l`. -/
def initMatrixIrrepsWeights (normal : ℕ → ℕ → ℕ → ℝ) (nShells : ℕ) (dict : List (ℕ × ℕ)) (mult : ℕ) (stddev : ℝ) :
    Except Err (List Arr2) :=
  match (dict.map Prod.fst).max? with
  | none => .error .valueError
  | some maxL => .ok ((List.range (maxL + 1)).map fun l =>
      { rows := nShells, cols := dictGet dict l * mult * mult,
        val := fun i o => normal l i o * stddev / Real.sqrt (2 * l + 1) })

/-- `combine_irreps`, matrix/matmat.py:122-145, for inputs without batch axes. The slice `inputs[l**2:(l+1)**2, :]` ends
where the array ends. -/
def combineIrreps (inputs : Arr2) (weights : List Arr2) : Except Err (List Arr2) :=
  if weights.any (fun w => w.rows ≠ inputs.cols) then .error .assertion
  else .ok (weights.mapIdx fun l w =>
    { rows := min inputs.rows ((l + 1) ^ 2) - min inputs.rows (l ^ 2), cols := w.cols,
      val := fun v o => ∑ i ∈ range w.rows, w.val i o * inputs.val (l ^ 2 + v) i })

/-- An array with three axes. -/
structure Arr3 where
  s1 : ℕ
  s2 : ℕ
  s3 : ℕ
  val : ℕ → ℕ → ℕ → ℝ

/-- `jnp.concatenate` of two-dimensional arrays along the first axis. Arrays of different widths raise `TypeError`. -/
def concatRows : List Arr2 → Except Err Arr2
  | [] => .error .valueError
  | [x] => .ok x
  | x :: xs =>
    match concatRows xs with
    | .error e => .error e
    | .ok y =>
      if x.cols ≠ y.cols then .error .typeError
      else .ok { rows := x.rows + y.rows, cols := x.cols,
                 val := fun i j => if i < x.rows then x.val i j else y.val (i - x.rows) j }

/-- `irreps[l]` for `l` in `ls`; an index outside of the list raises `IndexError`. -/
def getAll (irreps : List Arr2) : List ℕ → Except Err (List (ℕ × Arr2))
  | [] => .ok []
  | l :: ls =>
    match irreps[l]?, getAll irreps ls with
    | none, _ => .error .indexError
    | _, .error e => .error e
    | some x, .ok xs => .ok ((l, x) :: xs)

/-- `x[:, start:stop]` -/
def sliceCols (x : Arr2) (start stop : ℕ) : Arr2 :=
  { rows := x.rows, cols := min x.cols stop - min x.cols start, val := fun i j => x.val i (start + j) }

/-- The loop matrix/matmat.py:212-217. -/
def advance (m2 : ℕ) : List (ℕ × Arr2) → (ℕ → ℕ) → Except Err (ℕ → ℕ)
  | [], idx => .ok idx
  | (l, x) :: xs, idx =>
    if idx l + m2 > x.cols then .error .valueError
    else advance m2 xs fun k => if k = l then idx l + m2 else idx k

/-- `make_rectangular_matrix`, matrix/matmat.py:148-227. Returned are the entries of the matrix (of shape
`(a * mult, b * mult)`) and the updated list `idx` (as a function). Arrays in `irreps` have two axes. As in the code, the
check of the parity looks at `irreps[0]` each time. -/
def makeRectangularMatrix (irreps : List Arr2) (idx : ℕ → ℕ) (a b : ℕ) (cg : Arr3) (mult : ℕ) :
    Except Err ((ℕ → ℕ) × (ℕ → ℕ → ℝ)) :=
  match irreps.head?, irreps.getLast? with
  | some first, some last =>
    if first.rows % 2 = 0 then .error .valueError
    else if a % 2 = 0 then .error .valueError
    else if b % 2 = 0 then .error .valueError
    else
      let lMin := first.rows / 2
      let lMax := last.rows / 2
      let la := a / 2
      let lb := b / 2
      let lower := max (absDiff la lb) lMin
      let upper := min (la + lb) lMax + 1
      if lower ≥ upper then .ok (idx, fun _ _ => 0)
      else if cg.s1 < (la + 1) ^ 2 then .error .valueError
      else if cg.s2 < (lb + 1) ^ 2 then .error .valueError
      else if cg.s3 < upper ^ 2 then .error .valueError
      else
        let m2 := mult * mult
        match getAll irreps (List.range' lower (upper - lower)) with
        | .error e => .error e
        | .ok used =>
          match concatRows (used.map fun (l, x) => sliceCols x (idx l) (idx l + m2)) with
          | .error e => .error e
          | .ok v =>
            match advance m2 used idx with
            | .error e => .error e
            | .ok idx' =>
              if v.rows ≠ upper ^ 2 - lower ^ 2 then .error .valueError
              else if v.cols ≠ m2 then .error .typeError
              else
                let result := fun i j f =>
                  ∑ m ∈ range v.rows, v.val m f * cg.val (la ^ 2 + i) (lb ^ 2 + j) (lower ^ 2 + m)
                .ok (idx', fun r c => result (r % a) (c % b) (r / a * mult + c / b))
  | _, _ => .error .indexError

/-- `result.at[sa:ea, sb:eb].set(rect)` -/
def setRect (result : ℕ → ℕ → ℝ) (sa ea sb eb : ℕ) (rect : ℕ → ℕ → ℝ) : ℕ → ℕ → ℝ :=
  fun r c => if (sa ≤ r ∧ r < ea) ∧ (sb ≤ c ∧ c < eb) then rect (r - sa) (c - sb) else result r c

/-- The inner loop of `make_square_matrix`, matrix/matmat.py:272-278. -/
def squareInner (irreps : List Arr2) (cg : Arr3) (mult : ℕ) (shift : Bool) (startA a : ℕ) :
    List ℕ → ℕ → (ℕ → ℕ) × (ℕ → ℕ → ℝ) → Except Err ((ℕ → ℕ) × (ℕ → ℕ → ℝ))
  | [], _, s => .ok s
  | b :: ns, startB, (idx, result) =>
    match makeRectangularMatrix irreps idx a b cg mult with
    | .error e => .error e
    | .ok (idx', rect) =>
      let rect := if shift && startA == startB then fun r c => rect r c + if r = c then 1 else 0 else rect
      squareInner irreps cg mult shift startA a ns (startB + b * mult)
        (idx', setRect result startA (startA + a * mult) startB (startB + b * mult) rect)

/-- The outer loop of `make_square_matrix`, matrix/matmat.py:269-279. -/
def squareOuter (irreps : List Arr2) (cg : Arr3) (mult : ℕ) (shift : Bool) (ns : List ℕ) :
    List ℕ → ℕ → (ℕ → ℕ) × (ℕ → ℕ → ℝ) → Except Err ((ℕ → ℕ) × (ℕ → ℕ → ℝ))
  | [], _, s => .ok s
  | a :: rest, startA, s =>
    match squareInner irreps cg mult shift startA a ns 0 s with
    | .error e => .error e
    | .ok s' => squareOuter irreps cg mult shift ns rest (startA + a * mult) s'

/-- `make_square_matrix`, matrix/matmat.py:230-280. (`max` of an empty list raises `ValueError`.) -/
def makeSquareMatrix (disk : Disk CGCompressed) (outcome : SaveOutcome) (irreps : List Arr2) (degrees : List ℕ)
    (mult : ℕ) (maxDegree : ℤ) (shiftById : Bool) : Except Err Arr2 :=
  match degrees.max? with
  | none => .error .valueError
  | some md =>
    if maxDegree < md then .error .valueError
    else if irreps.any (fun x => x.rows % 2 = 0) then .error .valueError
    else
      match clebschGordan disk outcome md md maxDegree true with
      | .error e => .error e
      | .ok cg =>
        let cg : Arr3 := { s1 := (md + 1) ^ 2, s2 := (md + 1) ^ 2, s3 := (maxDegree.toNat + 1) ^ 2, val := cg }
        let ns := computeSideLengths degrees
        let side := ns.sum * mult
        match squareOuter irreps cg mult shiftById ns ns 0 (fun _ => 0, fun _ _ => 0) with
        | .error e => .error e
        | .ok (_, result) => .ok { rows := side, cols := side, val := result }

/-- `mat[sa:ea, sb:eb].trace()` (for slices inside of the matrix) -/
def traceOf (mat : ℕ → ℕ → ℝ) (sa ea sb eb : ℕ) : ℝ := ∑ k ∈ range (min (ea - sa) (eb - sb)), mat (sa + k) (sb + k)

/-- `get_traces`, matrix/matmat.py:283-309. -/
def getTraces (mat : ℕ → ℕ → ℝ) (mult : ℕ) (shiftById : Bool) : List ℕ → ℕ → List ℝ
  | [], _ => []
  | l :: ls, start =>
    let a := 2 * l + 1
    ((List.range mult).product (List.range mult)).map (fun (i, j) =>
      if shiftById && i == j then
        traceOf mat (start + i * a) (start + (i + 1) * a) (start + j * a) (start + (j + 1) * a) - a
      else traceOf mat (start + i * a) (start + (i + 1) * a) (start + j * a) (start + (j + 1) * a)) ++
    getTraces mat mult shiftById ls (start + a * mult)

end

end E3x
