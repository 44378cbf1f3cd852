import Verif.Model.Message

/-!
# Networks: straight-line programs over the layers of the library

A model built with e3x is a Python function which calls layers on arrays over the nodes of a graph (for example
docs/source/examples). Such a function is modelled as a list of instructions, each of which appends one array to the
list of arrays computed so far. Basis functions, weights, cutoffs and index lists are inputs.
-/

namespace E3x

noncomputable section

/-- A binary operation on features applied node by node, as it is done by broadcasting in `add` (nn/features.py:257-338)
and in the tensor layers (nn/modules.py). Extents and exceptions of the operations used below do not depend on the entries
(`BinOp.header` in Props/Network.lean), so they are those for zero entries. A different number of nodes is an error;
broadcasting of a single node is not modelled. -/
def nodesBin (g : Feat → Feat → Except Err Feat) (x y : Nodes) : Except Err Nodes :=
  match g (x.feat 0) (y.feat 0) with
  | .error e => .error e
  | .ok z =>
    if x.rows.length = y.rows.length then
      .ok { pseudo := z.pseudo, L := z.L, F := z.F,
            rows := List.zipWith (fun v w => match g (x.feat v) (y.feat w) with | .ok z => z.val | .error _ => 0)
              x.rows y.rows }
    else .error .valueError

/-- One layer; numbers are positions in the list of arrays (or of basis functions). -/
inductive Instr where
  /-- `Dense`, nn/modules.py:115-240 -/
  | dense (x : ℕ) (features : ℕ) (useBias : Bool) (P : DenseParams)
  /-- an activation function, nn/activations.py -/
  | gated (x : ℕ) (g : ℝ → ℝ)
  /-- `change_max_degree_or_type`, nn/features.py:164-254 -/
  | change (x : ℕ) (maxDegree : Option ℕ) (includePseudo : Option Bool)
  /-- `add` of two arrays, nn/features.py:257-338 (more arrays: several instructions, `C09_add_assoc`) -/
  | add (x y : ℕ)
  /-- `Tensor` or `FusedTensor`, nn/modules.py:332-1062 -/
  | tensor (x y : ℕ) (cfg : TensorCfg) (T : TensorParams)
  /-- `TensorDense`, nn/modules.py:1065-1209 -/
  | tensorDense (x : ℕ) (features : Option ℕ) (useBias : Bool) (cfg : TensorCfg) (P : DenseParams) (T : TensorParams)
  /-- `MessagePass`, nn/modules.py:1354-1489 -/
  | messagePass (x : ℕ) (basis : ℕ) (cfg : ConvCfg) (P : ConvParams) (weights : Option (Lead Ent)) (ix : IndexArgs)
  /-- `MultiHeadAttention` (and `SelfAttention` if `q = kv`), nn/modules.py:1492-1968 -/
  | attention (q kv : ℕ) (basis : Option ℕ) (lo ninf : ℝ) (cfg : AttnCfg) (P : AttnParams) (cutoff : Option (Lead ℝ))
      (ix : IndexArgs)

/-- Reading an array. -/
def reg {α : Type} (rs : List α) (i : ℕ) : Except Err α :=
  match rs[i]? with
  | some x => .ok x
  | none => .error .indexError

/-- Reading an optional argument. -/
def regOpt {α : Type} (rs : List α) : Option ℕ → Except Err (Option α)
  | none => .ok none
  | some i => match reg rs i with
    | .ok x => .ok (some x)
    | .error e => .error e

/-- The result of one layer. -/
def Instr.eval (cg : ℕ → ℕ → ℕ → ℝ) (bs : List Edges) (rs : List Nodes) : Instr → Except Err Nodes
  | .dense x features useBias P => do return (← reg rs x).apply (E3x.dense features useBias P)
  | .gated x g => do return (← reg rs x).apply (gatedLinear g)
  | .change x L ps => do return (← reg rs x).apply fun z => changeMaxDegreeOrType z L ps
  | .add x y => do nodesBin (fun a b => E3x.add [a, b]) (← reg rs x) (← reg rs y)
  | .tensor x y cfg T => do nodesBin (anyTensor cfg T cg) (← reg rs x) (← reg rs y)
  | .tensorDense x features useBias cfg P T => do
    let z ← reg rs x
    nodesBin (fun a _ => E3x.tensorDense features useBias cfg P T cg a) z z
  | .messagePass x b cfg P w ix => do E3x.messagePass cfg P cg (← reg rs x) (← reg bs b) w ix
  | .attention q kv b lo ninf cfg P c ix => do
    let basis ← regOpt bs b
    E3x.attention lo ninf cfg P cg (← reg rs q) (← reg rs kv) basis c ix

/-- Running a program; the last array is the output. -/
def runNetwork (cg : ℕ → ℕ → ℕ → ℝ) (bs : List Edges) : List Instr → List Nodes → Except Err (List Nodes)
  | [], rs => .ok rs
  | i :: prog, rs => do
    let z ← i.eval cg bs rs
    runNetwork cg bs prog (rs ++ [z])

end

end E3x
