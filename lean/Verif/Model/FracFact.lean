import Verif.Model.Scale

/-! # Fractional factorial: `src/SALib/sample/ff.py`, `src/SALib/analyze/ff.py` -/

namespace SALib

variable {α : Type} [Field α] [LinearOrder α]

/-- `find_smallest(num_vars)`: `sample/ff.py` 15-31; `none` is Python's `None`. -/
def findSmallest (numVars : Nat) : Option Nat := (List.range 10).find? fun x => numVars ≤ 2 ^ x

/-- `2 ** find_smallest(num_vars)`: `sample/ff.py` 44, 71; `2 ** None` is a `TypeError`. -/
def ffSize (numVars : Nat) : Py Nat :=
  match findSmallest numVars with
  | some x => .ok (2 ^ x)
  | none => .error .typeError

/-- `extend_bounds(problem)`: `sample/ff.py` 34-56.  The dictionary is updated in place (and the list under
`"names"` is extended in place); the model returns the new dictionary. -/
def extendBounds (pb : Problem α) : Py (Problem α) := do
  let n ← ffSize pb.numVars
  let dummies := n - pb.numVars
  if 0 < dummies then
    return { pb with
      bounds := pb.bounds ++ (List.range dummies).map fun _ => [0, 1]
      names := pb.names ++ (List.range dummies).map fun v => "dummy_" ++ toString v
      numVars := n }
  else return pb

/-- `scipy.linalg.hadamard(2 ** k)` (outside /repo): Sylvester's doubling construction. -/
def hadamard : Nat → Mat α
  | 0 => [[1]]
  | k + 1 => (hadamard k).map (fun r => r ++ r) ++ (hadamard k).map (fun r => r ++ r.map fun v => -v)

/-- `generate_contrast(problem)`: `sample/ff.py` 59-76. -/
def generateContrast (numVars : Nat) : Py (Mat α) :=
  match findSmallest numVars with
  | some x => .ok (hadamard x ++ (hadamard x).map fun r => r.map fun v => -v)
  | none => .error .typeError

/-- `ff.sample(problem)`: `sample/ff.py` 79-126.  `scale_samples` sees as many columns as the contrast
has. -/
def ffSample (F : Ppf α) (pb : Problem α) : Py (Mat (Num α) × Problem α) := do
  let contrast ← generateContrast pb.numVars
  let unit := contrast.map fun row => row.map fun c => (c + 1) / 2
  let pb ← extendBounds pb
  let n ← ffSize pb.numVars
  scaleSamples F n unit pb

/-- `np.dot(Y, col)`. -/
def dotList (u v : List α) : α := (List.zipWith (· * ·) u v).sum

/-- Column `j` of a matrix as a list. -/
def matColumn (X : Mat α) (j : Nat) : List α := X.map fun row => row.getD j 0

/-- `interactions(problem, Y)`: `analyze/ff.py` 123-158; pairs in the order of the two loops. -/
def ffInteractions (pb : Problem α) (Y : List α) : Py (List ((String × String) × α)) := do
  let n ← ffSize pb.numVars
  let X ← generateContrast (α := α) pb.numVars
  ((List.range n).flatMap fun col => (List.range col).map fun col2 => (col, col2)).mapM fun p => do
    let x := List.zipWith (· * ·) (matColumn X p.1) (matColumn X p.2)
    let n2 ← pyGet pb.names p.2
    let n1 ← pyGet pb.names p.1
    if Y.length ≠ x.length then .error .valueError
    else return ((n2, n1), 1 / (2 * (pb.numVars : α)) * dotList Y x)

/-- The result of the analysis: names, main effects and, if asked for, interactions. -/
structure FfResult (α : Type) where
  names : List String
  ME : List α
  interactions : Option (List ((String × String) × α))

/-- `ff.analyze(problem, X, Y, second_order)`: `analyze/ff.py` 17-96.  The argument `X` is ignored by the code
(77).  `np.dot` of mismatched lengths is a `ValueError`. -/
def ffAnalyze (pb : Problem α) (Y : List α) (secondOrder : Bool) : Py (FfResult α) := do
  let pb ← extendBounds pb
  let n ← ffSize pb.numVars
  let X ← generateContrast (α := α) pb.numVars
  if Y.length ≠ X.length then .error .valueError
  else do
    let me := (List.range n).map fun j => 1 / (2 * (pb.numVars : α)) * dotList Y (matColumn X j)
    if secondOrder then do
      let ie ← ffInteractions pb Y
      return { names := pb.names, ME := me, interactions := some ie }
    else return { names := pb.names, ME := me, interactions := none }

end SALib
