import Verif.Model.FracFact
import Verif.Model.FloatSum

/-! # Effects of the fractional factorial design with their rounding -/

namespace SALib

/-- `np.dot(u, v)` with its rounding, added in the order `t`.  (A fused multiplication and addition makes no
difference here: every product by 1 or -1 is exact.) -/
def dotFl (F : Fmt) (t : SumTree) (u v : List ℚ) : ℚ := sumFl F (List.zipWith (fmul F) u v) t

/-- `(1.0 / (2 * num_vars)) * np.dot(Y, x)`: `analyze/ff.py` 79 and 156.  `2 * num_vars` is an integer of at
most 1024, which needs no rounding. -/
def ffEffectFl (F : Fmt) (t : SumTree) (numVars : Nat) (Y x : List ℚ) : ℚ :=
  fmul F (fdiv F 1 (2 * (numVars : ℚ))) (dotFl F t Y x)

/-- `interactions(problem, Y)` with its rounding: `analyze/ff.py` 123-158.  The contrast holds integers, so the
product of two of its columns is exact. -/
def ffInteractionsFl (F : Fmt) (order : Nat → SumTree) (pb : Problem ℚ) (Y : List ℚ) :
    Py (List ((String × String) × ℚ)) := do
  let n ← ffSize pb.numVars
  let X ← generateContrast (α := ℚ) pb.numVars
  ((List.range n).flatMap fun col => (List.range col).map fun col2 => (col, col2)).mapM fun p => do
    let x := List.zipWith (· * ·) (matColumn X p.1) (matColumn X p.2)
    let n2 ← pyGet pb.names p.2
    let n1 ← pyGet pb.names p.1
    if Y.length ≠ x.length then .error .valueError
    else return ((n2, n1), ffEffectFl F (order Y.length) pb.numVars Y x)

/-- `ff.analyze(problem, X, Y, second_order)` with its rounding: `analyze/ff.py` 17-96.  Outputs are floats (for
outputs that are integers NumPy adds integers, which is exact).  The order in which the product of a
vector and a matrix adds may differ from column to column. -/
def ffAnalyzeFl (F : Fmt) (orderM : Nat → Nat → SumTree) (order : Nat → SumTree) (pb : Problem ℚ) (Y : List ℚ)
    (secondOrder : Bool) : Py (FfResult ℚ) := do
  let pb ← extendBounds pb
  let n ← ffSize pb.numVars
  let X ← generateContrast (α := ℚ) pb.numVars
  if Y.length ≠ X.length then .error .valueError
  else do
    let me := (List.range n).map fun j => ffEffectFl F (orderM j Y.length) pb.numVars Y (matColumn X j)
    if secondOrder then do
      let ie ← ffInteractionsFl F order pb Y
      return { names := pb.names, ME := me, interactions := some ie }
    else return { names := pb.names, ME := me, interactions := none }

end SALib
