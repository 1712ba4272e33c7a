import Verif.Model.EnhancedHdmr
import Verif.Model.Hdmr

/-! # `SALib.analyze.enhanced_hdmr`: the fit without the extended base -/

namespace SALib

variable {α : Type} [Field α] [LinearOrder α]

/-- `b_m.T @ b_m / subset + l2_penalty * identity`: `enhanced_hdmr.py` 1045-1051, 1137-1142; the backfitting loops leave
the penalty out (1074-1076, 1164-1166). -/
def scaledGram (N : α) (w : Nat) (lam : α) (B : Mat α) : Mat α :=
  (List.range w).map fun k => (List.range w).map fun l =>
    (B.map fun row => row.getD k 0 * row.getD l 0).sum / N + if k = l then lam else 0

/-- `b_m.T @ y / subset`: 1053, 1078, 1144, 1168. -/
def scaledRhs (N : α) (w : Nat) (B : Mat α) (y : List α) : List α :=
  (List.range w).map fun k => (List.zipWith (fun row v => row.getD k 0 * v) B y).sum / N

/-- `y - np.sum(cols, axis=1)`. -/
def subColumns (y : List α) (cols : List (List α)) : List α :=
  (List.range y.length).map fun r => y.getD r 0 - (cols.map fun c => c.getD r 0).sum

/-- The separate ridge regressions: 1042-1063, 1135-1155.  `solve` is `scipy.linalg.solve`, which raises `LinAlgError`, a
`ValueError`, on a singular matrix.  The coefficients, which the code writes into a column of `hdmr.x`, are kept as one
list per component function, with the component functions' columns. -/
def ehRidge (solve : Mat α → List α → Py (List α)) (N : α) (w : Nat) (lam : α) (Bs : List (Mat α)) (y : List α) :
    Py (List (List α) × List (List α)) := do
  let xs ← Bs.mapM fun B => solve (scaledGram N w lam B) (scaledRhs N w B y)
  return (xs, List.zipWith matVec Bs xs)

/-- One component function in a backfitting pass: 1070-1084, 1160-1175. -/
def ehUpdate (solve : Mat α → List α → Py (List α)) (N : α) (w : Nat) (Bs : List (Mat α)) (y : List α)
    (st : List (List α) × List (List α)) (i : Nat) : Py (List (List α) × List (List α)) := do
  let yr := subColumns y (((List.range Bs.length).erase i).map fun z => st.2.getD z [])
  let x ← solve (scaledGram N w 0 (Bs.getD i [])) (scaledRhs N w (Bs.getD i []) yr)
  return (st.1.set i x, st.2.set i (matVec (Bs.getD i []) x))

/-- One backfitting pass: 1069-1084, 1159-1175. -/
def ehSweep (solve : Mat α → List α → Py (List α)) (N : α) (w : Nat) (Bs : List (Mat α)) (y : List α)
    (st : List (List α) × List (List α)) : Py (List (List α) × List (List α)) :=
  (List.range Bs.length).foldlM (ehUpdate solve N w Bs y) st

/-- `np.absolute(var_old - np.square(x)).max()`: 1086, 1177-1179. -/
def maxSquareChange (old new : List (List α)) : α :=
  (List.zipWith (fun a b => |a * a - b * b|) old.flatten new.flatten).foldl max 0

/-- The `while True` loop: 1068-1092, 1158-1185.  The count of passes still allowed starts at `max_iter + 1`, because the
test `iter > max_iter` comes after the increment. -/
def ehBackfit (solve : Mat α → List α → Py (List α)) (N : α) (w : Nat) (Bs : List (Mat α)) (y : List α) :
    Nat → List (List α) × List (List α) → Py (List (List α) × List (List α))
  | 0, st => .ok st
  | it + 1, st => do
    let st' ← ehSweep solve N w Bs y st
    if maxSquareChange st.1 st'.1 < 1 / 10000 ∨ it = 0 then return st' else ehBackfit solve N w Bs y it st'

/-- `_first_order`: 1004-1092, and `_second_order`: 1095-1186, which differs in the blocks and the output given to it; the
coefficients and the residual returned. -/
def ehOrder (solve : Mat α → List α → Py (List α)) (N : α) (w : Nat) (lam : α) (maxIter : Nat) (Bs : List (Mat α))
    (y : List α) : Py (List (List α) × List α) := do
  let st ← ehRidge solve N w lam Bs y
  let st' ← ehBackfit solve N w Bs y (maxIter + 1) st
  return (st'.1, subColumns y st'.2)

/-- The orders one and two of `_fanova` without the extended base: 863-876.  `y` is the centred output. -/
def ehTwoOrders (solve : Mat α → List α → Py (List α)) (N : α) (w1 w2 : Nat) (lam : α) (maxIter : Nat)
    (B1 B2 : List (Mat α)) (y : List α) : Py ((List (List α) × List (List α)) × List α) := do
  let s1 ← ehOrder solve N w1 lam maxIter B1 y
  let s2 ← ehOrder solve N w2 lam maxIter B2 s1.2
  return ((s1.1, s2.1), s2.2)

end SALib
