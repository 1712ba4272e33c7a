import Verif.Model.Pawn

/-! # Discrepancy indices: `src/SALib/analyze/discrepancy.py`

`qmc.scale` and `qmc.discrepancy` are SciPy's (outside /repo), transcribed.  Bounds of another length than the rows of
`X` are an error here; SciPy would repeat a single pair. -/

namespace SALib

variable {α : Type} [Field α] [LinearOrder α]

/-- `qmc.scale(sample=X, l_bounds=lo, u_bounds=hi, reverse=True)`. -/
def qmcUnscale (X : Mat α) (lo hi : List α) : Py (Mat α) :=
  if ∃ row ∈ X, row.length ≠ lo.length then .error .valueError
  else if ∃ p ∈ lo.zip hi, p.2 ≤ p.1 then .error .valueError
  else if ∃ row ∈ X, ∃ p ∈ row.zip (lo.zip hi), p.1 < p.2.1 ∨ p.2.2 < p.1 then .error .valueError
  else .ok (X.map fun row => List.zipWith (fun x p => (x - p.1) / (p.2 - p.1)) row (lo.zip hi))

/-- `qmc.discrepancy(points, method="WD")` for two columns. -/
def discWD (pts : List (α × α)) : α :=
  -(4 / 3) ^ 2 + 1 / (pts.length : α) ^ 2 *
    (pts.map fun p => (pts.map fun q =>
      (3 / 2 - |p.1 - q.1| + |p.1 - q.1| ^ 2) * (3 / 2 - |p.2 - q.2| + |p.2 - q.2| ^ 2)).sum).sum

/-- `qmc.discrepancy(points, method="CD")` for two columns. -/
def discCD (pts : List (α × α)) : α :=
  let one := fun x : α => 1 + 1 / 2 * |x - 1 / 2| - 1 / 2 * |x - 1 / 2| ^ 2
  let two := fun x y : α => 1 + 1 / 2 * |x - 1 / 2| + 1 / 2 * |y - 1 / 2| - 1 / 2 * |x - y|
  (13 / 12) ^ 2 - 2 / (pts.length : α) * (pts.map fun p => one p.1 * one p.2).sum +
    1 / (pts.length : α) ^ 2 * (pts.map fun p => (pts.map fun q => two p.1 q.1 * two p.2 q.2).sum).sum

/-- `qmc.discrepancy(points, method="MD")` for two columns. -/
def discMD (pts : List (α × α)) : α :=
  let one := fun x : α => 5 / 3 - 1 / 4 * |x - 1 / 2| - 1 / 4 * |x - 1 / 2| ^ 2
  let two := fun x y : α =>
    15 / 8 - 1 / 4 * |x - 1 / 2| - 1 / 4 * |y - 1 / 2| - 3 / 4 * |x - y| + 1 / 2 * |x - y| ^ 2
  (19 / 12) ^ 2 - 2 / (pts.length : α) * (pts.map fun p => one p.1 * one p.2).sum +
    1 / (pts.length : α) ^ 2 * (pts.map fun p => (pts.map fun q => two p.1 q.1 * two p.2 q.2).sum).sum

/-- `qmc.discrepancy(points, method="L2-star")` for two columns. -/
def discL2 (sqrt : α → α) (pts : List (α × α)) : α :=
  sqrt ((1 / 3) ^ 2 - 1 / 2 / (pts.length : α) * (pts.map fun p => (1 - p.1 ^ 2) * (1 - p.2 ^ 2)).sum +
    1 / (pts.length : α) ^ 2 *
      (pts.map fun p => (pts.map fun q => (1 - max p.1 q.1) * (1 - max p.2 q.2)).sum).sum)

/-- The `method` argument; other names are a `ValueError`. -/
def discMethod (sqrt : α → α) (method : String) : Py (List (α × α) → α) :=
  if method = "CD" then .ok discCD
  else if method = "WD" then .ok discWD
  else if method = "MD" then .ok discMD
  else if method = "L2-star" then .ok (discL2 sqrt)
  else .error .valueError

/-- `[X[:, i, None], Y]`: line 96. -/
def discPoints (X : Mat α) (Y : List α) (i : Nat) : Py (List (α × α)) := do
  let col ← inputColumn X i
  if col.length ≠ Y.length then .error .valueError else return col.zip Y

/-- `Y` scaled to its own range: 93; `np.min` of nothing is a `ValueError`. -/
def discScaleY : List α → Py (List α)
  | [] => .error .valueError
  | y :: ys => do
    let Y ← qmcUnscale ((y :: ys).map fun v => [v]) [ys.foldl min y] [ys.foldl max y]
    return Y.flatten

/-- The value of every parameter: 90-100; `none` is nan. -/
def discParams (disc : List (α × α) → α) (pb : Problem α) (X : Mat α) (Y : List α) : Py (List (Num α)) := do
  let lo ← pb.bounds.mapM fun b => pyGet b 0
  let hi ← pb.bounds.mapM fun b => pyGet b 1
  let X ← qmcUnscale X lo hi
  let Y ← discScaleY Y
  let s ← (List.range pb.numVars).mapM fun i => do
    let pts ← discPoints X Y i
    return disc pts
  return s.map fun v => npDiv v s.sum

/-- `analyze`: `discrepancy.py` 86-122; the values and the names they are reported with. -/
def discAnalyze (disc : List (α × α) → α) (pb : Problem α) (X : Mat α) (Y : List α) :
    Py (List (Num α) × List String) := do
  let s ← discParams disc pb X Y
  match checkGroups pb with
  | none => return (s, pb.names)
  | some grps =>
    if grps.length ≠ s.length then .error .indexError
    else return ((pdUnique grps).map fun g => npMeanN (((s.zip grps).filter fun p => p.2 = g).map (·.1)), pb.names)

end SALib
