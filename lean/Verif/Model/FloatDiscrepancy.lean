import Verif.Model.Discrepancy
import Verif.Model.FloatSum
import Verif.Model.FloatSobol
import Verif.Model.FracFact

/-! # Discrepancy indices with their rounding: `src/SALib/analyze/discrepancy.py`

Comparisons are exact in floating point; the differences and quotients of `qmc.scale` are rounded.  `qmc.discrepancy`
(SciPy's, outside /repo) first refuses points outside the unit square; what it then computes is a parameter. -/

namespace SALib

/-- `qmc.scale(sample=X, l_bounds=lo, u_bounds=hi, reverse=True)`. -/
def qmcUnscaleFl (F : Fmt) (X : Mat ℚ) (lo hi : List ℚ) : Py (Mat ℚ) :=
  if ∃ row ∈ X, row.length ≠ lo.length then .error .valueError
  else if ∃ p ∈ lo.zip hi, p.2 ≤ p.1 then .error .valueError
  else if ∃ row ∈ X, ∃ p ∈ row.zip (lo.zip hi), p.1 < p.2.1 ∨ p.2.2 < p.1 then .error .valueError
  else .ok (X.map fun row => List.zipWith (unscaleEntryFl F) row (lo.zip hi))

/-- `Y` scaled to its own range: 93. -/
def discScaleYFl (F : Fmt) : List ℚ → Py (List ℚ)
  | [] => .error .valueError
  | y :: ys => do
    let Y ← qmcUnscaleFl F ((y :: ys).map fun v => [v]) [ys.foldl min y] [ys.foldl max y]
    return Y.flatten

/-- `qmc.discrepancy(points, method)` with its check. -/
def qmcDiscrepancy (disc : List (ℚ × ℚ) → ℚ) (pts : List (ℚ × ℚ)) : Py ℚ :=
  if ∃ p ∈ pts, p.1 < 0 ∨ 1 < p.1 ∨ p.2 < 0 ∨ 1 < p.2 then .error .valueError else .ok (disc pts)

/-- The value of every parameter: 90-100. -/
def discParamsFl (F : Fmt) (order : Nat → SumTree) (disc : List (ℚ × ℚ) → ℚ) (pb : Problem ℚ) (X : Mat ℚ) (Y : List ℚ) :
    Py (List (Num ℚ)) := do
  let lo ← pb.bounds.mapM fun b => pyGet b 0
  let hi ← pb.bounds.mapM fun b => pyGet b 1
  let X ← qmcUnscaleFl F X lo hi
  let Y ← discScaleYFl F Y
  let s ← (List.range pb.numVars).mapM fun i => do
    let pts ← discPoints X Y i
    qmcDiscrepancy disc pts
  return s.map fun v => ratioFl F v (sumFl F s (order s.length))

/-- `analyze`: `discrepancy.py` 86-122. -/
def discAnalyzeFl (F : Fmt) (order : Nat → SumTree) (disc : List (ℚ × ℚ) → ℚ) (pb : Problem ℚ) (X : Mat ℚ) (Y : List ℚ) :
    Py (List (Num ℚ) × List String) := do
  let s ← discParamsFl F order disc pb X Y
  match checkGroups pb with
  | none => return (s, pb.names)
  | some grps =>
    if grps.length ≠ s.length then .error .indexError
    else return ((pdUnique grps).map fun g => meanFlN F order (((s.zip grps).filter fun p => p.2 = g).map (·.1)), pb.names)

/-- `ff.sample(problem)` of a problem without distributions: `sample/ff.py` 79-126; `(1 + 1) / 2` and `(-1 + 1) / 2`
need no rounding. -/
def ffSampleFl (F : Fmt) (pb : Problem ℚ) : Py (Mat ℚ × Problem ℚ) := do
  let contrast ← generateContrast (α := ℚ) pb.numVars
  let unit := contrast.map fun row => row.map fun c => (c + 1) / 2
  let pb ← extendBounds pb
  let n ← ffSize pb.numVars
  let X ← scaleUniformFl F n unit pb.bounds
  return (X, { pb with sampleScaled := true })

end SALib
