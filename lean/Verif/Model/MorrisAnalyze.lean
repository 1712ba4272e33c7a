import Verif.Model.Morris
import Verif.Model.Stats

/-! # Morris analysis (`src/SALib/analyze/morris.py`) -/

namespace SALib

variable {α : Type} [Field α] [LinearOrder α]

/-- `np.average` of an array that may contain nan. -/
def npMeanN (l : List (Num α)) : Num α := do
  let l ← l.mapM id
  npMean l

/-- `arr.reshape(n, m, ...)`: consecutive blocks of `m` entries; `ValueError` when the size is wrong. -/
def reshapeBlocks {β : Type} (l : List β) (n m : Nat) : Py (List (List β)) :=
  if l.length = n * m then .ok ((List.range n).map fun i => (l.drop (i * m)).take m)
  else .error .valueError

/-- Column `j` of `_calculate_delta_input_variables` for one trajectory: `morris.py` 456. -/
def deltaColumn (T : Mat α) (j : Nat) : List α :=
  List.zipWith (fun a b => b.getD j 0 - a.getD j 0) T T.tail

/-- `_reorganize_output_matrix` for one trajectory and one parameter: `morris.py` 315-325.  Adding two
boolean arrays is a logical or. -/
def reorganize (y : List α) (inc dec : List Bool) (increase : Bool) : α :=
  let inc' := if increase then false :: inc else inc ++ [false]
  let dec' := if increase then dec ++ [false] else false :: dec
  (List.zipWith (fun v m => if m then v else 0) y (List.zipWith (· || ·) inc' dec')).sum

/-- `difference` for one trajectory and one parameter: `morris.py` 381-392. -/
def effectDifference (T : Mat α) (y : List α) (j : Nat) : α :=
  let d := deltaColumn T j
  let inc := d.map fun x => decide (0 < x)
  let dec := d.map fun x => decide (x < 0)
  reorganize y inc dec true - reorganize y inc dec false

/-- `np.std(l)` (`ddof=0`). -/
def npStd0 (sqrt : α → α) (l : List α) : Num α := (npVar l).map sqrt

/-- Maximum of a non-empty list. -/
def listMax (l : List α) : α := l.foldl max (l.headD 0)

/-- Minimum of a non-empty list. -/
def listMin (l : List α) : α := l.foldl min (l.headD 0)

/-- Scaled elementary effect of one trajectory and one parameter: `morris.py` 396-412. -/
def scaledEffect (sqrt : α → α) (T : Mat α) (y : List α) (j : Nat) : Num α := do
  let col := T.map (·.getD j 0)
  let see ← npDiv (effectDifference T y j) (listMax col - listMin col)
  let sx ← npStd0 sqrt col
  let sy ← npStd0 sqrt y
  let adj ← if sy = 0 then some 0 else npDiv sx sy
  return see * adj

/-- `_compute_elementary_effects`: `morris.py` 330-417; one row per parameter (`D` columns of X), one
entry per trajectory. -/
def elementaryEffects (sqrt : α → α) (X : Mat α) (D : Nat) (Y : List α) (size : Nat) (delta : α)
    (scaled : Bool) : Py (Mat (Num α)) := do
  if size = 0 then .error .zeroDivisionError
  let n := X.length / size
  let ys ← reshapeBlocks Y n size
  let xs ← reshapeBlocks X n size
  return (List.range D).map fun j => (xs.zip ys).map fun (T, y) =>
    if scaled then scaledEffect sqrt T y j else npDiv (effectDifference T y j) delta

/-- `_compute_grouped_metric`: `morris.py` 256-281; `g` is the number of columns of `groups`. -/
def groupedMetric (metric : List (Num α)) (G : Mat Nat) (g : Nat) : Py (List (Num α)) :=
  if metric.length ≠ G.length then .error .valueError
  else .ok ((List.range g).map fun c =>
    npMeanN (((metric.zip G).filter fun mr => mr.2.getD c 0 != 0).map Prod.fst))

/-- `_compute_grouped_sigma`: `morris.py` 226-253. -/
def groupedSigma (metric : List (Num α)) (G : Mat Nat) (g : Nat) : Py (List (Num α)) := do
  let agg ← groupedMetric metric G g
  return (List.range g).map fun c =>
    if (G.map (·.getD c 0)).sum = 1 then agg.getD c none else none

/-- Loop body of `_compute_mu_star_confidence` for one parameter: `morris.py` 566-575.  `idx` is the index
array (one list per resample), `z` is `norm.ppf(0.5 + conf_level / 2)`. -/
def confOf (sqrt : α → α) (z : α) (idx : List (List Nat)) (ee : List (Num α)) : Num α :=
  (npStd1N sqrt (idx.map fun r => npMeanN (r.map fun i => (ee.getD i none).map abs))).map (z * ·)

/-- The confidence of parameter `j`; `IndexError` when there are fewer rows of effects. -/
def confAt (sqrt : α → α) (z : α) (resample : Nat → List (List Nat)) (EE : Mat (Num α)) (j : Nat) :
    Py (Num α) :=
  match EE[j]? with
  | none => .error .indexError
  | some ee => .ok (confOf sqrt z (resample j) ee)

/-- `_compute_mu_star_confidence`: `morris.py` 531-579.  `resample j` is the index array drawn for parameter `j`. -/
def muStarConf (sqrt : α → α) (z conf : α) (resample : Nat → List (List Nat)) (EE : Mat (Num α))
    (numVars : Nat) : Py (List (Num α)) := do
  if ¬ (0 < conf ∧ conf < 1) then .error .valueError
  (List.range numVars).mapM (confAt sqrt z resample EE)

/-- The result of the analysis. -/
structure MorrisResult (α : Type) where
  names : List String
  mu : List (Num α)
  muStar : List (Num α)
  sigma : List (Num α)
  muStarConf : List (Num α)
  deriving DecidableEq

/-- `_compute_statistical_outputs`: `morris.py` 172-223. -/
def statisticalOutputs (sqrt : α → α) (z conf : α) (resample : Nat → List (List Nat)) (EE : Mat (Num α))
    (numVars : Nat) (G : Mat Nat) (names : List String) : Py (MorrisResult α) := do
  let mu := EE.map npMeanN
  let muStar := EE.map fun ee => npMeanN (ee.map (Option.map abs))
  let sigma := EE.map (npStd1N sqrt)
  let mc ← muStarConf sqrt z conf resample EE numVars
  let g := names.length
  return { names := names
           mu := ← groupedMetric mu G g
           muStar := ← groupedMetric muStar G g
           sigma := ← groupedSigma sigma G g
           muStarConf := ← groupedMetric mc G g }

/-- `morris.analyze`: `morris.py` 16-169 (dtype checks and printing left out).  `D` is the number of
columns of `X`; `int(a / b)` is exact. -/
def morrisAnalyze (sqrt : α → α) (z conf : α) (resample : Nat → List (List Nat)) (pb : Problem α)
    (X : Mat α) (D : Nat) (Y : List α) (scaled : Bool) (p : Nat) : Py (MorrisResult α) := do
  let pb ← defineProblemWithGroups pb
  let delta ← computeDelta p
  let (G, names) ← computeGroupsMatrix (pb.groups.getD [])
  let n := Y.length / (names.length + 1)
  if n = 0 then .error .zeroDivisionError
  let EE ← elementaryEffects sqrt X D Y (Y.length / n) delta scaled
  statisticalOutputs sqrt z conf resample EE pb.numVars G names

end SALib
