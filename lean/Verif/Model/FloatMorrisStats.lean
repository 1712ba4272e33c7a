import Verif.Model.FloatMorris
import Verif.Model.FloatSum

/-! # Statistics of Morris effects with rounding (`src/SALib/analyze/morris.py`)

As `Model/MorrisAnalyze.lean`, every operation followed by a rounding. -/

namespace SALib

/-- Orders of the sums in `morris.analyze`: columns of a trajectory, outputs of a trajectory, effects of a parameter
(`np.abs` keeps the layout, so `mu`, `mu_star` and `sigma` share it), members of a group, effects of a resample, means of
the resamples. -/
structure MorrisOrders where
  inputs : Nat → SumTree
  outputs : Nat → SumTree
  effects : Nat → SumTree
  groups : Nat → SumTree
  resample : Nat → SumTree
  resamples : Nat → SumTree

/-- `np.divide(sigma_x, sigma_y, out=zeros, where=sigma_y != 0)`: `analyze/morris.py` 402-411, one entry. -/
def adjustmentFl (F : Fmt) (sx sy : ℚ) : ℚ := if sy = 0 then 0 else fdiv F sx sy

/-- Scaled elementary effect of one trajectory and one parameter: `analyze/morris.py` 394-412, `_calculate_step_size_x`
582-587. -/
def scaledEffectFl (F : Fmt) (o : MorrisOrders) (sqrt : ℚ → ℚ) (T : Mat ℚ) (y : List ℚ) (j : Nat) : Num ℚ := do
  let col := T.map (·.getD j 0)
  let dx := fsub F (listMax col) (listMin col)
  let sx ← std0Fl F o.inputs sqrt col
  let sy ← std0Fl F o.outputs sqrt y
  if dx = 0 then none else some (fmul F (fdiv F (effectDifferenceFl F T y j) dx) (adjustmentFl F sx sy))

/-- `_compute_elementary_effects` with scaling: `analyze/morris.py` 330-417. -/
def scaledEffectsFl (F : Fmt) (o : MorrisOrders) (sqrt : ℚ → ℚ) (X : Mat ℚ) (D : Nat) (Y : List ℚ) (size : Nat) :
    Py (Mat (Num ℚ)) := do
  if size = 0 then .error .zeroDivisionError
  let n := (intDivFl F X.length size).toNat
  let ys ← reshapeBlocks Y n size
  let xs ← reshapeBlocks X n size
  return (List.range D).map fun j => (xs.zip ys).map fun (T, y) => scaledEffectFl F o sqrt T y j

/-- One entry of `np.ma.mean(masked, axis=1)`: `analyze/morris.py` 276-279.  The masked entries count as 0 in the sum;
the divisor is the number of the others. -/
def groupMeanFl (F : Fmt) (order : Nat → SumTree) (metric : List (Num ℚ)) (member : List Bool) : Num ℚ := do
  let l ← (List.zipWith (fun m b => if b then m else some 0) metric member).mapM id
  if member.count true = 0 then none
  else some (fdiv F (sumFl F l (order l.length)) (member.count true))

/-- `_compute_grouped_metric`: `analyze/morris.py` 256-281. -/
def groupedMetricFl (F : Fmt) (order : Nat → SumTree) (metric : List (Num ℚ)) (G : Mat Nat) (g : Nat) :
    Py (List (Num ℚ)) :=
  if metric.length ≠ G.length then .error .valueError
  else .ok ((List.range g).map fun c => groupMeanFl F order metric (G.map fun row => row.getD c 0 != 0))

/-- `_compute_grouped_sigma`: `analyze/morris.py` 226-253. -/
def groupedSigmaFl (F : Fmt) (order : Nat → SumTree) (metric : List (Num ℚ)) (G : Mat Nat) (g : Nat) :
    Py (List (Num ℚ)) := do
  let agg ← groupedMetricFl F order metric G g
  return (List.range g).map fun c =>
    if (G.map (·.getD c 0)).sum = 1 then agg.getD c none else none

/-- Absolute values, nan staying nan. -/
def absN (l : List (Num ℚ)) : List (Num ℚ) := l.map (Option.map abs)

/-- Loop body of `_compute_mu_star_confidence`: `analyze/morris.py` 565-575. -/
def confFl (F : Fmt) (o : MorrisOrders) (sqrt : ℚ → ℚ) (z : ℚ) (idx : List (List Nat)) (ee : List (Num ℚ)) : Num ℚ :=
  (std1FlN F o.resamples sqrt
    (idx.map fun r => meanFlN F o.resample (absN (r.map fun i => ee.getD i none)))).map (fmul F z)

/-- The confidence of parameter `j`; `IndexError` when there are fewer rows of effects. -/
def confAtFl (F : Fmt) (o : MorrisOrders) (sqrt : ℚ → ℚ) (z : ℚ) (resample : Nat → List (List Nat))
    (EE : Mat (Num ℚ)) (j : Nat) : Py (Num ℚ) :=
  match EE[j]? with
  | none => .error .indexError
  | some ee => .ok (confFl F o sqrt z (resample j) ee)

/-- `_compute_mu_star_confidence`: `analyze/morris.py` 531-579. -/
def muStarConfFl (F : Fmt) (o : MorrisOrders) (sqrt : ℚ → ℚ) (z conf : ℚ) (resample : Nat → List (List Nat))
    (EE : Mat (Num ℚ)) (numVars : Nat) : Py (List (Num ℚ)) := do
  if ¬ (0 < conf ∧ conf < 1) then .error .valueError
  (List.range numVars).mapM (confAtFl F o sqrt z resample EE)

/-- `_compute_statistical_outputs`: `analyze/morris.py` 172-223. -/
def statisticalOutputsFl (F : Fmt) (o : MorrisOrders) (sqrt : ℚ → ℚ) (z conf : ℚ) (resample : Nat → List (List Nat))
    (EE : Mat (Num ℚ)) (numVars : Nat) (G : Mat Nat) (names : List String) : Py (MorrisResult ℚ) := do
  let mu := EE.map (meanFlN F o.effects)
  let muStar := EE.map fun ee => meanFlN F o.effects (absN ee)
  let sigma := EE.map (std1FlN F o.effects sqrt)
  let mc ← muStarConfFl F o sqrt z conf resample EE numVars
  let g := names.length
  return { names := names
           mu := ← groupedMetricFl F o.groups mu G g
           muStar := ← groupedMetricFl F o.groups muStar G g
           sigma := ← groupedSigmaFl F o.groups sigma G g
           muStarConf := ← groupedMetricFl F o.groups mc G g }

/-- `_compute_elementary_effects(..., scaling=scaled)`: `analyze/morris.py` 394-415. -/
def effectsFl (F : Fmt) (o : MorrisOrders) (sqrt : ℚ → ℚ) (X : Mat ℚ) (D : Nat) (Y : List ℚ) (size : Nat) (delta : ℚ)
    (scaled : Bool) : Py (Mat (Num ℚ)) :=
  if scaled then scaledEffectsFl F o sqrt X D Y size else elementaryEffectsFl F X D Y size delta

/-- `morris.analyze`: `analyze/morris.py` 16-169, as `morrisAnalyze`. -/
def morrisAnalyzeFl (F : Fmt) (o : MorrisOrders) (sqrt : ℚ → ℚ) (z conf : ℚ) (resample : Nat → List (List Nat))
    (pb : Problem ℚ) (X : Mat ℚ) (D : Nat) (Y : List ℚ) (scaled : Bool) (p : Nat) : Py (MorrisResult ℚ) := do
  let pb ← defineProblemWithGroups pb
  let delta ← computeDeltaFl F p
  let (G, names) ← computeGroupsMatrix (pb.groups.getD [])
  let n := (intDivFl F Y.length (names.length + 1)).toNat
  if n = 0 then .error .zeroDivisionError
  let EE ← effectsFl F o sqrt X D Y (intDivFl F Y.length n).toNat delta scaled
  statisticalOutputsFl F o sqrt z conf resample EE pb.numVars G names

end SALib
