import Verif.Model.FloatCount
import Verif.Model.MorrisAnalyze

/-! # Morris sampling and elementary effects with rounding

As `Model/Morris.lean` and `Model/MorrisAnalyze.lean`, every operation on numbers that need rounding
followed by one.  The matrix products of `_compute_b_star` have entries 0, 1, 2 and -1 and are left
exact. -/

namespace SALib

/-- `_compute_delta(num_levels)`: `util/__init__.py` 381-393. -/
def computeDeltaFl (F : Fmt) (p : Nat) : Py ℚ :=
  if p = 1 then .error .zeroDivisionError
  else .ok (fdiv F p (fmul F 2 ((p : ℚ) - 1)))

/-- `_generate_x_star`: `morris.py` 297-325 (one row). -/
def generateXStarFl (F : Fmt) (draws : TrajDraws ℚ) (numParams p : Nat) : Py (List ℚ) := do
  let delta ← computeDeltaFl F p
  let n := (intDivFl F p 2).toNat
  let grid := (List.range n).map (linspaceEntryFl F 0 (fsub F 1 delta) n)
  if grid.length = 0 then .error .valueError
  return (List.range numParams).map fun j => grid.getD (draws.pick j) 0

/-- `_compute_b_star`: `morris.py` 243-276, on a problem with `D` parameters and `g` groups. -/
def computeBStarFl (F : Fmt) (D g : Nat) (J : Mat ℚ) (xStar : List ℚ) (delta : ℚ) (B G P Dm : Mat ℚ) :
    Mat ℚ :=
  let elementA := (List.range D).map fun j => fmul F (cell J 0 j) (xStar.getD j 0)
  let GP := matMul D g g G P
  let elementB : Mat ℚ := table g D fun i j => cell GP j i
  let elementC := matMul (g + 1) g D (table (g + 1) g fun i j => 2 * cell B i j) elementB
  let elementD := matMul (g + 1) D D (table (g + 1) D fun i j => cell elementC i j - cell J i j) Dm
  table (g + 1) D fun i j =>
    fadd F (elementA.getD j 0) (fmul F (fdiv F delta 2) (fadd F (cell elementD i j) (cell J i j)))

/-- `_generate_trajectory`: `morris.py` 194-240; `g` is `group_membership.shape[1]`. -/
def generateTrajectoryFl (F : Fmt) (draws : TrajDraws ℚ) (G : Mat Nat) (g p : Nat) : Py (Mat ℚ) := do
  let delta ← computeDeltaFl F p
  let D := G.length
  let B : Mat ℚ := table (g + 1) g fun i j => if j < i then 1 else 0
  let P := generatePStar draws g
  let J : Mat ℚ := table (g + 1) D fun _ _ => 1
  let Dm : Mat ℚ := table D D fun i j => if i = j then (if draws.up i then 1 else -1) else 0
  let xStar ← generateXStarFl F draws D p
  return computeBStarFl F D g J xStar delta B (G.map (·.map fun (v : Nat) => (v : ℚ))) P Dm

/-- `_sample_morris`: `morris.py` 153-191. -/
def sampleMorrisUnitFl (F : Fmt) (draws : Nat → TrajDraws ℚ) (groups : List String) (N p : Nat) :
    Py (Mat ℚ) := do
  let (G, names) ← computeGroupsMatrix groups
  let ts ← (List.range N).mapM fun i => generateTrajectoryFl F (draws i) G names.length p
  return ts.flatten

/-- `morris.sample` without optimisation and with uniform inputs, after `_define_problem_with_groups` has
put a label for every parameter: `morris.py` 128-150. -/
def morrisSampleFl (F : Fmt) (draws : Nat → TrajDraws ℚ) (groups : List String)
    (bounds : List (List ℚ)) (N p : Nat) : Py (Mat ℚ) := do
  let unit ← sampleMorrisUnitFl F draws groups N p
  scaleUniformFl F groups.length unit bounds

/-- The check of `_compute_optimised_trajectories` that refuses a sample: `morris.py` 358-359. -/
def refusesUnit (M : Mat ℚ) : Bool := M.any fun row => row.any fun x => decide (x < 0) || decide (1 < x)

/-- Column `j` of `_calculate_delta_input_variables` for one trajectory: `analyze/morris.py` 456. -/
def deltaColumnFl (F : Fmt) (T : Mat ℚ) (j : Nat) : List ℚ :=
  List.zipWith (fun a b => fsub F (b.getD j 0) (a.getD j 0)) T T.tail

/-- `_reorganize_output_matrix` for one trajectory and one parameter: `analyze/morris.py` 315-325; `einsum`
multiplies by 0 or 1 and adds up. -/
def reorganizeFl (F : Fmt) (y : List ℚ) (inc dec : List Bool) (increase : Bool) : ℚ :=
  let inc' := if increase then false :: inc else inc ++ [false]
  let dec' := if increase then dec ++ [false] else false :: dec
  (List.zipWith (fun v m => fmul F v (if m then 1 else 0)) y (List.zipWith (· || ·) inc' dec')).foldl
    (fadd F) 0

/-- `difference` for one trajectory and one parameter: `analyze/morris.py` 381-392. -/
def effectDifferenceFl (F : Fmt) (T : Mat ℚ) (y : List ℚ) (j : Nat) : ℚ :=
  let d := deltaColumnFl F T j
  let inc := d.map fun x => decide (0 < x)
  let dec := d.map fun x => decide (x < 0)
  fsub F (reorganizeFl F y inc dec true) (reorganizeFl F y inc dec false)

/-- `_compute_elementary_effects` without scaling: `analyze/morris.py` 330-417; one row per parameter, one
entry per trajectory. -/
def elementaryEffectsFl (F : Fmt) (X : Mat ℚ) (D : Nat) (Y : List ℚ) (size : Nat) (delta : ℚ) :
    Py (Mat (Num ℚ)) := do
  if size = 0 then .error .zeroDivisionError
  let n := (intDivFl F X.length size).toNat
  let ys ← reshapeBlocks Y n size
  let xs ← reshapeBlocks X n size
  return (List.range D).map fun j => (xs.zip ys).map fun (T, y) =>
    if delta = 0 then none else some (fdiv F (effectDifferenceFl F T y j) delta)

end SALib
