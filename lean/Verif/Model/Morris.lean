import Verif.Model.Groups

/-! # Morris sampling (`src/SALib/sample/morris/morris.py`), without trajectory optimisation -/

namespace SALib

variable {α : Type} [Field α] [LinearOrder α]

/-- Table of `n` rows and `m` columns. -/
def table {β : Type} (n m : Nat) (f : Nat → Nat → β) : Mat β :=
  (List.range n).map fun i => (List.range m).map (f i)

/-- `M[i, j]` for indices known to be in range. -/
def cell (M : Mat α) (i j : Nat) : α := (M.getD i []).getD j 0

/-- `np.matmul(A, B)` of an `n`-by-`k` and a `k`-by-`m` matrix. -/
def matMul (n k m : Nat) (A B : Mat α) : Mat α :=
  table n m fun i j => ((List.range k).map fun l => cell A i l * cell B l j).sum

/-- Random input of one trajectory: `shuffle` is `rng.shuffle` on the rows of P*; `up j` says that
`rng.choice([-1, 1])` gave 1 for parameter `j`; `pick j` is the index that `rng.choice(grid)` took. -/
structure TrajDraws (α : Type) where
  shuffle : Mat α → Mat α
  up : Nat → Bool
  pick : Nat → Nat

/-- `_compute_delta(num_levels)`: `util/__init__.py` 381-393. -/
def computeDelta (p : Nat) : Py α :=
  if p = 1 then .error .zeroDivisionError else .ok (p / (2 * ((p : α) - 1)))

/-- `np.linspace(0, bound, n)`. -/
def linspace0 (bound : α) (n : Nat) : List α :=
  if n = 1 then [0] else (List.range n).map fun (k : Nat) => k * (bound / ((n : α) - 1))

/-- `_generate_x_star`: `morris.py` 297-325 (one row).  `rng.choice` on an empty grid is a
`ValueError`. -/
def generateXStar (draws : TrajDraws α) (numParams p : Nat) : Py (List α) := do
  let delta ← computeDelta p
  let grid := linspace0 (1 - delta) (p / 2)
  if grid.length = 0 then .error .valueError
  return (List.range numParams).map fun j => grid.getD (draws.pick j) 0

/-- `_generate_p_star`: `morris.py` 279-294. -/
def generatePStar (draws : TrajDraws α) (g : Nat) : Mat α :=
  draws.shuffle (table g g fun i j => if i = j then 1 else 0)

/-- `_compute_b_star`: `morris.py` 243-276, on a problem with `D` parameters and `g` groups. -/
def computeBStar (D g : Nat) (J : Mat α) (xStar : List α) (delta : α) (B G P Dm : Mat α) : Mat α :=
  let elementA := (List.range D).map fun j => cell J 0 j * xStar.getD j 0
  let GP := matMul D g g G P
  let elementB : Mat α := table g D fun i j => cell GP j i
  let elementC := matMul (g + 1) g D (table (g + 1) g fun i j => 2 * cell B i j) elementB
  let elementD := matMul (g + 1) D D (table (g + 1) D fun i j => cell elementC i j - cell J i j) Dm
  table (g + 1) D fun i j => elementA.getD j 0 + delta / 2 * (cell elementD i j + cell J i j)

/-- `_generate_trajectory`: `morris.py` 194-240; `g` is `group_membership.shape[1]`. -/
def generateTrajectory (draws : TrajDraws α) (G : Mat Nat) (g p : Nat) : Py (Mat α) := do
  let delta ← computeDelta p
  let D := G.length
  let B : Mat α := table (g + 1) g fun i j => if j < i then 1 else 0          -- np.tril(ones, -1)
  let P := generatePStar draws g
  let J : Mat α := table (g + 1) D fun _ _ => 1
  let Dm : Mat α := table D D fun i j => if i = j then (if draws.up i then 1 else -1) else 0
  let xStar ← generateXStar draws D p
  return computeBStar D g J xStar delta B (G.map (·.map fun (v : Nat) => (v : α))) P Dm

/-- `_sample_morris`: `morris.py` 153-191; the concatenation is `np.array(...).reshape(...)`. -/
def sampleMorrisUnit (draws : Nat → TrajDraws α) (groups : List String) (N p : Nat) : Py (Mat α) := do
  let (G, names) ← computeGroupsMatrix groups
  let ts ← (List.range N).mapM fun i => generateTrajectory (draws i) G names.length p
  return ts.flatten

end SALib
