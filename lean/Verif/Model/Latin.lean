import Verif.Model.Groups

/-! # Latin hypercube sampling (`src/SALib/sample/latin.py`) -/

namespace SALib

variable {α : Type} [Field α] [LinearOrder α]

/-- Random input of one call: `u s g` is the number in [0,1) behind the `g`-th entry of the draw
`rng.uniform(low, high, size=num_groups)` made for sample `s`; `shuffle g` is what `rng.shuffle` does to
column `g`. -/
structure LatinDraws (α : Type) where
  u : Nat → Nat → α
  shuffle : Nat → List α → List α

/-- The column of draws of group `g` before shuffling: `latin.py` 61-66 (transposed).
`rng.uniform(low, high)` is `low + (high - low) * u`. -/
def latinDraw (draws : LatinDraws α) (N : Nat) (g : Nat) : List α :=
  let d : α := 1 / N
  (List.range N).map fun s => s * d + ((s + 1) * d - s * d) * draws.u s g

/-- `np.where(G[:, group] == 1)[0]`: `latin.py` 73. -/
def whereOne (G : Mat Nat) (g : Nat) : List Nat :=
  (List.range G.length).filter fun p => ((G[p]?).bind (·[g]?)) == some 1

/-- Number of groups, and the parameters of each group: `latin.py` 50-55, 72-76. -/
def latinGroups (pb : Problem α) : Py (Nat × (Nat → List Nat)) :=
  match pb.groups with
  | none => .ok (pb.numVars, fun g => [g])
  | some [] => .ok (pb.numVars, fun g => [g])
  | some gs => do
    let (G, _) ← computeGroupsMatrix gs
    return ((pdUnique gs).length, whereOne G)

/-- The unit-cube sample: `latin.py` 46-76.  `junk` is the content of `np.empty` (57); `1.0 / 0` is a
`ZeroDivisionError`. -/
def latinUnit (draws : LatinDraws α) (junk : α) (pb : Problem α) (N : Nat) : Py (Mat α) := do
  let (ng, vars) ← latinGroups pb
  if N = 0 then .error .zeroDivisionError
  let col := fun g => draws.shuffle g (latinDraw draws N g)
  (List.range ng).foldlM (fun R g =>
    (List.range N).foldlM (fun R s =>
      (vars g).foldlM (fun R v => setCell R s v ((col g).getD s 0)) R) R)
    (List.replicate N (List.replicate pb.numVars junk))

/-- `latin.sample(problem, N, seed)`: `latin.py` 9-80. -/
def latinSample (F : Ppf α) (draws : LatinDraws α) (junk : α) (pb : Problem α) (N : Nat) :
    Py (Mat (Num α) × Problem α) := do
  let R ← latinUnit draws junk pb N
  scaleSamples F pb.numVars R pb

end SALib
