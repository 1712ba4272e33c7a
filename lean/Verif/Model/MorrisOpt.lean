import Verif.Model.Morris
import Mathlib.Data.Nat.Choose.Basic
import Mathlib.Data.List.Sort

/-! # Optimised Morris trajectories (`src/SALib/sample/morris/strategy.py`, `brute.py`, `local.py`)

`sqrt` is `np.sqrt`; `argsort` is `ndarray.argsort()`.  The `float32` rounding of the distances is not
modelled. -/

namespace SALib

variable {α : Type} [Field α] [LinearOrder α]

/-- `itertools.combinations(l, k)` as the list of what it yields. -/
def combinations {β : Type} : Nat → List β → List (List β)
  | 0, _ => [[]]
  | _ + 1, [] => []
  | k + 1, x :: xs => (combinations k xs).map (x :: ·) ++ combinations (k + 1) xs

/-- `l[idx]` for an index array: `IndexError` when out of range. -/
def takeRows {β : Type} (l : List β) (idx : List Nat) : Py (List β) :=
  idx.mapM fun i => match l[i]? with
    | some v => (.ok v : Py β)
    | none => .error .indexError

/-! ## Strategy -/

/-- `run_checks`: `strategy.py` 121-135. -/
def runChecks (N : Nat) (k : Int) : Py Unit :=
  if k < 2 then .error .valueError
  else if (N : Int) ≤ k then .error .valueError
  else .ok ()

/-- `_make_index_list`: `strategy.py` 137-170. -/
def makeIndexList (N D : Nat) (numGroups : Option Nat) : List (List Nat) :=
  let g := numGroups.getD D
  (List.range N).map fun j => (List.range (g + 1)).map fun i => i + j * (g + 1)

/-- `check_input_sample`: `strategy.py` 199-219.  The second assertion (`x >= 0` or `x <= 1` for some
entry) holds exactly when there is an entry. -/
def checkInputSample (X : Mat α) (num N : Nat) : Py Unit :=
  if X.length ≠ (num + 1) * N then .error .assertionError
  else if X.any (fun row => row.any fun x => decide (0 ≤ x) || decide (x ≤ 1)) then .ok ()
  else .error .assertionError

/-- One step of `compile_output`, `output[index_list[counter]] = input_sample[index_list[combo]]`:
`strategy.py` 196. -/
def compileStep (X : Mat α) (index : List (List Nat)) (out : Mat α) (cc : Nat × Nat) : Py (Mat α) := do
  match index[cc.1]?, index[cc.2]? with
  | some dst, some src =>
    let rows ← takeRows X src
    pure ((dst.zip rows).foldl (fun out (i, row) => out.set i row) out)
  | _, _ => .error .indexError

/-- `compile_output`: `strategy.py` 172-197.  (Rows written beyond the end of `output` would be an
`IndexError`; the destinations are always in range.) -/
def compileOutput (X : Mat α) (N D : Nat) (combo : List Nat) (numGroups : Option Nat) : Py (Mat α) := do
  let g := numGroups.getD D
  checkInputSample X g N
  let index := makeIndexList N D (some g)
  (combo.zipIdx.map fun (c, i) => (i, c)).foldlM (compileStep X index)
    (zerosMat (combo.length * (g + 1)) D)

/-- Euclidean distance of two points (`scipy.spatial.distance.cdist`, outside /repo). -/
def euclid (sqrt : α → α) (x y : List α) : α := sqrt ((List.zipWith (fun a b => (a - b) ^ 2) x y).sum)

/-- `compute_distance`: `strategy.py` 221-244. -/
def computeDistance (sqrt : α → α) (m l : Mat α) : Py α :=
  if m.map List.length ≠ l.map List.length then .error .valueError
  else if m = l then .ok 0
  else .ok ((m.map fun x => (l.map fun y => euclid sqrt x y).sum).sum)

/-- The body of the double loop of `compute_distance_matrix`: `strategy.py` 290-298. -/
def distanceStep (sqrt : α → α) (X : Mat α) (index : List (List Nat)) (localOpt : Bool) (M : Mat α)
    (jk : Nat × Nat) : Py (Mat α) := do
  let input1 ← takeRows X (index.getD jk.1 [])
  let input2 ← takeRows X (index.getD jk.2 [])
  let d ← computeDistance sqrt input1 input2
  let M ← if localOpt then setCell M jk.1 jk.2 d else .ok M
  setCell M jk.2 jk.1 d

/-- `compute_distance_matrix`: `strategy.py` 246-299.  `num_groups = 0` is falsy. -/
def distanceMatrix (sqrt : α → α) (X : Mat α) (N D : Nat) (numGroups : Option Nat) (localOpt : Bool) :
    Py (Mat α) := do
  match numGroups with
  | some (g + 1) => checkInputSample X (g + 1) N
  | _ => checkInputSample X D N
  let index := makeIndexList N D numGroups
  ((List.range N).flatMap fun j => (List.range' (j + 1) (N - (j + 1))).map fun k => (j, k)).foldlM
    (distanceStep sqrt X index localOpt) (zerosMat N N)

/-! ## Brute force -/

/-- `grouper(n, iterable)`: `brute.py` 114-121; `fuel` bounds the number of chunks. -/
def grouper {β : Type} : Nat → Nat → List β → List (List β)
  | 0, _, _ => []
  | fuel + 1, n, l => if l.take n = [] then [] else l.take n :: grouper fuel n (l.drop n)

/-- `distance_matrix[combo[b], combo[a]]`: `brute.py` 137-144. -/
def pairDistance (dm : Mat α) (combo : List Nat) (ab : Nat × Nat) : Py α :=
  match combo[ab.2]?, combo[ab.1]? with
  | some i, some j => getCell dm i j
  | _, _ => .error .indexError

/-- `mappable(combos, pairwise, distance_matrix)`: `brute.py` 123-146. -/
def mappable (sqrt : α → α) (combos : List (List Nat)) (pairwise : List (Nat × Nat)) (dm : Mat α) :
    Py (List α) :=
  combos.mapM fun combo => do
    let ds ← pairwise.mapM (pairDistance dm combo)
    return sqrt ((ds.map fun d => d * d).sum)

/-- `scores[a:b] = values` (`a ≤ b`): lengths must agree (a single value would be broadcast; this does
not occur). -/
def sliceAssign (scores : List α) (a b : Nat) (values : List α) : Py (List α) :=
  if min b scores.length - min a scores.length = values.length then
    .ok (scores.take a ++ values ++ scores.drop (a + values.length))
  else .error .valueError

/-- `sys.maxsize`. -/
def sysMaxsize : Nat := 2 ^ 63 - 1

/-- The pairs of `combinations(range(k), 2)`: `brute.py` 104. -/
def pairwiseIdx (k : Nat) : List (Nat × Nat) :=
  (combinations 2 (List.range k)).map fun c => (c.getD 0 0, c.getD 1 0)

/-- `find_most_distant`: `brute.py` 55-112.  `maxChunk` is `int(1e6)`; `nchoosek` is taken exact. -/
def findMostDistant (sqrt : α → α) (maxChunk : Nat) (X : Mat α) (N D k : Nat) (numGroups : Option Nat) :
    Py (List α) := do
  if sysMaxsize ≤ N.choose k then .error .valueError
  let dm ← distanceMatrix sqrt X N D numGroups false
  let chunk := if maxChunk > N.choose k then N.choose k else maxChunk
  let combos := combinations k (List.range N)
  let scores := List.replicate (N.choose k) (0 : α)
  (grouper (combos.length + 1) chunk combos).zipIdx.foldlM (fun scores (cs, counter) => do
    let vals ← mappable sqrt cs (pairwiseIdx k) dm
    sliceAssign scores (counter * chunk) ((counter + 1) * chunk) vals) scores

/-- `scores.argmax()`: first position of the largest entry; `none` for an empty array. -/
def argmax (l : List α) : Option Nat :=
  match l with
  | [] => none
  | x :: xs => 
    some ((xs.zipIdx 1).foldl (fun (best : α × Nat) vi => if best.1 < vi.1 then vi else best) (x, 0)).2

/-- `find_maximum`: `brute.py` 148-168 (the tuples of `combinations` are already sorted lists). -/
def findMaximum (scores : List α) (N k : Nat) : Py (List Nat) :=
  match argmax scores with
  | none => .error .valueError
  | some i =>
    match (combinations k (List.range N))[i]? with
    | none => .error .typeError
    | some c => .ok (c.insertionSort (· ≤ ·))

/-- `brute_force_most_distant`: `brute.py` 21-53. -/
def bruteForce (sqrt : α → α) (maxChunk : Nat) (X : Mat α) (N D k : Nat) (numGroups : Option Nat) :
    Py (List Nat) := do
  let scores ← findMostDistant sqrt maxChunk X N D k numGroups
  findMaximum scores N k

/-! ## Local optimisation -/

/-- `sum_distances(indices, distance_matrix)`: `local.py` 98-125. -/
def sumDistances (sqrt : α → α) (idx : List Nat) (dm : Mat α) : Py α := do
  let ds ← (combinations 2 idx).mapM fun c => getCell dm (c.getD 0 0) (c.getD 1 0)
  return sqrt ((ds.map fun d => d ^ 2).sum)

/-- `get_max_sum_ind`: `local.py` 127-158. -/
def getMaxSumInd (argsort : List α → List Nat) (idxs : List (List Nat)) (dists : List α) :
    Py (List Nat) :=
  if idxs.length ≠ dists.length then .error .valueError
  else match (argsort dists).getLast? with
    | none => .error .indexError
    | some m => match idxs[m]? with
      | none => .error .indexError
      | some t => .ok t

/-- `add_indices`: `local.py` 160-178. -/
def addIndices (idx : List Nat) (dm : Mat α) : List (List Nat) :=
  ((List.range dm.length).filter (· ∉ idx)).map fun i => idx ++ [i]

/-- The last `i` entries, in reverse order, then `row_nr`: `local.py` 66. -/
def topIndices (argsort : List α → List Nat) (row : List α) (i rowNr : Nat) : List Nat :=
  let s := argsort row
  (s.drop (s.length - i)).reverse ++ [rowNr]

/-- One pass of the loop over `m`: `local.py` 79-88. -/
def growStep (sqrt : α → α) (argsort : List α → List Nat) (dm : Mat α) (idx : List Nat) :
    Py (List Nat) := do
  let mInd := addIndices idx dm
  let maxima ← mInd.mapM fun t => sumDistances sqrt t dm
  getMaxSumInd argsort mInd maxima

/-- One pass of the loop over `i`: `local.py` 62-93. -/
def localPass (sqrt : α → α) (argsort : List α → List Nat) (dm : Mat α) (k i : Nat) :
    Py (List Nat × α) := do
  let indicesList := dm.zipIdx.map fun (row, r) => topIndices argsort row i r
  let maxima ← indicesList.mapM fun t => sumDistances sqrt t dm
  let start ← getMaxSumInd argsort indicesList maxima
  let final ← (List.range (k - i - 1)).foldlM (fun idx _ => growStep sqrt argsort dm idx) start
  let d ← sumDistances sqrt final dm
  return (final, d)

/-- `find_local_maximum`: `local.py` 20-96. -/
def findLocalMaximum (sqrt : α → α) (argsort : List α → List Nat) (X : Mat α) (N D k : Nat)
    (numGroups : Option Nat) : Py (List Nat) := do
  let dm ← distanceMatrix sqrt X N D numGroups true
  let tot ← (List.range' 1 (k - 1)).mapM fun i => localPass sqrt argsort dm k i
  let best ← getMaxSumInd argsort (tot.map Prod.fst) (tot.map Prod.snd)
  return best.insertionSort (· ≤ ·)

/-! ## The sampler -/

/-- The value passed as `optimal_trajectories`. -/
inductive OptArg (α : Type)
  | none
  | int (k : Int)
  | float (x : α)

/-- `Strategy.sample`: `strategy.py` 89-119, with the strategy chosen at `morris.py` 416-422. -/
def strategySample (sqrt : α → α) (argsort : List α → List Nat) (X : Mat α) (N D : Nat) (k : Int)
    (g : Nat) (localOpt : Bool) : Py (Mat α) := do
  runChecks N k
  let combo ←
    if localOpt then findLocalMaximum sqrt argsort X N D k.toNat (some g)
    else bruteForce sqrt 1000000 X N D k.toNat (some g)
  compileOutput X N D combo (some g)

/-- `_compute_optimised_trajectories`: `morris.py` 328-369, for an integer `k_choices`. -/
def optimisedTrajectories (sqrt : α → α) (argsort : List α → List Nat) (X : Mat α) (groups : List String)
    (D N : Nat) (k : Int) (localOpt : Bool) : Py (Mat α) :=
  if localOpt = false ∧ 10 < k then .error .valueError
  else if X.any (fun row => row.any fun x => decide (x < 0) || decide (1 < x)) then .error .valueError
  else strategySample sqrt argsort X N D k (pdUnique groups).length localOpt

/-- The optimisation step of `sample`: `morris.py` 137-146.  A non-integer number is a `ValueError` with
local optimisation; without it, it is a `ValueError` above 10 and otherwise fails the assertion of
`run_checks`. -/
def optimiseStep (sqrt : α → α) (argsort : List α → List Nat) (X : Mat α) (groups : List String)
    (D N : Nat) (opt : OptArg α) (localOpt : Bool) : Py (Mat α) :=
  match opt with
  | .none => .ok X
  | .int k =>
    if k = 0 then .ok X
    else if localOpt = true ∧ (N : Int) < k then .error .valueError
    else optimisedTrajectories sqrt argsort X groups D N k localOpt
  | .float x =>
    if x = 0 then .ok X
    else if localOpt then .error .valueError
    else if 10 < x then .error .valueError
    else if X.any (fun row => row.any fun x => decide (x < 0) || decide (1 < x)) then .error .valueError
    else .error .assertionError

/-- `morris.sample(problem, N, num_levels, optimal_trajectories, local_optimization, seed)`:
`morris.py` 24-150. -/
def morrisSample (F : Ppf α) (sqrt : α → α) (argsort : List α → List Nat) (draws : Nat → TrajDraws α)
    (pb : Problem α) (N p : Nat) (opt : OptArg α) (localOpt : Bool) : Py (Mat (Num α) × Problem α) := do
  let pb ← defineProblemWithGroups pb
  let M ← sampleMorrisUnit draws (pb.groups.getD []) N p
  let M ← optimiseStep sqrt argsort M (pb.groups.getD []) pb.numVars N opt localOpt
  scaleSamples F pb.numVars M pb

end SALib
