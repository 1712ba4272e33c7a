import Verif.Model.Scale
import Verif.Model.MorrisAnalyze

/-! # Finite differences and DGSM: `src/SALib/sample/finite_diff.py`, `src/SALib/analyze/dgsm.py` -/

namespace SALib

variable {α : Type} [Field α] [LinearOrder α]

/-- `arr[index, :] = row; index += 1` on an array with `w` columns (broadcasting of a row of another length is
not modelled: `ValueError`). -/
def putRow {β : Type} (w : Nat) (st : Mat β × Nat) (row : List β) : Py (Mat β × Nat) :=
  if row.length ≠ w then .error .valueError
  else if st.2 < st.1.length then .ok (st.1.set st.2 row, st.2 + 1)
  else .error .indexError

/-- Python's `min(x, b)` (`b` if `b < x`, else `x`); a value that is not finite is kept (correct for nan). -/
def pyMin (x : Num α) (b : α) : Num α := x.map fun v => if b < v then b else v

/-- Python's `max(x, b)`. -/
def pyMax (x : Num α) (b : α) : Num α := x.map fun v => if v < b then b else v

/-- Sum of two floats. -/
def numAdd (x y : Num α) : Num α := x.bind fun a => y.map fun b => a + b

/-- Body of the inner loop: `finite_diff.py` 75-80. -/
def fdRow (D : Nat) (bounds : List (List α)) (delta : α) (row : List (Num α)) (j : Nat) :
    Py (List (Num α)) := do
  let bnd ← pyGet bounds j
  let x ← pyGet row j
  let temp := (List.replicate D (some 0)).set j (x.map (· * delta))
  let r := List.zipWith numAdd row temp
  let b1 ← pyGet bnd 1
  let b0 ← pyGet bnd 0
  let v ← pyGet r j
  return r.set j (pyMax (pyMin v b1) b0)

/-- Body of the outer loop: `finite_diff.py` 69-81. -/
def fdBlock (D : Nat) (bounds : List (List α)) (delta : α) (base : Mat (Num α)) (st : Mat (Num α) × Nat)
    (i : Nat) : Py (Mat (Num α) × Nat) := do
  let row ← pyGet base i
  let st ← putRow D st row
  (List.range D).foldlM (fun st j => do
    let r ← fdRow D bounds delta row j
    putRow D st r) st

/-- `finite_diff.sample(problem, N, delta, skip_values)`: `finite_diff.py` 9-83.  The base sequence is a
parameter; `junk` is whatever `np.empty` contains. -/
def finiteDiffSample (F : Ppf α) (gen : Nat → Nat → Py (Mat α)) (junk : Num α) (pb : Problem α) (N : Nat)
    (delta : α) (skip : Nat) : Py (Mat (Num α) × Problem α) := do
  let D := pb.numVars
  let base ← gen (N + skip) D
  let (base, pb') ← scaleSamples F D base pb
  let out := List.replicate (N * (D + 1)) (List.replicate D junk)
  let (out, _) ← (List.range' skip N).foldlM (fdBlock D pb.bounds delta base) (out, 0)
  return (out, pb')

/-! ### DGSM -/

/-- `((perturbed - base) / x_delta) ** 2`: `dgsm.py` 113, 122. -/
def dfdxSq (base pert dx : List α) : List (Num α) :=
  List.zipWith (fun d x => (npDiv d x).map (· ^ 2)) (List.zipWith (fun p b => p - b) pert base) dx

/-- `calc_vi_stats`: `dgsm.py` 105-114. -/
def calcViStats (sqrt : α → α) (base pert dx : List α) : Num α × Num α :=
  let d := dfdxSq base pert dx
  (npMeanN d, (d.mapM id).bind (npStd0 sqrt))

/-- `calc_vi_mean`: `dgsm.py` 117-123. -/
def calcViMean (base pert dx : List α) : Num α := npMeanN (dfdxSq base pert dx)

/-- Fancy indexing `l[r]` with indices drawn below the length. -/
def takeIdx (l : List α) (r : List Nat) : List α := r.map fun i => l.getD i 0

/-- `calc_dgsm`: `dgsm.py` 126-141.  `pi2` is `np.pi**2`, `z` is `norm.ppf(0.5 + conf_level / 2.0)`, `draws`
are the rows of the index array. -/
def calcDgsm (sqrt : α → α) (pi2 z : α) (base pert dx bnd : List α) (draws : List (List Nat)) :
    Py (Num α × Num α) := do
  let b1 ← pyGet bnd 1
  let b0 ← pyGet bnd 0
  let dgsm := (npVar base).bind fun D => (calcViMean base pert dx).bind fun vi =>
    npDiv (vi * (b1 - b0) ^ 2) (D * pi2)
  let s := draws.map fun r => calcViMean (takeIdx base r) (takeIdx pert r) (takeIdx dx r)
  return (dgsm, (npStd1N sqrt s).map (z * ·))

/-- The result of the analysis. -/
structure DgsmResult (α : Type) where
  names : List String
  vi : List (Num α)
  viStd : List (Num α)
  dgsm : List (Num α)
  dgsmConf : List (Num α)

/-- Loop body of `dgsm.analyze`: `dgsm.py` 88-97. -/
def dgsmOne (sqrt : α → α) (pi2 z : α) (pb : Problem α) (X : Mat α) (Y : List α)
    (draws : Nat → List (List Nat)) (j : Nat) : Py ((Num α × Num α) × Num α × Num α) := do
  let step := pb.numVars + 1
  let base := strided Y 0 step
  let pert := strided Y (j + 1) step
  let xb ← (strided X 0 step).mapM fun row => pyGet row j
  let xp ← (strided X (j + 1) step).mapM fun row => pyGet row j
  let dx := List.zipWith (fun p b => p - b) xp xb
  let bnd ← pyGet pb.bounds j
  let d ← calcDgsm sqrt pi2 z base pert dx bnd (draws j)
  return (calcViStats sqrt base pert dx, d)

/-- `dgsm.analyze(problem, X, Y, num_resamples, conf_level)`: `dgsm.py` 9-102.  Rows of `X` beyond the number
of outputs are not read (80, 90).  An `X` with fewer rows is a shape error; NumPy's broadcasting of slices of
length 1 is not modelled. -/
def dgsmAnalyze (sqrt : α → α) (pi2 z conf : α) (pb : Problem α) (X : Mat α) (Y : List α)
    (draws : Nat → List (List Nat)) : Py (DgsmResult α) := do
  if Y.length % (pb.numVars + 1) ≠ 0 then .error .runtimeError
  else if ¬ (0 < conf ∧ conf < 1) then .error .runtimeError
  else if X.length < Y.length then .error .valueError
  else do
    let rs ← (List.range pb.numVars).mapM (dgsmOne sqrt pi2 z pb (X.take Y.length) Y draws)
    return { names := pb.names
             vi := rs.map fun r => r.1.1
             viStd := rs.map fun r => r.1.2
             dgsm := rs.map fun r => r.2.1
             dgsmConf := rs.map fun r => r.2.2 }

end SALib
