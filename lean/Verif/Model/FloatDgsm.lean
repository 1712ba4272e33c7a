import Verif.Model.FloatSum
import Verif.Model.SobolSequence
import Verif.Model.Dgsm

/-! # Finite differences and DGSM with their rounding

`src/SALib/sample/sobol_sequence.py`, `src/SALib/sample/finite_diff.py`, `src/SALib/analyze/dgsm.py` -/

namespace SALib

/-- `sobol_sequence.sample(N, D)`: `sobol_sequence.py` 49-91, with the division `X[j] / math.pow(2, scale)` rounded. -/
def sobolSequenceFl (F : Fmt) (directions : List (List Nat)) (L N D : Nat) : Py (Mat ℚ) := do
  if D > directions.length + 1 then .error .valueError
  if N = 0 then .error .valueError
  if L > sobolScale then .error .valueError
  let cols ← (List.range D).mapM fun i => do
    let V ← directionNumbers directions L i
    columnInts V N
  return (List.range N).map fun j => cols.map fun c => fdiv F ((c.getD j 0 : Nat) : ℚ) (2 ^ sobolScale)

/-- Python's `min(x, b)` and `max(x, b)`. -/
def pyMinF (x b : ℚ) : ℚ := if b < x then b else x
@[inherit_doc pyMinF] def pyMaxF (x b : ℚ) : ℚ := if x < b then b else x

/-- Body of the inner loop: `finite_diff.py` 75-80. -/
def fdRowFl (F : Fmt) (D : Nat) (bounds : List (List ℚ)) (delta : ℚ) (row : List ℚ) (j : Nat) :
    Py (List ℚ) := do
  let bnd ← pyGet bounds j
  let x ← pyGet row j
  let temp := (List.replicate D 0).set j (fmul F x delta)
  let r := List.zipWith (fadd F) row temp
  let b1 ← pyGet bnd 1
  let b0 ← pyGet bnd 0
  let v ← pyGet r j
  return r.set j (pyMaxF (pyMinF v b1) b0)

/-- Body of the outer loop: `finite_diff.py` 69-81. -/
def fdBlockFl (F : Fmt) (D : Nat) (bounds : List (List ℚ)) (delta : ℚ) (base : Mat ℚ) (st : Mat ℚ × Nat)
    (i : Nat) : Py (Mat ℚ × Nat) := do
  let row ← pyGet base i
  let st ← putRow D st row
  (List.range D).foldlM (fun st j => do
    let r ← fdRowFl F D bounds delta row j
    putRow D st r) st

/-- `finite_diff.sample(problem, N, delta, skip_values)` of a problem without distributions:
`finite_diff.py` 9-83.  `L` is the number of bits that `sobol_sequence.sample` computes, `junk` whatever
`np.empty` contains. -/
def finiteDiffSampleFl (F : Fmt) (directions : List (List Nat)) (L : Nat) (junk : ℚ) (pb : Problem ℚ)
    (N : Nat) (delta : ℚ) (skip : Nat) : Py (Mat ℚ) := do
  let D := pb.numVars
  let base ← sobolSequenceFl F directions L (N + skip) D
  let base ← scaleUniformFl F D base pb.bounds
  let out := List.replicate (N * (D + 1)) (List.replicate D junk)
  let (out, _) ← (List.range' skip N).foldlM (fdBlockFl F D pb.bounds delta base) (out, 0)
  return out

/-! ### DGSM -/

/-- One quotient, squared; `** 2` of an array is a product. -/
def quotSqFl (F : Fmt) (d x : ℚ) : Num ℚ :=
  if x = 0 then none else some (fmul F (fdiv F d x) (fdiv F d x))

/-- `((perturbed - base) / x_delta) ** 2`: `dgsm.py` 113, 122. -/
def dfdxSqFl (F : Fmt) (base pert dx : List ℚ) : List (Num ℚ) :=
  List.zipWith (quotSqFl F) (List.zipWith (fsub F) pert base) dx

/-- `calc_vi_stats`: `dgsm.py` 105-114. -/
def calcViStatsFl (F : Fmt) (order : Nat → SumTree) (sqrt : ℚ → ℚ) (base pert dx : List ℚ) : Num ℚ × Num ℚ :=
  let d := dfdxSqFl F base pert dx
  (meanFlN F order d, (d.mapM id).bind (std0Fl F order sqrt))

/-- `calc_vi_mean`: `dgsm.py` 117-123. -/
def calcViMeanFl (F : Fmt) (order : Nat → SumTree) (base pert dx : List ℚ) : Num ℚ :=
  meanFlN F order (dfdxSqFl F base pert dx)

/-- `vi * (bounds[1] - bounds[0]) ** 2 / (D * np.pi**2)`: `dgsm.py` 132.  `pi2` is `np.pi**2`; the square
of the width is taken as a rounded product. -/
def dgsmIndexFl (F : Fmt) (pi2 b0 b1 D vi : ℚ) : Num ℚ :=
  if fmul F D pi2 = 0 then none
  else some (fdiv F (fmul F vi (fmul F (fsub F b1 b0) (fsub F b1 b0))) (fmul F D pi2))

/-- `calc_dgsm`: `dgsm.py` 126-141.  `z` is `norm.ppf(0.5 + conf_level / 2.0)`, `draws` are the rows of the
index array. -/
def calcDgsmFl (F : Fmt) (order : Nat → SumTree) (sqrt : ℚ → ℚ) (pi2 z : ℚ) (base pert dx bnd : List ℚ)
    (draws : List (List Nat)) : Py (Num ℚ × Num ℚ) := do
  let b1 ← pyGet bnd 1
  let b0 ← pyGet bnd 0
  let dgsm := (varFl F order base).bind fun D => (calcViMeanFl F order base pert dx).bind fun vi =>
    dgsmIndexFl F pi2 b0 b1 D vi
  let s := draws.map fun r => calcViMeanFl F order (takeIdx base r) (takeIdx pert r) (takeIdx dx r)
  return (dgsm, (std1FlN F order sqrt s).map (fmul F z))

/-- Loop body of `dgsm.analyze`: `dgsm.py` 88-97. -/
def dgsmOneFl (F : Fmt) (order : Nat → SumTree) (sqrt : ℚ → ℚ) (pi2 z : ℚ) (pb : Problem ℚ) (X : Mat ℚ)
    (Y : List ℚ) (draws : Nat → List (List Nat)) (j : Nat) : Py ((Num ℚ × Num ℚ) × Num ℚ × Num ℚ) := do
  let step := pb.numVars + 1
  let base := strided Y 0 step
  let pert := strided Y (j + 1) step
  let xb ← (strided X 0 step).mapM fun row => pyGet row j
  let xp ← (strided X (j + 1) step).mapM fun row => pyGet row j
  let dx := List.zipWith (fsub F) xp xb
  let bnd ← pyGet pb.bounds j
  let d ← calcDgsmFl F order sqrt pi2 z base pert dx bnd (draws j)
  return (calcViStatsFl F order sqrt base pert dx, d)

/-- `dgsm.analyze(problem, X, Y, num_resamples, conf_level)`: `dgsm.py` 9-102, restricted as `dgsmAnalyze`. -/
def dgsmAnalyzeFl (F : Fmt) (order : Nat → SumTree) (sqrt : ℚ → ℚ) (pi2 z conf : ℚ) (pb : Problem ℚ)
    (X : Mat ℚ) (Y : List ℚ) (draws : Nat → List (List Nat)) : Py (DgsmResult ℚ) := do
  if Y.length % (pb.numVars + 1) ≠ 0 then .error .runtimeError
  else if ¬ (0 < conf ∧ conf < 1) then .error .runtimeError
  else if X.length < Y.length then .error .valueError
  else do
    let rs ← (List.range pb.numVars).mapM
      (dgsmOneFl F order sqrt pi2 z pb (X.take Y.length) Y draws)
    return { names := pb.names
             vi := rs.map fun r => r.1.1
             viStd := rs.map fun r => r.1.2
             dgsm := rs.map fun r => r.2.1
             dgsmConf := rs.map fun r => r.2.2 }

end SALib
