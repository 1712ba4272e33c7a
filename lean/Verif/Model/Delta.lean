import Verif.Model.Scale
import Verif.Model.MorrisAnalyze

/-! # Delta method: `src/SALib/analyze/delta.py` -/

namespace SALib

variable {α : Type} [Field α] [LinearOrder α]

/-- `np.linspace(a, b, n)` (exact). -/
def linspace (a b : α) (n : Nat) : List α :=
  if n ≤ 1 then (List.range n).map fun _ => a
  else (List.range n).map fun (i : Nat) => a + (i : α) * ((b - a) / ((n : α) - 1))

/-- What the user may give for a parameter in `bins_specs`.  `other` is any other Python type, `junk` a list
with entries that are not numbers. -/
inductive BinInfo (α : Type)
  | absent
  | count (n : Nat)
  | edges (l : List α)
  | junk
  | other

/-- `np.all(np.diff(l) > 0)`. -/
def ascending (l : List α) : Bool := (List.zipWith (fun a b => decide (0 < b - a)) l l.tail).all id

/-- `check_specified_bininfo`: `delta.py` 307-348; the messages are left out.  `eps` is `1e-9`. -/
def checkBinInfo (eps : α) (info : BinInfo α) (xmin xmax : α) : List α :=
  match info with
  | .absent => linspace xmin xmax 11
  | .count n => linspace xmin xmax (n + 1)
  | .edges l =>
    if l.any (fun e => decide (e < xmin)) || l.any (fun e => decide (xmax < e)) then linspace xmin xmax 11
    else if !ascending l then linspace xmin xmax 11
    else [xmin - eps] ++ l ++ [xmax + eps]
  | .junk => linspace xmin xmax 11
  | .other => linspace xmin xmax 11

/-- `np.where(cond)[0]`. -/
def whereIdx (X : List α) (p : α → Bool) : List Nat := (List.range X.length).filter fun i => p (X.getD i 0)

/-- First loop of `obtain_bins_indices`: `delta.py` 436-442. -/
def initBins (edges X : List α) : List (List Nat) :=
  (List.range (edges.length - 1)).map fun i =>
    if i = 0 then whereIdx X fun x => decide (edges.getD i 0 ≤ x) && decide (x ≤ edges.getD (i + 1) 0)
    else whereIdx X fun x => decide (edges.getD i 0 < x) && decide (x ≤ edges.getD (i + 1) 0)

/-- The nested `while` loops: `delta.py` 443-451.  `cur` is `current_bin`, the list holds the bins not yet
looked at. -/
def mergeFrom (minSize : Nat) (cur : List Nat) : List (List Nat) → List (List Nat)
  | [] => [cur]
  | b :: rest => if cur.length < minSize then mergeFrom minSize (cur ++ b) rest
                 else cur :: mergeFrom minSize b rest

/-- `obtain_bins_indices`: `delta.py` 431-452. -/
def binsIndices (edges X : List α) (minSize : Nat) : List (List Nat) × List (List Nat) :=
  let init := initBins edges X
  (init, match init with
    | [] => []
    | b :: rest => mergeFrom minSize b rest)

/-- The drawing functions of `np.random`: `choice t l n` is the `t`-th call `np.random.choice(l, size=n)` on a
list that is not empty (or `n = 0`); `ints N n` is `np.random.randint(N, size=n)`. -/
structure DeltaDraws where
  choice : Nat → List Nat → Nat → List Nat
  ints : Nat → Nat → List Nat

/-- `np.random.choice(l, size=n, replace=True)`: `ValueError` for an empty `l` unless `n = 0`. -/
def npChoice (R : DeltaDraws) (t : Nat) (l : List Nat) (n : Nat) : Py (List Nat) :=
  if l = [] ∧ n ≠ 0 then .error .valueError else .ok (R.choice t l n)

/-- The loop over the bins: `delta.py` 513-520.  `f` maps positions to rows (`nonzeroes[sampled]` in step
mode). -/
def drawBins (R : DeltaDraws) (f : Nat → Nat) (nPerBin remaining : Nat) (bins : List (List Nat)) :
    Py (List (List Nat)) :=
  (bins.zipIdx.filter fun p => p.1.length ≠ 0).mapM fun p => do
    let s ← npChoice R (p.2 + 1) p.1 (nPerBin + if p.2 < remaining then 1 else 0)
    return s.map f

/-- The modes of the resampling. -/
inductive DeltaMode | raw | balanced | step
  deriving DecidableEq

/-- Smallest entry; NumPy raises `ValueError` on an empty array. -/
def arrMin (l : List α) : Py α := match l with
  | [] => .error .valueError
  | x :: xs => .ok (xs.foldl min x)

/-- Largest entry. -/
def arrMax (l : List α) : Py α := match l with
  | [] => .error .valueError
  | x :: xs => .ok (xs.foldl max x)

/-- The part common to the modes balanced and step: `delta.py` 488-520.  `AnalysisError` (496) is a
`RuntimeError` here. -/
def drawClasses (R : DeltaDraws) (f : Nat → Nat) (edges X : List α) (minSize size : Nat) :
    Py (List (List Nat)) := do
  let final := (binsIndices edges X minSize).2
  let n := final.length
  if n = 0 then .error .zeroDivisionError
  else if n < 2 then .error .runtimeError
  else if size / n < minSize then .error .valueError
  else drawBins R f (size / n) (size - size / n * n) final

/-- `obtain_resampled_subset`: `delta.py` 455-526. -/
def resampledSubset (R : DeltaDraws) (eps : α) (X : List α) (y : Nat) (mode : DeltaMode) (edges : List α)
    (minSize : Nat) : Py (List Nat) := do
  let mx ← arrMax X
  let mn ← arrMin X
  if mx = mn then .error .valueError
  else match mode with
    | .raw => return R.ints X.length y
    | .balanced => do
      let ds ← drawClasses R id edges X minSize y
      return ds.flatten
    | .step => do
      let zeroes := whereIdx X fun x => decide (x ≤ 0)
      let nonzeroes := whereIdx X fun x => decide (0 < x)
      let nz := y / 2
      let chosen ← npChoice R 0 zeroes nz
      let sel := nonzeroes.map fun i => X.getD i 0
      let lo ← arrMin sel
      let hi ← arrMax sel
      let ds ← drawClasses R (fun i => nonzeroes.getD i 0) (checkBinInfo eps (.count 5) lo hi) sel
        (minSize / 2) (y - nz)
      return (chosen :: ds).flatten

/-- `scipy.stats.rankdata(X, method="ordinal")` (SciPy, outside /repo): ranks from 1, ties in order of
occurrence. -/
def rankOrdinal (X : List α) : List Nat :=
  (List.range X.length).map fun i => 1 + ((List.range X.length).filter fun k =>
    decide (X.getD k 0 < X.getD i 0) || (decide (X.getD k 0 = X.getD i 0) && decide (k < i))).length

/-- Positions whose rank lies in class `j` of the partition `m`: `delta.py` 362, 542. -/
def classOf (xr : List Nat) (m : List α) (j : Nat) : List Nat :=
  (List.range xr.length).filter fun i =>
    decide (m.getD j 0 < (xr.getD i 0 : α)) && decide ((xr.getD i 0 : α) ≤ m.getD (j + 1) 0)

/-- `sobol_first(Y, X, m)`: `delta.py` 529-546. -/
def sobolFirst (Y X m : List α) : Num α :=
  if ptpZero Y then some 0
  else do
    let xr := rankOrdinal X
    let ym ← npMean Y
    let vi ← (List.range (m.length - 1)).foldlM (fun acc j => do
      let ix := classOf xr m j
      let cm ← npMean (ix.map fun i => Y.getD i 0)
      return acc + (ix.length : α) / (Y.length : α) * (cm - ym) ^ 2) 0
    let v ← npVar Y
    npDiv vi v

/-- `np.trapezoid(f, grid)`. -/
def trapezoid (f grid : List α) : α :=
  (List.zipWith (· * ·) (List.zipWith (fun a b => b - a) grid grid.tail)
    (List.zipWith (fun a b => (a + b) / 2) f f.tail)).sum

/-- `calc_delta(Y, Ygrid, X, m)`: `delta.py` 351-384 without the warning.  `kde` is SciPy's
`gaussian_kde(data, bw_method="silverman")(Ygrid)` as a list of values (`none`: it raises
`LinAlgError`, here a `ValueError`). -/
def calcDelta (kde : List α → List α → Option (List α)) (Y grid X m : List α) : Py α := do
  let fy ← (match kde Y grid with
    | some l => .ok l
    | none => .error .valueError : Py (List α))
  let xr := rankOrdinal X
  (List.range (m.length - 1)).foldlM (fun acc j =>
    let ix := classOf xr m j
    let yix := ix.map fun i => Y.getD i 0
    if ix.length = 0 then .ok acc
    else if ptpZero yix then .ok acc
    else match kde yix grid with
      | none => .error .valueError
      | some fyc => .ok (acc + (ix.length : α) / (2 * (Y.length : α)) *
          trapezoid (List.zipWith (fun a b => |a - b|) fy fyc) grid)) 0

end SALib
