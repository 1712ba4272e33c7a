import Verif.Model.Delta
import Verif.Model.Groups
import Mathlib.Data.List.Sort

/-! # PAWN and regional sensitivity analysis: `src/SALib/analyze/pawn.py`, `src/SALib/analyze/rsa.py` -/

namespace SALib

variable {α : Type} [Field α] [LinearOrder α]

/-- The values in ascending order. -/
def npSort (l : List α) : List α := l.insertionSort (· ≤ ·)

/-- `np.quantile(l, s / S)` with linear interpolation (NumPy, outside /repo), for `s ≤ S`: the position
`s/S · (n-1)` has integer part `s·(n-1) / S` and fraction `(s·(n-1) mod S) / S`.  Exact arithmetic, no nan. -/
def npQuantile (l : List α) (s S : Nat) : α :=
  let i := s * (l.length - 1) / S
  let r := s * (l.length - 1) % S
  let a := (npSort l).getD i 0
  a + (r : α) / (S : α) * ((npSort l).getD (i + 1) a - a)

/-- `X_q = np.nanquantile(X_di, np.arange(0, 1 + step, step))`: `pawn.py` 115-119.  In exact arithmetic the
sequence is `0, 1/S, …, 1`. -/
def pawnEdges (X : List α) (S : Nat) : List α := (List.range (S + 1)).map fun s => npQuantile X s S

/-- Rows of slice `s`: `pawn.py` 122. -/
def pawnSlice (edges X : List α) (s : Nat) : List Nat :=
  whereIdx X fun x => decide (edges.getD s 0 ≤ x) && decide (x < edges.getD (s + 1) 0)

/-- Empirical distribution function. -/
def ecdf (l : List α) (z : α) : α := ((l.filter fun x => decide (x ≤ z)).length : α) / (l.length : α)

/-- `ks_2samp(a, b).statistic` (SciPy, outside /repo; two-sided): the largest distance of the two empirical
distribution functions at the data points. -/
def ksStat (a b : List α) : α := ((a ++ b).map fun z => |ecdf a z - ecdf b z|).foldl max 0

/-- `temp_pawn[:, d_i]`: `pawn.py` 121-135; `none` is nan. -/
def pawnColumn (X Y : List α) (S : Nat) : List (Num α) :=
  (List.range S).map fun s =>
    let sel := (pawnSlice (pawnEdges X S) X s).map fun i => Y.getD i 0
    if sel.length = 0 then none else some (ksStat sel Y)

/-- `np.median` of a list that is not empty. -/
def npMedian (l : List α) : α :=
  let s := npSort l
  if l.length % 2 = 1 then s.getD (l.length / 2) 0
  else (s.getD (l.length / 2 - 1) 0 + s.getD (l.length / 2) 0) / 2

/-- One row of `results`. -/
structure PawnRow (α : Type) where
  minimum : Num α
  mean : Num α
  median : Num α
  maximum : Num α
  cv : Num α
  stdev : Num α
  deriving DecidableEq

/-- The summary of one parameter: `pawn.py` 137-144.  All-nan columns give nan everywhere (with a warning). -/
def pawnRow (sqrt : α → α) (p : List (Num α)) : PawnRow α :=
  match p.filterMap id with
  | [] => ⟨none, none, none, none, none, none⟩
  | v :: vs =>
    let l := v :: vs
    let sd := npStd0 sqrt l
    { minimum := some (vs.foldl min v)
      mean := npMean l
      median := some (npMedian l)
      maximum := some (vs.foldl max v)
      cv := do npDiv (← sd) (← npMean l)
      stdev := sd }

/-- Mean over the parameters of a group, entry by entry: `pawn.py` 155. -/
def pawnGroupRow (rows : List (PawnRow α)) : PawnRow α :=
  { minimum := npMeanN (rows.map (·.minimum))
    mean := npMeanN (rows.map (·.mean))
    median := npMeanN (rows.map (·.median))
    maximum := npMeanN (rows.map (·.maximum))
    cv := npMeanN (rows.map (·.cv))
    stdev := npMeanN (rows.map (·.stdev)) }

/-- Column `d` of the inputs; `IndexError` when there is none. -/
def inputColumn (X : Mat α) (d : Nat) : Py (List α) := X.mapM fun row => pyGet row d

/-- The loop over the parameters: `pawn.py` 116-144.  The boolean mask (122) raises `IndexError` when the output
has another length than the inputs. -/
def pawnParams (sqrt : α → α) (pb : Problem α) (X : Mat α) (Y : List α) (S : Nat) : Py (List (PawnRow α)) :=
  (List.range pb.numVars).mapM fun d => do
    let col ← inputColumn X d
    if Y.length ≠ X.length then .error .indexError
    else return pawnRow sqrt (pawnColumn col Y S)

/-- `analyze`: `pawn.py` 106-175; the random numbers it seeds are never used.  Result: rows and names. -/
def pawnAnalyze (sqrt : α → α) (pb : Problem α) (X : Mat α) (Y : List α) (S : Nat) :
    Py (List (PawnRow α) × List String) := do
  if S = 0 then .error .zeroDivisionError
  else
    let results ← pawnParams sqrt pb X Y S
    match checkGroups pb with
    | none => return (results, (extractGroupNames pb).1)
    | some grps =>
      if grps.length ≠ results.length then .error .indexError
      else return ((extractGroupNames pb).1.map fun g =>
          pawnGroupRow (((results.zip grps).filter fun p => p.2 = g).map (·.1)),
        (extractGroupNames pb).1)

/-! ## Regional sensitivity analysis -/

/-- `quants = np.quantile(t_arr, seq)`: `rsa.py` 145, 163; exact: `seq` is `0, 1/bins, …, 1`. -/
def rsaEdges (t : List α) (bins : Nat) : List α := (List.range (bins + 1)).map fun s => npQuantile t s bins

/-- The mask `b` of bin `s`, as the list of its rows: `rsa.py` 164, 170. -/
def rsaBin (t : List α) (bins s : Nat) : List Nat :=
  let q := rsaEdges t bins
  if s = 0 then whereIdx t fun x => decide (q.getD 0 0 ≤ x) && decide (x ≤ q.getD 1 0)
  else whereIdx t fun x => decide (q.getD s 0 < x) && decide (x ≤ q.getD (s + 1) 0)

/-- Rows outside the mask: `~b`. -/
def rowsNot (n : Nat) (b : List Nat) : List Nat := (List.range n).filter fun i => decide (i ∉ b)

/-- `_has_samples(y, sel)`: `rsa.py` 178-189. -/
def hasSamples (y : List α) (b : List Nat) : Bool :=
  decide (b.length ≠ 0) && decide ((rowsNot y.length b).length ≠ 0) &&
    decide ((b.map fun i => y.getD i 0).dedup.length > 1)

/-- `target="X"` or `target="Y"`. -/
inductive RsaTarget | X | Y
  deriving DecidableEq

/-- Entry `r_s[s, d_i]`: `rsa.py` 163-173.  `cvm` is the statistic of SciPy's `cramervonmises_2samp`, `col` is the
column `X_di`.  (SciPy refuses a side with a single observation, by an error or nan depending on its version; here
the statistic is any function of the two sides.) -/
def rsaEntry (cvm : List α → List α → α) (col y : List α) (bins : Nat) (target : RsaTarget) (s : Nat) :
    Num α :=
  let t := match target with | .X => col | .Y => y
  let mArr := match target with | .X => y | .Y => col
  let b := rsaBin t bins s
  if hasSamples y b then
    some (cvm (b.map fun i => mArr.getD i 0) ((rowsNot t.length b).map fun i => mArr.getD i 0))
  else none

/-- `rsa(X, y, bins, target)`: `rsa.py` 141-175, as a list of columns (one per parameter). -/
def rsaColumns (cvm : List α → List α → α) (X : Mat α) (y : List α) (D bins : Nat) (target : RsaTarget) :
    Py (List (List (Num α))) := do
  if bins = 0 then .error .zeroDivisionError
  else (List.range D).mapM fun d => do
    let col ← inputColumn X d
    if y.length ≠ X.length then .error .indexError
    else return (List.range bins).map fun s => rsaEntry cvm col y bins target s

/-- `np.nanmean` of one row. -/
def npNanMean (l : List (Num α)) : Num α := npMean (l.filterMap id)

/-- `analyze`: `rsa.py` 110-138.  Result: columns and names.  The mask `groups == grp` (120) has one entry per
group name, so it fits the columns only when there are as many groups as columns.  `D` is `X.shape[1]`. -/
def rsaAnalyze (cvm : List α → List α → α) (pb : Problem α) (X : Mat α) (y : List α) (D bins : Nat)
    (target : RsaTarget) : Py (List (List (Num α)) × List String) := do
  let results ← rsaColumns cvm X y D bins target
  let names := (extractGroupNames pb).1
  match checkGroups pb with
  | none => do
    let cols ← (List.range names.length).mapM fun i => pyGet results i
    return (cols, names)
  | some _ =>
    if names.length ≠ D then .error .indexError
    else return (names.map fun g =>
      let cols := ((results.zip names).filter fun p => p.2 = g).map (·.1)
      (List.range bins).map fun s => npNanMean (cols.map fun c => c.getD s none), names)

end SALib
