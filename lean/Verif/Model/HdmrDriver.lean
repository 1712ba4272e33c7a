import Verif.Model.Hdmr
import Verif.Model.EnhancedHdmr
import Verif.Model.Tables

/-! # HDMR: the loop over the resamples, the results and the printed report

`src/SALib/analyze/hdmr.py` (`analyze`, `_compute`, `_finalize`, `to_df`, `_print`) and the same parts of
`src/SALib/analyze/enhanced_hdmr.py`.  Arrays with a column per fit are stored as the list of the columns.  Run times, the
stored data and the layout of the printed lines are left out. -/

namespace SALib

variable {α : Type} [Field α] [LinearOrder α]

/-- `np.sum` of an array that may contain nan. -/
def numSum (l : List (Num α)) : Num α := (l.mapM id).map List.sum

/-- `np.std` (`ddof=0`) of an array that may contain nan. -/
def numStd (sqrt : α → α) (l : List (Num α)) : Num α := (l.mapM id).bind (npStd0 sqrt)

/-- `mult * np.std(l)`, half the width of an interval. -/
def halfWidth (sqrt : α → α) (mult : α) (l : List (Num α)) : Num α := (numStd sqrt l).map fun s => mult * s

/-- The rows of fit `k`: `hdmr.py` 379-384.  `perm k` is column `k` of `np.argsort(np.random.rand(N, K), axis=0)`. -/
def hdmrRows (perm : Nat → List Nat) (N K R k : Nat) : List Nat := if K = 1 then List.range N else (perm k).take R

/-- `B[idx, :]`: `hdmr.py` 308, 321, 333. -/
def pickRows (idx : List Nat) (B : Mat α) : Mat α := idx.map fun i => B.getD i []

/-- What a fit leaves: the columns `[:, k]` of `SA["S"]`, `SA["Sa"]`, `SA["Sb"]` as triples, and of `Em["select"]`. -/
structure HdmrPass (α : Type) where
  indices : List (Num α × Num α × Num α)
  select : List Bool
  deriving DecidableEq

/-- `ancova` with the variance of 298: `hdmr.py` 298, 365-367. -/
def hdmrIndices (Y : List α) (Yem : List (List α)) (n : Nat) : List (Num α × Num α × Num α) :=
  (List.range n).map fun j => match npVar Y with
    | some V => hdmrAncova Y Yem V j
    | none => (none, none, none)

/-- Pass `k` of the loop: `hdmr.py` 291-369. -/
def hdmrPass (reg : Mat α → Mat α) (fppf : Nat → Nat → Option α) (m d maxorder maxiter R : Nat) (B1 B2 B3 : List (Mat α))
    (Y : List α) (idx : List Nat) : HdmrPass α :=
  let Yid := takeIdx Y idx
  let fit := hdmrFit reg maxorder maxiter (B1.map (pickRows idx)) (B2.map (pickRows idx)) (B3.map (pickRows idx)) Yid R
  { indices := hdmrIndices Yid fit.Yem (hdmrN d maxorder)
    select := hdmrFTest fppf Yid fit.f0 fit.Yem R (m + 3) ((m + 3) ^ 2) ((m + 3) ^ 3) d (hdmrC2 d maxorder).length }

/-- The six entries for the sums. -/
structure HdmrSums (α : Type) where
  Sa : Num α
  SaConf : Num α
  Sb : Num α
  SbConf : Num α
  S : Num α
  SConf : Num α
  deriving DecidableEq

/-- The result of an HDMR analysis.  `marks` is `Si["select"]` (`Si["Signf"]` of `enhanced_hdmr`); `sums = none`: the six
keys are not there (any more). -/
structure HdmrResult (α : Type) where
  term : List String
  Sa : List (Num α)
  SaConf : List (Num α)
  Sb : List (Num α)
  SbConf : List (Num α)
  S : List (Num α)
  SConf : List (Num α)
  ST : List (Num α)
  STconf : List (Num α)
  marks : List (Num α)
  sums : Option (HdmrSums α)
  deriving DecidableEq

/-- The values of term `j` in the fits (row `j` of the arrays of `hdmr.py` 784-794); `f` picks one of the three indices. -/
def perFit (f : Num α × Num α × Num α → Num α) (SA : List (List (Num α × Num α × Num α))) (j : Nat) : List (Num α) :=
  SA.map fun col => f (col.getD j (none, none, none))

/-- `np.mean(A, axis=1)`: `hdmr.py` 784-786. -/
def termMeans (f : Num α × Num α × Num α → Num α) (SA : List (List (Num α × Num α × Num α))) (n : Nat) : List (Num α) :=
  (List.range n).map fun j => npMeanN (perFit f SA j)

/-- `mult * np.std(A, axis=1)`: `hdmr.py` 792-794. -/
def termWidths (sqrt : α → α) (mult : α) (f : Num α × Num α × Num α → Num α)
    (SA : List (List (Num α × Num α × Num α))) (n : Nat) : List (Num α) :=
  (List.range n).map fun j => halfWidth sqrt mult (perFit f SA j)

/-- `np.mean(np.sum(A, axis=0))`: `hdmr.py` 787-789. -/
def sumMean (f : Num α × Num α × Num α → Num α) (SA : List (List (Num α × Num α × Num α))) : Num α :=
  npMeanN (SA.map fun col => numSum (col.map f))

/-- `mult * np.std(np.sum(A))`, `hdmr.py` 795-797: the sum is over both axes, the standard deviation that of one number. -/
def sumWidth (sqrt : α → α) (mult : α) (f : Num α × Num α × Num α → Num α)
    (SA : List (List (Num α × Num α × Num α))) : Num α :=
  halfWidth sqrt mult [numSum (SA.flatten.map f)]

/-- `TS` of an input, `hdmr.py` 747-756: the indices `S` of the terms `rows` added up, per fit. -/
def totalPerFit (rows : List Nat) (SA : List (List (Num α × Num α × Num α))) : List (Num α) :=
  SA.map fun col => numSum (rows.map fun i => (col.getD i (none, none, none)).1)

/-- Entries of the total indices, `hdmr.py` 732-737, 757-758: nan beyond the inputs. -/
def totalEntries (g : List (Num α) → Num α) (rows : Nat → List Nat) (SA : List (List (Num α × Num α × Num α)))
    (d n : Nat) : List (Num α) :=
  (List.range n).map fun j => if j < d then g (totalPerFit (rows j) SA) else none

/-- The marker of a selected term, an entry of the result of `f_test`: `hdmr.py` 343-356. -/
def selectMark (b : Bool) : α := if b then 1 else 0

/-- `_finalize`: `hdmr.py` 711-805; `mult` is the normal quantile of 739-744.  `flatten` (800) goes through the terms, and
for each through the fits. -/
def hdmrFinalize (sqrt : α → α) (mult : α) (names : List String) (d maxorder : Nat) (passes : List (HdmrPass α)) :
    Py (HdmrResult α) := do
  let n := hdmrN d maxorder
  let SA := passes.map (·.indices)
  let term ← hdmrLabels names d maxorder
  return {
    term := term
    Sa := termMeans (·.2.1) SA n
    SaConf := termWidths sqrt mult (·.2.1) SA n
    Sb := termMeans (·.2.2) SA n
    SbConf := termWidths sqrt mult (·.2.2) SA n
    S := termMeans (·.1) SA n
    SConf := termWidths sqrt mult (·.1) SA n
    ST := totalEntries npMeanN (hdmrTotalRows d maxorder) SA d n
    STconf := totalEntries (halfWidth sqrt mult) (hdmrTotalRows d maxorder) SA d n
    marks := (List.range n).flatMap fun j => passes.map fun p => some (selectMark (p.select.getD j false))
    sums := some {
      Sa := sumMean (·.2.1) SA
      SaConf := sumWidth sqrt mult (·.2.1) SA
      Sb := sumMean (·.2.2) SA
      SbConf := sumWidth sqrt mult (·.2.2) SA
      S := sumMean (·.1) SA
      SConf := sumWidth sqrt mult (·.1) SA } }

/-- A line of the printed table; `total = none`: the line has no total index. -/
structure HdmrLine (α : Type) where
  term : String
  Sa : Num α × Num α
  Sb : Num α × Num α
  S : Num α × Num α
  total : Option (Num α × Num α)
  mark : Num α
  deriving DecidableEq

/-- What `_print` shows: the lines of the terms, and the line of the sums. -/
structure HdmrPrint (α : Type) where
  lines : List (HdmrLine α)
  sums : Option (HdmrSums α)
  deriving DecidableEq

/-- `_print`: `hdmr.py` 942-999 and `enhanced_hdmr.py` 1519-1576; the first `d` lines have the total index. -/
def printReport (r : HdmrResult α) (d : Nat) : HdmrPrint α :=
  { lines := (List.range r.Sa.length).map fun i =>
      { term := r.term.getD i ""
        Sa := (r.Sa.getD i none, r.SaConf.getD i none)
        Sb := (r.Sb.getD i none, r.SbConf.getD i none)
        S := (r.S.getD i none, r.SConf.getD i none)
        total := if i < d then some (r.ST.getD i none, r.STconf.getD i none) else none
        mark := r.marks.getD i none }
    sums := r.sums }

/-- `_print` removes the sums from the result: `hdmr.py` 1000-1002, `enhanced_hdmr.py` 1578-1580. -/
def dropSums (r : HdmrResult α) : HdmrResult α := { r with sums := none }

/-- `analyze`: `hdmr.py` 179-198.  `d` is `X.shape[1]`; `mult`, `reg`, `fppf`, `perm` as in the parts. -/
def hdmrAnalyze (sqrt : α → α) (mult : α) (reg : Mat α → Mat α) (fppf : Nat → Nat → Option α) (perm : Nat → List Nat)
    (pb : Problem α) (X : Mat α) (d : Nat) (Y : List α) (maxorder maxiter m K : Nat) (R : Option Nat)
    (alpha lambdax : α) (print : Bool) : Py (HdmrResult α × Option (HdmrPrint α)) := do
  let R ← hdmrSettings X.length d Y.length maxorder maxiter m K (R.map fun r : Nat => (r : Int)) alpha lambdax
  let B ← hdmrBasis m d maxorder X
  let passes := (List.range K).map fun k =>
    hdmrPass reg fppf m d maxorder maxiter R.toNat B.1 B.2.1 B.2.2 Y (hdmrRows perm X.length K R.toNat k)
  let r ← hdmrFinalize sqrt mult pb.names d maxorder passes
  return if print then (dropSums r, some (printReport r pb.numVars)) else (r, none)

/-- `to_df`: `hdmr.py` 917-931 and `enhanced_hdmr.py` 1480-1494. -/
def hdmrDf (r : HdmrResult α) : Py (Table (Num α)) :=
  dataFrame [("Sa", r.Sa), ("Sa_conf", r.SaConf), ("Sb", r.Sb), ("Sb_conf", r.SbConf), ("S", r.S), ("S_conf", r.SConf),
    ("ST", r.ST), ("ST_conf", r.STconf)] r.term

/-! ## Enhanced HDMR -/

/-- `_finalize`: `enhanced_hdmr.py` 1408-1477; `term` is `Si["Term"]`, `SA` the columns of the arrays of indices, `signf`
those of `Si["Signf"]`.  The sums are taken after the averaging (1458-1464). -/
def ehFinalize (sqrt : α → α) (mult : α) (term : List String) (d o : Nat)
    (SA : List (List (Num α × Num α × Num α))) (signf : List (List Bool)) : Py (HdmrResult α) := do
  let n := (ehNc d o).1 + (ehNc d o).2.1 + (ehNc d o).2.2
  let rows ← (List.range d).mapM (ehTotalRows d o)
  return {
    term := term
    Sa := termMeans (·.2.1) SA n
    SaConf := termWidths sqrt mult (·.2.1) SA n
    Sb := termMeans (·.2.2) SA n
    SbConf := termWidths sqrt mult (·.2.2) SA n
    S := termMeans (·.1) SA n
    SConf := termWidths sqrt mult (·.1) SA n
    ST := totalEntries npMeanN (rows.getD · []) SA d n
    STconf := totalEntries (halfWidth sqrt mult) (rows.getD · []) SA d n
    marks := (List.range n).map fun j =>
      (npMean (signf.map fun col => selectMark (col.getD j false))).map fun x => 100 * x
    sums := some {
      Sa := numSum (termMeans (·.2.1) SA n)
      SaConf := sumWidth sqrt mult (·.2.1) SA
      Sb := numSum (termMeans (·.2.2) SA n)
      SbConf := sumWidth sqrt mult (·.2.2) SA
      S := numSum (termMeans (·.1) SA n)
      SConf := sumWidth sqrt mult (·.1) SA } }

/-- `d = np.isnan(Si["ST"]).sum()`, then the lines: `enhanced_hdmr.py` 1519-1576. -/
def ehPrint (r : HdmrResult α) : HdmrPrint α := printReport r (r.ST.filter fun v => v.isNone).length

end SALib
