import Verif.Model.BSpline
import Verif.Model.MorrisOpt
import Verif.Model.MorrisAnalyze
import Verif.Model.FracFact
import Verif.Model.Pawn

/-! # HDMR (`src/SALib/analyze/hdmr.py`)

Arrays with one column per term are stored as the list of their columns.  The linear algebra calls and the quantile
of the F distribution are parameters. -/

namespace SALib

variable {α : Type} [Field α] [LinearOrder α]

/-! ## Settings -/

/-- `_check_settings`: `hdmr.py` 202-282, for a one-dimensional `Y` of `yRow` entries; returns `R`.  `m`, `K`,
`maxiter`, `maxorder` and `R` are integers. -/
def hdmrSettings (N d yRow : Nat) (maxorder maxiter m K : Int) (R : Option Int) (alpha lambdax : α) : Py Int := do
  if d = 1 then .error .runtimeError
  else if N < 300 then .error .runtimeError
  else if N ≠ yRow then .error .runtimeError
  else if ¬(maxorder = 1 ∨ maxorder = 2 ∨ maxorder = 3) then .error .runtimeError
  else if d = 2 ∧ maxorder > 2 then .error .runtimeError
  else if ¬(1 ≤ maxiter ∧ maxiter < 1001) then .error .runtimeError
  else if ¬(1 ≤ m ∧ m < 11) then .error .runtimeError
  else if ¬(1 ≤ K ∧ K < 101) then .error .runtimeError
  else
    let R ← match R with
      | none => (.ok ((yRow / 2 : Nat) : Int) : Py Int)
      | some r => if ¬(300 ≤ r ∧ r < (N : Int) + 1) then .error .runtimeError else .ok r
    let R := if K = 1 ∧ R ≠ (yRow : Int) then (yRow : Int) else R
    if alpha < 1 / 2 ∨ alpha > 1 then .error .runtimeError
    else if lambdax > 10 then .error .runtimeError
    else if lambdax < 0 then .error .runtimeError
    else return R

/-! ## Terms -/

/-- `c2`: `hdmr.py` 400-402. -/
def hdmrC2 (d maxorder : Nat) : List (List Nat) := if maxorder > 1 then combinations 2 (List.range d) else []

/-- `c3`: `hdmr.py` 403-405. -/
def hdmrC3 (d maxorder : Nat) : List (List Nat) := if maxorder = 3 then combinations 3 (List.range d) else []

/-- `n = n1 + n2 + n3`: `hdmr.py` 408. -/
def hdmrN (d maxorder : Nat) : Nat := d + (hdmrC2 d maxorder).length + (hdmrC3 d maxorder).length

/-- `Si["Term"]`: `hdmr.py` 761-781. -/
def hdmrLabels (names : List String) (d maxorder : Nat) : Py (List String) := do
  let l1 ← (List.range d).mapM fun i => pyGet names i
  let l2 ← (hdmrC2 d maxorder).mapM fun c => do
    let a ← pyGet names (c.getD 0 0)
    let b ← pyGet names (c.getD 1 0)
    return "/".intercalate [a, b]
  let l3 ← (hdmrC3 d maxorder).mapM fun c => do
    let a ← pyGet names (c.getD 0 0)
    let b ← pyGet names (c.getD 1 0)
    let e ← pyGet names (c.getD 2 0)
    return "/".intercalate [a, b, e]
  return l1 ++ l2 ++ l3

/-- `np.where(np.sum(c == r, axis=1) == 1)[0]`. -/
def whereOnce (c : List (List Nat)) (r : Nat) : List Nat :=
  (List.range c.length).filter fun i => decide ((c.getD i []).count r = 1)

/-- The rows added up for the total index of parameter `r`: `hdmr.py` 747-756. -/
def hdmrTotalRows (d maxorder r : Nat) : List Nat :=
  if maxorder = 1 then [r]
  else if maxorder = 2 then r :: (whereOnce (hdmrC2 d maxorder) r).map (d + ·)
  else r :: ((whereOnce (hdmrC2 d maxorder) r).map (d + ·) ++
    (whereOnce (hdmrC3 d maxorder) r).map (d + (hdmrC2 d maxorder).length + ·))

/-- `TS` for the bootstrap columns: `S` is the list of the `K` columns of `SA["S"]`. -/
def hdmrTS (d maxorder r : Nat) (S : List (List α)) : List α :=
  S.map fun col => ((hdmrTotalRows d maxorder r).map fun i => col.getD i 0).sum

/-- `Si["ST"][r]`, `Si["ST_conf"][r]`: `hdmr.py` 757-758; `mult` is the normal quantile. -/
def hdmrST (sqrt : α → α) (mult : α) (d maxorder r : Nat) (S : List (List α)) : Num α × Num α :=
  (npMean (hdmrTS d maxorder r S), (npStd0 sqrt (hdmrTS d maxorder r S)).map fun s => mult * s)

/-! ## Basis -/

/-- `X_n`: `hdmr.py` 387 (also 873), one column.  A constant column gives nan, on which the singular value
decomposition raises `ValueError`. -/
def normColumn (l : List α) : Py (List α) :=
  match l with
  | [] => .error .valueError                                     -- `min` of an empty array
  | v :: vs =>
    let lo := vs.foldl min v
    let hi := vs.foldl max v
    if hi - lo = 0 then .error .valueError else .ok (l.map fun x => (x - lo) / (hi - lo))

/-- Row of `B2[:, :, k]` from the two rows of `B1`: `hdmr.py` 446-451 (also 879-883). -/
def basis2 (u v : List α) : List α := u.flatMap fun a => v.map fun b => a * b

/-- Row of `B3[:, :, k]`: `hdmr.py` 456-467 (also 886-893). -/
def basis3 (u v w : List α) : List α := u.flatMap fun a => v.flatMap fun b => w.map fun c => a * b * c

/-- `Em["B1"]`, `Em["B2"]`, `Em["B3"]`: `hdmr.py` 441-467; one matrix per term. -/
def hdmrBasis (m d maxorder : Nat) (X : Mat α) : Py (List (Mat α) × List (Mat α) × List (Mat α)) := do
  let B1 ← (List.range d).mapM fun j => do
    let col ← inputColumn X j
    let coln ← normColumn col
    return coln.map fun x => bSplineRow m x
  let at1 := fun j => B1.getD j []
  let B2 := (hdmrC2 d maxorder).map fun c => List.zipWith basis2 (at1 (c.getD 0 0)) (at1 (c.getD 1 0))
  let B3 := (hdmrC3 d maxorder).map fun c =>
    List.zipWith (fun u vw => basis3 u vw.1 vw.2) (at1 (c.getD 0 0))
      ((at1 (c.getD 1 0)).zip (at1 (c.getD 2 0)))
  return (B1, B2, B3)

/-! ## Fitting -/

/-- `A @ v`. -/
def matVec (A : Mat α) (v : List α) : List α := A.map fun row => dotList row v

def vecSub (u v : List α) : List α := List.zipWith (· - ·) u v

/-- One pass of backfitting: `hdmr.py` 550-556. -/
def backfitSweep (T B : List (Mat α)) (Yres : List α) (C : List (List α)) : List (List α) :=
  (List.range B.length).foldl (fun C j =>
    let Yr := (List.range B.length).foldl (fun y z =>
      if j ≠ z then vecSub y (matVec (B.getD z []) (C.getD z [])) else y) Yres
    C.set j (matVec (T.getD j []) Yr)) C

/-- `np.sum(np.square(C1), axis=0)`. -/
def sumSquares (C : List (List α)) : List α := C.map fun c => (c.map fun x => x * x).sum

/-- The `while` loop: `hdmr.py` 547-561; the fuel is `maxiter - it`.  `varmax` starts as 1. -/
def backfitLoop (T B : List (Mat α)) (Yres : List α) : Nat → α → List (List α) → List (List α)
  | 0, _, C => C
  | it + 1, varmax, C =>
    if varmax > 1 / 1000 then
      let C' := backfitSweep T B Yres C
      let diff := List.zipWith (fun a b => |a - b|) (sumSquares C') (sumSquares C)
      backfitLoop T B Yres it (diff.foldl max 0) C'
    else C

/-- `_first_order`: `hdmr.py` 521-570.  `T j` is the matrix stored in `T1[:, :, j]`: the regularised
least-squares inverse of `B1[:, :, j]`, or whatever the uninitialised memory holds when the singular value test
fails (line 540 has no `else`). -/
def hdmrFirst (T B : List (Mat α)) (Yres : List α) (maxiter : Nat) : List (List α) × List α × List (List α) :=
  let C0 := (List.range B.length).map fun j => matVec (T.getD j []) Yres
  let C := backfitLoop T B Yres maxiter 1 C0
  let Yi := (List.range B.length).map fun j => matVec (B.getD j []) (C.getD j [])
  (Yi, Yi.foldl vecSub Yres, C)

/-- `_second_order`: `hdmr.py` 573-604 (and `_third_order`, 607-633, which does not return the residual). -/
def hdmrHigher (T B : List (Mat α)) (Yres : List α) : List (List α) × List α × List (List α) :=
  let C := (List.range B.length).map fun j => matVec (T.getD j []) Yres
  let Yij := (List.range B.length).map fun j => matVec (B.getD j []) (C.getD j [])
  (Yij, Yij.foldl vecSub Yres, C)

/-- The state of one bootstrap iteration. -/
structure HdmrFit (α : Type) where
  f0 : α
  Yem : List (List α)
  C1 : List (List α)
  C2 : List (List α)
  C3 : List (List α)
  Ye : List α
  deriving DecidableEq

/-- Sum of the columns of `Y_em`, row by row: `np.sum(Y_em, axis=1)`. -/
def sumColumns (R : Nat) (cols : List (List α)) : List α :=
  (List.range R).map fun r => (cols.map fun c => c.getD r 0).sum

/-- One pass of `_compute`: `hdmr.py` 301-359; `B1`, `B2`, `B3` are the basis rows of the resampled points, `reg` the
regularised inverse. -/
def hdmrFit (reg : Mat α → Mat α) (maxorder maxiter : Nat) (B1 B2 B3 : List (Mat α)) (Yid : List α) (R : Nat) :
    HdmrFit α :=
  let f0 := Yid.sum / (R : α)
  let Yres := Yid.map fun y => y - f0
  let first := hdmrFirst (B1.map reg) B1 Yres maxiter
  let second := if maxorder > 1 then hdmrHigher (B2.map reg) B2 first.2.1 else ([], first.2.1, [])
  let third := if maxorder = 3 then hdmrHigher (B3.map reg) B3 second.2.1 else ([], second.2.1, [])
  let Yem := first.1 ++ second.1 ++ third.1
  { f0 := f0
    Yem := Yem
    C1 := first.2.2
    C2 := second.2.2
    C3 := third.2.2
    Ye := (sumColumns R Yem).map fun s => f0 + s }

/-! ## F-test -/

/-- The number of coefficients used for term `i`: `hdmr.py` 650-655. -/
def fTestCoeffs (m1 m2 m3 n1 n2 i : Nat) : Nat :=
  if i ≤ n1 then m1 else if n1 < i ∧ i ≤ n1 + n2 then m2 else m3

/-- Comparison of the statistic with the critical value: `hdmr.py` 657-669 (also `enhanced_hdmr.py` 1395-1403) for the
proposed number of coefficients `p1`.  `fppf dfn dfd` is `stats.f.ppf(alpha, dfn, dfd)`, `none` when infinite or
nan; it is nan when `dfd` is not positive.  With `SSR1 = 0` the statistic is infinite, or nan when also
`SSR0 = 0`. -/
def fAccept (fppf : Nat → Nat → Option α) (R p1 : Nat) (SSR0 SSR1 : α) : Bool :=
  if R ≤ p1 then false
  else match fppf p1 (R - p1) with
    | none => false
    | some crit =>
      if SSR1 = 0 then decide (0 < SSR0)
      else decide (crit < (SSR0 - SSR1) / (p1 : α) / (SSR1 / ((R - p1 : Nat) : α)))

/-- `np.sum(np.square(u))`. -/
def sqNorm (u : List α) : α := (u.map fun x => x * x).sum

/-- `f_test`: `hdmr.py` 636-671. -/
def hdmrFTest (fppf : Nat → Nat → Option α) (Y : List α) (f0 : α) (Yem : List (List α)) (R m1 m2 m3 n1 n2 : Nat) :
    List Bool :=
  let Yres0 := Y.map fun y => y - f0
  (List.range Yem.length).map fun i =>
    fAccept fppf R (fTestCoeffs m1 m2 m3 n1 n2 i) (sqNorm Yres0) (sqNorm (vecSub Yres0 (Yem.getD i [])))

/-! ## Variance decomposition -/

/-- `np.cov(u, v)[0, 1]` (`ddof=1`); nan for fewer than two entries. -/
def npCov (u v : List α) : Num α := do
  let mu ← npMean u
  let mv ← npMean v
  npDiv (List.zipWith (fun a b => (a - mu) * (b - mv)) u v).sum ((u.length : α) - 1)

/-- Division of a possibly-nan number: `x / V`. -/
def numDiv (x : Num α) (V : α) : Num α := do npDiv (← x) V

/-- `ancova`: `hdmr.py` 674-708, entry `j` of `(S, S_a, S_b)`. -/
def hdmrAncova (Y : List α) (Yem : List (List α)) (V : α) (j : Nat) : Num α × Num α × Num α :=
  let col := Yem.getD j []
  let rest := vecSub (sumColumns Y.length Yem) col
  (numDiv (npCov col Y) V, numDiv (npVar col) V, numDiv (npCov col rest) V)

/-! ## Emulation -/

/-- The order recognised from the shape of the coefficient arrays: `hdmr.py` 856-867 (`C2.shape[0] != 1`: the arrays
of unused orders have a single placeholder entry, here they are empty lists). -/
def emulateOrder (C2 C3 : List (List α)) : Nat :=
  if C3.length ≠ 0 then 3 else if C2.length ≠ 0 then 2 else 1

/-- `emulate`: `hdmr.py` 827-914.  `C1`, `C2`, `C3` are the coefficients averaged over the bootstrap; `d` is
`X.shape[1]`, `Ymean` the mean of `Y` or 0.  The inputs are
scaled by the extremes of the rows given here (line 873); an error stands for a constant column, which gives nan. -/
def hdmrEmulate (d : Nat) (C1 C2 C3 : List (List α)) (X : Mat α) (Ymean : α) : Py (List α) := do
  let m := (C1.getD 0 []).length - 3
  let (B1, B2, B3) ← hdmrBasis m d (emulateOrder C2 C3) X
  let Yem := (List.range B1.length).map (fun j => matVec (B1.getD j []) (C1.getD j [])) ++
    (List.range B2.length).map (fun j => matVec (B2.getD j []) (C2.getD j [])) ++
    (List.range B3.length).map (fun j => matVec (B3.getD j []) (C3.getD j []))
  return (sumColumns X.length Yem).map fun s => s + Ymean

/-- Average of the coefficients over the bootstrap iterations, entry by entry: `hdmr.py` 848-850. -/
def meanCoeffs (Cs : List (List (List α))) : List (List α) :=
  match Cs with
  | [] => []
  | C :: rest => (List.range C.length).map fun j =>
    (List.range (C.getD j []).length).map fun a =>
      ((C :: rest).map fun D => (D.getD j []).getD a 0).sum / ((rest.length + 1 : Nat) : α)

end SALib
