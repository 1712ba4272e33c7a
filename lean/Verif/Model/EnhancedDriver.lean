import Verif.Model.EnhancedFit
import Verif.Model.EnhancedOrth
import Verif.Model.HdmrDriver

/-! # `SALib.analyze.enhanced_hdmr`: the analysis as a whole

`_basis_matrix` (first-order columns), `_fanova` and `analyze`, on top of the functions modelled in `EnhancedHdmr`,
`EnhancedOrth`, `EnhancedFit` and `HdmrDriver`. -/

namespace SALib

/-- A nan in the basis matrix makes the fit raise. -/
def nanRaises {β : Type} : Num β → Py β
  | some c => .ok c
  | none => .error .valueError

/-- The first-order columns of `_basis_matrix`, for all rows: `enhanced_hdmr.py` 644-658.  A constant column or a
polynomial that does not exist gives nan in the basis matrix, on which both `scipy.linalg.solve` (`check_finite`) and
`numpy.linalg.pinv` (no convergence) raise a `ValueError`: it is counted as raised here. -/
noncomputable def ehFirst (p d : Nat) (X : Mat ℝ) : Py (Mat ℝ) := do
  let cols ← (List.range d).mapM fun i => normColumn (X.map fun row => row.getD i 0)
  let coeff ← cols.mapM fun xs => (List.range p).mapM fun j => nanRaises (orthCoeffs xs j)
  return (List.range X.length).map fun r =>
    ehFirstCols p d (fun j i => (coeff.getD i []).getD j []) (cols.map fun c => c.getD r 0)

variable {α : Type} [Field α] [LinearOrder α]

/-- `b_m[:, s + i * w : s + (i + 1) * w]` for `i = 0, …, n - 1`: the slices of 1045-1060, 1137-1152 of the columns handed
over in 863-876. -/
def ehBlocks (B : Mat α) (s w n : Nat) : List (Mat α) :=
  (List.range n).map fun i => B.map fun row => colSlice row (s + i * w) (s + (i + 1) * w)

/-- `Y_idx -= np.mean(Y_idx)`: 847-850. -/
def centre (y : List α) : List α := y.map fun v => v - y.sum / (y.length : α)

/-- The fit without the extended base, the column `hdmr.x[:, t]`: 858-876.  `_third_order` is called without its last
argument, a `TypeError`. -/
def ehPlain (solve : Mat α → List α → Py (List α)) (subset d p o : Nat) (lam : α) (maxIter : Nat) (B : Mat α)
    (y : List α) : Py (List α) := do
  let s1 ← ehOrder solve (subset : α) p lam maxIter (ehBlocks B 0 p d) y
  if o > 1 then
    let s2 ← ehOrder solve (subset : α) (ehNt p o false).2.1 lam maxIter
      (ehBlocks B (p * d) (ehNt p o false).2.1 (ehNc d o).2.1) s1.2
    if o = 3 then .error .typeError else return s1.1.flatten ++ s2.1.flatten
  else return s1.1.flatten

/-- `hdmr.x[:, t]`: 852-876; `morph` stands for `_cost_matrix` and `_d_morph` (`Model/DMorph.lean`). -/
def ehSolution (solve : Mat α → List α → Py (List α)) (morph : Mat α → List α → Py (List α)) (subset d p o : Nat)
    (lam : α) (maxIter : Nat) (ext : Bool) (B : Mat α) (y : List α) : Py (List α) :=
  if ext then morph B y else ehPlain solve subset d p o lam maxIter B y

/-- `_comp_func` for all rows, the columns of `Y_e`: 1237-1292. -/
def ehColumns (d p o : Nat) (ext : Bool) (B : Mat α) (x : List α) : List (List α) :=
  (List.range ((ehNc d o).1 + (ehNc d o).2.1 + (ehNc d o).2.2)).map fun j =>
    B.map fun row => (ehComp d p o ext row x).getD j 0

/-- Pass `t` of the loop of `_fanova`: 845-885; `idx` is `hdmr.idx[:, t]`. -/
def ehPass (solve : Mat α → List α → Py (List α)) (morph : Mat α → List α → Py (List α)) (fppf : Nat → Nat → Option α)
    (subset d p o : Nat) (lam : α) (maxIter : Nat) (ext : Bool) (B : Mat α) (Y : List α) (idx : List Nat) :
    Py (HdmrPass α) := do
  let y := centre (takeIdx Y idx)
  let x ← ehSolution solve morph subset d p o lam maxIter ext (pickRows idx B) y
  let Ye := ehColumns d p o ext (pickRows idx B) x
  return {
    indices := (List.range ((ehNc d o).1 + (ehNc d o).2.1 + (ehNc d o).2.2)).map (ehAncova y Ye)
    select := ehFTest fppf y Ye subset d p o ext }

/-- `analyze`: 198-237.  `first` gives the first-order columns of the basis matrix (`ehFirst`), `perm k` column `k` of
`np.argsort(np.random.rand(N, bootstrap), axis=0)` (496-501), `mult` the normal quantile of 1427-1432; `d` is
`X.shape[1]` and `xb` the extremes of the columns. -/
def ehAnalyze (sqrt : α → α) (mult : α) (solve : Mat α → List α → Py (List α)) (morph : Mat α → List α → Py (List α))
    (fppf : Nat → Nat → Option α) (perm : Nat → List Nat) (first : Mat α → Py (Mat α)) (pb : EhProblem α) (X : Mat α)
    (d : Nat) (xb : List (List α)) (Y : List α) (o p K : Nat) (subset : Option Int) (maxIter : Nat) (lam alpha : α)
    (ext print : Bool) : Py (HdmrResult α × Option (HdmrPrint α)) := do
  let chk ← ehCheck pb X.length d Y.length xb o p K subset maxIter lam alpha ext
  let term ← ehLabels chk.1.1 d o
  let cols ← first X
  let passes ← (List.range K).mapM fun k =>
    ehPass solve morph fppf chk.2.toNat d p o lam maxIter ext (cols.map (ehBasisRow p d o ext)) Y
      (hdmrRows perm X.length K chk.2.toNat k)
  let r ← ehFinalize sqrt mult term d o (passes.map (·.indices)) (passes.map (·.select))
  return if print then (dropSums r, some (ehPrint r)) else (r, none)

end SALib
