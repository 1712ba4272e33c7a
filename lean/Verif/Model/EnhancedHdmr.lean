import Verif.Model.Hdmr
import Mathlib.Data.Nat.Choose.Basic

/-! # Enhanced HDMR (`src/SALib/analyze/enhanced_hdmr.py`)

One row of the basis matrix is the list of its entries, written from the left; an entry not yet written is 0.  The
solvers (`_d_morph`, `solve`) and the quantile of the F distribution are parameters. -/

namespace SALib

variable {α : Type} [Field α] [LinearOrder α]

/-! ## Arguments and problem -/

/-- The entries of the problem dictionary that are used; `none` when the key is missing. -/
structure EhProblem (α : Type) where
  names : Option (List String)
  bounds : Option (List (List α))
  numVars : Option Nat
  deriving DecidableEq

/-- The missing entries are filled in: 261-271.  `xb` are the column extremes of `X`. -/
def ehFill (pb : EhProblem α) (d : Nat) (xb : List (List α)) : List String × List (List α) × Nat :=
  (pb.names.getD ((List.range d).map fun i => "x_" ++ toString i), pb.bounds.getD xb, pb.numVars.getD d)

/-- `subset`: 324-334. -/
def ehSubset (N yRow : Nat) (bootstrap : Int) (subset : Option Int) : Py Int :=
  match (if bootstrap = 1 ∧ subset ≠ some (yRow : Int) then some (yRow : Int) else subset) with
  | none => .ok ((yRow / 2 : Nat) : Int)
  | some r => if ¬(300 ≤ r ∧ r < (N : Int) + 1) then .error .valueError else .ok r

/-- `_check_args`: `enhanced_hdmr.py` 240-348, returning the names, bounds and `num_vars` now in the problem and
`subset`.  `max_order` is changed for two parameters (312-314) but not returned, so the caller keeps its own value.
The integer arguments are integers. -/
def ehCheck (pb : EhProblem α) (N d yRow : Nat) (xb : List (List α)) (maxOrder polyOrder bootstrap : Int)
    (subset : Option Int) (maxIter : Int) (l2 alpha : α) (ext : Bool) :
    Py ((List String × List (List α) × Nat) × Int) :=
  if (ehFill pb d xb).2.2 ≠ d then .error .valueError
  else if (ehFill pb d xb).1.length ≠ d then .error .valueError
  else if (ehFill pb d xb).2.1.length ≠ d then .error .valueError
  else if d = 1 then .error .runtimeError
  else if N < 300 then .error .runtimeError
  else if N ≠ yRow then .error .valueError
  else if ¬(maxOrder = 1 ∨ maxOrder = 2 ∨ maxOrder = 3) then .error .valueError
  else if ¬(1 ≤ polyOrder ∧ polyOrder < 11) then .error .valueError
  else if ¬(1 ≤ bootstrap ∧ bootstrap < 101) then .error .valueError
  else do
    let s ← ehSubset N yRow bootstrap subset
    if alpha < 1 / 2 ∨ alpha > 1 then .error .valueError
    else if ext = false ∧ ¬(100 ≤ maxIter ∧ maxIter < 1000) then .error .valueError
    else if l2 < 0 ∨ l2 > 10 then .error .valueError
    else return (ehFill pb d xb, s)

/-- The number of component functions of each order: 480-491. -/
def ehNc (d o : Nat) : Nat × Nat × Nat :=
  (d, if o > 1 then d.choose 2 else 0, if o = 3 then d.choose 3 else 0)

/-- The number of coefficients of each order: 480-494. -/
def ehNt (p o : Nat) (ext : Bool) : Nat × Nat × Nat :=
  (p, if o > 1 then p ^ 2 + (if ext then 2 * p else 0) else 0,
    if o = 3 then p ^ 3 + (if ext then 3 * p + 3 * p ^ 2 else 0) else 0)

/-- `a_tnt`: 550-552. -/
def ehTotal (d p o : Nat) (ext : Bool) : Nat :=
  (ehNt p o ext).1 * (ehNc d o).1 + (ehNt p o ext).2.1 * (ehNc d o).2.1 + (ehNt p o ext).2.2 * (ehNc d o).2.2

/-- One interaction label appended to the list: 598-607, 611-621. -/
def ehAddLabel (names : List String) (c : List Nat) : Py (List String) := do
  let parts ← c.mapM fun i => pyGet names i
  return names ++ ["/".intercalate parts]

/-- The second-order labels: 596-607. -/
def ehLabels2 (names : List String) (d o : Nat) : Py (List String) :=
  if o > 1 then
    (List.range (ehNc d o).2.1).foldlM (fun names i => do
      let c ← pyGet (combinations 2 (List.range d)) i
      ehAddLabel names c) names
  else .ok names

/-- `Si["Term"]`: `enhanced_hdmr.py` 591-621.  `Si["Term"]` and `problem["names"]` are the same list object, so the
result is also the new value of `problem["names"]`. -/
def ehLabels (names : List String) (d o : Nat) : Py (List String) := do
  let names ← ehLabels2 names d o
  if o = 3 then
    (List.range (ehNc d o).2.2).foldlM (fun names i => do
      let c ← pyGet (combinations 3 (List.range d)) i
      ehAddLabel names c) names
  else .ok names

/-! ## Basis -/

/-- `itertools.product(*args)`. -/
def cartProd : List (List Nat) → List (List Nat)
  | [] => [[]]
  | l :: ls => l.flatMap fun a => (cartProd ls).map fun t => a :: t

/-- `frozenset(s) == frozenset(t)`. -/
def sameSet (s t : List Nat) : Bool := s.all (fun x => decide (x ∈ t)) && t.all (fun x => decide (x ∈ s))

/-- `_prod`: `enhanced_hdmr.py` 780-800; the tuples yielded, in order. -/
def prodUnique (args : List (List Nat)) : List (List Nat) :=
  (cartProd args).foldl (fun acc t =>
    if t.dedup.length ≠ t.length then acc
    else if acc.any (fun s => sameSet s t) then acc
    else acc ++ [t]) []

/-- `np.polyval(c, x)` (highest power first). -/
def npPolyval (c : List α) (x : α) : α := c.foldl (fun acc a => acc * x + a) 0

/-- First order columns at one point: 656-659; `coeff j i` is `coeff[j, : j + 2, i]`, `xn` the normalised row. -/
def ehFirstCols (p d : Nat) (coeff : Nat → Nat → List α) (xn : List α) : List α :=
  (List.range d).flatMap fun i => (List.range p).map fun j => npPolyval (coeff j i) (xn.getD i 0)

/-- `b_m[:, s:e]` at one point. -/
def colSlice (b : List α) (s e : Nat) : List α := (b.take e).drop s

/-- Append the columns `s:e`. -/
def appendSlice (b : List α) (s e : Nat) : List α := b ++ colSlice b s e

/-- Product columns: 671-676, 720-728. -/
def appendProducts (p : Nat) (c : List Nat) (b : List α) : List α :=
  (prodUnique (c.map fun i => List.range' (i * p) p)).foldl
    (fun b k => b ++ [(k.map fun l => b.getD l 0).prod]) b

/-- The block of one second-order term: 663-676. -/
def ehPairStep (p : Nat) (ext : Bool) (b : List α) (c : List Nat) : List α :=
  let i := c.getD 0 0
  let j := c.getD 1 0
  let b := if ext then appendSlice (appendSlice b (i * p) ((i + 1) * p)) (j * p) ((j + 1) * p) else b
  appendProducts p c b

/-- The slice copied for the second-order part of a third-order term: 693-718. -/
def ehPairSlice (p d : Nat) (b : List α) (i : Nat) : List α :=
  appendSlice b (p * d + (2 * p) * (i + 1) + i * p ^ 2) (p * d + (i + 1) * (p ^ 2 + 2 * p))

/-- The block of one third-order term: 680-728. -/
def ehTripleStep (p d : Nat) (ext : Bool) (b : List α) (c : List Nat) : List α :=
  let i := c.getD 0 0
  let j := c.getD 1 0
  let k := c.getD 2 0
  let b := if ext then
      ehPairSlice p d (ehPairSlice p d (ehPairSlice p d
        (appendSlice (appendSlice (appendSlice b (i * p) ((i + 1) * p)) (j * p) ((j + 1) * p)) (k * p) ((k + 1) * p))
        i) j) k
    else b
  appendProducts p c b

/-- `_basis_matrix` at one point, from its first-order columns: `enhanced_hdmr.py` 661-730. -/
def ehBasisRow (p d o : Nat) (ext : Bool) (b : List α) : List α :=
  let b := if o > 1 then (prodUnique [List.range (d - 1), List.range' 1 (d - 1)]).foldl (ehPairStep p ext) b else b
  if o = 3 then
    (prodUnique [List.range (d - 2), List.range' 1 (d - 2), List.range' 2 (d - 2)]).foldl (ehTripleStep p d ext) b
  else b

/-! ## Component functions and indices -/

/-- `_comp_func` at one point: `enhanced_hdmr.py` 1237-1292; `x` is the solution (or the mean solution). -/
def ehComp (d p o : Nat) (ext : Bool) (b x : List α) : List α :=
  let yt := List.zipWith (· * ·) b x
  let nc := ehNc d o
  let nt := ehNt p o ext
  let t1 := nt.1 * nc.1
  let t2 := nt.2.1 * nc.2.1
  (List.range nc.1).map (fun i => (colSlice yt (i * p) ((i + 1) * p)).sum) ++
    (if o > 1 then (List.range nc.2.1).map fun i =>
      (colSlice yt (t1 + i * nt.2.1) (t1 + (i + 1) * nt.2.1)).sum else []) ++
    (if o = 3 then (List.range nc.2.2).map fun i =>
      (colSlice yt (t1 + t2 + i * nt.2.2) (t1 + t2 + (i + 1) * nt.2.2)).sum else [])

/-- `_ancova`: `enhanced_hdmr.py` 1295-1355, entry `j` of `(S, Sa, Sb)`. -/
def ehAncova (Y : List α) (Ye : List (List α)) (j : Nat) : Num α × Num α × Num α :=
  let col := Ye.getD j []
  let rest := vecSub (sumColumns Y.length Ye) col
  let over := fun c : Num α => do numDiv c (← npVar Y)
  (over (npCov col Y), over (npCov col col), over (npCov col rest))

/-- Number of coefficients used for term `i`: `enhanced_hdmr.py` 1388-1393. -/
def ehCoeffs (d p o : Nat) (ext : Bool) (i : Nat) : Nat :=
  let nc := ehNc d o
  let nt := ehNt p o ext
  if i < nc.1 then nt.1 else if nc.1 ≤ i ∧ i < nc.1 + nc.2.1 then nt.2.1 else nt.2.2

/-- `_f_test`: `enhanced_hdmr.py` 1358-1405. -/
def ehFTest (fppf : Nat → Nat → Option α) (Y : List α) (Ye : List (List α)) (subset d p o : Nat) (ext : Bool) :
    List Bool :=
  (List.range ((ehNc d o).1 + (ehNc d o).2.1 + (ehNc d o).2.2)).map fun i =>
    fAccept fppf subset (ehCoeffs d p o ext i) (sqNorm Y) (sqNorm (vecSub Y (Ye.getD i [])))

/-- The rows added up for the total index of parameter `r`: `enhanced_hdmr.py` 1437-1446.  Order 1 reads
`hdmr.S`, which does not exist; order 3 compares the number `hdmr.nc3` instead of the array of triples, so that
`np.sum(..., axis=1)` raises `AxisError`, a `ValueError`. -/
def ehTotalRows (d o r : Nat) : Py (List Nat) :=
  if o = 1 then .error .attributeError
  else if o = 2 then .ok (r :: (whereOnce (combinations 2 (List.range d)) r).map (d + ·))
  else .error .valueError

/-- `Si["ST"]` before averaging, for all parameters: 1436-1448; `S` is the list of the bootstrap columns. -/
def ehTS (d o : Nat) (S : List (List α)) : Py (List (List α)) :=
  (List.range d).mapM fun r => do
    let rows ← ehTotalRows d o r
    return S.map fun col => (rows.map fun i => col.getD i 0).sum

/-- The calls of `analyze` after the argument check that do not depend on the numbers: labels (591-621), the call of
`_third_order` without its last argument (870-876), the totals (1436-1448).  `S` stands for the indices computed. -/
def ehRun (names : List String) (d o : Nat) (ext : Bool) (S : List (List α)) :
    Py (List String × List (List α)) := do
  let labels ← ehLabels names d o
  if ext = false ∧ o = 3 then .error .typeError
  else
    let ts ← ehTS d o S
    return (labels, ts)

/-- `emulate`: `enhanced_hdmr.py` 1497-1516 at one point: the component functions with the mean solution added up;
the mean of the output is not added. -/
def ehEmulate (d p o : Nat) (ext : Bool) (b xmean : List α) : α := (ehComp d p o ext b xmean).sum

end SALib
