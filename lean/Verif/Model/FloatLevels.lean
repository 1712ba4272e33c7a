import Verif.Model.Float
import Verif.Model.Pawn

/-! # Quantile levels of PAWN and RSA with rounding

`pawn.py` 115-119 and `rsa.py` 127, 145, 163 take quantiles at the levels `np.arange(0, 1 + step, step)` and
`np.arange(0.0, 1.0, 1 / bins)`.  NumPy computes the number of levels by a rounded division, so the levels are
modelled here with the rounding of every operation.  The quantiles at these levels and everything after them are
exact. -/

namespace SALib

/-- `np.arange(start, stop, step)` of floats (NumPy, outside /repo): `ceil((stop - start) / step)` entries, the first
two are `start` and `start + step`, entry `i` is `start + i * delta` with the difference `delta` of these two. -/
def arangeFl (F : Fmt) (start stop step : ℚ) : List ℚ :=
  let next := fadd F start step
  let delta := fsub F next start
  (List.range ⌈fdiv F (fsub F stop start) step⌉.toNat).map fun (i : Nat) =>
    if i = 0 then start else if i = 1 then next else fadd F start (fmul F i delta)

/-- `np.quantile(l, q)` with linear interpolation at the position `q · (n - 1)`. -/
def quantileAt (l : List ℚ) (q : ℚ) : ℚ :=
  let v := q * ((l.length - 1 : Nat) : ℚ)
  let a := (npSort l).getD ⌊v⌋.toNat 0
  a + (v - ⌊v⌋) * ((npSort l).getD (⌊v⌋.toNat + 1) a - a)

/-- `np.quantile(l, qs)`, `np.nanquantile(l, qs)`: a level outside `[0, 1]` raises `ValueError`. -/
def npQuantiles (l qs : List ℚ) : Py (List ℚ) :=
  if qs.any fun q => decide (q < 0) || decide (1 < q) then .error .valueError else .ok (qs.map (quantileAt l))

/-- `seq` of PAWN: `pawn.py` 115, 117. -/
def pawnLevels (F : Fmt) (S : Nat) : List ℚ :=
  let step := fdiv F 1 S
  arangeFl F 0 (fadd F 1 step) step

/-- `temp_pawn[:, d_i]`: `pawn.py` 117-135. -/
def pawnColumnFl (F : Fmt) (X Y : List ℚ) (S : Nat) : Py (List (Num ℚ)) := do
  let edges ← npQuantiles X (pawnLevels F S)
  return (List.range S).map fun s =>
    let sel := (pawnSlice edges X s).map fun i => Y.getD i 0
    if sel.length = 0 then none else some (ksStat sel Y)

/-- The loop over the parameters: `pawn.py` 116-144. -/
def pawnParamsFl (F : Fmt) (sqrt : ℚ → ℚ) (pb : Problem ℚ) (X : Mat ℚ) (Y : List ℚ) (S : Nat) :
    Py (List (PawnRow ℚ)) :=
  (List.range pb.numVars).mapM fun d => do
    let col ← inputColumn X d
    let p ← pawnColumnFl F col Y S
    if Y.length ≠ X.length then .error .indexError
    else return pawnRow sqrt p

/-- `analyze`: `pawn.py` 106-175, as `pawnAnalyze`. -/
def pawnAnalyzeFl (F : Fmt) (sqrt : ℚ → ℚ) (pb : Problem ℚ) (X : Mat ℚ) (Y : List ℚ) (S : Nat) :
    Py (List (PawnRow ℚ) × List String) := do
  if S = 0 then .error .zeroDivisionError
  else
    let results ← pawnParamsFl F sqrt pb X Y S
    match checkGroups pb with
    | none => return (results, (extractGroupNames pb).1)
    | some grps =>
      if grps.length ≠ results.length then .error .indexError
      else return ((extractGroupNames pb).1.map fun g =>
          pawnGroupRow (((results.zip grps).filter fun p => p.2 = g).map (·.1)),
        (extractGroupNames pb).1)

/-- `Si["bins"]`: `rsa.py` 127; also the first part of `seq` (145). -/
def rsaLevels (F : Fmt) (bins : Nat) : List ℚ := arangeFl F 0 1 (fdiv F 1 bins)

/-- `quants = np.quantile(t_arr, seq)`: `rsa.py` 145, 163.  No level is outside `[0, 1]`
(`rsaLevels_le_one`). -/
def rsaQuants (F : Fmt) (t : List ℚ) (bins : Nat) : List ℚ := (rsaLevels F bins ++ [1]).map (quantileAt t)

/-- The mask `b` of bin `s`: `rsa.py` 164, 170. -/
def rsaMask (q t : List ℚ) (s : Nat) : List Nat :=
  if s = 0 then whereIdx t fun x => decide (q.getD 0 0 ≤ x) && decide (x ≤ q.getD 1 0)
  else whereIdx t fun x => decide (q.getD s 0 < x) && decide (x ≤ q.getD (s + 1) 0)

/-- Entry `r_s[s, d_i]`: `rsa.py` 163-173. -/
def rsaEntryFl (F : Fmt) (cvm : List ℚ → List ℚ → ℚ) (col y : List ℚ) (bins : Nat) (target : RsaTarget) (s : Nat) :
    Num ℚ :=
  let t := match target with | .X => col | .Y => y
  let mArr := match target with | .X => y | .Y => col
  let b := rsaMask (rsaQuants F t bins) t s
  if hasSamples y b then
    some (cvm (b.map fun i => mArr.getD i 0) ((rowsNot t.length b).map fun i => mArr.getD i 0))
  else none

/-- `rsa(X, y, bins, target)`: `rsa.py` 141-175. -/
def rsaColumnsFl (F : Fmt) (cvm : List ℚ → List ℚ → ℚ) (X : Mat ℚ) (y : List ℚ) (D bins : Nat) (target : RsaTarget) :
    Py (List (List (Num ℚ))) := do
  if bins = 0 then .error .zeroDivisionError
  else (List.range D).mapM fun d => do
    let col ← inputColumn X d
    if y.length ≠ X.length then .error .indexError
    else return (List.range bins).map fun s => rsaEntryFl F cvm col y bins target s

/-- `to_df` on the columns of the results and `Si["bins"]`: `rsa.py` 192-206.  `pd.DataFrame` raises `ValueError` when a
column is not as long as the index.  Result: rows with their labels. -/
def rsaToDf (cols : List (List (Num ℚ))) (index : List ℚ) : Py (List (ℚ × List (Num ℚ))) :=
  if cols.any fun c => decide (c.length ≠ index.length) then .error .valueError
  else .ok (index.zipIdx.map fun p => (p.1, cols.map fun c => c.getD p.2 none))

end SALib
