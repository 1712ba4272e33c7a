import Verif.Model.FloatDgsm
import Verif.Model.Saltelli
import Verif.Model.SobolAnalyze

/-! # Saltelli samples and Sobol indices with their rounding

`src/SALib/sample/saltelli.py`, `src/SALib/sample/sobol.py`, `src/SALib/analyze/sobol.py` -/

namespace SALib

/-! ### Samples -/

/-- `saltelli.sample(problem, N, calc_second_order, skip_values)` of a problem without distributions:
`saltelli.py` 12-203.  `L` is the number of bits that `sobol_sequence.sample` computes. -/
def saltelliSampleFl (F : Fmt) (directions : List (List Nat)) (L : Nat) (pb : Problem ℚ) (N : Nat)
    (second : Bool) (skip : Option Int) : Py (Mat ℚ) := do
  let skip ← saltelliSkip N skip
  let D := pb.numVars
  let base ← sobolSequenceFl F directions L (N + skip) (2 * D)
  let S ← crossSample second D N skip (checkGroups pb) base
  scaleUniformFl F D S pb.bounds

/-- `sobol.sample(problem, N, calc_second_order=..., skip_values=...)` of a problem without distributions:
`sample/sobol.py` 11-189.  `engine skip n d` stands for the points of SciPy's `qmc.Sobol` as in `sobolSample`. -/
def sobolSampleFl (F : Fmt) (engine : Nat → Nat → Nat → Mat ℚ) (pb : Problem ℚ) (N : Nat) (second : Bool)
    (skip : Int) : Py (Mat ℚ) := do
  let D := pb.numVars
  if skip < 0 then .error .valueError
  if 0 < skip ∧ N = 0 then .error .valueError
  let S ← crossSample second D N 0 (checkGroups pb) (engine skip.toNat N (2 * D))
  scaleUniformFl F D S pb.bounds

/-! ### Indices -/

/-- `np.ptp(l) == 0`, largest minus smallest entry; `np.ptp` of an empty array is an error and not reached. -/
def ptpZeroFl (F : Fmt) : List ℚ → Bool
  | [] => false
  | x :: xs => decide (fsub F (xs.foldl max x) (xs.foldl min x) = 0)

/-- A quotient; nan or infinite if the divisor is 0. -/
def ratioFl (F : Fmt) (m v : ℚ) : Num ℚ := if v = 0 then none else some (fdiv F m v)

/-- `np.mean(B * (AB - A), axis=0) / np.var(y, axis=0)`: `analyze/sobol.py` 219, one column. -/
def firstRatioFl (F : Fmt) (order : Nat → SumTree) (A AB B : List ℚ) : Num ℚ := do
  let m ← meanFl F order (List.zipWith (fmul F) B (List.zipWith (fsub F) AB A))
  let v ← varFl F order (A ++ B)
  ratioFl F m v

/-- `0.5 * np.mean((A - AB) ** 2, axis=0) / np.var(y, axis=0)`: `analyze/sobol.py` 232, one column. -/
def totalRatioFl (F : Fmt) (order : Nat → SumTree) (A AB B : List ℚ) : Num ℚ := do
  let m ← meanFl F order ((List.zipWith (fsub F) A AB).map fun d => fmul F d d)
  let v ← varFl F order (A ++ B)
  ratioFl F (fmul F (1 / 2) m) v

/-- `np.mean(BAj * ABk - A * B, axis=0) / np.var(y, axis=0)`: `analyze/sobol.py` 242, one column. -/
def crossRatioFl (F : Fmt) (order : Nat → SumTree) (A ABk BAj B : List ℚ) : Num ℚ := do
  let m ← meanFl F order (List.zipWith (fsub F) (List.zipWith (fmul F) BAj ABk) (List.zipWith (fmul F) A B))
  let v ← varFl F order (A ++ B)
  ratioFl F m v

/-- `first_order(A, AB, B)` on vectors: `analyze/sobol.py` 209-219. -/
def firstOrderFl (F : Fmt) (order : Nat → SumTree) (A AB B : List ℚ) : Num ℚ :=
  if ptpZeroFl F (A ++ B) then some 0 else firstRatioFl F order A AB B

/-- `total_order(A, AB, B)` on vectors: `analyze/sobol.py` 222-232. -/
def totalOrderFl (F : Fmt) (order : Nat → SumTree) (A AB B : List ℚ) : Num ℚ :=
  if ptpZeroFl F (A ++ B) then some 0 else totalRatioFl F order A AB B

/-- `Vjk - Sj - Sk`: `analyze/sobol.py` 246. -/
def subSubFl (F : Fmt) (V Sj Sk : Num ℚ) : Num ℚ := do
  let V ← V
  let Sj ← Sj
  let Sk ← Sk
  return fsub F (fsub F V Sj) Sk

/-- `second_order(A, ABj, ABk, BAj, B)` on vectors: `analyze/sobol.py` 235-246. -/
def secondOrderFl (F : Fmt) (order : Nat → SumTree) (A ABj ABk BAj B : List ℚ) : Num ℚ :=
  if ptpZeroFl F (A ++ B) then some 0
  else subSubFl F (crossRatioFl F order A ABk BAj B) (firstOrderFl F order A ABj B) (firstOrderFl F order A ABk B)

/-- `np.ptp(np.r_[A[r], B[r]]) == 0` over the whole 2-d array. -/
def ptpZero2Fl (F : Fmt) (A B : List (List ℚ)) : Bool := ptpZeroFl F (A.flatten ++ B.flatten)

/-- `first_order` on 2-d input (columns): `analyze/sobol.py` 214-219 with `axis=0`. -/
def firstOrderRFl (F : Fmt) (order : Nat → SumTree) (A AB B : List (List ℚ)) : Est ℚ :=
  if ptpZero2Fl F A B then .scalarZero
  else .vec (List.zipWith (fun a (p : List ℚ × List ℚ) => firstRatioFl F order a p.1 p.2) A (AB.zip B))

/-- `total_order` on 2-d input (columns): `analyze/sobol.py` 227-232 with `axis=0`. -/
def totalOrderRFl (F : Fmt) (order : Nat → SumTree) (A AB B : List (List ℚ)) : Est ℚ :=
  if ptpZero2Fl F A B then .scalarZero
  else .vec (List.zipWith (fun a (p : List ℚ × List ℚ) => totalRatioFl F order a p.1 p.2) A (AB.zip B))

/-- `second_order` on 2-d input (columns): `analyze/sobol.py` 237-246 with `axis=0`.  The inner calls
of `first_order` see the same `A` and `B`, so their constant branch is not taken. -/
def secondOrderRFl (F : Fmt) (order : Nat → SumTree) (A ABj ABk BAj B : List (List ℚ)) : Est ℚ :=
  if ptpZero2Fl F A B then .scalarZero
  else .vec (List.zipWith (fun (p : List ℚ × List ℚ) (q : (List ℚ × List ℚ) × List ℚ) =>
    subSubFl F (crossRatioFl F order p.1 q.1.2 q.2 p.2) (firstRatioFl F order p.1 q.1.1 p.2)
      (firstRatioFl F order p.1 q.1.2 p.2)) (A.zip B) ((ABj.zip ABk).zip BAj))

/-- `est.std(ddof=1)`: nan for the scalar. -/
def Est.std1Fl (F : Fmt) (order : Nat → SumTree) (sqrt : ℚ → ℚ) : Est ℚ → Num ℚ
  | .scalarZero => none
  | .vec vs => std1FlN F order sqrt vs

/-- `Y = (Y - Y.mean()) / Y.std()`: `analyze/sobol.py` 141.  `none`: a deviation of 0; every entry is then
nan or infinite, the variance of `A` and `B` is nan and so are all results. -/
def normaliseFl (F : Fmt) (order : Nat → SumTree) (sqrt : ℚ → ℚ) (Y : List ℚ) : Num (List ℚ) := do
  let m ← meanFl F order Y
  let s ← std0Fl F order sqrt Y
  if s = 0 then none else some (Y.map fun y => fdiv F (fsub F y m) s)

/-- The serial branch without `keep_resamples`: `analyze/sobol.py` 147-182, as `serialIndices`.  `order` is
the order of sums over vectors, `orderR` over the columns of the resampled arrays. -/
def serialIndicesFl (F : Fmt) (order orderR : Nat → SumTree) (sqrt : ℚ → ℚ) (Z : ℚ) (s : Separated ℚ)
    (r : List (List Nat)) (D : Nat) (second : Bool) : SobolResult ℚ :=
  let Ar := resample s.A r
  let Br := resample s.B r
  let AB := fun j => s.AB.getD j []
  let BA := fun j => s.BA.getD j []
  let ABr := fun j => resample (AB j) r
  let BAr := fun j => resample (BA j) r
  let conf := fun (e : Est ℚ) => if ptpZero2Fl F Ar Br then some 0 else (e.std1Fl F order sqrt).map (fmul F Z)
  { S1 := (List.range D).map fun j => firstOrderFl F order s.A (AB j) s.B
    S1conf := (List.range D).map fun j => conf (firstOrderRFl F orderR Ar (ABr j) Br)
    ST := (List.range D).map fun j => totalOrderFl F order s.A (AB j) s.B
    STconf := (List.range D).map fun j => conf (totalOrderRFl F orderR Ar (ABr j) Br)
    S1all := none
    STall := none
    S2 := if second then
        some ((List.range D).map fun j => (List.range D).map fun k =>
          if j < k then secondOrderFl F order s.A (AB j) (AB k) (BA j) s.B else none)
      else none
    S2conf := if second then
        some ((List.range D).map fun j => (List.range D).map fun k =>
          if j < k then
            ((secondOrderRFl F orderR Ar (ABr j) (ABr k) (BAr j) Br).std1Fl F order sqrt).map (fmul F Z)
          else none)
      else none }

/-- `sobol.analyze` without `parallel` and `keep_resamples`: `analyze/sobol.py` 113-206.  `Z` is
`norm.ppf(0.5 + conf_level / 2)`, `r` holds the resample draws as in `sobolAnalyze`. -/
def sobolAnalyzeFl (F : Fmt) (order orderR : Nat → SumTree) (sqrt : ℚ → ℚ) (Z : ℚ) (pb : Problem ℚ) (Y : List ℚ)
    (second : Bool) (conf : ℚ) (r : List (List Nat)) : Py (SobolResult ℚ) := do
  let (D, N) ← sobolCheck pb Y.length second conf
  if N = 0 ∨ r.length = 0 then .error .valueError
  match normaliseFl F order sqrt Y with
  | none => return nanResult D r.length false second
  | some Y => do
    let s ← separateOutputValues Y D N second
    return serialIndicesFl F order orderR sqrt Z s r D second

end SALib
