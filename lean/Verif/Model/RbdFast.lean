import Verif.Model.Fast

/-! # RBD-FAST: `src/SALib/analyze/rbd_fast.py` -/

namespace SALib

/-- `permute_outputs(X, Y)`: `rbd_fast.py` 107-122.  `argsort` is `np.argsort`. -/
def permuteOutputs {α β : Type} (argsort : List α → List Nat) (X : List α) (Y : List β) : Py (List β) :=
  let p := argsort X
  (strided p 0 2 ++ (strided p 1 2).reverse).mapM fun i => pyGet Y i

/-- `scipy.signal.periodogram(y)` with its defaults (outside /repo): the mean is removed, the spectrum is
one-sided, so every frequency except zero and the Nyquist frequency counts twice. -/
noncomputable def periodogram (y : List ℝ) : List ℝ :=
  let m := y.sum / y.length
  (List.range (y.length / 2 + 1)).map fun k =>
    (if k = 0 ∨ 2 * k = y.length then 1 else 2) * ‖fftEntry (y.map (· - m)) k‖ ^ 2 / y.length

/-- `compute_first_order(permuted_outputs, M)`: `rbd_fast.py` 125-129. -/
noncomputable def rbdFirstOrder (y : List ℝ) (M : Nat) : Num ℝ :=
  let Pxx := periodogram y
  let V := (Pxx.drop 1).sum
  let D1 := ((Pxx.drop 1).take M).sum
  npDiv D1 V

/-- `unskew_S1(S1, M, N)`: `rbd_fast.py` 132-141.  `lamb` is a Python number, so both divisions by zero
raise. -/
noncomputable def unskewS1 (S1 : Num ℝ) (M N : Nat) : Py (Num ℝ) :=
  if N = 0 then .error .zeroDivisionError
  else if 2 * M = N then .error .zeroDivisionError
  else
    let lamb := (2 * M : ℝ) / N
    .ok (S1.map fun s => s - lamb / (1 - lamb) * (1 - s))

/-- One evaluation: `rbd_fast.py` 96-97 and 153-154. -/
noncomputable def rbdIndex (argsort : List ℝ → List Nat) (X Y : List ℝ) (M : Nat) : Py (Num ℝ) := do
  let y ← permuteOutputs argsort X Y
  unskewS1 (rbdFirstOrder y M) M Y.length

/-- `bootstrap(X_d, Y, M, resamples, conf_level, rng)`: `rbd_fast.py` 144-157.  `draws` holds the index lists
`rng.choice(T_data, replace=True, size=n_size)`; `bnd` is `norm.ppf(0.5 + conf_level / 2)`. -/
noncomputable def rbdBootstrap (argsort : List ℝ → List Nat) (bnd : ℝ) (X Y : List ℝ) (M : Nat)
    (draws : List (List Nat)) : Py (Num ℝ) := do
  let res ← draws.mapM fun idx => do
    let x ← idx.mapM fun i => pyGet X i
    let y ← idx.mapM fun i => pyGet Y i
    rbdIndex argsort x y M
  return (npStd1N Real.sqrt res).map (bnd * ·)

/-- The result of the analysis. -/
structure RbdResult where
  names : List String
  S1 : List (Num ℝ)
  S1conf : List (Num ℝ)

/-- `rbd_fast.analyze(problem, X, Y, M, ...)`: `rbd_fast.py` 13-104.  `draws i` are the resamples of
parameter `i`. -/
noncomputable def rbdAnalyze (argsort : List ℝ → List Nat) (bnd : ℝ) (draws : Nat → List (List Nat))
    (pb : Problem ℝ) (X : Mat ℝ) (Y : List ℝ) (M : Nat) : Py RbdResult := do
  let rows ← (List.range pb.numVars).mapM fun i => (do
    let x ← X.mapM fun row => pyGet row i
    let s ← rbdIndex argsort x Y M
    let c ← rbdBootstrap argsort bnd x Y M (draws i)
    pure (s, c) : Py (Num ℝ × Num ℝ))
  return { names := pb.names
           S1 := rows.map (·.1)
           S1conf := rows.map (·.2) }

end SALib
