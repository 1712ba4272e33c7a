import Verif.Model.Groups
import Verif.Model.Stats
import Mathlib.Analysis.SpecialFunctions.Trigonometric.Inverse
import Mathlib.Analysis.SpecialFunctions.Complex.Circle

/-! # Extended FAST: `src/SALib/sample/fast_sampler.py`, `src/SALib/analyze/fast.py`

Integers `N`, `M`, `D` are natural numbers (a negative `M` is not modelled); frequencies are natural
numbers, so `math.floor(a / b)` is exact integer division. -/

namespace SALib

open Real

/-- `np.floor(np.linspace(1, m, n))`: `fast_sampler.py` 67. -/
def linspaceFloor (m n : Nat) : List Nat := (List.range n).map fun k => 1 + k * (m - 1) / (n - 1)

/-- The vector `omega`: `fast_sampler.py` 54-69. -/
def fastOmega (N M D : Nat) : Py (List Nat) :=
  if N ≤ 4 * M ^ 2 then .error .valueError                              -- 54
  else if M = 0 then .error .zeroDivisionError                          -- 63
  else if D = 0 then .error .indexError
  else
    let w0 := (N - 1) / (2 * M)                                         -- 63
    let m := w0 / (2 * M)                                               -- 64
    .ok (w0 :: if D - 1 ≤ m then linspaceFloor m (D - 1)                -- 66-69
      else (List.range (D - 1)).map fun k => k % m + 1)

/-- Update of the vector `omega2` at the head of the loop for parameter `i`: `fast_sampler.py` 79-81. -/
def blockOmega (omega omega2 : List Nat) (i : Nat) : List Nat :=
  let idx := List.range i ++ List.range' (i + 1) (omega.length - (i + 1))
  (idx.zip omega.tail).foldl (fun o p => o.set p.1 p.2) (omega2.set i (omega.getD 0 0))

/-- `0.5 + (1 / math.pi) * np.arcsin(np.sin(w * s + phi))`: `fast_sampler.py` 89. -/
noncomputable def fastCurve (w : Nat) (s phi : ℝ) : ℝ := 1 / 2 + 1 / π * arcsin (sin (w * s + phi))

/-- Body of the loop over the parameters: `fast_sampler.py` 79-90; the state is the array and `omega2`.
`u i` is the `i`-th `rng.random()`. -/
noncomputable def fastBlock (u : Nat → ℝ) (N D : Nat) (omega : List Nat) (st : Mat ℝ × List Nat) (i : Nat) :
    Py (Mat ℝ × List Nat) := do
  let omega2 := blockOmega omega st.2 i
  let phi := 2 * π * u i
  let X ← (List.range D).foldlM (fun X j =>
    (List.range N).foldlM (fun X n =>
      setCell X (i * N + n) j (fastCurve (omega2.getD j 0) (2 * π / N * n) phi)) X) st.1
  pure (X, omega2)

/-- The unit-cube sample: `fast_sampler.py` 52-90. -/
noncomputable def fastUnit (u : Nat → ℝ) (N M D : Nat) : Py (Mat ℝ) := do
  let omega ← fastOmega N M D
  let st ← (List.range D).foldlM (fastBlock u N D omega) (zerosMat (N * D) D, List.replicate D 0)
  return st.1

/-- `fast_sampler.sample(problem, N, M, seed)`: `fast_sampler.py` 11-94. -/
noncomputable def fastSample (F : Ppf ℝ) (u : Nat → ℝ) (pb : Problem ℝ) (N M : Nat) :
    Py (Mat (Num ℝ) × Problem ℝ) := do
  let X ← fastUnit u N M pb.numVars
  scaleSamples F pb.numVars X pb

/-- Entry `k` of `np.fft.fft(y)` (NumPy, outside /repo). -/
noncomputable def fftEntry (y : List ℝ) (k : Nat) : ℂ :=
  (y.zipIdx.map fun p => (p.1 : ℂ) * Complex.exp (-2 * π * Complex.I * k * p.2 / y.length)).sum

/-- `Sp`: `fast.py` 108-109; `math.ceil(N / 2)` is `(N + 1) / 2`. -/
noncomputable def spectrum (y : List ℝ) (N : Nat) : List ℝ :=
  (List.range' 1 ((N + 1) / 2 - 1)).map fun k => (‖fftEntry y k‖ / N) ^ 2

/-- `arr[idx]` for an integer index array: negative entries count from the end. -/
def npTake {β : Type} (l : List β) (idx : List Int) : Py (List β) :=
  idx.mapM fun i =>
    if 0 ≤ i then pyGet l i.toNat
    else if (-i).toNat ≤ l.length then pyGet l (l.length - (-i).toNat) else .error .indexError

/-- `compute_orders(outputs, N, M, omega)`: `fast.py` 107-117.  `np.fft.fft` of an empty array is a
`ValueError`. -/
noncomputable def computeOrders (y : List ℝ) (N M w : Nat) : Py (Num ℝ × Num ℝ) := do
  if y.length = 0 then .error .valueError
  let Sp := spectrum y N
  let V := 2 * Sp.sum                                                              -- 111
  let h ← npTake Sp ((List.range' 1 M).map fun (k : Nat) => (k : Int) * w - 1)             -- 114
  let c ← npTake Sp ((List.range (w / 2)).map fun (k : Nat) => (k : Int))                  -- 115
  return (npDiv (2 * h.sum) V, (npDiv (2 * c.sum) V).map (1 - ·))                  -- 117

/-- `bootstrap(Y, M, resamples, conf_level)`: `fast.py` 120-146.  `draws` holds one index list per resample
(`np.random.choice(T_data, size=n_size)`); `bnd` is `norm.ppf(0.5 + conf_level / 2)`. -/
noncomputable def fastBootstrap (bnd : ℝ) (Y : List ℝ) (M : Nat) (draws : List (List Nat)) :
    Py (Num ℝ × Num ℝ) := do
  let res ← draws.mapM fun idx => do
    let y ← idx.mapM fun i => pyGet Y i
    computeOrders y y.length M ((y.length - 1) / (2 * M))
  let s1 := npStd1N Real.sqrt (res.map Prod.fst)
  let st := npStd1N Real.sqrt (res.map Prod.snd)
  return (s1.map (bnd * ·), st.map (bnd * ·))

/-- The result of the analysis. -/
structure FastResult where
  names : List String
  S1 : List (Num ℝ)
  ST : List (Num ℝ)
  S1conf : List (Num ℝ)
  STconf : List (Num ℝ)

/-- `fast.analyze(problem, Y, M, ...)`: `fast.py` 9-104.  `draws i` are the resamples of parameter `i`. -/
noncomputable def fastAnalyze (bnd : ℝ) (draws : Nat → List (List Nat)) (pb : Problem ℝ) (Y : List ℝ)
    (M : Nat) : Py FastResult := do
  let D := pb.numVars
  if D = 0 then .error .zeroDivisionError                               -- Y.size % D
  if Y.length % D ≠ 0 then .error .valueError                           -- 73-80
  if M = 0 then .error .zeroDivisionError
  let N := Y.length / D
  let w0 := (N - 1) / (2 * M)                                           -- 83
  let rows ← (List.range D).mapM fun i => (do
    let y := (Y.drop (i * N)).take N
    let o ← computeOrders y N M w0
    let b ← fastBootstrap bnd y M (draws i)
    pure (o, b) : Py ((Num ℝ × Num ℝ) × (Num ℝ × Num ℝ)))
  return { names := pb.names
           S1 := rows.map (·.1.1)
           ST := rows.map (·.1.2)
           S1conf := rows.map (·.2.1)
           STconf := rows.map (·.2.2) }

end SALib
