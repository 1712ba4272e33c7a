import Verif.Model.FloatCount

/-! # The eFAST sampler with its rounding (`src/SALib/sample/fast_sampler.py`) -/

namespace SALib

/-- `math.pi`, `np.sin` and `np.arcsin` (Python and NumPy, outside /repo). -/
structure TrigFl where
  pi : ℚ
  sin : ℚ → ℚ
  asin : ℚ → ℚ

/-- `0.5 + (1 / math.pi) * np.arcsin(np.sin(w * s + phi))`: `fast_sampler.py` 89. -/
def fastCurveFl (F : Fmt) (T : TrigFl) (w : Nat) (s phi : ℚ) : ℚ :=
  fadd F (1 / 2) (fmul F (fdiv F 1 T.pi) (T.asin (T.sin (fadd F (fmul F w s) phi))))

/-- Entry `n` of `s = (2 * math.pi / N) * np.arange(N)`: `fast_sampler.py` 72. -/
def fastGridFl (F : Fmt) (T : TrigFl) (N n : Nat) : ℚ := fmul F (fdiv F (fmul F 2 T.pi) N) n

/-- Body of the loop over the parameters, as `fastBlock`: `fast_sampler.py` 79-90.  `u i` is the `i`-th
`rng.random()`. -/
def fastBlockFl (F : Fmt) (T : TrigFl) (u : Nat → ℚ) (N D : Nat) (omega : List Nat) (st : Mat ℚ × List Nat) (i : Nat) :
    Py (Mat ℚ × List Nat) := do
  let omega2 := blockOmega omega st.2 i
  let phi := fmul F (fmul F 2 T.pi) (u i)
  let X ← (List.range D).foldlM (fun X j =>
    (List.range N).foldlM (fun X n =>
      setCell X (i * N + n) j (fastCurveFl F T (omega2.getD j 0) (fastGridFl F T N n) phi)) X) st.1
  pure (X, omega2)

/-- The unit-cube sample: `fast_sampler.py` 52-90.  The frequencies are not negative (C107), so that they can be taken
as natural numbers. -/
def fastUnitFl (F : Fmt) (T : TrigFl) (u : Nat → ℚ) (N M D : Nat) : Py (Mat ℚ) := do
  let omega ← fastOmegaFl F N M D
  let st ← (List.range D).foldlM (fastBlockFl F T u N D (omega.map Int.toNat))
    (zerosMat (N * D) D, List.replicate D 0)
  return st.1

/-- `fast_sampler.sample(problem, N, M, seed)` of a problem without distributions: `fast_sampler.py` 11-94. -/
def fastSampleFl (F : Fmt) (T : TrigFl) (u : Nat → ℚ) (pb : Problem ℚ) (N M : Nat) : Py (Mat ℚ) := do
  let X ← fastUnitFl F T u N M pb.numVars
  scaleUniformFl F pb.numVars X pb.bounds

end SALib
