import Verif.Model.Float
import Verif.Model.Latin

/-! # Latin hypercube sampling with its rounding (`src/SALib/sample/latin.py`) -/

namespace SALib

/-- The column of draws of group `g` before shuffling: `latin.py` 59-66 (transposed).
`rng.uniform(low, high)` is NumPy's `low + (high - low) * u`, with `u` in [0,1). -/
def latinDrawFl (F : Fmt) (draws : LatinDraws ℚ) (N : Nat) (g : Nat) : List ℚ :=
  let d := fdiv F 1 N
  (List.range N).map fun s : Nat =>
    let low := fmul F s d
    let high := fmul F ((s + 1 : Nat) : ℚ) d
    fadd F low (fmul F (fsub F high low) (draws.u s g))

/-- The unit-cube sample: `latin.py` 46-76. -/
def latinUnitFl (F : Fmt) (draws : LatinDraws ℚ) (junk : ℚ) (pb : Problem ℚ) (N : Nat) : Py (Mat ℚ) := do
  let (ng, vars) ← latinGroups pb
  if N = 0 then .error .zeroDivisionError
  let col := fun g => draws.shuffle g (latinDrawFl F draws N g)
  (List.range ng).foldlM (fun R g =>
    (List.range N).foldlM (fun R s =>
      (vars g).foldlM (fun R v => setCell R s v ((col g).getD s 0)) R) R)
    (List.replicate N (List.replicate pb.numVars junk))

/-- `latin.sample(problem, N, seed)` of a problem without distributions: `latin.py` 9-80. -/
def latinSampleFl (F : Fmt) (draws : LatinDraws ℚ) (junk : ℚ) (pb : Problem ℚ) (N : Nat) : Py (Mat ℚ) := do
  let R ← latinUnitFl F draws junk pb N
  scaleUniformFl F pb.numVars R pb.bounds

end SALib
