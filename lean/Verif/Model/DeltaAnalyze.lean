import Verif.Model.Delta
import Verif.Model.Dgsm
import Mathlib.Analysis.Complex.Trigonometric
import Mathlib.Analysis.SpecialFunctions.Pow.Real

/-! # Delta method: bias reduction, confidence intervals, class count (`src/SALib/analyze/delta.py`) -/

namespace SALib

section
variable {α : Type} [Field α] [LinearOrder α]

/-- `bias_reduced_delta`: `delta.py` 387-428.  `ind` and `rs` are the results of `obtain_resampled_subset`, `z` is
`norm.ppf(0.5 + conf_level / 2)`; the re-raising of `ValueError` as `RuntimeError` (421-422) is left out. -/
def biasReducedDelta (kde : List α → List α → Option (List α)) (sqrt : α → α) (z : α) (Y grid X m : List α)
    (ind : List Nat) (rs : List (List Nat)) : Py (Num α × Num α) := do
  let dHat ← calcDelta kde (takeIdx Y ind) grid (takeIdx X ind) m
  let d ← rs.mapM fun r => calcDelta kde (takeIdx Y r) grid (takeIdx X r) m
  let d' := d.map fun x => 2 * dHat - x
  return (npMean d', (npStd1 sqrt d').map fun s => z * s)

/-- `sobol_first_conf`: `delta.py` 549-561.  `rs` are the rows of the index array. -/
def sobolFirstConf (sqrt : α → α) (z : α) (Y X m : List α) (rs : List (List Nat)) : Num α :=
  (npStd1N sqrt (rs.map fun r => sobolFirst (takeIdx Y r) (takeIdx X r) m)).map fun s => z * s

/-- The part of `analyze` for the first-order index of one parameter: `delta.py` 275-276.  `ind` is
`np.random.randint(Y.size, size=y_resamples)`, `M` the class count. -/
def deltaS1 (Y X : List α) (M : Nat) (y : Nat) (ind : List Nat) : Num α :=
  sobolFirst (takeIdx Y ind) (takeIdx X ind) (linspace 0 (y : α) (M + 1))

end

/-- The exponent: `delta.py` 191. -/
noncomputable def deltaExp (y : Nat) : ℝ := 2 / (7 + Real.tanh ((1500 - (y : ℝ)) / 500))

/-- The class count `M`: `delta.py` 192 (`np.round` of an integer changes nothing). -/
noncomputable def deltaM (y : Nat) : Nat := min ⌈(y : ℝ) ^ deltaExp y⌉₊ 48

end SALib
