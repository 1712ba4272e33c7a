import Verif.Model.Scale
import Mathlib.Analysis.SpecialFunctions.Trigonometric.Basic
import Mathlib.Analysis.SpecialFunctions.Pow.Real

/-! # Test functions (`src/SALib/test_functions`), in real arithmetic

A column that is missing is an `IndexError` for every row here; NumPy raises it also for an array without rows. -/

namespace SALib

/-- One row of `evaluate(X, A, B)`: `Ishigami.py` 55-59. -/
noncomputable def ishigamiRow (A B : ℝ) (row : List ℝ) : Py ℝ := do
  let x0 ← pyGet row 0
  let x1 ← pyGet row 1
  let x2 ← pyGet row 2
  return Real.sin x0 + A * Real.sin x1 ^ 2 + B * x2 ^ 4 * Real.sin x0

/-- `evaluate(X, A, B)`: `Ishigami.py` 54-61. -/
noncomputable def ishigami (A B : ℝ) (X : Mat ℝ) : Py (List ℝ) := X.mapM (ishigamiRow A B)

/-- `evaluate(values)`: `linear_model_1.py` 23-26. -/
def linearModel1 {α : Type} [Field α] (X : Mat α) : List α := X.map List.sum

/-- One row of `evaluate(values)`: `linear_model_2.py` 23-29. -/
def linearRow2 {α : Type} [Field α] (row : List α) : Py α := do
  let x0 ← pyGet row 0
  let x1 ← pyGet row 1
  let x2 ← pyGet row 2
  let x3 ← pyGet row 3
  let x4 ← pyGet row 4
  return 5 * x0 + 4 * x1 + 3 * x2 + 2 * x3 + x4

/-- `evaluate(values)`: `linear_model_2.py` 22-31. -/
def linearModel2 {α : Type} [Field α] (X : Mat α) : Py (List α) := X.mapM linearRow2

/-- `lake_problem(X, a, q, b, eps)`: `lake_problem.py` 63-66.  Powers are those of the real numbers (`X` is not
negative). -/
noncomputable def lakeStep (a q b x eps : ℝ) : ℝ := x + a + x ^ q / (1 + x ^ q) - b * x + eps

/-- The rows of `Y` after the loop of `evaluate_lake`, `lake_problem.py` 117-121: the row before the first is the last
one, still zero. -/
noncomputable def lakeRows (a q b : ℝ) (eps : List ℝ) : Nat → List ℝ → List (List ℝ)
  | 0, _ => []
  | t + 1, prev =>
    let row := List.zipWith (lakeStep a q b) prev eps
    row :: lakeRows a q b eps t row

/-- `evaluate_lake(values)`: `lake_problem.py` 103-123, for one-dimensional `values`, as `evaluate` calls it: `nvars` is
then the number of entries, which must be five (the unpacking 107); `draw` is `rng.lognormal` (109-115) as a function
of `mean`, `stdev` and the size. -/
noncomputable def evaluateLake (draw : ℝ → ℝ → Nat → List ℝ) (values : List ℝ) : Py (List (List ℝ)) :=
  match values with
  | [a, q, b, mean, stdev] =>
    .ok (lakeRows a q b (draw mean stdev values.length) values.length (List.replicate values.length 0))
  | _ => .error .valueError

/-- `np.max`: `ValueError` for an empty array. -/
noncomputable def arrayMax : List ℝ → Py ℝ
  | [] => .error .valueError
  | y :: ys => .ok (ys.foldl max y)

/-- `len(x) / n`: `ZeroDivisionError` for `n = 0`. -/
noncomputable def perStep (count n : Nat) : Py ℝ :=
  if n = 0 then .error .zeroDivisionError else .ok ((count : ℝ) / n)

/-- One row of `evaluate(values, nvars)`: `lake_problem.py` 143-166; the entries are maximum, utility, inertia and
reliability.  `root` is the call of `brentq` (153) as a function of `q` and `b`.  `a_i[a_i < 0.02]` has one entry or
none. -/
noncomputable def lakeRow (draw : ℝ → ℝ → Nat → List ℝ) (root : ℝ → ℝ → Py ℝ) (nvars : Nat) (values : List ℝ) :
    Py (List ℝ) :=
  match values with
  | [a, q, b, _, _, delta, alpha] => do
    let tmp ← evaluateLake draw (values.take 5)
    let pcrit ← root q b
    let reliability ← perStep (tmp.flatten.filter fun v => v < pcrit).length nvars
    let maxP ← arrayMax tmp.flatten
    let utility := ((List.range nvars).map fun t => alpha * a * delta ^ t).sum
    let inertia ← perStep ([a].filter fun v => v < 2 / 100).length nvars
    return [maxP, utility, inertia, reliability]
  | _ => .error .valueError

end SALib
