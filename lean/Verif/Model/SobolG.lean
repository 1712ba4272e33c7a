import Verif.Model.Basic
import Mathlib.Analysis.SpecialFunctions.Pow.Real
import Mathlib.Algebra.Order.Floor.Ring
import Mathlib.Data.Real.Archimedean

/-! # The Sobol G-function and its analytic indices (`src/SALib/test_functions/Sobol_G.py`)

Arrays of `d` entries are functions on `Fin d`.  All arithmetic is that of the real numbers.  The checks that arguments
are NumPy arrays (37, 46, 59) are not modelled, nor are arrays of another length. -/

namespace SALib

open scoped Classical in
/-- `np.modf(x)[1]`: the integral part, towards zero. -/
noncomputable def modfInt (x : ℝ) : ℝ := if 0 ≤ x then ⌊x⌋ else ⌈x⌉

/-- One factor of the product: 79-83. -/
noncomputable def gFactor (a delta alpha x : ℝ) : ℝ :=
  let shift := x + delta
  let modX := shift - modfInt shift
  let temp := |2 * modX - 1| ^ alpha
  ((1 + alpha) * temp + a) / (1 + a)

/-- One entry of the result: 84. -/
noncomputable def gRow {d : Nat} (a delta alpha x : Fin d → ℝ) : ℝ := ∏ i, gFactor (a i) (delta i) (alpha i) (x i)

open scoped Classical in
/-- `delta` after 43-54. -/
noncomputable def gDelta {d : Nat} : Option (Fin d → ℝ) → Py (Fin d → ℝ)
  | none => .ok fun _ => 0
  | some delta => if ∃ i, (delta i < 0 ∨ delta i > 1) ∧ delta i ≠ 0 then .error .valueError else .ok delta

open scoped Classical in
/-- `alpha` after 56-66. -/
noncomputable def gAlpha {d : Nat} : Option (Fin d → ℝ) → Py (Fin d → ℝ)
  | none => .ok fun _ => 1
  | some alpha => if ∃ i, alpha i ≤ 0 then .error .valueError else .ok alpha

open scoped Classical in
/-- `evaluate(values, a, delta, alpha)`: 11-86, with `a` given. -/
noncomputable def gEvaluate {d : Nat} (values : List (Fin d → ℝ)) (a : Fin d → ℝ) (delta alpha : Option (Fin d → ℝ)) :
    Py (List ℝ) := do
  let delta ← gDelta delta
  let alpha ← gAlpha alpha
  if ∃ x ∈ values, ∃ i, x i < 0 then .error .valueError
  else if ∃ x ∈ values, ∃ i, x i > 1 then .error .valueError
  else .ok (values.map fun x => gRow a delta alpha x)

/-- `alpha` of the index functions: 92-93. -/
noncomputable def gAlphaOr {d : Nat} (alpha : Option (Fin d → ℝ)) : Fin d → ℝ := alpha.getD fun _ => 1

/-- `_partial_first_order_variance`: 89-96. -/
noncomputable def gPartial {d : Nat} (a : Fin d → ℝ) (alpha : Option (Fin d → ℝ)) (i : Fin d) : ℝ :=
  let al := gAlphaOr alpha i
  al ^ 2 / ((1 + 2 * al) * (1 + a i) ^ 2)

/-- `_total_variance`: 99-106. -/
noncomputable def gTotal {d : Nat} (a : Fin d → ℝ) (alpha : Option (Fin d → ℝ)) : ℝ :=
  -1 + ∏ i, (1 + gPartial a alpha i)

/-- `sensitivity_index`: 109-111. -/
noncomputable def gIndex {d : Nat} (a : Fin d → ℝ) (alpha : Option (Fin d → ℝ)) (i : Fin d) : ℝ :=
  gPartial a alpha i / gTotal a alpha

/-- `total_sensitivity_index`: 114-121. -/
noncomputable def gTotalIndex {d : Nat} (a : Fin d → ℝ) (alpha : Option (Fin d → ℝ)) (i : Fin d) : ℝ :=
  let pv := gPartial a alpha i
  let product := ∏ j, (1 + gPartial a alpha j)
  pv * (product / (1 + pv)) / gTotal a alpha

end SALib
