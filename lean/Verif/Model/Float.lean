import Verif.Spec.Float
import Verif.Model.Scale
import Mathlib.Data.Int.Log

/-! # Arithmetic of NumPy's `float64`

The rest of the model computes in a field.  Here every single operation is followed by a rounding, as
in NumPy, so that what the code computes bit for bit can be talked about.  Numbers are the rationals
that a format holds; overflow to infinity is left out, underflow is there. -/

namespace SALib

/-- Nearest integer, ties to even. -/
def roundEven (x : ℚ) : ℤ :=
  if x - ⌊x⌋ < 1 / 2 then ⌊x⌋
  else if 1 / 2 < x - ⌊x⌋ then ⌊x⌋ + 1
  else if 2 ∣ ⌊x⌋ then ⌊x⌋ else ⌊x⌋ + 1

/-- Exponent of the spacing of the numbers of the format at the size of `x`. -/
def ulpExp (F : Fmt) (x : ℚ) : ℤ := max (Int.log 2 |x| - F.p + 1) F.emin

/-- Rounding of an exact result (IEEE 754-2019, 4.3.1, round to nearest, ties to even). -/
def fl (F : Fmt) (x : ℚ) : ℚ :=
  roundEven (x / (2 : ℚ) ^ ulpExp F x) * (2 : ℚ) ^ ulpExp F x

/-- Sum, difference, product and quotient as NumPy computes them. -/
def fadd (F : Fmt) (x y : ℚ) : ℚ := fl F (x + y)
@[inherit_doc fadd] def fsub (F : Fmt) (x y : ℚ) : ℚ := fl F (x - y)
@[inherit_doc fadd] def fmul (F : Fmt) (x y : ℚ) : ℚ := fl F (x * y)
@[inherit_doc fadd] def fdiv (F : Fmt) (x y : ℚ) : ℚ := fl F (x / y)

/-- `sample * (upper_bound - lower_bound) + lower_bound`, one entry: `util/__init__.py` 49-53. -/
def scaleEntryFl (F : Fmt) (x : ℚ) (p : ℚ × ℚ) : ℚ :=
  fadd F (fmul F x (fsub F p.2 p.1)) p.1

/-- `_scale_samples(params, bounds)` with its rounding: `util/__init__.py` 25-53. -/
def scaleUniformFl (F : Fmt) (D : Nat) (params : Mat ℚ) (bounds : List (List ℚ)) :
    Py (Mat ℚ) := do
  let ps ← checkBounds bounds
  if ps.any (fun p => decide (p.2 ≤ p.1)) then .error .valueError
  let ps ← broadcastBounds D ps
  return params.map fun row => List.zipWith (scaleEntryFl F) row ps

/-- `(params - lower) / (upper - lower)`, one entry: `util/__init__.py` 119-123. -/
def unscaleEntryFl (F : Fmt) (x : ℚ) (p : ℚ × ℚ) : ℚ :=
  fdiv F (fsub F x p.1) (fsub F p.2 p.1)

/-- `_unscale_samples(params, bounds)` with its rounding: `util/__init__.py` 94-123. -/
def unscaleUniformFl (F : Fmt) (D : Nat) (params : Mat ℚ) (bounds : List (List ℚ)) :
    Py (Mat ℚ) := do
  if bounds.isEmpty then .error .indexError
  let ps ← bounds.mapM rowPair
  if ps.any (fun p => decide (p.2 ≤ p.1)) then .error .valueError
  let ps ← broadcastBounds D ps
  return params.map fun row => List.zipWith (unscaleEntryFl F) row ps

end SALib
