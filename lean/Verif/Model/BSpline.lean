import Verif.Model.Basic

/-! # The cubic B-spline basis of HDMR (`src/SALib/analyze/hdmr.py`, `B_spline`) -/

namespace SALib

variable {α : Type} [Field α] [LinearOrder α]

/-- Cox-de Boor recursion on the piece `[t j, t (j+1))`, as used by SciPy (outside /repo) to evaluate splines. -/
def coxDeBoor (t : Nat → α) (j : Nat) (x : α) : Nat → Nat → α
  | 0, i => if i = j then 1 else 0
  | p + 1, i => (x - t i) / (t (i + p + 1) - t i) * coxDeBoor t j x p i +
      (t (i + p + 2) - x) / (t (i + p + 2) - t (i + 1)) * coxDeBoor t j x p (i + 1)

/-- The piece used for `x`; outside the knots the first or last one (`extrapolate=True` is SciPy's default). -/
def splinePiece (t : Nat → α) (x : α) : Nat :=
  if t 3 ≤ x then 3 else if t 2 ≤ x then 2 else if t 1 ≤ x then 1 else 0

/-- `interpolate.BSpline.basis_element(t)(x)` for five knots (SciPy, outside /repo). -/
def basisElement (t : Nat → α) (x : α) : α := coxDeBoor t (splinePiece t x) x 3 0

/-- The knots `t = np.arange(k_i - 2, k_i + 3) / m` with `k_i = i - 1`: `hdmr.py` 509, 513-514. -/
def splineKnot (m i a : Nat) : α := ((i : α) - 1 - 2 + (a : α)) / (m : α)

/-- Before clipping: `hdmr.py` 515. -/
def splineRaw (m i : Nat) (x : α) : α := basisElement (splineKnot m i) x * (m : α) ^ 3

/-- `B[:, i, j]` for the input value `x`: `hdmr.py` 512-516. -/
def bSpline (m i : Nat) (x : α) : α := if splineRaw m i x < 0 then 0 else splineRaw m i x

/-- The `m + 3` basis values of one input value: one row of `B[:, :, j]`, `hdmr.py` 506-518. -/
def bSplineRow (m : Nat) (x : α) : List α := (List.range (m + 3)).map fun i => bSpline m i x

end SALib
