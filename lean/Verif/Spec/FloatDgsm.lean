import Verif.Spec.Float
import Verif.Spec.Matrix

/-! # A finite-difference step, rounded -/

namespace SALib.Spec

/-- `y` is `x + x * delta` with both operations rounded, then moved into `[lo, hi]`. -/
def RoundedStep (F : Fmt) (lo hi delta x y : ℚ) : Prop :=
  ∃ t s, RoundsTo F (x * delta) t ∧ RoundsTo F (x + t) s ∧ y = max (min s hi) lo

/-- `n` roundings of precision `p` away from `x`, relatively. -/
def NearlyEqual (p n : Nat) (x y : ℚ) : Prop := |y - x| ≤ ((1 + (2 : ℚ) ^ (-(p : ℤ))) ^ n - 1) * |x|

end SALib.Spec
