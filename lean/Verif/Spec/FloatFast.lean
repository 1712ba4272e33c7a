import Verif.Model.FloatFast
import Verif.Spec.Fast

/-! # What is assumed of `math.pi`, `np.sin` and `np.arcsin` -/

namespace SALib.Spec

open Real

/-- `pi` is a number of the format next to π; the sine and the arcsine are at most `δ` off, the sine stays between
-1 and 1 and the arcsine between -pi/2 and pi/2. -/
structure TrigNear (F : Fmt) (T : TrigFl) (δ : ℝ) : Prop where
  pi_float : IsFloat F T.pi
  pi_near : |(T.pi : ℝ) - π| ≤ (2 : ℝ) ^ (1 - (F.p : ℤ))
  sin_le : ∀ t, |T.sin t| ≤ 1
  sin_near : ∀ t, |(T.sin t : ℝ) - sin t| ≤ δ
  asin_le : ∀ x, |x| ≤ 1 → |T.asin x| ≤ T.pi / 2
  asin_near : ∀ x, |x| ≤ 1 → |(T.asin x : ℝ) - arcsin x| ≤ δ

end SALib.Spec
