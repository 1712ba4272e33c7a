import Mathlib.Data.Rat.Floor
import Mathlib.Algebra.Order.Field.Power

/-! # What a binary floating point format is

Independent of the rounding function of the model: which numbers a format holds, and what rounding to
nearest, ties to even, means (IEEE 754-2019, 4.3.1). -/

namespace SALib

/-- A binary format: `p` bits of precision and the exponent of the smallest spacing. -/
structure Fmt where
  /-- number of bits of the significand -/
  p : ℕ
  /-- exponent of the smallest positive number -/
  emin : ℤ

/-- IEEE binary64, the `float` of Python and the `float64` of NumPy.  Overflow is left out: the
exponent has no upper limit. -/
def binary64 : Fmt := ⟨53, -1074⟩

/-- The numbers of a format: `m * 2 ^ e` with fewer than `2 ^ p` in the significand. -/
def IsFloat (F : Fmt) (x : ℚ) : Prop :=
  ∃ m e : ℤ, F.emin ≤ e ∧ |m| < 2 ^ F.p ∧ x = m * (2 : ℚ) ^ e

/-- The same with an even significand. -/
def IsEvenFloat (F : Fmt) (x : ℚ) : Prop :=
  ∃ m e : ℤ, F.emin ≤ e ∧ |2 * m| < 2 ^ F.p ∧ x = (2 * m : ℤ) * (2 : ℚ) ^ e

/-- `y` is `x` rounded to nearest, ties to even. -/
structure RoundsTo (F : Fmt) (x y : ℚ) : Prop where
  isFloat : IsFloat F y
  nearest : ∀ g, IsFloat F g → |y - x| ≤ |g - x|
  even : ∀ g, IsFloat F g → |g - x| = |y - x| → g ≠ y → IsEvenFloat F y

end SALib
