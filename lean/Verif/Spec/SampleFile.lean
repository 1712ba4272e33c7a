import Verif.Spec.Float

/-!
# What a number written with finitely many digits stands for
-/

namespace SALib
namespace Spec

/-- A decimal number of `p + 1` significant digits. -/
def IsDecimal (p : ℕ) (y : ℚ) : Prop :=
  ∃ m k : ℤ, |m| < 10 ^ (p + 1) ∧ y = m * (10 : ℚ) ^ k

/-- A decimal number of `p + 1` significant digits that none other lies closer to `x` than. -/
def NearestDecimal (p : ℕ) (x y : ℚ) : Prop :=
  IsDecimal p y ∧ ∀ g, IsDecimal p g → |y - x| ≤ |g - x|

/-- `y` is the number of the format that `x` becomes when it is written with `p + 1` significant
digits and read again. -/
def WrittenAndRead (F : Fmt) (p : ℕ) (x y : ℚ) : Prop :=
  ∃ d, NearestDecimal p x d ∧ RoundsTo F d y

/-- The characters that numbers, lines and comments are made of. -/
def ReservedChar (c : Char) : Prop := c.isDigit ∨ c ∈ ['.', 'e', '+', '-', '\n', '#']

end Spec
end SALib
