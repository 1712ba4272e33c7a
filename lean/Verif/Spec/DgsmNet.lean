import Verif.Spec.QuasiMean

/-! # Where zero lies in the range of an input -/

namespace SALib.Spec

/-- Zero lies at a fraction of the range whose denominator in lowest terms is `2 ^ q`. -/
def ZeroAtFraction (lo hi : ℝ) (q : Nat) : Prop :=
  ∃ p : Nat, p % 2 = 1 ∧ p < 2 ^ q ∧ lo + (hi - lo) * (p / 2 ^ q) = 0

/-- The derivative changes along input `j` by at most `c` per unit. -/
def SlopeAtMost {d : Nat} (lo hi : Fin d → ℝ) (j : Fin d) (c : ℝ) (G' : (Fin d → ℝ) → ℝ) : Prop :=
  ∀ x, InBox lo hi x → ∀ t, lo j ≤ t → t ≤ hi j → |G' (setInput x j t) - G' x| ≤ c * |t - x j|

end SALib.Spec
