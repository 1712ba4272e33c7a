import Verif.Spec.FloatError
import Verif.Spec.FloatMorris

/-! # What the statistics of Morris effects should be -/

namespace SALib.Spec

/-- The parameters of group `c`. -/
def members (D : Nat) (groupOf : Nat → Nat) (c : Nat) : Finset Nat := (Finset.range D).filter fun j => groupOf j = c

/-- The mean over the parameters of group `c`. -/
def memberAvg (D : Nat) (groupOf : Nat → Nat) (c : Nat) (f : Nat → ℚ) : ℚ :=
  (∑ j ∈ members D groupOf c, f j) / (members D groupOf c).card

/-- The sample variance of `f 0, ..., f (n - 1)`. -/
def effectVar (n : Nat) (f : Nat → ℚ) : ℚ := (∑ i ∈ Finset.range n, (f i - avg n f) ^ 2) / (n - 1)

/-- `e` is the exact effect of parameter `j` on trajectory `i` (of `g + 1` rows each): some step of the trajectory
changes `j` and leaves the other groups alone, and `e` is the output at the larger value of `j` minus the output at the
smaller, over `d`. -/
def TurnEffect (X : Mat ℚ) (Y : List ℚ) (D g : Nat) (groupOf : Nat → Nat) (d : ℚ) (j i : Nat) (e : ℚ) : Prop :=
  ∃ t < g, ∃ x x' y y' : ℚ, entry X (t + i * (g + 1)) j = some x ∧ entry X (t + 1 + i * (g + 1)) j = some x' ∧
    x ≠ x' ∧ (∀ k < D, groupOf k ≠ groupOf j → entry X (t + i * (g + 1)) k = entry X (t + 1 + i * (g + 1)) k) ∧
    Y[t + i * (g + 1)]? = some y ∧ Y[t + 1 + i * (g + 1)]? = some y' ∧
    e = (if x < x' then y' - y else y - y') / d

end SALib.Spec
