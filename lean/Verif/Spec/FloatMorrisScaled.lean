import Verif.Spec.FloatMorrisStats

/-! # What the scaled effects of a Morris analysis should be, up to rounding -/

namespace SALib.Spec

/-- `v` is close to the variance of `f 0, ..., f (n - 1)`: it is `n + 3` roundings away from the mean square distance from
a number `n` roundings away from their mean. -/
def NearVar (F : Fmt) (n : Nat) (f : Nat → ℚ) (v : ℚ) : Prop :=
  ∃ μ, RoundedFrom F n 1 (avg n fun i => |f i|) (avg n f) μ ∧
    RoundedFrom F (n + 3) 2 (avg n fun i => (f i - μ) ^ 2) (avg n fun i => (f i - μ) ^ 2) v

/-- `e` is close to the scaled effect of parameter `j` on trajectory `i` (of `g + 1` rows each).  Some step changes `j` and
leaves the other groups alone; `q` is four roundings away from the difference quotient of the outputs; `r` is the rounded
quotient of the deviations of the trajectory's values of `j` and of its outputs; `e` is the rounded product.  It is 0 if
the deviation of the outputs is 0 or the step does not change the output. -/
def ScaledTurn (F : Fmt) (sqrt : ℚ → ℚ) (X : Mat ℚ) (Y : List ℚ) (D g : Nat) (groupOf : Nat → Nat) (j i : Nat) (e : ℚ) :
    Prop :=
  ∃ t < g, ∃ x x' y y' vx vy : ℚ, entry X (t + i * (g + 1)) j = some x ∧ entry X (t + 1 + i * (g + 1)) j = some x' ∧
    x ≠ x' ∧ (∀ k < D, groupOf k ≠ groupOf j → entry X (t + i * (g + 1)) k = entry X (t + 1 + i * (g + 1)) k) ∧
    Y[t + i * (g + 1)]? = some y ∧ Y[t + 1 + i * (g + 1)]? = some y' ∧
    NearVar F (g + 1) (fun s => (entry X (s + i * (g + 1)) j).getD 0) vx ∧
    NearVar F (g + 1) (fun s => Y.getD (s + i * (g + 1)) 0) vy ∧
    (sqrt vy = 0 → e = 0) ∧ (y = y' → e = 0) ∧
    (sqrt vy ≠ 0 → ∃ q r, RoundedFrom F 4 1 |(y' - y) / (x' - x)| ((y' - y) / (x' - x)) q ∧
      RoundsTo F (sqrt vx / sqrt vy) r ∧ RoundsTo F (q * r) e)

end SALib.Spec
