import Verif.Spec.DerivMeasure
import Verif.Spec.SobolNet

/-! # Functions that vary little within the boxes of a grid -/

namespace SALib.Spec

variable {d : Nat}

/-- The box number `i` of the grid that divides the range of input `j` into `2 ^ k j` equal parts. -/
def GridBox (lo hi : Fin d → ℝ) (k : Fin d → Nat) (i : Fin d → Nat) (x : Fin d → ℝ) : Prop :=
  ∀ j, lo j + (hi j - lo j) * (i j / 2 ^ k j) ≤ x j ∧ x j < lo j + (hi j - lo j) * ((i j + 1) / 2 ^ k j)

/-- Within each box of the grid, `G` varies by at most `δ`. -/
def VariesAtMost (lo hi : Fin d → ℝ) (k : Fin d → Nat) (δ : ℝ) (G : (Fin d → ℝ) → ℝ) : Prop :=
  ∀ i : Fin d → Nat, (∀ j, i j < 2 ^ k j) → ∀ x y, GridBox lo hi k i x → GridBox lo hi k i y → |G x - G y| ≤ δ

/-- The columns whose range is divided. -/
def usedCols (k : Fin d → Nat) : Finset Nat := (Finset.univ.filter fun j : Fin d => k j ≠ 0).image fun j : Fin d => j.val

/-- The columns of the points A and B whose range is divided. -/
def usedPairCols (k : Fin d → Nat) : Finset Nat := usedCols k ∪ (usedCols k).image fun j => d + j

/-- The reported entry is a number within `e` of `x`. -/
def ReportedNear (o : Option (Option ℝ)) (x e : ℝ) : Prop := ∃ s, o = some (some s) ∧ |s - x| ≤ e

/-- Row `n` of a matrix as a point. -/
def rowPoint (d : Nat) (M : List (List ℝ)) (n : Nat) : Fin d → ℝ := fun j => (M.getD n []).getD j 0

end SALib.Spec
