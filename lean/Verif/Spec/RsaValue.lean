import Verif.Spec.PawnLimit
import Mathlib.MeasureTheory.Integral.Bochner.Basic

/-! # What the values of a regional sensitivity analysis measure (C128) -/

namespace SALib.Spec

open MeasureTheory

/-- Share of the listed values that are at most `t`. -/
def shareUpTo {α : Type} [Field α] [LinearOrder α] (l : List α) (t : α) : α :=
  (l.countP fun x => decide (x ≤ t) : α) / (l.length : α)

/-- Mean over all values of both samples of the squared distance of their distribution functions. -/
def meanSqDistance {α : Type} [Field α] [LinearOrder α] (a b : List α) : α :=
  ((a ++ b).map fun t => (shareUpTo a t - shareUpTo b t) ^ 2).sum / ((a ++ b).length : α)

/-- The same for a law: `A` is the set of points inside, `g` the value compared. -/
noncomputable def lawSqDistance {β : Type} [MeasurableSpace β] (law : Measure β) (g : β → ℝ) (A : Set β) : ℝ :=
  ∫ z, (law.real (A ∩ {x | g x ≤ g z}) / law.real A - law.real (Aᶜ ∩ {x | g x ≤ g z}) / law.real Aᶜ) ^ 2 ∂law

end SALib.Spec
