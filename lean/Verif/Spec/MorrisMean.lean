import Mathlib.Probability.Independence.Basic
import Mathlib.Data.Fintype.Perm
import Mathlib.Data.Fintype.Pi
import Mathlib.Data.Fintype.Prod
import Mathlib.Data.Real.Basic
import Verif.Spec.Cross

/-! # What the Morris statistics estimate

Inputs take the levels `0, ..., 2 q - 1`; level `i` of input `j` is the value `lo j + i / (2 q - 1) * (hi j - lo j)`. -/

namespace SALib.Spec

open MeasureTheory ProbabilityTheory

/-- The random choices for one trajectory: the order of the groups, up or down for every input, and the starting level of
every input, in the lower half of the levels. -/
structure MorrisDraw (D g q : Nat) where
  order : Equiv.Perm (Fin g)
  up : Fin D → Bool
  pick : Fin D → Fin q

def MorrisDraw.equivProd (D g q : Nat) :
    (Equiv.Perm (Fin g) × (Fin D → Bool) × (Fin D → Fin q)) ≃ MorrisDraw D g q where
  toFun x := ⟨x.1, x.2.1, x.2.2⟩
  invFun d := ⟨d.order, d.up, d.pick⟩
  left_inv _ := rfl
  right_inv _ := rfl

instance (D g q : Nat) : Fintype (MorrisDraw D g q) := Fintype.ofEquiv _ (MorrisDraw.equivProd D g q)

instance (D g q : Nat) : MeasurableSpace (MorrisDraw D g q) := ⊤

instance (D g q : Nat) : DiscreteMeasurableSpace (MorrisDraw D g q) := ⟨fun _ => trivial⟩

/-- The trajectories are drawn independently, all choices being equally likely. -/
structure FairDraws {D g q : Nat} {Ω : Type} [MeasurableSpace Ω] (P : Measure Ω) (Z : ℕ → Ω → MorrisDraw D g q) :
    Prop where
  meas : ∀ i, Measurable (Z i)
  indep : iIndepFun Z P
  fair : ∀ i d, P (Z i ⁻¹' {d}) = (Fintype.card (MorrisDraw D g q) : ENNReal)⁻¹

variable {D q : Nat}

/-- The level half the grid away. -/
def opposite (i : Fin (2 * q)) : Fin (2 * q) :=
  if h : (i : Nat) < q then ⟨i + q, by omega⟩ else ⟨i - q, by omega⟩

/-- All inputs of group `k` move half the grid. -/
def groupStep (groupOf : Nat → Nat) (k : Nat) (x : Fin D → Fin (2 * q)) : Fin D → Fin (2 * q) :=
  fun j => if groupOf j = k then opposite (x j) else x j

/-- The model input at given levels. -/
noncomputable def gridRow (lo hi : Fin D → ℝ) (x : Fin D → Fin (2 * q)) : List ℝ :=
  List.ofFn fun j => lo j + ((x j : Nat) : ℝ) / (2 * (q : ℝ) - 1) * (hi j - lo j)

/-- The elementary effect of input `j` from the point `x`: its group moves half the grid; a step of the grid has length
`1 / (2 q - 1)`. -/
noncomputable def gridEffect (f : List ℝ → ℝ) (lo hi : Fin D → ℝ) (groupOf : Nat → Nat) (j : Fin D)
    (x : Fin D → Fin (2 * q)) : ℝ :=
  (f (gridRow lo hi (groupStep groupOf (groupOf j) x)) - f (gridRow lo hi x)) / ((q : ℝ) / (2 * q - 1))

/-- The points of the grid from which input `j` can move up. -/
def starts (j : Fin D) : Finset (Fin D → Fin (2 * q)) := Finset.univ.filter fun x => (x j : Nat) < q

/-- The mean over all points from which input `j` can move up. -/
noncomputable def gridMean (j : Fin D) (h : (Fin D → Fin (2 * q)) → ℝ) : ℝ :=
  (∑ x ∈ starts j, h x) / (starts (q := q) j).card

/-- The mean over the inputs of group `c`. -/
noncomputable def memberMean (groupOf : Nat → Nat) (c : Nat) (m : Fin D → ℝ) : ℝ :=
  (∑ j ∈ Finset.univ.filter (fun j : Fin D => groupOf j = c), m j) /
    (Finset.univ.filter (fun j : Fin D => groupOf j = c)).card

end SALib.Spec
