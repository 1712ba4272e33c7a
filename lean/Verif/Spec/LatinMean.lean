import Mathlib.Data.Fintype.Perm
import Verif.Spec.DerivMeasure

/-! # Random Latin hypercube designs

`N` rows; a coordinate of the unit cube is drawn for every group of inputs. -/

namespace SALib.Spec

open MeasureTheory ProbabilityTheory

/-- The orders in which the strata of every group are handed out to the rows. -/
structure StrataOrders (N g : Nat) where
  order : Fin g → Equiv.Perm (Fin N)

def StrataOrders.equivFun (N g : Nat) : (Fin g → Equiv.Perm (Fin N)) ≃ StrataOrders N g where
  toFun x := ⟨x⟩
  invFun d := d.order
  left_inv _ := rfl
  right_inv _ := rfl

instance (N g : Nat) : Fintype (StrataOrders N g) := Fintype.ofEquiv _ (StrataOrders.equivFun N g)

instance (N g : Nat) : MeasurableSpace (StrataOrders N g) := ⊤

instance (N g : Nat) : DiscreteMeasurableSpace (StrataOrders N g) := ⟨fun _ => trivial⟩

/-- The uniform distribution on the unit cube. -/
noncomputable def cube (g : Nat) : Measure (Fin g → ℝ) := Measure.pi fun _ => unifOn 0 1

/-- All orders of the strata are equally likely, and independently of that the positions within the strata are
independent and uniform. -/
structure FairLatin {N g : Nat} {Ω : Type} [MeasurableSpace Ω] (P : Measure Ω) (ord : Ω → StrataOrders N g)
    (off : Ω → Fin g → Fin N → ℝ) : Prop where
  meas_ord : Measurable ord
  meas_off : Measurable off
  indep : IndepFun ord off P
  fair : ∀ p, P (ord ⁻¹' {p}) = (Fintype.card (StrataOrders N g) : ENNReal)⁻¹
  law : Measure.map off P = Measure.pi fun _ => Measure.pi fun _ => unifOn 0 1

/-- The inputs at a point of the cube: all inputs of a group sit at the same fraction of their ranges. -/
def placed {d g : Nat} (lo hi : Fin d → ℝ) (grp : Fin d → Fin g) (u : Fin g → ℝ) : Fin d → ℝ :=
  fun j => lo j + u (grp j) * (hi j - lo j)

/-- The output does not fall when, within the bounds, the inputs of the groups in `up` rise and the others fall. -/
def MonotoneByGroup {d g : Nat} (lo hi : Fin d → ℝ) (grp : Fin d → Fin g) (up : Fin g → Bool) (G : (Fin d → ℝ) → ℝ) : Prop :=
  ∀ x y, InBox lo hi x → InBox lo hi y → (∀ j, if up (grp j) then x j ≤ y j else y j ≤ x j) → G x ≤ G y

end SALib.Spec
