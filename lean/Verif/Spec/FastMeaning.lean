import Verif.Spec.Fast
import Mathlib.Analysis.SpecialFunctions.Integrals.Basic
import Mathlib.Algebra.MvPolynomial.Eval

/-! # What extended FAST computes: definitions -/

namespace SALib.Spec

open Real Finset

/-- The mean of a function of an input and a time, both uniform on the unit interval and independent. -/
noncomputable def meanIT (F : ℝ → ℝ → ℝ) : ℝ := ∫ x in (0 : ℝ)..1, ∫ t in (0 : ℝ)..1, F x t

/-- Its variance. -/
noncomputable def varIT (F : ℝ → ℝ → ℝ) : ℝ := ∫ x in (0 : ℝ)..1, ∫ t in (0 : ℝ)..1, (F x t - meanIT F) ^ 2

/-- The variance of its mean given the input. -/
noncomputable def inputPart (F : ℝ → ℝ → ℝ) : ℝ := ∫ x in (0 : ℝ)..1, ((∫ t in (0 : ℝ)..1, F x t) - meanIT F) ^ 2

/-- The variance of its mean given the time. -/
noncomputable def timePart (F : ℝ → ℝ → ℝ) : ℝ := ∫ t in (0 : ℝ)..1, ((∫ x in (0 : ℝ)..1, F x t) - meanIT F) ^ 2

/-- A closed curve in the unit interval, run through `w` times while the time goes from 0 to 1. -/
noncomputable def closedCurve (w : Nat) (u t : ℝ) : ℝ := 1 / 2 + arcsin (sin (2 * π * (w * t + u))) / π

/-- The frequency of the `k`-th of the `R` other inputs, when `m` frequencies are free. -/
def otherFreq (m R k : Nat) : Nat := if R ≤ m then 1 + k * (m - 1) / (R - 1) else k % m + 1

/-- The number of frequencies free for the other inputs. -/
def freeFreqs (N M : Nat) : Nat := (N - 1) / (2 * M) / (2 * M)

/-- The frequency of input `j ≠ i` of `D` inputs while input `i` is analysed. -/
def blockFreqs (N M D i j : Nat) : Nat := otherFreq (freeFreqs N M) (D - 1) (if j < i then j else j - 1)

/-- The model seen while input `i` is analysed: this input anywhere, the others along one closed curve. -/
noncomputable def onCurve {D : Nat} (f : (Fin D → ℝ) → ℝ) (freq : Nat → Nat) (u : ℝ) (i : Fin D) (x t : ℝ) : ℝ :=
  f fun j => if j = i then x else closedCurve (freq j) u t

/-- The sine that runs from -1 to 1 as the input runs through the unit interval. -/
noncomputable def inputSine (x : ℝ) : ℝ := sin (π * (x - 1 / 2))

/-- A model that is a polynomial in the sines of its inputs, given on the unit cube. -/
noncomputable def sineModel {D : Nat} (p : MvPolynomial (Fin D) ℝ) (x : Fin D → ℝ) : ℝ :=
  MvPolynomial.eval (fun j => inputSine (x j)) p

/-- The frequencies of the inputs other than `i` are free of interference up to order `K`: no combination of at most `K`
of them, counted with signs, cancels. -/
def NoInterference {D : Nat} (freq : Nat → Nat) (i : Fin D) (K : Nat) : Prop :=
  ∀ k : Fin D → ℤ, k i = 0 → ∑ j, |k j| ≤ K → ∑ j, k j * freq j = 0 → ∀ j, k j = 0

/-- A model of the unit cube applied to a row of inputs with the given bounds. -/
noncomputable def onInputs (bs : List (ℝ × ℝ)) (f : (Fin bs.length → ℝ) → ℝ) (row : List (Option ℝ)) : ℝ :=
  f fun j => ((row.getD j none).getD 0 - bs[j].1) / (bs[j].2 - bs[j].1)

end SALib.Spec
