import Mathlib.Analysis.SpecialFunctions.Trigonometric.Inverse
import Mathlib.Algebra.BigOperators.Intervals

/-! # Vocabulary for the Fourier-based methods -/

namespace SALib.Spec

open Real

/-- Squared amplitude of frequency `k` in `N` real data points. -/
noncomputable def power (N : Nat) (y : Nat → ℝ) (k : Nat) : ℝ :=
  (∑ n ∈ Finset.range N, y n * cos (2 * π * k * n / N)) ^ 2 +
    (∑ n ∈ Finset.range N, y n * sin (2 * π * k * n / N)) ^ 2

/-- Total squared amplitude of the frequencies `1 .. K`. -/
noncomputable def bandPower (N : Nat) (y : Nat → ℝ) (K : Nat) : ℝ :=
  ∑ k ∈ Finset.Icc 1 K, power N y k

/-- Total squared amplitude of the first `M` harmonics of `w`. -/
noncomputable def harmonicPower (N : Nat) (y : Nat → ℝ) (M w : Nat) : ℝ :=
  ∑ k ∈ Finset.Icc 1 M, power N y (k * w)

/-- Squared amplitude of all frequencies strictly below the Nyquist frequency `N / 2`. -/
noncomputable def totalPower (N : Nat) (y : Nat → ℝ) : ℝ := bandPower N y ((N - 1) / 2)

/-- A point of the search curve of frequency `w` and phase `phi` at parameter value `2πn/N`. -/
noncomputable def searchCurve (N w : Nat) (phi : ℝ) (n : Nat) : ℝ :=
  1 / 2 + arcsin (sin (w * (2 * π * n / N) + phi)) / π

end SALib.Spec
