import Mathlib.Data.Real.Archimedean

/-! # The bit count of the Sobol sequence as computed

`Model/SobolSequence.lean` takes the bit count as a parameter and `Model/Saltelli.lean` uses the exact
logarithm.  Here the quotient of the logarithms is whatever the machine made of it. -/

namespace SALib

/-- `int(math.ceil(ratio))`: `sobol_sequence.py` 57, `saltelli.py` 114; `ratio` stands for
`math.log(N) / math.log(2)` as computed. -/
noncomputable def bitCount (ratio : ℝ) : Nat := ⌈ratio⌉.toNat

/-- `max(int(2 ** math.ceil(ratio)), 16)`: `saltelli.py` 114-118. -/
noncomputable def skipOf (ratio : ℝ) : Nat := max (2 ^ bitCount ratio) 16

end SALib
