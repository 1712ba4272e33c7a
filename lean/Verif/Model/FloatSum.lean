import Verif.Model.Float

/-! # Sums, means and variances with their rounding

NumPy adds long arrays pairwise, short ones from left to right, and rows of a table one after the other.
The order is a parameter: a binary tree over the positions. -/

namespace SALib

/-- The order in which the entries of an array are added. -/
inductive SumTree where
  | leaf (i : Nat)
  | node (l r : SumTree)

/-- Positions of the entries, from left to right. -/
def SumTree.leaves : SumTree → List Nat
  | .leaf i => [i]
  | .node l r => l.leaves ++ r.leaves

/-- `np.add.reduce(xs)` in the order `t`. -/
def sumFl (F : Fmt) (xs : List ℚ) : SumTree → ℚ
  | .leaf i => xs.getD i 0
  | .node l r => fadd F (sumFl F xs l) (sumFl F xs r)

/-- `np.mean(xs)`: the sum over the number of entries (no array has so many entries that their number must be
rounded); nan for no entries. -/
def meanFl (F : Fmt) (order : Nat → SumTree) (xs : List ℚ) : Num ℚ :=
  if xs.length = 0 then none else some (fdiv F (sumFl F xs (order xs.length)) xs.length)

/-- The same where an entry may be nan or infinite. -/
def meanFlN (F : Fmt) (order : Nat → SumTree) (l : List (Num ℚ)) : Num ℚ := do
  let l ← l.mapM id
  meanFl F order l

/-- Squares of the deviations from `m`. -/
def devSqFl (F : Fmt) (m : ℚ) (xs : List ℚ) : List ℚ :=
  xs.map fun x => fmul F (fsub F x m) (fsub F x m)

/-- `np.var(xs)`. -/
def varFl (F : Fmt) (order : Nat → SumTree) (xs : List ℚ) : Num ℚ := do
  let m ← meanFl F order xs
  meanFl F order (devSqFl F m xs)

/-- `np.std(xs)`; `sqrt` is the square root with its rounding. -/
def std0Fl (F : Fmt) (order : Nat → SumTree) (sqrt : ℚ → ℚ) (xs : List ℚ) : Num ℚ :=
  (varFl F order xs).map sqrt

/-- `xs.std(ddof=1)`; nan for fewer than two entries. -/
def std1Fl (F : Fmt) (order : Nat → SumTree) (sqrt : ℚ → ℚ) (xs : List ℚ) : Num ℚ := do
  let m ← meanFl F order xs
  if xs.length ≤ 1 then none
  else return sqrt (fdiv F (sumFl F (devSqFl F m xs) (order xs.length)) ((xs.length - 1 : Nat) : ℚ))

/-- The same where an entry may be nan or infinite. -/
def std1FlN (F : Fmt) (order : Nat → SumTree) (sqrt : ℚ → ℚ) (l : List (Num ℚ)) : Num ℚ := do
  let l ← l.mapM id
  std1Fl F order sqrt l

end SALib
