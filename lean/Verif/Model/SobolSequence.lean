import Verif.Model.Basic

/-!
# The Sobol sequence generator (`src/SALib/sample/sobol_sequence.py`)

Integers are natural numbers: NumPy's 64-bit integers are exact here because every value stays below
`2 ^ 31` (part of what is proved).  `L` is a parameter: it is computed in floating point as
`int(ceil(log(N) / log(2)))`, and the theorems only assume `N ≤ 2 ^ L`, so an over-estimate is covered.
-/

namespace SALib

/-- `V[i]` for a 1-d integer array. -/
def vGet (V : List Nat) (i : Nat) : Py Nat :=
  match V[i]? with
  | some v => .ok v
  | none => .error .indexError

/-- `V[i] = x`. -/
def vSet (V : List Nat) (i x : Nat) : Py (List Nat) :=
  if i < V.length then .ok (V.set i x) else .error .indexError

/-- `scale = 31`: `sobol_sequence.py` 51. -/
def sobolScale : Nat := 31

/-- `index_of_least_significant_zero_bit(value)`: `sobol_sequence.py` 94-100.  The loop is written as
recursion; `index` counts the steps. -/
def leastZeroBit (value : Nat) : Nat :=
  if value % 2 = 0 then 1 else leastZeroBit (value / 2) + 1
termination_by value
decreasing_by omega

/-- First dimension: `sobol_sequence.py` 65-67. -/
def firstDirections (L : Nat) (V : List Nat) : Py (List Nat) :=
  (List.range' 1 L).foldlM (fun V j => vSet V j (1 <<< (sobolScale - j))) V

/-- `for j in range(1, n + 1): V[j] = m[j] << (scale - j)`: `sobol_sequence.py` 76-77 (`n = L`), 79-80
(`n = s`). -/
def initialDirections (m : List Nat) (n : Nat) (V : List Nat) : Py (List Nat) :=
  (List.range' 1 n).foldlM (fun V j => do
    let mj ← vGet m j
    vSet V j (mj <<< (sobolScale - j))) V

/-- The recurrence for one `j`: `sobol_sequence.py` 82-84. -/
def recurrenceStep (a s : Nat) (V : List Nat) (j : Nat) : Py (List Nat) := do
  let x ← vGet V (j - s)
  let V ← vSet V j (x ^^^ (x >>> s))
  (List.range' 1 (s - 1)).foldlM (fun V k => do
    let v ← vGet V j
    let w ← vGet V (j - k)
    vSet V j (v ^^^ (((a >>> (s - 1 - k)) &&& 1) * w))) V

/-- Direction numbers of a later dimension, from the table row `m`: `sobol_sequence.py` 69-84. -/
def laterDirections (m : List Nat) (L : Nat) (V : List Nat) : Py (List Nat) := do
  let a ← vGet m 0
  let s := m.length - 1
  if L ≤ s then initialDirections m L V
  else do
    let V ← initialDirections m s V
    (List.range' (s + 1) (L - s)).foldlM (recurrenceStep a s) V

/-- Direction numbers of dimension `i`: `sobol_sequence.py` 63-84. -/
def directionNumbers (directions : List (List Nat)) (L i : Nat) : Py (List Nat) :=
  let V := List.replicate (L + 1) 0
  if i = 0 then firstDirections L V
  else
    match directions[i - 1]? with
    | none => .error .indexError
    | some m => laterDirections m L V

/-- The integers `X` of one column: `sobol_sequence.py` 86-89; the list holds `X` for rows 0, 1, ... -/
def columnInts (V : List Nat) (N : Nat) : Py (List Nat) := do
  let st ← (List.range' 1 (N - 1)).foldlM (fun (st : Nat × List Nat) j => do
    let v ← vGet V (leastZeroBit (j - 1))
    let X := st.1 ^^^ v
    return (X, st.2 ++ [X])) (0, [0])
  return st.2

/-- `sobol_sequence.sample(N, D)`: `sobol_sequence.py` 49-91.  The table of direction numbers is a
parameter.  `N = 0` fails in `math.log`.  The array is filled column by column; entry `[j][i]` is
`X_j / 2^31` of column `i`. -/
def sobolSequence {α : Type} [Field α] (directions : List (List Nat)) (L N D : Nat) : Py (Mat α) := do
  if D > directions.length + 1 then .error .valueError
  if N = 0 then .error .valueError
  if L > sobolScale then .error .valueError
  let cols ← (List.range D).mapM fun i => do
    let V ← directionNumbers directions L i
    columnInts V N
  return (List.range N).map fun j => cols.map fun c => ((c.getD j 0 : Nat) : α) / 2 ^ sobolScale

end SALib
