import Verif.Model.Groups
import Mathlib.Data.Nat.Log

/-! # Saltelli / Sobol sampling (`src/SALib/sample/saltelli.py`, `src/SALib/sample/sobol.py`) -/

namespace SALib

variable {α : Type}

/-- The loop condition `(not groups and j == k) or (groups and group_names[k] == groups[j])`:
`saltelli.py` 175, 187; `sobol.py` 161, 173. -/
def crossCond (groups : Option (List String)) (gnames : List String) (k j : Nat) : Py Bool :=
  match groups with
  | none => .ok (j == k)
  | some gs => do
    let gn ← pyGet gnames k
    let gj ← pyGet gs j
    return gn == gj

/-- `for j in range(D): saltelli_sequence[index, j] = g(j)` followed by `index += 1`. -/
def writeRow (st : Mat α × Nat) (D : Nat) (g : Nat → Py α) : Py (Mat α × Nat) := do
  let S ← fillRow st.1 st.2 D g
  return (S, st.2 + 1)

/-- Body of the outer loop for base row `i`: `saltelli.py` 166-200, `sobol.py` 152-186.  The state is
the pair (array, index). -/
def crossBlock (second : Bool) (D Dg : Nat) (groups : Option (List String)) (gnames : List String)
    (base : Mat α) (st : Mat α × Nat) (i : Nat) : Py (Mat α × Nat) := do
  -- Copy matrix "A"
  let st ← writeRow st D fun j => getCell base i j
  -- Cross-sample elements of "B" into "A"
  let st ← (List.range Dg).foldlM (fun st k =>
    writeRow st D fun j => do
      let c ← crossCond groups gnames k j
      if c then getCell base i (j + D) else getCell base i j) st
  -- Cross-sample elements of "A" into "B"
  let st ← if second then
      (List.range Dg).foldlM (fun st k =>
        writeRow st D fun j => do
          let c ← crossCond groups gnames k j
          if c then getCell base i j else getCell base i (j + D)) st
    else pure st
  -- Copy matrix "B"
  writeRow st D fun j => getCell base i (j + D)

/-- Group names and number of groups: `saltelli.py` 150-154, `sobol.py` 138-142.
`len(set(group_names))` (154, 142) is the number of distinct names. -/
def crossGroups (D : Nat) (groups : Option (List String)) : Py (List String × Nat) :=
  match groups with
  | none => .ok ([], D)
  | some gs => do
    let (_, names) ← computeGroupsMatrix gs
    pure (names, (pdUnique names).length)

/-- Allocation and outer loop: `saltelli.py` 159-200 (with `start = skip_values`) and `sobol.py`
145-186 (with `start = 0`). -/
def crossSample [Zero α] (second : Bool) (D N start : Nat) (groups : Option (List String))
    (base : Mat α) : Py (Mat α) := do
  let (gnames, Dg) ← crossGroups D groups
  let zeros := zerosMat ((if second then 2 * Dg + 2 else Dg + 2) * N) D
  let (S, _) ← (List.range' start N).foldlM (crossBlock second D Dg groups gnames base) (zeros, 0)
  return S

/-- The warning condition of `saltelli.py` 105 (and 122, `sobol.py` 112):
`not ((N & (N - 1) == 0) and (N != 0 and N - 1 != 0))`. -/
def warnsNotPow2 (N : Nat) : Bool := !((N &&& (N - 1)) == 0 && (N != 0 && N - 1 != 0))

/-- Choice and check of `skip_values`: `saltelli.py` 112-145.  `none` is the default `None`.
`math.log(0)` is a `ValueError`; a negative value fails the assertion (142-145).  Warnings are not
modelled here; `math.ceil(math.log(N) / math.log(2))` is modelled exactly (`Nat.clog 2 N`). -/
def saltelliSkip (N : Nat) (skip : Option Int) : Py Nat :=
  match skip with
  | none => if N = 0 then .error .valueError else .ok (max (2 ^ Nat.clog 2 N) 16)
  | some s =>
    if 0 < s then (if N = 0 then .error .valueError else .ok s.toNat)  -- math.log(N, 2), line 131
    else if s = 0 then .ok 0
    else .error .assertionError

variable [Field α] [LinearOrder α]

/-- `saltelli.sample(problem, N, calc_second_order, skip_values)`: `saltelli.py` 12-203.  The base
sequence generator is a parameter here (`Model/SobolSequence.lean` models it). -/
def saltelliSample (F : Ppf α) (gen : Nat → Nat → Py (Mat α)) (pb : Problem α) (N : Nat)
    (second : Bool) (skip : Option Int) : Py (Mat (Num α) × Problem α) := do
  let skip ← saltelliSkip N skip
  let D := pb.numVars
  let groups := checkGroups pb
  let base ← gen (N + skip) (2 * D)
  let S ← crossSample second D N skip groups base
  scaleSamples F D S pb

/-- `sobol.sample(problem, N, calc_second_order=..., skip_values=...)`: `sobol.py` 11-189.
`engine skip n d` stands for the `n` points delivered by `qmc.Sobol(d, ...)` after
`fast_forward(skip)` (SciPy, outside /repo).  `np.log2(0) = -inf` makes `int(...)` raise
`OverflowError`; with `N = 0` and a positive skip the model returns `ValueError` instead. -/
def sobolSample (F : Ppf α) (engine : Nat → Nat → Nat → Mat α) (pb : Problem α) (N : Nat)
    (second : Bool) (skip : Int) : Py (Mat (Num α) × Problem α) := do
  let D := pb.numVars
  let groups := checkGroups pb
  if skip < 0 then .error .valueError
  if 0 < skip ∧ N = 0 then .error .valueError
  let base := engine skip.toNat N (2 * D)
  let S ← crossSample second D N 0 groups base
  scaleSamples F D S pb

/-- Number of groups the sampler uses to lay out its rows (`Dg`, `saltelli.py` 150-154). -/
def samplerGroupCount (pb : Problem α) : Nat :=
  match checkGroups pb with
  | none => pb.numVars
  | some gs => (pdUnique gs).length

end SALib
