import Verif.Model.Scale

/-! # Groups and parameter files (`src/SALib/util/__init__.py`, `src/SALib/util/util_funcs.py`) -/

namespace SALib

/-- `pd.unique(np.array(groups))`: distinct values in order of first appearance
(pandas, outside /repo). -/
def pdUnique {β : Type} [DecidableEq β] (l : List β) : List β :=
  l.foldl (fun acc x => if x ∈ acc then acc else acc ++ [x]) []

/-- `extract_group_names(p)`: `__init__.py` 292-314.  A missing, `None` or empty `groups` entry falls
back to the names. -/
def extractGroupNames {α : Type} (pb : Problem α) : List String × Nat :=
  let groups := match pb.groups with
    | none => pb.names
    | some [] => pb.names
    | some gs => gs
  let names := pdUnique groups
  (names, names.length)

/-- `compute_groups_matrix(groups)`: `__init__.py` 317-350.  The dictionary `indices` (342) is
modelled by position look-up in the list of unique names (its keys are distinct). -/
def computeGroupsMatrix (groups : List String) : Py (Mat Nat × List String) := do
  let unique := pdUnique groups                                        -- 339
  let output := zerosMat groups.length unique.length                   -- 344
  let output ← groups.zipIdx.foldlM (fun M (g, row) =>                 -- 346-348
    match unique.findIdx? (· == g) with
    | some idx => setCell M row idx 1
    | none => .error .keyError) output
  return (output, unique)

/-- `_define_problem_with_groups(problem)`: `__init__.py` 353-378 (a second copy is in `util_funcs.py`
155-181).  The aliasing of the two list objects is modelled separately, in `Model/Alias.lean`. -/
def defineProblemWithGroups {α : Type} (pb : Problem α) : Py (Problem α) :=
  match pb.groups with
  | none => .ok { pb with groups := some pb.names }
  | some [] => .ok { pb with groups := some pb.names }
  | some gs => if gs.length ≠ pb.numVars then .error .valueError else .ok pb

/-- `_check_groups(problem)`: `util_funcs.py` 118-129; `none` is `False`. -/
def checkGroups {α : Type} (pb : Problem α) : Option (List String) :=
  match pb.groups with
  | none => none
  | some [] => none
  | some gs =>
    if gs = pb.names then none
    else if (pdUnique gs).length = 1 then none                         -- len(set(groups)) == 1
    else some gs

/-- One row of a parameter file as delivered by `csv.DictReader`: missing trailing columns are `None`;
`lower`/`upper` are the outcomes of `float(...)`, `none` when the text is not a number. -/
structure ParamRow (α : Type) where
  name : String
  lower : Option α
  upper : Option α
  group : Option String := none
  dist : Option String := none

/-- `row["name"].strip().startswith("#")`: `util_funcs.py` 73. -/
def isComment (name : String) : Bool :=
  (name.toList.dropWhile Char.isWhitespace).head? == some '#'

/-- `float(text)`: `ValueError` when the text is not a number. -/
def pyFloat {α : Type} : Option α → Py α
  | some v => .ok v
  | none => .error .valueError

/-- The lists accumulated while reading (`util_funcs.py` 61-65). -/
structure ParamAcc (α : Type) where
  names : List String := []
  bounds : List (List α) := []
  groups : List String := []
  dists : List String := []
  numVars : Nat := 0

/-- Loop body of `read_param_file`: `util_funcs.py` 72-94. -/
def readRow {α : Type} (acc : ParamAcc α) (row : ParamRow α) : Py (ParamAcc α) := do
  if isComment row.name then return acc
  let lo ← pyFloat row.lower
  let hi ← pyFloat row.upper
  let group := match row.group with
    | none => row.name
    | some g => if g = "NA" then row.name else g
  let dist := match row.dist with
    | none => "unif"
    | some d => d
  return { names := acc.names ++ [row.name]
           bounds := acc.bounds ++ [[lo, hi]]
           groups := acc.groups ++ [group]
           dists := acc.dists ++ [dist]
           numVars := acc.numVars + 1 }

/-- `read_param_file`: `util_funcs.py` 33-115, from the parsed rows on (dialect sniffing and csv
tokenising, 68-71, are not modelled). -/
def readParamFile {α : Type} (rows : List (ParamRow α)) : Py (Problem α) := do
  let acc ← rows.foldlM readRow {}
  let groups ←
    (if acc.groups = acc.names then .ok none                                -- 96
     else if (pdUnique acc.groups).length = 1 then .error .valueError       -- 98
     else .ok (some acc.groups) : Py (Option (List String)))
  let dists := if acc.dists.all (· == "unif") then none else some acc.dists -- 106
  return { names := acc.names, bounds := acc.bounds, numVars := acc.numVars,
           groups := groups, dists := dists }

end SALib
