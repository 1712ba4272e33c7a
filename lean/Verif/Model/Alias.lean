import Verif.Model.FracFact
import Verif.Model.EnhancedHdmr

/-! # Shared list objects of the problem dictionary

Python lists are objects; the dictionary holds references.  Several analysers put the list under `problem["names"]`
itself into their result, and three functions change the dictionary or extend that list in place.  The heap below keeps
the identity of the lists of strings; the bounds are replaced as a whole by the code (`sample/ff.py` 47, 52) and are
therefore a value. -/

namespace SALib

variable {α : Type} [Field α] [LinearOrder α]

/-- The list objects (the index is the identity) and the problem dictionary.  `groups` is `none` when the key is missing
or `None`. -/
structure PyHeap (α : Type) where
  obj : List (List String)
  names : Nat
  groups : Option Nat
  bounds : List (List α)
  dists : Option (List String) := none
  numVars : Nat
  deriving DecidableEq

/-- The list at a reference. -/
def PyHeap.get (h : PyHeap α) (a : Nat) : List String := h.obj.getD a []

/-- `lst.extend(xs)` (or repeated `append`) on the object `a`. -/
def PyHeap.extend (h : PyHeap α) (a : Nat) (xs : List String) : PyHeap α :=
  { h with obj := h.obj.set a (h.get a ++ xs) }

/-- The dictionary as its reader sees it. -/
def PyHeap.view (h : PyHeap α) : Problem α :=
  { names := h.get h.names, bounds := h.bounds, groups := h.groups.map h.get, dists := h.dists, numVars := h.numVars }

/-- `"groups" not in problem or not problem["groups"]`. -/
def PyHeap.noGroups (h : PyHeap α) : Bool :=
  match h.groups with
  | none => true
  | some g => (h.get g).isEmpty

/-- `_define_problem_with_groups`: `util/__init__.py` 372-378: the two keys share one list afterwards. -/
def aliasGroups (h : PyHeap α) : Py (PyHeap α) :=
  if h.noGroups then .ok { h with groups := some h.names }
  else if ((h.groups.map h.get).getD []).length ≠ h.numVars then .error .valueError
  else .ok h

/-- Dummies up to `n` parameters: `sample/ff.py` 49-54; `names.extend` works on the list object. -/
def PyHeap.pad (h : PyHeap α) (n : Nat) : PyHeap α :=
  { h.extend h.names ((List.range (n - h.numVars)).map fun v => "dummy_" ++ toString v) with
    bounds := h.bounds ++ (List.range (n - h.numVars)).map fun _ => [0, 1]
    numVars := n }

/-- `extend_bounds`: `sample/ff.py` 34-56. -/
def aliasExtend (h : PyHeap α) : Py (PyHeap α) := do
  let n ← ffSize h.numVars
  if 0 < n - h.numVars then return h.pad n else return h

/-- One call of an analyser, as far as the dictionary is concerned.  `fails`: the call raises after the part shown here,
for reasons that do not matter (for instance outputs of the wrong length). -/
inductive AnalysisCall
  /-- `delta` 222, `dgsm` 85, `discrepancy` 115, `fast` 87, `rbd_fast` 93: the result holds the names list itself. -/
  | sharing (fails : Bool)
  /-- `pawn` 170, `rsa` 126: the result holds a new list. -/
  | fresh (labels : List String) (fails : Bool)
  /-- `hdmr` 760-823 of order `o`: the result holds a new list of labels; a `ProblemSpec` (`spec`) is updated with the
  whole result (821), including its entry `"names"` (802).  `fails`: it raises before. -/
  | hdmr (o : Nat) (spec fails : Bool)
  /-- `morris` 139-146, 209. -/
  | morris (fails : Bool)
  /-- `ff` 74-83. -/
  | ff (fails : Bool)
  /-- `enhanced_hdmr` 274-285, 591-621 with `d` input columns and order `o`. -/
  | enhanced (d o : Nat) (fails : Bool)
  deriving DecidableEq

/-- A new list object. -/
def PyHeap.alloc (h : PyHeap α) (l : List String) : PyHeap α := { h with obj := h.obj ++ [l] }

/-- The outcome of a call that has reached its result. -/
def callResult (fails : Bool) (a : Nat) : Py Nat := if fails then .error .valueError else .ok a

/-- The heap after a call, whether it raises or not, and the names list of the result. -/
def aliasCall (h : PyHeap α) : AnalysisCall → PyHeap α × Py Nat
  | .sharing fails => (h, callResult fails h.names)
  | .fresh labels fails => (h.alloc labels, callResult fails h.obj.length)
  | .hdmr o spec fails =>
    match hdmrLabels (h.get h.names) h.numVars o with
    | .error e => (h, .error e)
    | .ok labels =>
      (if fails = false ∧ spec = true then { h.alloc labels with names := h.obj.length } else h.alloc labels,
        callResult fails h.obj.length)
  | .morris fails =>
    match aliasGroups h with
    | .error e => (h, .error e)
    | .ok h' => (h'.alloc (pdUnique ((h'.groups.map h'.get).getD [])), callResult fails h'.obj.length)
  | .ff fails =>
    match aliasExtend h with
    | .error e => (h, .error e)
    | .ok h' => (h', callResult fails h'.names)
  | .enhanced d o fails =>
    if h.numVars ≠ d ∨ (h.get h.names).length ≠ d ∨ h.bounds.length ≠ d then (h, .error .valueError)
    else match ehLabels (h.get h.names) d o with
      | .error e => (h, .error e)
      | .ok labels => (h.extend h.names (labels.drop d), callResult fails h.names)

/-- A sequence of calls: the final heap. -/
def aliasRun (h : PyHeap α) (calls : List AnalysisCall) : PyHeap α := calls.foldl (fun h c => (aliasCall h c).1) h

end SALib
