import Mathlib.Algebra.Order.Field.Basic

/-!
# Common vocabulary of the model

Python exceptions as values, arrays as lists, cell access with range checks, and the problem
dictionary.
-/

namespace SALib

/-- The exception classes that the modelled code (or the NumPy calls inside it) can raise. -/
inductive PyErr
  | valueError
  | runtimeError
  | typeError
  | indexError
  | assertionError
  | keyError
  | zeroDivisionError
  | attributeError
  deriving DecidableEq, Repr

/-- Result of a Python call: a value or an exception. -/
abbrev Py (β : Type) := Except PyErr β

instance {β : Type} [DecidableEq β] : DecidableEq (Py β) := fun a b =>
  match a, b with
  | .ok x, .ok y => if h : x = y then isTrue (by rw [h]) else isFalse (by intro e; cases e; exact h rfl)
  | .error x, .error y =>
      if h : x = y then isTrue (by rw [h]) else isFalse (by intro e; cases e; exact h rfl)
  | .ok _, .error _ => isFalse (by intro e; cases e)
  | .error _, .ok _ => isFalse (by intro e; cases e)

/-- A 2-d NumPy array as the list of its rows.  Rectangularity is a hypothesis where needed. -/
abbrev Mat (α : Type) := List (List α)

/-- A NumPy float that may be nan or infinite: `none` stands for "not a finite number". -/
abbrev Num (α : Type) := Option α

/-- `a / b` on NumPy floats: nan or inf (here `none`) when `b` is 0. -/
def npDiv {α : Type} [Field α] [DecidableEq α] (a b : α) : Num α :=
  if b = 0 then none else some (a / b)

/-- Read `M[i, j]` (non-negative indices), raising `IndexError` when out of range. -/
def getCell {α : Type} (M : Mat α) (i j : Nat) : Py α :=
  match M[i]? with
  | none => .error .indexError
  | some row =>
    match row[j]? with
    | none => .error .indexError
    | some v => .ok v

/-- `M[i, j] = v` (non-negative indices), raising `IndexError` when out of range. -/
def setCell {α : Type} (M : Mat α) (i j : Nat) (v : α) : Py (Mat α) :=
  match M[i]? with
  | none => .error .indexError
  | some row => if j < row.length then .ok (M.set i (row.set j v)) else .error .indexError

/-- `for j in range(D): M[i, j] = g(j)`, the inner loop used by several samplers. -/
def fillRow {α : Type} (M : Mat α) (i D : Nat) (g : Nat → Py α) : Py (Mat α) :=
  (List.range D).foldlM (fun M j => do let v ← g j; setCell M i j v) M

/-- `np.zeros([n, d])`. -/
def zerosMat {α : Type} [Zero α] (n d : Nat) : Mat α :=
  List.replicate n (List.replicate d 0)

/-- The SALib problem dictionary.  `none` for `groups`/`dists` stands for a missing key or `None`
(the code treats both alike); `sampleScaled` is the key `"sample_scaled"`.
(`src/SALib/util/util_funcs.py` 109-115, `src/SALib/util/__init__.py` 74-88.) -/
structure Problem (α : Type) where
  names : List String
  bounds : List (List α)
  groups : Option (List String) := none
  dists : Option (List String) := none
  numVars : Nat := names.length
  sampleScaled : Bool := false
  deriving DecidableEq

end SALib
