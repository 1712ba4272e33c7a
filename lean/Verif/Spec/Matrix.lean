import Verif.Model.Basic

/-! # Vocabulary for stating properties of matrices (lists of rows) -/

namespace SALib.Spec

/-- Entry in row `r`, column `c`, if there is one. -/
def entry {α : Type} (M : Mat α) (r c : Nat) : Option α := M[r]?.bind (·[c]?)

/-- All rows have exactly `d` entries. -/
def HasCols {α : Type} (d : Nat) (M : Mat α) : Prop := ∀ row ∈ M, row.length = d

/-- Same number of rows, and row by row the same number of entries. -/
def SameShape {α β : Type} (M : Mat α) (M' : Mat β) : Prop :=
  M.map List.length = M'.map List.length

/-- The bounds table with one two-value row `[lower, upper]` per parameter. -/
def boundsTable {α : Type} (bs : List (α × α)) : List (List α) := bs.map fun p => [p.1, p.2]

end SALib.Spec
