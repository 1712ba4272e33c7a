import Verif.Spec.Groups

/-! # Specification of the Saltelli cross-sampling scheme, written without reference to the model -/

namespace SALib.Spec

/-- `A` with the coordinates selected by `sel` taken from `B`. -/
def replaceIn {α : Type} (sel : Nat → Bool) (A B : List α) : List α :=
  (A.zip B).mapIdx fun j ab => if sel j then ab.2 else ab.1

/-- One block: the point `A`; for each group `k < g`, `A` with the group's coordinates from `B`; with
second order, for each group `B` with the group's coordinates from `A`; the point `B`.
`groupOf j` is the number of the group of coordinate `j`. -/
def crossBlock {α : Type} (second : Bool) (g : Nat) (groupOf : Nat → Nat) (A B : List α) :
    List (List α) :=
  [A] ++ ((List.range g).map fun k => replaceIn (fun j => groupOf j == k) A B) ++
    (if second then (List.range g).map fun k => replaceIn (fun j => groupOf j == k) B A else []) ++ [B]

/-- Number of rows of a block. -/
def blockSize (second : Bool) (g : Nat) : Nat := if second then 2 * g + 2 else g + 2

/-- The whole design: the blocks of the base rows, one after the other; a base row of length `2 D` is
the point `A` followed by the point `B`. -/
def crossDesign {α : Type} (second : Bool) (D g : Nat) (groupOf : Nat → Nat) (base : List (List α)) :
    List (List α) :=
  (base.map fun row => crossBlock second g groupOf (row.take D) (row.drop D)).flatten

/-- `g` groups numbered by `groupOf`: without labels every coordinate is its own group; with labels the
groups are the distinct labels in order of first mention. -/
def GroupNumbering (D : Nat) (labels : Option (List String)) (g : Nat) (groupOf : Nat → Nat) : Prop :=
  match labels with
  | none => g = D ∧ ∀ j < D, groupOf j = j
  | some ls => ∃ names, DistinctInOrder ls names ∧ g = names.length ∧
      ∀ j (l : String), ls[j]? = some l → names[groupOf j]? = some l

end SALib.Spec

namespace SALib.Spec

/-- The labels that actually group parameters in the Saltelli/Sobol samplers: none when no labels are
given, when the labels are the parameter names, or when there is only one label. -/
def SamplerLabels {α : Type} (pb : Problem α) (labels : Option (List String)) : Prop :=
  (labels = none ∧ (pb.groups = none ∨ pb.groups = some [] ∨ pb.groups = some pb.names ∨
      ∃ gs l, pb.groups = some gs ∧ ∀ g ∈ gs, g = l)) ∨
  ∃ gs, labels = some gs ∧ pb.groups = some gs ∧ gs ≠ pb.names ∧ ∃ g ∈ gs, ∃ h ∈ gs, g ≠ h

/-- Apply one function per column to a row. -/
def applyCols {α β : Type} (fs : List (α → β)) (row : List α) : List β :=
  List.zipWith (fun f x => f x) fs row

/-- Apply the column functions to both halves of a base row. -/
def applyBoth {α β : Type} (D : Nat) (fs : List (α → β)) (row : List α) : List β :=
  applyCols fs (row.take D) ++ applyCols fs (row.drop D)

end SALib.Spec
