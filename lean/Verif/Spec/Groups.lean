import Verif.Model.Basic

/-! # Specification of grouping -/

namespace SALib.Spec

/-- `names` lists exactly the labels occurring in `labels`, each once, in order of first mention. -/
structure DistinctInOrder (labels names : List String) : Prop where
  nodup : names.Nodup
  mem_iff : ∀ g, g ∈ names ↔ g ∈ labels
  first_mention : names.Pairwise fun a b => labels.idxOf a < labels.idxOf b

/-- The labels that are in effect: the `groups` entry, or the parameter names when there is none. -/
def effectiveLabels {α : Type} (pb : Problem α) : List String :=
  match pb.groups with
  | some (g :: gs) => g :: gs
  | _ => pb.names

/-- A parameter-file row is a comment when the first character of its name that is not white space is
`#`. -/
def IsCommentName (name : String) : Prop :=
  ∃ blanks rest, name.toList = blanks ++ '#' :: rest ∧ ∀ c ∈ blanks, c.isWhitespace = true

end SALib.Spec
