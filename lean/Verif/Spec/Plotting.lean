import Verif.Model.Plotting

/-! # A plot shows the right numbers beside the right labels -/

namespace SALib.Spec

variable {α β : Type}

/-- The image has one column for each name and one row for each row label, and the row labelled `k` is the array that
the result has under `k`. -/
structure HeatShows (S : ResDict α) (names : List String) (h : Heat α) : Prop where
  columns : h.xLabels = names
  labelled : h.yLabels.length = h.image.length
  rows : ∀ (r : Nat) k, h.yLabels[r]? = some k →
    ∃ l, (k, ResVal.vec l) ∈ S ∧ h.image[r]? = some l ∧ l.length = names.length

/-- There is a series of bars for each column that is not a confidence column, in order; each has one bar for each
name, as high as the entry of the name; and its error bars are the entries of its confidence column, if it has one. -/
structure BarsShow (names : List String) (cols : List (String × List β)) (bars : List (BarSeries β)) : Prop where
  series : bars.map (·.series) = (cols.map (·.1)).filter fun k => !containsConf k
  heights : ∀ b ∈ bars, ∃ v, (b.series, v) ∈ cols ∧ b.bars.map (·.1) = names ∧ b.bars.map (·.2) = v
  errors : ∀ b ∈ bars, ∀ e, (b.series ++ "_conf", e) ∈ cols → b.errors = some e
  noErrors : ∀ b ∈ bars, (∀ e, (b.series ++ "_conf", e) ∉ cols) → b.errors = none

/-- At most, nan being larger than every number. -/
def NanLast [LE α] : Num α → Num α → Prop
  | some a, some b => a ≤ b
  | _, none => True
  | none, some _ => False

/-- `np.argsort` of any array: an order of the positions in which the values increase, nan at the end. -/
def ArgsortNan [LE α] (argsort : List (Num α) → List Nat) : Prop :=
  ∀ l, (argsort l).Perm (List.range l.length) ∧ ((argsort l).map fun i => l.getD i none).Pairwise NanLast

/-- Every input has exactly one bar: its own name, its own `mu_star` and its own `mu_star_conf`. -/
def BarPerInput (r : MorrisResult α) (b : BarH α) : Prop :=
  ∃ σ : List Nat, σ.Perm (List.range r.names.length) ∧
    b.labels.length = σ.length ∧ b.widths.length = σ.length ∧ b.errors.length = σ.length ∧
    ∀ (p i : Nat), σ[p]? = some i →
      b.labels[p]? = r.names[i]? ∧ b.widths[p]? = r.muStar[i]? ∧ b.errors[p]? = r.muStarConf[i]?

end SALib.Spec
