import Verif.Model.Tables

/-! # A table of labelled columns -/

namespace SALib.Spec

/-- `t` has one row per label, in order, and holds the given columns: the entry of row `k` in a column is entry `k` of
the column. -/
structure TableOf {β : Type} (names : List String) (cols : List (String × List β)) (t : Table β) : Prop where
  columns : t.columns = cols.map (·.1)
  labels : t.rows.map (·.1) = names
  entries : ∀ (k : Nat) row, t.rows[k]? = some row → row.2.length = cols.length ∧
    ∀ (c : Nat) col, cols[c]? = some col → row.2[c]? = col.2[k]? ∧ ∃ v, col.2[k]? = some v

end SALib.Spec
