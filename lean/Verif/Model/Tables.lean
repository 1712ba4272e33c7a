import Verif.Model.Discrepancy
import Verif.Model.MorrisAnalyze
import Verif.Model.SobolAnalyze
import Verif.Model.FracFact
import Verif.Model.Fast
import Verif.Model.RbdFast
import Verif.Model.Dgsm

/-! # Results as tables: the `to_df` methods

`pd.DataFrame` is pandas' (outside /repo).  A table is the list of its rows, each with its label. -/

namespace SALib

variable {β : Type}

/-- Row labels with the entries of the row, and the column names. -/
structure Table (β : Type) where
  columns : List String
  rows : List (String × List β)
  deriving DecidableEq

/-- `pd.DataFrame(columns, index=names)`: a column of another length than the index is a `ValueError`. -/
def dataFrame [Inhabited β] (cols : List (String × List β)) (index : List String) : Py (Table β) :=
  if ∃ c ∈ cols, c.2.length ≠ index.length then .error .valueError
  else .ok
    { columns := cols.map (·.1)
      rows := index.zipIdx.map fun n => (n.1, cols.map fun c => c.2.getD n.2 default) }

/-- `ResultDict.to_df` of a Morris result: `results.py` 15-19, keys of `morris.py` 205-221. -/
def morrisDf {α : Type} (r : MorrisResult α) : Py (Table (Num α)) :=
  dataFrame [("mu", r.mu), ("mu_star", r.muStar), ("sigma", r.sigma), ("mu_star_conf", r.muStarConf)] r.names

/-- `to_df` of a FAST result: keys of `fast.py` 86. -/
noncomputable def fastDf (r : FastResult) : Py (Table (Num ℝ)) :=
  dataFrame [("S1", r.S1), ("ST", r.ST), ("S1_conf", r.S1conf), ("ST_conf", r.STconf)] r.names

/-- `to_df` of an RBD-FAST result: keys of `rbd_fast.py` 92. -/
noncomputable def rbdDf (r : RbdResult) : Py (Table (Num ℝ)) :=
  dataFrame [("S1", r.S1), ("S1_conf", r.S1conf)] r.names

/-- `to_df` of a DGSM result: keys of `dgsm.py` 83. -/
def dgsmDf {α : Type} (r : DgsmResult α) : Py (Table (Num α)) :=
  dataFrame [("vi", r.vi), ("vi_std", r.viStd), ("dgsm", r.dgsm), ("dgsm_conf", r.dgsmConf)] r.names

/-- `to_df` of a discrepancy result: keys of `discrepancy.py` 113-117. -/
def discDf {α : Type} (r : List (Num α) × List String) : Py (Table (Num α)) :=
  dataFrame [("s_discrepancy", r.1)] r.2

/-- The tables of main effects of `to_df`: `analyze/ff.py` 99-120 (labels are strings, so that the filter 114 keeps
all). -/
def ffDf {α : Type} [Inhabited α] (r : FfResult α) : Py (Table α) := dataFrame [("ME", r.ME)] r.names

/-- The tables of total and first-order indices of `to_df`: `sobol.py` 397-398, 430-434; the table of pairs is
`secondOrderTable`. -/
def sobolDf {α : Type} (pb : Problem α) (r : SobolResult α) : Py (Table (Num α) × Table (Num α)) := do
  let names := (extractGroupNames pb).1
  let total ← dataFrame [("ST", r.ST), ("ST_conf", r.STconf)] names
  let first ← dataFrame [("S1", r.S1), ("S1_conf", r.S1conf)] names
  return (total, first)

end SALib
