import Verif.Model.ProblemSpec

/-! # Tables of a `ProblemSpec` (`src/SALib/util/problem.py` 464-473) -/

namespace SALib

/-- What `to_df` returns: one table, or a list of tables. -/
inductive SpecTables (T : Type)
  | one (t : T)
  | many (ts : List T)
  deriving DecidableEq

/-- `to_df()`: 464-473.  `df` is the conversion of one analysis (`ResultDict.to_df`, or the one attached by the
method), which may raise.  The values of the dictionary come in the order of first insertion. -/
def specToDf {α β A T : Type} (s : SpecState α β A) (df : A → Py T) : Py (SpecTables T) :=
  match s.analysis with
  | none => .error .runtimeError
  | some (.single a) => do return .one (← df a)
  | some (.byOutput d) => do return .many (← (d.map Prod.snd).mapM df)

end SALib
