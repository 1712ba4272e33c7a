import Verif.Model.Basic

/-! # NumPy reductions used by the analysers (exact arithmetic; `none` is nan/inf) -/

namespace SALib

variable {α : Type} [Field α] [DecidableEq α]

/-- `np.mean(l)`: nan for an empty array. -/
def npMean (l : List α) : Num α := npDiv l.sum (l.length : α)

/-- `np.var(l)` (`ddof=0`). -/
def npVar (l : List α) : Num α := do
  let m ← npMean l
  npMean (l.map fun x => (x - m) ^ 2)

/-- `l.std(ddof=1)`; nan for fewer than two entries.  `sqrt` is `np.sqrt`. -/
def npStd1 (sqrt : α → α) (l : List α) : Num α := do
  let m ← npMean l
  let s ← npDiv ((l.map fun x => (x - m) ^ 2).sum) ((l.length : α) - 1)
  return sqrt s

/-- The same on an array that may contain nan: nan propagates. -/
def npStd1N (sqrt : α → α) (l : List (Num α)) : Num α := do
  let l ← l.mapM id
  npStd1 sqrt l

/-- `np.ptp(l) == 0` for a non-empty array: all entries equal (`max - min = 0`). -/
def ptpZero (l : List α) : Bool :=
  match l with
  | [] => false
  | x :: xs => xs.all (· == x)

/-- Python slice `l[start::step]` (`step > 0`), i.e. the entries at `start, start+step, ...`. -/
def strided {β : Type} (l : List β) (start step : Nat) : List β :=
  (List.range' start ((l.length - start + step - 1) / step) step).filterMap (l[·]?)

end SALib
