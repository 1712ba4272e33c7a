import Verif.Model.DeltaAnalyze

/-! # Delta method: the analysis of all parameters (`src/SALib/analyze/delta.py`, `analyze`)

The texts of the warnings and notes, the printing and the file of bootstrap rows are left out. -/

namespace SALib

section
variable {α : Type} [Field α] [LinearOrder α]

/-- What `analyze` does with an exception raised while a parameter is looked at: `exception_handler` (22-31) keeps it as
the note of the parameter (`noted`), or raises `ValueError` if it is a `LinAlgError` (`abort`). -/
inductive DeltaStop where
  | noted
  | abort
  deriving DecidableEq

/-- Exceptions other than `LinAlgError`: `delta.py` 22-31, 281-284. -/
def orNote {β : Type} (x : Py β) : Except DeltaStop β := x.mapError fun _ => .noted

/-- The exceptions of `gaussian_kde`, which are `LinAlgError`: `delta.py` 25-28. -/
def orAbort {β : Type} (x : Py β) : Except DeltaStop β := x.mapError fun _ => .abort

/-- `bias_reduced_delta` with the drawing of its rows: `delta.py` 387-428.  `R 0` are the draws for `ind`, `R (t + 1)`
those of resample `t`. -/
def modeDelta (kde : List α → List α → Option (List α)) (sqrt : α → α) (z eps : α) (R : Nat → DeltaDraws)
    (Y grid X m : List α) (num y : Nat) (mode : DeltaMode) (edges : List α) (minSize : Nat) :
    Except DeltaStop (Num α × Num α) := do
  let ind ← orNote (resampledSubset (R 0) eps X y mode edges minSize)
  let _ ← orAbort (calcDelta kde (takeIdx Y ind) grid (takeIdx X ind) m)
  let rs ← orNote ((List.range num).mapM fun t => resampledSubset (R (t + 1)) eps X y mode edges minSize)
  orAbort (biasReducedDelta kde sqrt z Y grid X m ind rs)

/-- The entries of one parameter, nan until assigned: `delta.py` 209. -/
structure DeltaRow (α : Type) where
  balanced : Num α := none
  balancedConf : Num α := none
  raw : Num α := none
  rawConf : Num α := none
  step : Num α := none
  stepConf : Num α := none
  s1 : Num α := none
  s1Conf : Num α := none
  deriving DecidableEq

/-- The assignments of one parameter until one of them fails: `delta.py` 234-284.  The second component is whether
line 286 is reached. -/
def runStages (row : DeltaRow α) : List (Except DeltaStop (DeltaRow α → DeltaRow α)) → Py (DeltaRow α × Bool)
  | [] => .ok (row, true)
  | .ok f :: l => runStages (f row) l
  | .error .noted :: _ => .ok (row, false)
  | .error .abort :: _ => .error .valueError

inductive DeltaMethod where
  | all
  | delta
  | sobol
  deriving DecidableEq

/-- `"delta" in methods`: `delta.py` 180. -/
def DeltaMethod.hasDelta : DeltaMethod → Bool
  | .sobol => false
  | _ => true

/-- `"sobol" in methods`: `delta.py` 180. -/
def DeltaMethod.hasSobol : DeltaMethod → Bool
  | .delta => false
  | _ => true

/-- Everything drawn: for parameter `i`, mode and call `t` the draws of `obtain_resampled_subset`; the rows `ind` of
275; the rows `r` of 553. -/
structure DeltaRandom where
  subset : Nat → DeltaMode → Nat → DeltaDraws
  rows : Nat → List Nat
  boot : Nat → List (List Nat)

/-- What `analyze` is given besides the samples: `kde`, `sqrt`, `z = norm.ppf(0.5 + conf_level / 2)`, `eps = 1e-9`,
the class count for a number of rows (192), `bins_specs`, `num_resamples`. -/
structure DeltaSetup (α : Type) where
  kde : List α → List α → Option (List α)
  sqrt : α → α
  z : α
  eps : α
  classes : Nat → Nat
  bins : String → BinInfo α
  num : Nat

/-- `min_class_size`: `delta.py` 229. -/
def minClass (N : Nat) : Nat := max (N / 200) 10

/-- Too few samples on one side for the mode step: `delta.py` 238-240. -/
def stepShort (col : List α) (minSize : Nat) : Bool :=
  decide ((whereIdx col fun x => decide (x ≤ 0)).length < minSize) ||
    decide ((whereIdx col fun x => decide (0 < x)).length < minSize)

/-- The mode step: `delta.py` 237-258. -/
def stepStage (s : DeltaSetup α) (R : DeltaRandom) (Y grid col m edges : List α) (y i : Nat) :
    Except DeltaStop (DeltaRow α → DeltaRow α) :=
  if stepShort col (minClass col.length) then .ok id
  else (modeDelta s.kde s.sqrt s.z s.eps (R.subset i .step) Y grid col m s.num y .step edges
    (minClass col.length)).map fun v row => { row with step := v.1, stepConf := v.2 }

/-- The assignments of parameter `i` in order: `delta.py` 235-279. -/
def deltaStages (s : DeltaSetup α) (R : DeltaRandom) (method : DeltaMethod) (Y grid col m edges : List α) (y i : Nat) :
    List (Except DeltaStop (DeltaRow α → DeltaRow α)) :=
  (if method.hasDelta then
    [(modeDelta s.kde s.sqrt s.z s.eps (R.subset i .balanced) Y grid col m s.num y .balanced edges
        (minClass col.length)).map fun v row => { row with balanced := v.1, balancedConf := v.2 },
     (modeDelta s.kde s.sqrt s.z s.eps (R.subset i .raw) Y grid col m s.num y .raw edges
        (minClass col.length)).map fun v row => { row with raw := v.1, rawConf := v.2 },
     stepStage s R Y grid col m edges y i]
   else []) ++
  (if method.hasSobol then
    [.ok fun row => { row with s1 := sobolFirst (takeIdx Y (R.rows i)) (takeIdx col (R.rows i)) m,
                               s1Conf := sobolFirstConf s.sqrt s.z Y col m (R.boot i) }]
   else [])

/-- One pass of the loop: `delta.py` 226-286. -/
def deltaParam (s : DeltaSetup α) (R : DeltaRandom) (method : DeltaMethod) (names : List String) (X : Mat α)
    (Y grid m : List α) (y i : Nat) : Py (DeltaRow α × Bool) := do
  let name ← pyGet names i
  let col ← X.mapM fun row => pyGet row i
  let lo ← arrMin col
  let hi ← arrMax col
  runStages {} (deltaStages s R method Y grid col m (checkBinInfo s.eps (s.bins name) lo hi) y i)

/-- The dictionary returned.  A note is recorded by whether it is that of an exception; the key `notes` is absent if
line 286 was never reached (`notes` is one list, appended to after the assignment as well). -/
structure DeltaResult (α : Type) where
  names : List String
  entries : List (String × List (Num α))
  notes : Option (List Bool)
  deriving DecidableEq

/-- The keys: `delta.py` 198-208. -/
def deltaEntries (method : DeltaMethod) (rows : List (DeltaRow α)) : List (String × List (Num α)) :=
  (if method.hasDelta then
    [("delta_balanced", rows.map (·.balanced)), ("delta_balanced_conf", rows.map (·.balancedConf)),
     ("delta_raw", rows.map (·.raw)), ("delta_raw_conf", rows.map (·.rawConf)),
     ("delta_step", rows.map (·.step)), ("delta_step_conf", rows.map (·.stepConf))]
   else []) ++
  (if method.hasSobol then [("S1", rows.map (·.s1)), ("S1_conf", rows.map (·.s1Conf))] else [])

/-- A forbidden name: `delta.py` 212-214. -/
def forbiddenName (n : String) : Bool :=
  ["_raw", "_balanced", "_step", "_conf"].any fun t => decide (t.toList <:+ n.toList)

/-- `analyze(problem, X, Y, num_resamples, conf_level, y_resamples=…, method=…, bins_specs=…)`: `delta.py` 162-306.
`method = none` is a string that is none of the three; `yres = none` is `None`. -/
def deltaAnalyze (s : DeltaSetup α) (R : DeltaRandom) (pb : Problem α) (X : Mat α) (Y : List α) (conf : α)
    (yres : Option Nat) (method : Option DeltaMethod) : Py (DeltaResult α) :=
  if X.length ≠ Y.length then .error .runtimeError
  else if ¬(0 < conf ∧ conf < 1) then .error .runtimeError
  else match method with
  | none => .error .valueError
  | some method =>
    let y := yres.getD Y.length
    if ¬y ≤ Y.length then .error .runtimeError
    else do
      let lo ← arrMin Y
      let hi ← arrMax Y
      if pb.names.any forbiddenName then .error .valueError
      else do
        let rows ← (List.range pb.numVars).mapM
          (deltaParam s R method pb.names X Y (linspace lo hi 100) (linspace 0 (y : α) (s.classes y + 1)) y)
        return { names := pb.names
                 entries := deltaEntries method (rows.map (·.1))
                 notes := if rows.any (·.2) then some (rows.map fun r => !r.2) else none }

end

end SALib
