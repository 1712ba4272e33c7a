import Verif.Model.SobolAnalyze
import Verif.Model.Groups

/-! # `ProblemSpec` (`src/SALib/util/problem.py`)

The object with its three attributes, and the entries of the dictionary that its methods use.  Samplers, models and
analysers are function arguments, which may raise.  Methods return the object after the call, whether they raise or not.
-/

namespace SALib

/-- A two-dimensional array of inputs with its number of columns. -/
structure InArr (α : Type) where
  cols : Nat
  rows : List (List α)
  deriving DecidableEq

/-- An array of results: one-dimensional, or two-dimensional with `cols` columns. -/
inductive OutArr (β : Type)
  | vec (v : List β)
  | mat (cols : Nat) (rows : List (List β))
  deriving DecidableEq

/-- `shape[0]`. -/
def OutArr.len {β : Type} : OutArr β → Nat
  | .vec v => v.length
  | .mat _ rows => rows.length

/-- `cols`: `problem.py` 85-89. -/
def OutArr.numCols {β : Type} : OutArr β → Nat
  | .vec _ => 1
  | .mat c _ => c

/-- `results[:, i]`; a one-dimensional array has no second index. -/
def OutArr.column {β : Type} [Inhabited β] : OutArr β → Nat → Py (OutArr β)
  | .vec _, _ => .error .indexError
  | .mat c rows, i => if i < c then .ok (.vec (rows.map fun r => r.getD i default)) else .error .indexError

/-- The attribute `_analysis`: the result of one analysis, or a dictionary of results by output. -/
inductive SpecAnalysis (A : Type)
  | single (a : A)
  | byOutput (d : List (String × A))
  deriving DecidableEq

/-- The object: 37-60. -/
structure SpecState (α β A : Type) where
  names : List String
  numVars : Nat
  groups : List String
  outputs : Option (List String)
  samples : Option (InArr α) := none
  results : Option (OutArr β) := none
  analysis : Option (SpecAnalysis A) := none
  deriving DecidableEq

variable {α β A : Type} [Inhabited β]

/-- `ProblemSpec(...)`: 47-60, 655-665, and `util_funcs.py` 155-181.  `none`: key missing. -/
def specInit (names : Option (List String)) (bounds : Option (List (List α))) (groups : Option (List String))
    (outputs : Option (List String)) : Py (SpecState α β A) :=
  match names, bounds with
  | none, _ => .error .assertionError
  | some _, none => .error .assertionError
  | some ns, some bs =>
    if bs.length ≠ ns.length then .error .assertionError
    else match groups with
      | none => .ok { names := ns, numVars := ns.length, groups := ns, outputs := outputs }
      | some [] => .ok { names := ns, numVars := ns.length, groups := ns, outputs := outputs }
      | some gs =>
        if gs.length ≠ ns.length then .error .valueError
        else .ok { names := ns, numVars := ns.length, groups := gs, outputs := outputs }

/-- The setter of `samples`: 66-77. -/
def setSamplesProp (s : SpecState α β A) (X : InArr α) : SpecState α β A × Py Unit :=
  if X.cols ≠ s.numVars then (s, .error .valueError)
  else ({ s with samples := some X, results := none }, .ok ())

/-- Names of undeclared outputs: 92-96; the same in `analyze`, 361-366. -/
def defaultOutputs (cols : Nat) : List String :=
  if cols = 1 then ["Y"] else (List.range cols).map fun i => "Y" ++ toString (i + 1)

/-- The setter of `results`: 83-103. -/
def setResultsProp (s : SpecState α β A) (Y : OutArr β) : SpecState α β A × Py Unit :=
  match s.outputs with
  | none => ({ s with outputs := some (defaultOutputs Y.numCols), results := some Y }, .ok ())
  | some outs =>
    if Y.numCols ≠ outs.length then (s, .error .valueError)
    else ({ s with results := some Y }, .ok ())

/-- `sample(func, …)`: 109-135.  `func` may also change the number of variables (`sample/ff.py`). -/
def specSample (s : SpecState α β A) (func : SpecState α β A → Py (InArr α)) (eff : Nat → Nat) :
    SpecState α β A × Py Unit :=
  let s := { s with analysis := none, results := none }
  match func s with
  | .error e => ({ s with numVars := eff s.numVars }, .error e)
  | .ok X => ({ s with numVars := eff s.numVars, samples := some X }, .ok ())

/-- `set_results(results)`: 143-153. -/
def specSetResults (s : SpecState α β A) (Y : OutArr β) : SpecState α β A × Py Unit :=
  match s.samples with
  | none => setResultsProp s Y
  | some X => if X.rows.length ≠ Y.len then (s, .error .assertionError) else setResultsProp s Y

/-- `self.results = func(...)`. -/
def assignOutcome (s : SpecState α β A) (r : Py (OutArr β)) : SpecState α β A × Py Unit :=
  match r with
  | .error e => (s, .error e)
  | .ok Y => setResultsProp s Y

/-- `evaluate(func, …)` with one processor: 155-185. -/
def specEvaluate (s : SpecState α β A) (func : Option (InArr α) → Py (OutArr β)) : SpecState α β A × Py Unit :=
  assignOutcome s (func s.samples)

/-- `final_res[i : i + r_len] = r`: the slice is cut at the end of the array; NumPy refuses another length, except a
single entry, which is repeated. -/
def assignSlice {γ : Type} (l : List γ) (i : Nat) (r : List γ) : Py (List γ) :=
  let width := min (i + r.length) l.length - min i l.length
  if width = r.length then .ok (l.take i ++ r ++ l.drop (i + r.length))
  else if r.length = 1 then .ok l
  else .error .valueError

/-- The loop of `_collect_results`: 559-563. -/
def collectLoop {γ : Type} (init : List γ) (res : List (List γ)) : Py (List γ × Nat) :=
  res.foldlM (fun st r => do
    let l ← assignSlice st.1 st.2 r
    return (l, st.2 + r.length)) (init, 0)

/-- One part of the results as a list of rows; a one-dimensional part fits a one-dimensional target only. -/
def asVec : OutArr β → Py (List β)
  | .vec v => .ok v
  | .mat _ _ => .error .valueError

/-- One part of the results for a target with `w` columns. -/
def asRows (w : Nat) : OutArr β → Py (List (List β))
  | .vec _ => .error .valueError
  | .mat c rows => if c = w then .ok rows else .error .valueError

/-- `_collect_results(res)`: 547-565; `n` is `len(self._samples)`, `junk` the content of `np.empty`.  Broadcasting of
parts of different dimension is not modelled (an error here). -/
def collectResults (n : Nat) (junk : β) (res : List (OutArr β)) : Py (OutArr β) :=
  match res with
  | [] => .error .indexError
  | .vec v :: rest => do
    let parts ← (.vec v :: rest).mapM asVec
    let r ← collectLoop (List.replicate n junk) parts
    return .vec r.1
  | .mat w rows :: rest => do
    let parts ← (.mat w rows :: rest).mapM (asRows w)
    let r ← collectLoop (List.replicate n (List.replicate w junk)) parts
    return .mat w r.1

/-- The number of processors used: 220-228. -/
def effProcs (nprocs : Option Nat) (maxProcs : Nat) : Nat :=
  match nprocs with
  | none => maxProcs
  | some n => min maxProcs n

/-- The results computed by `evaluate_parallel`: 230-243.  With `p_tqdm` installed `res` is a generator, and `res[0]`
(548) a `TypeError`; without, `pool.imap` keeps the order. -/
def parallelResults (X : InArr α) (ptqdm : Bool) (n : Nat) (junk : β) (func : Option (InArr α) → Py (OutArr β)) :
    Py (OutArr β) :=
  if n = 0 then .error .valueError
  else if ptqdm then .error .typeError
  else do
    let res ← (arraySplit X.rows n).mapM fun rows => func (some { cols := X.cols, rows := rows })
    collectResults X.rows.length junk res

/-- `evaluate_parallel(func, …, nprocs)`: 187-245. -/
def specEvaluateParallel (s : SpecState α β A) (ptqdm : Bool) (nprocs : Option Nat) (maxProcs : Nat) (junk : β)
    (func : Option (InArr α) → Py (OutArr β)) : SpecState α β A × Py Unit :=
  match s.samples with
  | none => (s, .error .runtimeError)
  | some X => assignOutcome s (parallelResults X ptqdm (effProcs nprocs maxProcs) junk func)

/-- `_wrap_func(func, *args)`: 539-545; no additional arguments: `func` itself. -/
def wrapFunc (func : List α → Option (InArr α) → Py (OutArr β)) (args : List α) : Option (InArr α) → Py (OutArr β) :=
  if args.length > 0 then func args else func []

/-- The parts, their results and the results together: 301-307.  `array_split` looks at the array first: `None` is a
`TypeError`, and so is `len(None)`.  `_wrap_func(func)` (303) is not given the additional arguments; `workers.map` keeps
the order. -/
def distributedResults (X : Option (InArr α)) (nprocs : Nat) (servers : Option (List String)) (junk : β)
    (func : List α → Option (InArr α) → Py (OutArr β)) : Py (OutArr β) :=
  match servers, X with
  | none, _ => .error .typeError
  | some _, none => .error .typeError
  | some sv, some X =>
    if nprocs * sv.length = 0 then .error .valueError
    else do
      let res ← (arraySplit X.rows (nprocs * sv.length)).mapM fun rows =>
        wrapFunc func [] (some { cols := X.cols, rows := rows })
      collectResults X.rows.length junk res

/-- `evaluate_distributed(func, *args, nprocs, servers)`: 247-312.  `pathos`: the package is installed.  Additional
arguments are numbers here. -/
def specEvaluateDistributed (s : SpecState α β A) (pathos : Bool) (nprocs : Nat) (servers : Option (List String))
    (junk : β) (func : List α → Option (InArr α) → Py (OutArr β)) (_args : List α) : SpecState α β A × Py Unit :=
  if !pathos then (s, .error .runtimeError)
  else assignOutcome s (distributedResults s.samples nprocs servers junk func)

/-- The outputs used by the analysis: 360-366.  A one-column matrix is named `Y1` here. -/
def analyzeOutputs (s : SpecState α β A) (Y : OutArr β) : List String :=
  match s.outputs with
  | some o => o
  | none => match Y with
    | .vec _ => ["Y"]
    | .mat c _ => (List.range c).map fun i => "Y" ++ toString (i + 1)

/-- `d[key] = value`. -/
def dictSet {γ : Type} (d : List (String × γ)) (k : String) (v : γ) : List (String × γ) :=
  if d.any (fun e => e.1 == k) then d.map fun e => if e.1 == k then (k, v) else e else d ++ [(k, v)]

/-- The loop over the outputs: 368-371; an exception leaves the dictionary as far as it is filled. -/
def analyzeLoop (f : OutArr β → Py A) (Y : OutArr β) :
    List (String × Nat) → List (String × A) → List (String × A) × Py Unit
  | [], d => (d, .ok ())
  | (out, i) :: rest, d =>
    match Y.column i with
    | .error e => (d, .error e)
    | .ok y =>
      match f y with
      | .error e => (d, .error e)
      | .ok a => analyzeLoop f Y rest (dictSet d out a)

/-- `analyze(func, …)` without `nprocs`: 316-375.  `wantsX`: the code of `func` has a variable `X` (354).
`len("groups")` is 6 (339). -/
def specAnalyze (s : SpecState α β A) (wantsX : Bool) (func : Option (InArr α) → OutArr β → Py A) :
    SpecState α β A × Py Unit :=
  if s.numVars = 1 ∨ (s.groups ≠ [] ∧ "groups".length = 1) then (s, .error .valueError)
  else match s.results with
    | none => (s, .error .runtimeError)
    | some Y =>
      let f := func (if wantsX then s.samples else none)
      let outs := analyzeOutputs s Y
      let s := { s with outputs := some outs }
      if outs.length > 1 then
        let r := analyzeLoop f Y outs.zipIdx []
        ({ s with analysis := some (.byOutput r.1) }, r.2)
      else match f Y with
        | .error e => (s, .error e)
        | .ok a => ({ s with analysis := some (.single a) }, .ok ())

/-- `analyze_parallel(func, …)`: 377-462; the results come back in order; an exception in a process leaves the analysis
as it was.  A pool without processes (no outputs) is a `ValueError`. -/
def specAnalyzeParallel (s : SpecState α β A) (wantsX : Bool) (func : Option (InArr α) → OutArr β → Py A) :
    SpecState α β A × Py Unit :=
  match s.results with
  | none => (s, .error .runtimeError)
  | some Y =>
    let f := func (if wantsX then s.samples else none)
    let outs := analyzeOutputs s Y
    let s := { s with outputs := some outs }
    if outs.length = 1 then
      match f Y with
      | .error e => (s, .error e)
      | .ok a => ({ s with analysis := some (.single a) }, .ok ())
    else if outs.length = 0 then (s, .error .valueError)
    else
      match (List.range outs.length).mapM fun i => do f (← Y.column i) with
      | .error e => (s, .error e)
      | .ok res =>
        ({ s with analysis := some (.byOutput ((outs.zip res).foldl (fun d e => dictSet d e.1 e.2) [])) }, .ok ())

/-- The public operations. -/
inductive SpecOp (α β A : Type)
  | sample (func : SpecState α β A → Py (InArr α)) (eff : Nat → Nat)
  | setSamples (X : InArr α)
  | setResults (Y : OutArr β)
  | evaluate (func : Option (InArr α) → Py (OutArr β))
  | evaluateParallel (ptqdm : Bool) (nprocs : Option Nat) (maxProcs : Nat) (junk : β)
      (func : Option (InArr α) → Py (OutArr β))
  | evaluateDistributed (pathos : Bool) (nprocs : Nat) (servers : Option (List String)) (junk : β)
      (func : List α → Option (InArr α) → Py (OutArr β)) (args : List α)
  | analyze (wantsX : Bool) (func : Option (InArr α) → OutArr β → Py A)
  | analyzeParallel (wantsX : Bool) (func : Option (InArr α) → OutArr β → Py A)

/-- One operation. -/
def specStep (s : SpecState α β A) : SpecOp α β A → SpecState α β A × Py Unit
  | .sample func eff => specSample s func eff
  | .setSamples X => setSamplesProp s X
  | .setResults Y => specSetResults s Y
  | .evaluate func => specEvaluate s func
  | .evaluateParallel ptqdm nprocs maxProcs junk func => specEvaluateParallel s ptqdm nprocs maxProcs junk func
  | .evaluateDistributed pathos nprocs servers junk func args =>
    specEvaluateDistributed s pathos nprocs servers junk func args
  | .analyze wantsX func => specAnalyze s wantsX func
  | .analyzeParallel wantsX func => specAnalyzeParallel s wantsX func

/-- A sequence of operations, going on after exceptions. -/
def specRun (s : SpecState α β A) (ops : List (SpecOp α β A)) : SpecState α β A :=
  ops.foldl (fun s op => (specStep s op).1) s

end SALib
