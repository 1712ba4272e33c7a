import Verif.Model.Cli
import Verif.Model.SpecTables

/-! # Convenience methods and summary of a `ProblemSpec` (`src/SALib/util/problem.py` 567-650)

`ProblemSpec(...)` looks up the modules of `SALib.sample` and `SALib.analyze` and attaches a method for each.
`specInit` leaves this part of the constructor out. -/

namespace SALib

/-! ## Modules (`util_funcs.py` 10-30) -/

/-- What `__import__(name)` does for the bare name of a package, as called by `pkgutil.walk_packages` (Python, outside
/repo) without prefix.  `found`: a module of this name can be imported from anywhere on the path; the names are those the
walk finds below it, for a package `name.submodule`. -/
inductive BareImport
  | importError
  | raises (e : PyErr)
  | found (names : List String)
  deriving DecidableEq

/-- `pkgutil.walk_packages(path=pkg.__path__)`: the names in the directory (`true`: a package), and after a package the
names below whatever the bare name imports. -/
def walkPackages (bare : String → BareImport) : List (String × Bool) → Py (List String)
  | [] => .ok []
  | (n, false) :: rest => do return n :: (← walkPackages bare rest)
  | (n, true) :: rest =>
    match bare n with
    | .importError => do return n :: (← walkPackages bare rest)
    | .raises e => .error e
    | .found names => do return n :: (names ++ (← walkPackages bare rest))

/-- `pat in s`. -/
def pyContains (pat s : List Char) : Bool := s.tails.any fun t => pat.isPrefixOf t

/-- `avail_approaches(pkg)`: `util_funcs.py` 10-30. -/
def availApproaches (bare : String → BareImport) (listing : List (String × Bool)) : Py (List String) := do
  let names ← walkPackages bare listing
  return names.filter fun n =>
    !(["common_args", "directions", "sobol_sequence"].contains n) && !pyContains "test".toList n.toList

/-! ## Methods (`problem.py` 567-598) -/

/-- `s.replace(pat, "")` for a non-empty `pat`, the first `k` characters being already dropped. -/
def pyRemove (pat : List Char) : Nat → List Char → List Char
  | _, [] => []
  | k + 1, _ :: t => pyRemove pat k t
  | 0, c :: t => if pat.isPrefixOf (c :: t) then pyRemove pat (pat.length - 1) t else c :: pyRemove pat 0 t

/-- `"sample_{}".format(sampler.replace("_sampler", ""))`: 582; with `analyze_` and `_analyzer`: 594. -/
def methodName (pre suf m : String) : String :=
  pre ++ String.ofList (pyRemove suf.toList 0 m.toList)

/-- `_add_samplers` and `_add_analyzers`: 576-586, 588-598.  `lib m`: importing the module below `SALib.sample` or
`SALib.analyze` and taking its function, which may raise. -/
def addMethods {F : Type} (pre suf : String) (lib : String → Py F) (mods : List String) (attrs : List (String × F)) :
    Py (List (String × F)) :=
  mods.foldlM (fun a m => do return dictSet a (methodName pre suf m) (← lib m)) attrs

/-- The attributes set at the end of `__init__`: 59-60. -/
def specMethods {F : Type} (bare : String → BareImport) (sampleDir analyzeDir : List (String × Bool))
    (slib alib : String → Py F) : Py (List (String × F)) := do
  let a ← addMethods "sample_" "_sampler" slib (← availApproaches bare sampleDir) []
  addMethods "analyze_" "_analyzer" alib (← availApproaches bare analyzeDir) a

/-! ## Calls -/

/-- A value handed to a function by one of the methods. -/
inductive MArg (V : Type)
  | spec                -- `self`
  | samples             -- `self._samples`
  | results             -- `self._results`, or the column of the output analysed
  | user (v : V)
  deriving DecidableEq

/-- The value of parameter number `p.2` in the call `f(*pos, **kw)`; `none`: its default. -/
def methodParam {V : Type} (pos : List (MArg V)) (kw : List (String × MArg V)) (p : (String × Option CVal) × Nat) :
    Py (String × Option (MArg V)) :=
  match pos[p.2]? with
  | some a => .ok (p.1.1, some a)
  | none =>
    match kw.lookup p.1.1 with
    | some a => .ok (p.1.1, some a)
    | none => if p.1.2.isSome then .ok (p.1.1, none) else .error .typeError

/-- The call `f(*pos, **kw)` (Python): too many values, an unknown name, a parameter given twice and a missing one are
`TypeError`s. -/
def methodCall {V : Type} (sig : Sig) (pos : List (MArg V)) (kw : List (String × MArg V)) :
    Py (List (String × Option (MArg V))) :=
  if sig.maxPos < pos.length ∨
      kw.any (fun k => !(sig.params.drop pos.length).any fun p => p.1 == k.1) then .error .typeError
  else sig.params.zipIdx.mapM (methodParam pos kw)

def userKw {V : Type} (kw : List (String × V)) : List (String × MArg V) := kw.map fun k => (k.1, .user k.2)

/-- `func(self, *args, **kwargs)`: 133, reached from the attached method through 571-572. -/
def sampleCall {V : Type} (sig : Sig) (args : List V) (kw : List (String × V)) : Py (List (String × Option (MArg V))) :=
  methodCall sig (.spec :: args.map .user) (userKw kw)

/-- `func(self, Y=...)` for `func = partial(func, *args, X=self._samples, **kwargs)` or without `X`: 354-358, 371, 373,
and 410-414, 432, 446, 452.  `wantsX`: the code of `func` has a variable `X`.  `partial` puts its own positional
arguments first, and keywords of the call replace its own.  A `nprocs` among the keywords is taken out (348, 377). -/
def analyzeCall {V : Type} (sig : Sig) (wantsX : Bool) (args : List V) (kw : List (String × V)) :
    Py (List (String × Option (MArg V))) :=
  let kw := userKw (kw.filter fun k => k.1 != "nprocs")
  if wantsX && kw.any (fun k => k.1 == "X") then .error .typeError
  else methodCall sig (args.map .user ++ [.spec])
    (dictSet (if wantsX then ("X", .samples) :: kw else kw) "Y" .results)

/-- `func(self._samples, *args, **kwargs)`: 180-183; a `nprocs` is taken out. -/
def evaluateCall {V : Type} (sig : Sig) (args : List V) (kw : List (String × V)) : Py (List (String × Option (MArg V))) :=
  methodCall sig (.samples :: args.map .user) (userKw (kw.filter fun k => k.1 != "nprocs"))

/-! ## Summary (`problem.py` 603-650) -/

/-- A piece of the text; how tables are printed is left to pandas. -/
inductive StrPart (T : Type)
  | samples (params : Nat) (names : List String) (rows : Nat)
  | outputs (cols : Nat) (names : List String) (rows : Nat)
  | header
  | output (name : String)
  | table (t : T)
  | nothing
  deriving DecidableEq

def tableParts {T : Type} : SpecTables T → List (StrPart T)
  | .one t => [.table t]
  | .many ts => ts.map .table

/-- 626-643: `_analysis` of a `ResultDict`, or of a dictionary of them. -/
def analysisParts {A T : Type} (df : A → Py (SpecTables T)) : Option (SpecAnalysis A) → Py (List (StrPart T))
  | none => .ok []
  | some (.single a) => do return .header :: tableParts (← df a)
  | some (.byOutput d) => do
    let parts ← d.mapM fun (e : String × A) => do return StrPart.output e.1 :: tableParts (← df e.2)
    return .header :: parts.flatten

/-- 605-612. -/
def sampleParts {α β A T : Type} (s : SpecState α β A) : List (StrPart T) :=
  match s.samples with
  | none => []
  | some X => [.samples X.cols s.names X.rows.length]

/-- 613-622; `self['outputs']` may be missing. -/
def resultParts {α β A T : Type} (s : SpecState α β A) : Py (List (StrPart T)) :=
  match s.results with
  | none => .ok []
  | some Y =>
    match s.outputs with
    | none => .error .keyError
    | some o => .ok [.outputs Y.numCols o Y.len]

/-- `str(spec)`: 603-650.  `df` is the conversion of one analysis to tables. -/
def specStr {α β A T : Type} (s : SpecState α β A) (df : A → Py (SpecTables T)) : Py (List (StrPart T)) := do
  let r ← resultParts s
  let a ← analysisParts df s.analysis
  let rep := sampleParts s ++ r ++ a
  return if rep.length = 0 then [.nothing] else rep

end SALib
