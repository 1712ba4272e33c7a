import Verif.Model.Basic
import Mathlib.Data.Rat.Init
import Mathlib.Logic.Function.Basic

/-! # The command line: `common_args.py` and the `cli_parse`/`cli_action` pairs

`argparse` is modelled on command lines already split into pairs of option and value.  Abbreviated options, `--help` and
the text of the messages are left out, and every refusal of the parser is one outcome.  `int` and `float` of a string are
parameters. -/

namespace SALib

/-- A value handed to `sample` or `analyze`.  Files are represented by what is read from where. -/
inductive CVal
  | none
  | bool (b : Bool)
  | int (i : Int)
  | flt (q : ℚ)
  | str (s : String)
  | problem (path : String)
  | table (path delimiter : String) (ndmin2 : Bool)
  | column (path delimiter : String) (col : Int)
  | emptyDict
  | json (source : String)
  deriving DecidableEq, Repr

/-- The `type=` of an option; `storeTrue` is `action="store_true"`, `trueWord` the lambda of `enhanced_hdmr`. -/
inductive Conv
  | int | float | str | bool | trueWord | storeTrue
  deriving DecidableEq, Repr

/-- One `add_argument`. -/
structure CliOpt where
  flags : List String
  dest : String
  conv : Conv
  required : Bool
  default : CVal
  choices : List CVal
  deriving DecidableEq, Repr

/-- The parser refuses the command line, or the action raises. -/
inductive CliErr
  | exit
  | raised (e : PyErr)
  deriving DecidableEq, Repr

variable (pyInt : String → Option Int) (pyFloat : String → Option ℚ)

/-- `type(value)`.  `bool(s)` of a string is false only for the empty string. -/
def convertValue : Conv → String → Option CVal
  | .int, s => (pyInt s).map .int
  | .float, s => (pyFloat s).map .flt
  | .str, s => some (.str s)
  | .bool, s => some (.bool (s != ""))
  | .trueWord, s => some (.bool (s.toLower == "true"))
  | .storeTrue, _ => some (.bool true)

def findOpt (opts : List CliOpt) (flag : String) : Option CliOpt := opts.find? fun o => o.flags.contains flag

/-- Consuming one option of the command line. -/
def parseToken (opts : List CliOpt) (ns : String → Option CVal) (tok : String × String) :
    Except CliErr (String → Option CVal) :=
  match findOpt opts tok.1 with
  | none => .error .exit
  | some o =>
    match convertValue pyInt pyFloat o.conv tok.2 with
    | none => .error .exit
    | some v => if o.choices = [] ∨ v ∈ o.choices then .ok (Function.update ns o.dest (some v)) else .error .exit

/-- The namespace before parsing: the default of every option, the first one of a name counting. -/
def initialNs (opts : List CliOpt) (d : String) : Option CVal := (opts.find? fun o => o.dest == d).map (·.default)

/-- `parser.parse_args`. -/
def parseArgs (opts : List CliOpt) (tokens : List (String × String)) : Except CliErr (String → Option CVal) := do
  let ns ← tokens.foldlM (parseToken pyInt pyFloat opts) (initialNs opts)
  if opts.all (fun o => !o.required || tokens.any fun t => o.flags.contains t.1) then .ok ns else .error .exit

/-- An argument of the call in a `cli_action`. -/
inductive CliArg
  | problem                    -- `read_param_file(args.paramfile)`
  | inputs (ndmin2 : Bool)     -- `np.loadtxt(args.model_input_file, delimiter=args.delimiter[, ndmin=2])`
  | outputs                    -- `np.loadtxt(args.model_output_file, delimiter=args.delimiter, usecols=(args.column,))`
  | attr (dest : String)       -- `args.dest`
  | isTwo (dest : String)      -- `(args.dest == 2)`
  | const (v : CVal)
  | jsonSpec (dest : String)   -- `analyze/delta.py` 627-637; file and text are not told apart
  deriving DecidableEq, Repr

def getAttr (ns : String → Option CVal) (d : String) : Except CliErr CVal :=
  match ns d with
  | some v => .ok v
  | none => .error (.raised .attributeError)

def getStr (ns : String → Option CVal) (d : String) : Except CliErr String :=
  match ns d with
  | some (.str s) => .ok s
  | some _ => .error (.raised .typeError)
  | none => .error (.raised .attributeError)

def getInt (ns : String → Option CVal) (d : String) : Except CliErr Int :=
  match ns d with
  | some (.int i) => .ok i
  | some _ => .error (.raised .typeError)
  | none => .error (.raised .attributeError)

/-- What `json.loads` is applied to, or the empty dictionary. -/
def jsonOf : CVal → CVal
  | .str s => .json s
  | _ => .emptyDict

def evalArg (ns : String → Option CVal) : CliArg → Except CliErr CVal
  | .problem => do
    let p ← getStr ns "paramfile"
    return .problem p
  | .inputs nd => do
    let p ← getStr ns "model_input_file"
    let d ← getStr ns "delimiter"
    return .table p d nd
  | .outputs => do
    let p ← getStr ns "model_output_file"
    let d ← getStr ns "delimiter"
    let c ← getInt ns "column"
    return .column p d c
  | .attr d => getAttr ns d
  | .isTwo d => do
    let v ← getAttr ns d
    return .bool (v == .int 2)
  | .const v => .ok v
  | .jsonSpec d => do
    let v ← getAttr ns d
    return jsonOf v

/-- A function signature: the parameters with their defaults, and how many can be given by position. -/
structure Sig where
  params : List (String × Option CVal)
  maxPos : Nat
  deriving DecidableEq, Repr

/-- What the call passes for parameter number `i`, called `name`. -/
def suppliedArg (pos : List CliArg) (kw : List (String × CliArg)) (i : Nat) (name : String) : Option CliArg :=
  match pos[i]? with
  | some a => some a
  | none => kw.lookup name

def bindParam (ns : String → Option CVal) (pos : List CliArg) (kw : List (String × CliArg))
    (p : (String × Option CVal) × Nat) : Except CliErr (String × CVal) :=
  match suppliedArg pos kw p.2 p.1.1 with
  | some a => do
    let v ← evalArg ns a
    return (p.1.1, v)
  | none =>
    match p.1.2 with
    | some v => .ok (p.1.1, v)
    | none => .error (.raised .typeError)

/-- The call `f(*pos, **kw)`: the value of every parameter of `f`. -/
def bindCall (ns : String → Option CVal) (sig : Sig) (pos : List CliArg) (kw : List (String × CliArg)) :
    Except CliErr (List (String × CVal)) :=
  if sig.maxPos < pos.length ∨
      kw.any (fun k => !(sig.params.drop pos.length).any fun p => p.1 == k.1) then .error (.raised .typeError)
  else sig.params.zipIdx.mapM (bindParam ns pos kw)

/-- A command: its options, and the call its action makes. -/
structure CliCommand where
  opts : List CliOpt
  sig : Sig
  pos : List CliArg
  kw : List (String × CliArg)

/-- `run_cli`: `sample/common_args.py` 62-81, `analyze/common_args.py` 49-53.  The result is the call made. -/
def runCli (c : CliCommand) (tokens : List (String × String)) : Except CliErr (List (String × CVal)) := do
  let ns ← parseArgs pyInt pyFloat c.opts tokens
  bindCall ns c.sig c.pos c.kw

/-- Where and how the samples are written: `np.savetxt(args.output, ..., delimiter=args.delimiter,
fmt="%." + str(args.precision) + "e")`. -/
def savedTo (c : CliCommand) (tokens : List (String × String)) : Except CliErr (String × String × Int) := do
  let ns ← parseArgs pyInt pyFloat c.opts tokens
  let o ← getStr ns "output"
  let d ← getStr ns "delimiter"
  let p ← getInt ns "precision"
  return (o, d, p)

def opt (flags : List String) (dest : String) (conv : Conv) (required : Bool) (default : CVal)
    (choices : List CVal := []) : CliOpt := ⟨flags, dest, conv, required, default, choices⟩

/-- `setup`: `sample/common_args.py` 4-36. -/
def sampleSetup : List CliOpt :=
  [opt ["-n", "--samples"] "samples" .int true .none,
   opt ["-p", "--paramfile"] "paramfile" .str true .none,
   opt ["-o", "--output"] "output" .str true .none,
   opt ["-s", "--seed"] "seed" .int false .none,
   opt ["--delimiter"] "delimiter" .str false (.str " "),
   opt ["--precision"] "precision" .int false (.int 8)]

/-- `setup`: `analyze/common_args.py` 4-33. -/
def analyzeSetup : List CliOpt :=
  [opt ["-p", "--paramfile"] "paramfile" .str true .none,
   opt ["-Y", "--model-output-file"] "model_output_file" .str true .none,
   opt ["-c", "--column"] "column" .int false (.int 0),
   opt ["--delimiter"] "delimiter" .str false (.str " "),
   opt ["-s", "--seed"] "seed" .int false .none]

/-- The option `-X`, with which the `cli_parse` of most analyses begins. -/
def inputOpt : CliOpt := opt ["-X", "--model-input-file"] "model_input_file" .str true .none

def orderOpt : CliOpt := opt ["--max-order"] "max_order" .int false (.int 2) [.int 1, .int 2]

/-- The methods of the command line. -/
inductive CliMethod
  | sFast | sFiniteDiff | sFf | sLatin | sMorris | sSaltelli | sSobol
  | aDelta | aDgsm | aDiscrepancy | aEnhanced | aFast | aFf | aHdmr | aMorris | aPawn | aRbdFast | aRsa | aSobol
  deriving DecidableEq, Repr

/-- `cli_parse`, `cli_action` and the signature called, method by method. -/
def command : CliMethod → CliCommand
  -- sample/fast_sampler.py 97-118, 121-135, 11
  | .sFast => ⟨sampleSetup ++ [opt ["-M", "--m-coef"] "M" .int false (.int 4)],
      ⟨[("problem", none), ("N", none), ("M", some (.int 4)), ("seed", some .none)], 4⟩,
      [.problem], [("N", .attr "samples"), ("M", .attr "M"), ("seed", .attr "seed")]⟩
  -- sample/finite_diff.py 86-105, 108-122, 9-15
  | .sFiniteDiff => ⟨sampleSetup ++ [opt ["-d", "--delta"] "delta" .float false (.flt (1 / 100))],
      ⟨[("problem", none), ("N", none), ("delta", some (.flt (1 / 100))), ("seed", some .none),
        ("skip_values", some (.int 1024))], 5⟩,
      [.problem, .attr "samples", .attr "delta"], [("seed", .attr "seed")]⟩
  -- sample/ff.py 130-147, 79
  | .sFf => ⟨sampleSetup, ⟨[("problem", none), ("seed", some .none)], 2⟩, [.problem], [("seed", .attr "seed")]⟩
  -- sample/latin.py 84-101, 9
  | .sLatin => ⟨sampleSetup, ⟨[("problem", none), ("N", none), ("seed", some .none)], 3⟩,
      [.problem, .attr "samples"], [("seed", .attr "seed")]⟩
  -- sample/morris/morris.py 426-454, 457-473, 24-31
  | .sMorris => ⟨sampleSetup ++ [opt ["-l", "--levels"] "levels" .int false (.int 4),
        opt ["-k", "--k-optimal"] "k_optimal" .int false .none, opt ["-lo", "--local"] "local" .bool true (.bool false)],
      ⟨[("problem", none), ("N", none), ("num_levels", some (.int 4)), ("optimal_trajectories", some .none),
        ("local_optimization", some (.bool true)), ("seed", some .none)], 6⟩,
      [.problem, .attr "samples"], [("num_levels", .attr "levels"), ("optimal_trajectories", .attr "k_optimal"),
        ("local_optimization", .attr "local"), ("seed", .attr "seed")]⟩
  -- sample/saltelli.py 206-242 (the seed option is removed), 245-264, 12-14
  | .sSaltelli => ⟨(sampleSetup ++ [orderOpt, opt ["--skip-values"] "skip_values" .int false .none]).filter
        fun o => o.dest != "seed",
      ⟨[("problem", none), ("N", none), ("calc_second_order", some (.bool true)), ("skip_values", some .none)], 4⟩,
      [.problem, .attr "samples"], [("calc_second_order", .isTwo "max_order"), ("skip_values", .attr "skip_values")]⟩
  -- sample/sobol.py 192-229, 232-251, 11-19
  | .sSobol => ⟨sampleSetup ++ [orderOpt, opt ["--scramble"] "scramble" .int false (.bool true),
        opt ["--skip-values"] "skip_values" .int false .none],
      ⟨[("problem", none), ("N", none), ("calc_second_order", some (.bool true)), ("scramble", some (.bool true)),
        ("skip_values", some (.int 0)), ("seed", some .none)], 2⟩,
      [.problem, .attr "samples"], [("calc_second_order", .isTwo "max_order"), ("scramble", .attr "scramble")]⟩
  -- analyze/delta.py 564-614, 617-651, 38-50
  | .aDelta => ⟨analyzeSetup ++ [inputOpt, opt ["-r", "--resamples"] "resamples" .int false (.int 10),
        opt ["-m", "--method"] "method" .str false (.str "all"), opt ["--y_resamples"] "y_resamples" .int false .none,
        opt ["--bootstrap_savedf"] "bootstrap_savedf" .str false .none, opt ["--bins_specs"] "bins_specs" .str false .none],
      ⟨[("problem", none), ("X", none), ("Y", none), ("num_resamples", some (.int 100)),
        ("conf_level", some (.flt (95 / 100))), ("print_to_console", some (.bool false)), ("seed", some .none),
        ("y_resamples", some .none), ("method", some (.str "all")), ("bootstrap_savedf", some .none),
        ("bins_specs", some .emptyDict)], 11⟩,
      [.problem, .inputs true, .outputs], [("num_resamples", .attr "resamples"), ("print_to_console", .const (.bool true)),
        ("seed", .attr "seed"), ("method", .attr "method"), ("y_resamples", .attr "y_resamples"),
        ("bootstrap_savedf", .attr "bootstrap_savedf"), ("bins_specs", .jsonSpec "bins_specs")]⟩
  -- analyze/dgsm.py 144-162, 165-182, 9-11
  | .aDgsm => ⟨analyzeSetup ++ [inputOpt, opt ["-r", "--resamples"] "resamples" .int false (.int 1000)],
      ⟨[("problem", none), ("X", none), ("Y", none), ("num_resamples", some (.int 100)),
        ("conf_level", some (.flt (95 / 100))), ("print_to_console", some (.bool false)), ("seed", some .none)], 7⟩,
      [.problem, .inputs true, .outputs], [("num_resamples", .attr "resamples"), ("print_to_console", .const (.bool true)),
        ("seed", .attr "seed")]⟩
  -- analyze/discrepancy.py 125-130, 133-145, 10-17
  | .aDiscrepancy => ⟨analyzeSetup ++ [inputOpt],
      ⟨[("problem", none), ("X", none), ("Y", none), ("method", some (.str "WD")),
        ("print_to_console", some (.bool false)), ("seed", some .none)], 6⟩,
      [.problem, .inputs false, .outputs], [("print_to_console", .const (.bool true)), ("seed", .attr "seed")]⟩
  -- analyze/enhanced_hdmr.py 1583-1672, 1675-1698, 20-35
  | .aEnhanced => ⟨analyzeSetup ++ [inputOpt, opt ["-mor", "--max-order"] "max_order" .int true (.int 2),
        opt ["-por", "--poly-order"] "poly_order" .int true (.int 2),
        opt ["-K", "--bootstrap"] "bootstrap" .int false (.int 20), opt ["-R", "--subset"] "subset" .int false .none,
        opt ["-mit", "--max-iter"] "max_iter" .int false (.int 100),
        opt ["-l2", "--l2-penalty"] "l2_penalty" .float false (.flt (1 / 100)),
        opt ["-a", "--alpha"] "alpha" .float false (.flt (95 / 100)),
        opt ["-ext", "--extended-base"] "extended_base" .trueWord true (.bool true),
        opt ["-print", "--print-to-console"] "print_to_console" .trueWord false (.bool false),
        opt ["-emul", "--return-emulator"] "return_emulator" .trueWord false (.bool false)],
      ⟨[("problem", none), ("X", none), ("Y", none), ("max_order", some (.int 2)), ("poly_order", some (.int 3)),
        ("bootstrap", some (.int 20)), ("subset", some .none), ("max_iter", some (.int 100)),
        ("l2_penalty", some (.flt (1 / 100))), ("alpha", some (.flt (95 / 100))), ("extended_base", some (.bool true)),
        ("print_to_console", some (.bool false)), ("return_emulator", some (.bool false)), ("seed", some .none)], 14⟩,
      [.problem, .inputs true, .outputs], [("max_order", .attr "max_order"), ("poly_order", .attr "poly_order"),
        ("bootstrap", .attr "bootstrap"), ("subset", .attr "subset"), ("max_iter", .attr "max_iter"),
        ("l2_penalty", .attr "l2_penalty"), ("alpha", .attr "alpha"), ("extended_base", .attr "extended_base"),
        ("print_to_console", .attr "print_to_console"), ("return_emulator", .attr "return_emulator")]⟩
  -- analyze/fast.py 150-173, 176-189, 9-17
  | .aFast => ⟨analyzeSetup ++ [opt ["-M", "--M"] "M" .int false (.int 4),
        opt ["-r", "--resamples"] "resamples" .int false (.int 100)],
      ⟨[("problem", none), ("Y", none), ("M", some (.int 4)), ("num_resamples", some (.int 100)),
        ("conf_level", some (.flt (95 / 100))), ("print_to_console", some (.bool false)), ("seed", some .none)], 7⟩,
      [.problem, .outputs], [("M", .attr "M"), ("num_resamples", .attr "resamples"),
        ("print_to_console", .const (.bool true)), ("seed", .attr "seed")]⟩
  -- analyze/ff.py 161-179, 182-190, 17
  | .aFf => ⟨analyzeSetup ++ [inputOpt, orderOpt],
      ⟨[("problem", none), ("X", none), ("Y", none), ("second_order", some (.bool false)),
        ("print_to_console", some (.bool false)), ("seed", some .none)], 6⟩,
      [.problem, .inputs true, .outputs, .isTwo "max_order"],
      [("print_to_console", .const (.bool true)), ("seed", .attr "seed")]⟩
  -- analyze/hdmr.py 1007-1067, 1070-1097, 26-39
  | .aHdmr => ⟨analyzeSetup ++ [inputOpt, opt ["-mor", "--maxorder"] "maxorder" .int false (.int 2),
        opt ["-mit", "--maxiter"] "maxiter" .int false (.int 100), opt ["-m", "--m-int"] "m_int" .int false (.int 2),
        opt ["-K", "--K-bootstrap"] "K_bootstrap" .int false (.int 20),
        opt ["-R", "--R-subsample"] "R_subsample" .int false .none,
        opt ["-a", "--alpha"] "alpha" .float false (.flt (95 / 100)),
        opt ["-lambda", "--lambdax"] "lambdax" .float false (.flt (1 / 100))],
      ⟨[("problem", none), ("X", none), ("Y", none), ("maxorder", some (.int 2)), ("maxiter", some (.int 100)),
        ("m", some (.int 2)), ("K", some (.int 20)), ("R", some .none), ("alpha", some (.flt (95 / 100))),
        ("lambdax", some (.flt (1 / 100))), ("print_to_console", some (.bool false)), ("seed", some .none)], 12⟩,
      [.problem, .inputs true, .outputs], [("maxorder", .attr "maxorder"), ("maxiter", .attr "maxiter"), ("m", .attr "m_int"),
        ("K", .attr "K_bootstrap"), ("R", .attr "R_subsample"), ("alpha", .attr "alpha"), ("lambdax", .attr "lambdax"),
        ("print_to_console", .const (.bool true))]⟩
  -- analyze/morris.py 604-638, 641-659, 16-26
  | .aMorris => ⟨analyzeSetup ++ [inputOpt, opt ["-r", "--resamples"] "resamples" .int false (.int 1000),
        opt ["-l", "--levels"] "levels" .int false (.int 4), opt ["--scaled"] "scaled" .bool false (.bool false)],
      ⟨[("problem", none), ("X", none), ("Y", none), ("num_resamples", some (.int 100)),
        ("conf_level", some (.flt (95 / 100))), ("scaled", some (.bool false)), ("print_to_console", some (.bool false)),
        ("num_levels", some (.int 4)), ("seed", some .none)], 9⟩,
      [.problem, .inputs true, .outputs], [("num_resamples", .attr "resamples"), ("scaled", .attr "scaled"),
        ("print_to_console", .const (.bool true)), ("num_levels", .attr "levels"), ("seed", .attr "seed")]⟩
  -- analyze/pawn.py 178-186, 189-195, 10-17
  | .aPawn => ⟨analyzeSetup ++ [inputOpt, opt ["-S", "--slices"] "slices" .int false .none],
      ⟨[("problem", none), ("X", none), ("Y", none), ("S", some (.int 10)), ("print_to_console", some (.bool false)),
        ("seed", some .none)], 6⟩,
      [.problem, .inputs false, .outputs], [("S", .attr "slices"), ("print_to_console", .const (.bool true)),
        ("seed", .attr "seed")]⟩
  -- analyze/rbd_fast.py 160-175, 178-192, 13-22
  | .aRbdFast => ⟨analyzeSetup ++ [inputOpt, opt ["-M", "--M"] "M" .int false (.int 10),
        opt ["-r", "--resamples"] "resamples" .int false (.int 100)],
      ⟨[("problem", none), ("X", none), ("Y", none), ("M", some (.int 10)), ("num_resamples", some (.int 100)),
        ("conf_level", some (.flt (95 / 100))), ("print_to_console", some (.bool false)), ("seed", some .none)], 8⟩,
      [.problem, .inputs false, .outputs], [("M", .attr "M"), ("num_resamples", .attr "resamples"),
        ("print_to_console", .const (.bool true)), ("seed", .attr "seed")]⟩
  -- analyze/rsa.py 243-264, 267-281, 13-21
  | .aRsa => ⟨analyzeSetup ++ [inputOpt, opt ["-b", "--bins"] "bins" .int false .none,
        opt ["-t", "--target"] "target" .str false .none],
      ⟨[("problem", none), ("X", none), ("Y", none), ("bins", some (.int 20)), ("target", some (.str "Y")),
        ("print_to_console", some (.bool false)), ("seed", some .none)], 7⟩,
      [.problem, .inputs false, .outputs], [("bins", .attr "bins"), ("target", .attr "target"),
        ("print_to_console", .const (.bool true)), ("seed", .attr "seed")]⟩
  -- analyze/sobol.py 442-473, 476-491, 23-34
  | .aSobol => ⟨analyzeSetup ++ [orderOpt, opt ["-r", "--resamples"] "resamples" .int false (.int 100),
        opt ["--parallel"] "parallel" .storeTrue false (.bool false),
        opt ["--processors"] "n_processors" .int false .none],
      ⟨[("problem", none), ("Y", none), ("calc_second_order", some (.bool true)), ("num_resamples", some (.int 100)),
        ("conf_level", some (.flt (95 / 100))), ("print_to_console", some (.bool false)), ("parallel", some (.bool false)),
        ("n_processors", some .none), ("keep_resamples", some (.bool false)), ("seed", some .none)], 10⟩,
      [.problem, .outputs, .isTwo "max_order"], [("num_resamples", .attr "resamples"),
        ("print_to_console", .const (.bool true)), ("parallel", .attr "parallel"),
        ("n_processors", .attr "n_processors"), ("seed", .attr "seed")]⟩

end SALib
