import Verif.Model.Cli
import Verif.Model.SpecMethods

/-! # The command `salib`: from the words of the command line to the call (`src/SALib/scripts/salib.py` 33-63)

`argparse` (Python 3.10 and 3.11, outside /repo) is modelled on the words of the command line.  That the parser prints
help and that it refuses the line are one outcome, `CliErr.exit`: in both cases nothing is run.  Left out, and counted as
refused: the word `--`, which ends the options. -/

namespace SALib

/-- A word of the command line. -/
abbrev Word := List Char

/-- The options every `ArgumentParser` has. -/
def helpFlags : List String := ["-h", "--help"]

/-- The names under which a parser knows its options: the keys of `_option_string_actions`. -/
def optStrings (opts : List CliOpt) : List String := helpFlags ++ opts.flatMap (·.flags)

/-- `w.partition("=")[0]`. -/
def beforeEq (w : Word) : Word := w.takeWhile (· != '=')

/-- What follows the first `=`. -/
def afterEq (w : Word) : Option Word :=
  match w.dropWhile (· != '=') with
  | [] => none
  | _ :: t => some t

/-- What the parser takes a word for: an argument; an option it does not know; or an option, with the value contained in
the word itself, if any. -/
inductive WordClass
  | arg
  | unknown
  | option (name : String) (value : Option Word)
  deriving DecidableEq, Repr

/-- A word starting with a single dash, compared with one name in `_get_option_tuples`. -/
def shortTuple (w : Word) (s : String) : Option (String × Option Word) :=
  if s.toList = w.take 2 then some (s, some (w.drop 2)) else if w.isPrefixOf s.toList then some (s, none) else none

/-- `_get_option_tuples`: options meant by an abbreviation, or by a letter with its value. -/
def optionTuples (strs : List String) (w : Word) : List (String × Option Word) :=
  if w[1]? = some '-' then (strs.filter fun s => (beforeEq w).isPrefixOf s.toList).map fun s => (s, afterEq w)
  else strs.filterMap (shortTuple w)

/-- `^-\d+$|^-\d*\.\d+$`; digits are those of ASCII. -/
def negativeNumber (w : Word) : Bool :=
  match w with
  | '-' :: t =>
    (t != [] && t.all Char.isDigit) ||
      (match t.dropWhile Char.isDigit with
       | '.' :: r => r != [] && r.all Char.isDigit
       | _ => false)
  | _ => false

/-- The option whose name is the part of the word before `=`. -/
def joinedOption (strs : List String) (w : Word) : Option (String × Word) :=
  match afterEq w with
  | none => none
  | some e => (strs.find? fun s => s.toList == beforeEq w).map fun s => (s, e)

/-- The word is none of the names, and has no `=` after one of them. -/
def classifyRest (strs : List String) (w : Word) : Except CliErr WordClass :=
  match optionTuples strs w with
  | [] => .ok (if negativeNumber w || w.contains ' ' then .arg else .unknown)
  | [t] => .ok (.option t.1 t.2)
  | _ => .error .exit

/-- `_parse_optional`. -/
def classify (strs : List String) (w : Word) : Except CliErr WordClass :=
  if w = ['-', '-'] then .error .exit
  else if w.head? ≠ some '-' then .ok .arg
  else
    match strs.find? fun s => s.toList == w with
    | some s => .ok (.option s none)
    | none =>
      if w.length = 1 then .ok .arg
      else
        match joinedOption strs w with
        | some (s, e) => .ok (.option s (some e))
        | none => classifyRest strs w

variable (pyInt : String → Option Int) (pyFloat : String → Option ℚ)

/-- `_parse_known_args` for a parser without positional arguments, and the refusal of what is left over: the options in
their order, with their values.  `--parallel` takes no value.  (No option of SALib with a single dash is without value,
so that options of one letter are never combined in one word.) -/
def readWords (opts : List CliOpt) : List (WordClass × Word) → Except CliErr (List (String × String))
  | [] => .ok []
  | (.arg, _) :: _ => .error .exit
  | (.unknown, _) :: _ => .error .exit
  | (.option f e, _) :: rest =>
    match findOpt opts f with
    | none => .error .exit
    | some o =>
      if o.conv = .storeTrue then
        match e with
        | none => do return (f, "") :: (← readWords opts rest)
        | some _ => .error .exit
      else
        match e with
        | some v => do return (f, String.ofList v) :: (← readWords opts rest)
        | none =>
          match rest with
          | (.arg, v) :: rest' => do return (f, String.ofList v) :: (← readWords opts rest')
          | _ => .error .exit

/-- A word with its class. -/
def classed (strs : List String) (w : Word) : Except CliErr (WordClass × Word) := do
  let k ← classify strs w
  return (k, w)

/-- `common_args.run_cli(module.cli_parse, module.cli_action, opts)`: `salib.py` 63. -/
def runWords (c : CliCommand) (words : List Word) : Except CliErr (List (String × CVal)) := do
  let classes ← words.mapM (classed (optStrings c.opts))
  let tokens ← readWords c.opts classes
  runCli pyInt pyFloat c tokens

/-! ## The command (`salib.py` 33-63) -/

/-- The word is an argument for a parser with no options of its own. -/
def isArgWord (w : Word) : Bool := classify helpFlags w == .ok .arg

/-- The word is unknown to such a parser, and is kept for later. -/
def isUnknownWord (w : Word) : Bool := classify helpFlags w == .ok .unknown

/-- A parser with one positional argument and no options, by `parse_known_args`: words before the argument, the argument,
words after it.  What is not an argument has to be unknown: `-h` ends the program. -/
def splitAtArg (words : List Word) : Except CliErr (List Word × Word × List Word) :=
  let pre := words.takeWhile isUnknownWord
  match words.drop pre.length with
  | [] => .error .exit
  | w :: rest => if isArgWord w then .ok (pre, w, rest) else .error .exit

/-- The parser of `sample` or `analyze`: 37-45.  Its only argument is the method, to be taken from a list; what follows may
be anything but `-h`. -/
def parseMethod (choices : List String) (words : List Word) : Except CliErr (String × List Word) := do
  let (pre, w, rest) ← splitAtArg words
  if rest.all (fun v => isArgWord v || isUnknownWord v) && choices.contains (String.ofList w) then
    .ok (String.ofList w, pre ++ rest)
  else .error .exit

/-- `parser.parse_known_args()` of `main`: 34-47.  Without an action the help is printed: 50-52. -/
def parseAction (samplers analyzers : List String) (words : List Word) : Except CliErr (Bool × String × List Word) := do
  let (pre, w, rest) ← splitAtArg words
  if w = "sample".toList then do
    let (m, opts) ← parseMethod samplers rest
    .ok (false, m, pre ++ opts)
  else if w = "analyze".toList then do
    let (m, opts) ← parseMethod analyzers rest
    .ok (true, m, pre ++ opts)
  else .error .exit

/-- The modules with a `cli_parse` and a `cli_action`, below `SALib.sample` and below `SALib.analyze`. -/
def samplerOf : List (String × CliMethod) :=
  [("fast_sampler", .sFast), ("ff", .sFf), ("finite_diff", .sFiniteDiff), ("latin", .sLatin), ("morris", .sMorris),
   ("saltelli", .sSaltelli), ("sobol", .sSobol)]

def analyzerOf : List (String × CliMethod) :=
  [("delta", .aDelta), ("dgsm", .aDgsm), ("discrepancy", .aDiscrepancy), ("enhanced_hdmr", .aEnhanced), ("fast", .aFast),
   ("ff", .aFf), ("hdmr", .aHdmr), ("morris", .aMorris), ("pawn", .aPawn), ("rbd_fast", .aRbdFast), ("rsa", .aRsa),
   ("sobol", .aSobol)]

/-- `importlib.import_module(".".join(["SALib", action, method_name]))`: 56.  An `ImportError` is counted as
`RuntimeError`. -/
def importMethod (analysis : Bool) (name : String) : Except CliErr CliMethod :=
  match (if analysis then analyzerOf else samplerOf).lookup name with
  | some m => .ok m
  | none => .error (.raised .runtimeError)

/-- An exception of Python code that is not part of the parser. -/
def raisedBy {β : Type} : Py β → Except CliErr β
  | .ok b => .ok b
  | .error e => .error (.raised e)

/-- `main`: 33-63.  Without options the help of the method is printed: 58-61. -/
def salibMain (bare : String → BareImport) (sampleDir analyzeDir : List (String × Bool)) (words : List Word) :
    Except CliErr (CliMethod × List (String × CVal)) := do
  let samplers ← raisedBy (availApproaches bare sampleDir)
  let analyzers ← raisedBy (availApproaches bare analyzeDir)
  let (analysis, name, opts) ← parseAction samplers analyzers words
  let m ← importMethod analysis name
  if opts = [] then .error .exit
  else do
    let call ← runWords pyInt pyFloat (command m) opts
    .ok (m, call)

end SALib
