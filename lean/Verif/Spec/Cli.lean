import Verif.Model.Cli

/-! # What the options of the command line mean -/

namespace SALib.Spec

open SALib

/-- The value given to an option, under any of its names; the last one counts. -/
def given (flags : List String) (tokens : List (String × String)) : Option String :=
  ((tokens.filter fun t => t.1 ∈ flags).map (·.2)).getLast?

/-- How the text of a value is meant. -/
inductive Reading
  | whole | real | text | yesNo | presence | upToSecondOrder | dictionary
  deriving DecidableEq

def readAs (pyInt : String → Option Int) (pyFloat : String → Option ℚ) : Reading → String → Option CVal
  | .whole, s => (pyInt s).map .int
  | .real, s => (pyFloat s).map .flt
  | .text, s => some (.str s)
  | .yesNo, s => if s.toLower = "true" then some (.bool true) else if s.toLower = "false" then some (.bool false) else none
  | .presence, _ => some (.bool true)
  | .upToSecondOrder, s => (pyInt s).map fun i => .bool (decide (i = 2))
  | .dictionary, s => some (.json s)

/-- Parameter `param` of `sample` or `analyze` is set by the option with the names `flags`. -/
structure Want where
  param : String
  flags : List String
  reading : Reading
  deriving DecidableEq

def seedW : Want := ⟨"seed", ["-s", "--seed"], .whole⟩
def samplesW : Want := ⟨"N", ["-n", "--samples"], .whole⟩
def resamplesW : Want := ⟨"num_resamples", ["-r", "--resamples"], .whole⟩
def skipW : Want := ⟨"skip_values", ["--skip-values"], .whole⟩

/-- The options of the documentation, with the parameters they stand for. -/
def wants : CliMethod → List Want
  | .sFast => [samplesW, ⟨"M", ["-M", "--m-coef"], .whole⟩, seedW]
  | .sFiniteDiff => [samplesW, ⟨"delta", ["-d", "--delta"], .real⟩, seedW]
  | .sFf => [seedW]
  | .sLatin => [samplesW, seedW]
  | .sMorris => [samplesW, ⟨"num_levels", ["-l", "--levels"], .whole⟩, ⟨"optimal_trajectories", ["-k", "--k-optimal"], .whole⟩,
      ⟨"local_optimization", ["-lo", "--local"], .yesNo⟩, seedW]
  | .sSaltelli => [samplesW, ⟨"calc_second_order", ["--max-order"], .upToSecondOrder⟩, skipW]
  | .sSobol => [samplesW, ⟨"calc_second_order", ["--max-order"], .upToSecondOrder⟩, ⟨"scramble", ["--scramble"], .whole⟩,
      skipW, seedW]
  | .aDelta => [resamplesW, ⟨"method", ["-m", "--method"], .text⟩, ⟨"y_resamples", ["--y_resamples"], .whole⟩,
      ⟨"bootstrap_savedf", ["--bootstrap_savedf"], .text⟩, ⟨"bins_specs", ["--bins_specs"], .dictionary⟩, seedW]
  | .aDgsm => [resamplesW, seedW]
  | .aDiscrepancy => [seedW]
  | .aEnhanced => [⟨"max_order", ["-mor", "--max-order"], .whole⟩, ⟨"poly_order", ["-por", "--poly-order"], .whole⟩,
      ⟨"bootstrap", ["-K", "--bootstrap"], .whole⟩, ⟨"subset", ["-R", "--subset"], .whole⟩,
      ⟨"max_iter", ["-mit", "--max-iter"], .whole⟩, ⟨"l2_penalty", ["-l2", "--l2-penalty"], .real⟩,
      ⟨"alpha", ["-a", "--alpha"], .real⟩, ⟨"extended_base", ["-ext", "--extended-base"], .yesNo⟩,
      ⟨"print_to_console", ["-print", "--print-to-console"], .yesNo⟩, ⟨"return_emulator", ["-emul", "--return-emulator"], .yesNo⟩,
      seedW]
  | .aFast => [⟨"M", ["-M", "--M"], .whole⟩, resamplesW, seedW]
  | .aFf => [⟨"second_order", ["--max-order"], .upToSecondOrder⟩, seedW]
  | .aHdmr => [⟨"maxorder", ["-mor", "--maxorder"], .whole⟩, ⟨"maxiter", ["-mit", "--maxiter"], .whole⟩,
      ⟨"m", ["-m", "--m-int"], .whole⟩, ⟨"K", ["-K", "--K-bootstrap"], .whole⟩, ⟨"R", ["-R", "--R-subsample"], .whole⟩,
      ⟨"alpha", ["-a", "--alpha"], .real⟩, ⟨"lambdax", ["-lambda", "--lambdax"], .real⟩, seedW]
  | .aMorris => [resamplesW, ⟨"num_levels", ["-l", "--levels"], .whole⟩, ⟨"scaled", ["--scaled"], .yesNo⟩, seedW]
  | .aPawn => [⟨"S", ["-S", "--slices"], .whole⟩, seedW]
  | .aRbdFast => [⟨"M", ["-M", "--M"], .whole⟩, resamplesW, seedW]
  | .aRsa => [⟨"bins", ["-b", "--bins"], .whole⟩, ⟨"target", ["-t", "--target"], .text⟩, seedW]
  | .aSobol => [⟨"calc_second_order", ["--max-order"], .upToSecondOrder⟩, resamplesW, ⟨"parallel", ["--parallel"], .presence⟩,
      ⟨"n_processors", ["--processors"], .whole⟩, seedW]

/-- The analyses, as opposed to the samplers. -/
def isAnalysis : CliMethod → Bool
  | .sFast | .sFiniteDiff | .sFf | .sLatin | .sMorris | .sSaltelli | .sSobol => false
  | _ => true

end SALib.Spec
