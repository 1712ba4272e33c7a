import Verif.Model.CliWords

/-! # Ways of writing an option on the command line -/

namespace SALib.Spec

open SALib

/-- A number with a minus sign, without exponent. -/
def MinusNumber (v : Word) : Prop :=
  (∃ d, d ≠ [] ∧ (∀ c ∈ d, c.isDigit = true) ∧ v = '-' :: d) ∨
  ∃ a b, (∀ c ∈ a, c.isDigit = true) ∧ b ≠ [] ∧ (∀ c ∈ b, c.isDigit = true) ∧ v = '-' :: (a ++ '.' :: b)

/-- A word that cannot be mistaken for an option. -/
def ValueWord (v : Word) : Prop := v.head? ≠ some '-' ∨ v = ['-'] ∨ MinusNumber v

/-- `p` is the beginning of the long option `f` and of no other. -/
structure Abbreviates (names : List String) (p : Word) (f : String) : Prop where
  dashes : ['-', '-'] <+: p
  noEq : '=' ∉ p
  starts : p <+: f.toList
  only : ∀ s ∈ names, p <+: s.toList → s = f

/-- `p` names the option `f`: in full or by an abbreviation. -/
def Names (names : List String) (p : Word) (f : String) : Prop := p = f.toList ∨ Abbreviates names p f

/-- With a single dash: `p` is the beginning of `f` and of no other option, and its first letter is not an option. -/
structure ShortAbbreviates (names : List String) (p : Word) (f : String) : Prop where
  dash : ∃ c t, c ≠ '-' ∧ p = '-' :: c :: t
  starts : p <+: f.toList
  only : ∀ s ∈ names, p <+: s.toList → s = f
  letter : ∀ s ∈ names, s.toList ≠ p.take 2

/-- The words written for one option and its value: the option and its value as two words, as one word with `=`, a letter
with the value attached to it, or an option without value. -/
inductive Spelled (plain : Word → Prop) (opts : List CliOpt) (names : List String) : String × String → List Word → Prop
  | separate (o : CliOpt) (f : String) (p v : Word) (ho : o ∈ opts) (hf : f ∈ o.flags) (hc : o.conv ≠ .storeTrue)
      (hp : Names names p f ∨ ShortAbbreviates names p f) (hv : plain v) : Spelled plain opts names (f, String.ofList v) [p, v]
  | joined (o : CliOpt) (f : String) (p v : Word) (ho : o ∈ opts) (hf : f ∈ o.flags) (hc : o.conv ≠ .storeTrue)
      (hp : Names names p f) : Spelled plain opts names (f, String.ofList v) [p ++ '=' :: v]
  | attached (o : CliOpt) (f : String) (c : Char) (v : Word) (ho : o ∈ opts) (hf : f ∈ o.flags) (hc : o.conv ≠ .storeTrue)
      (hd : c ≠ '-') (hl : f.toList = ['-', c])
      (hn : ∀ s ∈ names, s.toList ≠ f.toList ++ v.takeWhile (· != '=') ∧ ¬(f.toList ++ v) <+: s.toList) :
      Spelled plain opts names (f, String.ofList v) [f.toList ++ v]
  | switch (o : CliOpt) (f : String) (p : Word) (ho : o ∈ opts) (hf : f ∈ o.flags) (hc : o.conv = .storeTrue)
      (hp : Names names p f ∨ ShortAbbreviates names p f) : Spelled plain opts names (f, "") [p]

/-- What a table of options has to satisfy for these spellings to be told apart: names are distinct, start with a dash,
contain neither `=` nor a space, and do not look like a number or like the beginning of `-h` or `--help`. -/
structure PlainTable (opts : List CliOpt) : Prop where
  nodup : (optStrings opts).Nodup
  shape : ∀ s ∈ opts.flatMap (·.flags), ∃ c t, s.toList = '-' :: c :: t ∧ '=' ∉ s.toList ∧ ' ' ∉ s.toList ∧ c.isDigit = false ∧ c ≠ '.' ∧
    c ≠ 'h' ∧ ¬s.toList <+: "--help".toList

/-- The name of the module and whether it is one of the analyses. -/
def moduleOf : CliMethod → Bool × String
  | .sFast => (false, "fast_sampler")
  | .sFiniteDiff => (false, "finite_diff")
  | .sFf => (false, "ff")
  | .sLatin => (false, "latin")
  | .sMorris => (false, "morris")
  | .sSaltelli => (false, "saltelli")
  | .sSobol => (false, "sobol")
  | .aDelta => (true, "delta")
  | .aDgsm => (true, "dgsm")
  | .aDiscrepancy => (true, "discrepancy")
  | .aEnhanced => (true, "enhanced_hdmr")
  | .aFast => (true, "fast")
  | .aFf => (true, "ff")
  | .aHdmr => (true, "hdmr")
  | .aMorris => (true, "morris")
  | .aPawn => (true, "pawn")
  | .aRbdFast => (true, "rbd_fast")
  | .aRsa => (true, "rsa")
  | .aSobol => (true, "sobol")

/-- The first two words of the command: `sample saltelli`, `analyze sobol`. -/
def actionWord (m : CliMethod) : Word := if (moduleOf m).1 then "analyze".toList else "sample".toList

end SALib.Spec
