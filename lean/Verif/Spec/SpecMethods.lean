import Verif.Model.SpecMethods

/-! # What the convenience methods should be -/

namespace SALib.Spec

/-- The modules of a package that are methods: not one of the three helpers, and without `test` in the name. -/
def IsMethod (dir : List (String × Bool)) (m : String) : Prop :=
  (∃ b, (m, b) ∈ dir) ∧ m ≠ "common_args" ∧ m ≠ "directions" ∧ m ≠ "sobol_sequence" ∧
    ¬"test".toList <:+: m.toList

/-- The attribute for module `m`: the prefix and the name, without the ending `suf`. -/
def Named (pre suf m name : String) : Prop :=
  (¬suf.toList <:+: m.toList ∧ name = pre ++ m) ∨
    ∃ base, m = base ++ suf ∧ ¬suf.toList <:+: base.toList ∧ name = pre ++ base

/-- The value that a call hands to a parameter; `none`: the default of the function. -/
def Hands {V : Type} (call : List (String × Option (MArg V))) (name : String) (v : Option (MArg V)) : Prop :=
  (name, v) ∈ call

end SALib.Spec
