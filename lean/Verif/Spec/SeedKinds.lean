import Verif.Model.SeedKinds

/-! # What a seed should do (C135) -/

namespace SALib.Spec

variable {σ κ β : Type}

/-- The functions whose documentation or signature takes a `numpy.random.Generator` as seed. -/
def TakesGenerator (f : SeededFn) : Prop :=
  f = .sFf ∨ f = .sFiniteDiff ∨ f = .sLatin ∨ f = .sFast ∨ f = .sMorris ∨ f = .sSobol ∨ f = .aMorris ∨ f = .aRbdFast

/-- The functions that seed NumPy's global generator. -/
def SeedsGlobal (f : SeededFn) : Prop :=
  f = .aEnhancedHdmr ∨ f = .aDelta ∨ f = .aDgsm ∨ f = .aFast ∨ f = .aFf ∨ f = .aPawn

/-- The functions that return the same whatever is drawn. -/
def Idle (f : SeededFn) : Prop := f = .sFf ∨ f = .sFiniteDiff ∨ f = .aFf ∨ f = .aPawn

/-- Two worlds in which generator `i` has the same seed sequence and has made the same number of children.  Its stream and
everything else may differ. -/
def SameOrigin (i : Nat) (w w' : SeedWorld σ κ) : Prop :=
  (w.gens i).key = (w'.gens i).key ∧ (w.gens i).children = (w'.gens i).children

/-- Nothing of the caller is moved: no stream, not the global generator, no fresh entropy. -/
def Undisturbed (w w' : SeedWorld σ κ) : Prop :=
  w'.glob = w.glob ∧ w'.entropy = w.entropy ∧
    ∀ j, (w'.gens j).stream = (w.gens j).stream ∧ (w'.gens j).key = (w.gens j).key

/-- Exactly `n` further children of generator `i` are counted. -/
def Counted (i n : Nat) (w w' : SeedWorld σ κ) : Prop :=
  (w'.gens i).children = (w.gens i).children + n ∧ ∀ j, j ≠ i → (w'.gens j).children = (w.gens j).children

end SALib.Spec
