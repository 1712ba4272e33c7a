import Verif.Model.Seed

/-! # Seeds of every kind (`util_funcs.py` 184-202 and the first lines of the samplers and analysers)

`Model/Seed.lean` takes a seed to be an integer or `None`.  Here a seed may also be one of NumPy's own objects.  A
generator object has a stream (its state, a value of type `σ`), and a seed sequence from which children are made: `spawn`
gives the next child by number and counts it, and neither reads nor moves the stream.  The objects of the caller are
numbered; a generator, a bit generator and a seed sequence with the same number are the parts of one generator. -/

namespace SALib

variable {σ κ β : Type}

/-- NumPy's generators: `RandomState` by integer and by list, seed sequences by integer and by list, the child of a seed
sequence by number, the stream that starts from a seed sequence, and the seed sequences made of fresh entropy. -/
structure SeedLib (σ κ : Type) where
  mt : Nat → σ
  mtList : List Nat → σ
  intKey : Nat → κ
  listKey : List Nat → κ
  child : κ → Nat → κ
  start : κ → σ
  freshKey : Nat → κ
  freshMt : Nat → σ

/-- A generator of the caller: its stream, its seed sequence and the number of children made so far. -/
structure GenObj (σ κ : Type) where
  stream : σ
  key : κ
  children : Nat
  deriving DecidableEq

/-- The world: the global generator, a count of generators made from fresh entropy, and the objects of the caller. -/
structure SeedWorld (σ κ : Type) where
  glob : σ
  entropy : Nat
  gens : Nat → GenObj σ κ

/-- What may be given as seed.  `bool` is an `int` in Python. -/
inductive SeedArg
  | none
  | int (n : Int)
  | npInt (n : Int)
  | float (zero : Bool)
  | gen (i : Nat)
  | bitGen (i : Nat)
  | seedSeq (i : Nat)
  | list (ns : List Int)
  | array (ns : List Int)
  deriving DecidableEq

/-- A generator in use: one of its own, or one that shares the stream of an object of the caller. -/
inductive RngRef (σ : Type)
  | own (s : σ)
  | shared (i : Nat)

/-- Put a generator back among the objects of the caller. -/
def SeedWorld.setGen (w : SeedWorld σ κ) (i : Nat) (g : GenObj σ κ) : SeedWorld σ κ :=
  { w with gens := fun j => if j = i then g else w.gens j }

/-- `seed.spawn(1)[0]`: `util_funcs.py` 191. -/
def spawnOne (L : SeedLib σ κ) (i : Nat) (w : SeedWorld σ κ) : RngRef σ × SeedWorld σ κ :=
  (.own (L.start (L.child (w.gens i).key (w.gens i).children)),
    w.setGen i ⟨(w.gens i).stream, (w.gens i).key, (w.gens i).children + 1⟩)

/-- Integers of a sequence given as seed. -/
def seedWords (ns : List Int) : Option (List Nat) :=
  if ns.all (fun n => decide (0 ≤ n)) then some (ns.map Int.toNat) else .none

/-- `default_rng` of a list. -/
def listRng (L : SeedLib σ κ) (w : SeedWorld σ κ) : Option (List Nat) → Py (RngRef σ × SeedWorld σ κ)
  | .none => .error .valueError
  | some ws => .ok (.own (L.start (L.listKey ws)), w)

/-- `default_rng` of an integer. -/
def intRng (L : SeedLib σ κ) (w : SeedWorld σ κ) (n : Int) : Py (RngRef σ × SeedWorld σ κ) :=
  if n < 0 then .error .valueError else .ok (.own (L.start (L.intKey n.toNat)), w)

/-- `np.random.default_rng(seed)`: a generator is handed back as it is, a bit generator is wrapped. -/
def defaultRngAny (L : SeedLib σ κ) (seed : SeedArg) (w : SeedWorld σ κ) : Py (RngRef σ × SeedWorld σ κ) :=
  match seed with
  | .none => .ok (.own (L.start (L.freshKey w.entropy)), { w with entropy := w.entropy + 1 })
  | .int n => intRng L w n
  | .npInt n => intRng L w n
  | .float _ => .error .typeError
  | .gen i => .ok (.shared i, w)
  | .bitGen i => .ok (.shared i, w)
  | .seedSeq i => .ok (.own (L.start (w.gens i).key), w)
  | .list ns => listRng L w (seedWords ns)
  | .array ns => listRng L w (seedWords ns)

/-- `handle_seed`: `util_funcs.py` 189-202. -/
def handleSeedAny (L : SeedLib σ κ) (seed : SeedArg) (w : SeedWorld σ κ) : Py (RngRef σ × SeedWorld σ κ) :=
  match seed with
  | .gen i => .ok (spawnOne L i w)
  | .bitGen i => defaultRngAny L (.bitGen i) w
  | .seedSeq i => defaultRngAny L (.seedSeq i) w
  | .int n => defaultRngAny L (.int n) w
  | .none => defaultRngAny L .none w
  | .list ns => defaultRngAny L (.list ns) w
  | .array ns => defaultRngAny L (.array ns) w
  | .npInt _ => .error .valueError
  | .float _ => .error .valueError

/-- The generator of `qmc.Sobol(seed=seed)` in SciPy (`sample/sobol.py` 107): a child of a generator, else
`check_random_state`, which takes integers of both kinds and `None`. -/
def qmcRng (L : SeedLib σ κ) (seed : SeedArg) (w : SeedWorld σ κ) : Py (RngRef σ × SeedWorld σ κ) :=
  match seed with
  | .gen i => .ok (spawnOne L i w)
  | .none => defaultRngAny L .none w
  | .int n => defaultRngAny L (.int n) w
  | .npInt n => defaultRngAny L (.npInt n) w
  | .float _ => .error .valueError
  | .bitGen _ => .error .valueError
  | .seedSeq _ => .error .valueError
  | .list _ => .error .valueError
  | .array _ => .error .valueError

/-- The truth value of an array: of its only element; for several elements a `ValueError`, as for none. -/
def arrayTruth : List Int → Py Bool
  | [n] => .ok (decide (n ≠ 0))
  | _ => .error .valueError

/-- `if seed:`. -/
def seedTruth : SeedArg → Py Bool
  | .none => .ok false
  | .int n => .ok (decide (n ≠ 0))
  | .npInt n => .ok (decide (n ≠ 0))
  | .float z => .ok (!z)
  | .gen _ => .ok true
  | .bitGen _ => .ok true
  | .seedSeq _ => .ok true
  | .list ns => .ok (!ns.isEmpty)
  | .array ns => arrayTruth ns

/-- `np.random.seed` of an integer. -/
def mtSeed (L : SeedLib σ κ) (w : SeedWorld σ κ) (n : Int) : Py (SeedWorld σ κ) :=
  if n < 0 ∨ 2 ^ 32 ≤ n then .error .valueError else .ok { w with glob := L.mt n.toNat }

/-- `np.random.seed` of a list. -/
def mtSeedList (L : SeedLib σ κ) (w : SeedWorld σ κ) (ns : List Int) : Py (SeedWorld σ κ) :=
  if ns = [] ∨ ns.any (fun n => decide (n < 0 ∨ 2 ^ 32 ≤ n)) then .error .valueError
  else .ok { w with glob := L.mtList (ns.map Int.toNat) }

/-- `np.random.seed(seed)`; objects that are not integers are a `TypeError`. -/
def npRandomSeedAny (L : SeedLib σ κ) (seed : SeedArg) (w : SeedWorld σ κ) : Py (SeedWorld σ κ) :=
  match seed with
  | .none => .ok { w with glob := L.freshMt w.entropy, entropy := w.entropy + 1 }
  | .int n => mtSeed L w n
  | .npInt n => mtSeed L w n
  | .float _ => .error .typeError
  | .gen _ => .error .typeError
  | .bitGen _ => .error .typeError
  | .seedSeq _ => .error .typeError
  | .list ns => mtSeedList L w ns
  | .array ns => mtSeedList L w ns

/-- Draws from a generator in use. -/
def drawRef (body : σ → β × σ) (r : RngRef σ) (w : SeedWorld σ κ) : β × SeedWorld σ κ :=
  match r with
  | .own s => ((body s).1, w)
  | .shared i => ((body (w.gens i).stream).1,
      w.setGen i ⟨(body (w.gens i).stream).2, (w.gens i).key, (w.gens i).children⟩)

/-- Draws from the global generator. -/
def drawGlob (body : σ → β × σ) (w : SeedWorld σ κ) : β × SeedWorld σ κ :=
  ((body w.glob).1, { w with glob := (body w.glob).2 })

/-- What a function does with its seed: `rng = handle_seed(seed)`; `qmc.Sobol(seed=seed)`; `if seed:
np.random.seed(seed)`; `if seed: rng = default_rng(seed)` else the global generator; `if seed: handle_seed(seed)` with
global draws. -/
inductive SeedUse
  | own | qmc | globalIf | ownIf | idleIf
  deriving DecidableEq

/-- The functions with a seed. -/
inductive SeededFn
  | sFf | sFiniteDiff | sLatin | sFast | sMorris | sSobol
  | aMorris | aRbdFast | aHdmr | aEnhancedHdmr | aDelta | aDgsm | aFast | aFf | aPawn | aSobol
  deriving DecidableEq

/-- `sample/ff.py` 119, `finite_diff.py` 55, `latin.py` 46, `fast_sampler.py` 52, `morris/morris.py` 129, `sobol.py` 107;
`analyze/morris.py` 136, `rbd_fast.py` 86, `hdmr.py` 180-181, `enhanced_hdmr.py` 199-200, `delta.py` 162-163, `dgsm.py`
58-59, `fast.py` 68-69, `ff.py` 71-72, `pawn.py` 106-107, `sobol.py` 113-117. -/
def seedUse : SeededFn → SeedUse
  | .sFf => .own
  | .sFiniteDiff => .own
  | .sLatin => .own
  | .sFast => .own
  | .sMorris => .own
  | .sSobol => .qmc
  | .aMorris => .own
  | .aRbdFast => .own
  | .aHdmr => .idleIf
  | .aEnhancedHdmr => .globalIf
  | .aDelta => .globalIf
  | .aDgsm => .globalIf
  | .aFast => .globalIf
  | .aFf => .globalIf
  | .aPawn => .globalIf
  | .aSobol => .ownIf

/-- A run of a function that draws `body`. -/
def runUse (L : SeedLib σ κ) (u : SeedUse) (seed : SeedArg) (body : σ → β × σ) (w : SeedWorld σ κ) :
    Py (β × SeedWorld σ κ) :=
  match u with
  | .own => do
    let r ← handleSeedAny L seed w
    return drawRef body r.1 r.2
  | .qmc => do
    let r ← qmcRng L seed w
    return drawRef body r.1 r.2
  | .globalIf => do
    if ← seedTruth seed then
      let w ← npRandomSeedAny L seed w
      return drawGlob body w
    else return drawGlob body w
  | .ownIf => do
    if ← seedTruth seed then
      let r ← defaultRngAny L seed w
      return drawRef body r.1 r.2
    else return drawGlob body w
  | .idleIf => do
    if ← seedTruth seed then
      let r ← handleSeedAny L seed w
      return drawGlob body r.2
    else return drawGlob body w

/-- The functions that draw nothing whatever the seed (`sample/ff.py`, `finite_diff.py`, `analyze/ff.py`, `pawn.py`). -/
def drawsNothing : SeededFn → Bool
  | .sFf => true
  | .sFiniteDiff => true
  | .aFf => true
  | .aPawn => true
  | _ => false

/-- What a function draws. -/
def fnBody (f : SeededFn) (out : β) (body : σ → β × σ) : σ → β × σ :=
  if drawsNothing f then fun s => (out, s) else body

/-- A call of a function with a seed: `out` is the result of a function that draws nothing, `body` that of one that draws. -/
def callSeeded (L : SeedLib σ κ) (f : SeededFn) (seed : SeedArg) (out : β) (body : σ → β × σ) (w : SeedWorld σ κ) :
    Py (β × SeedWorld σ κ) :=
  runUse L (seedUse f) seed (fnBody f out body) w

/-- Calls one after the other with the same seed argument. -/
def callAll (L : SeedLib σ κ) (seed : SeedArg) (out : β) (body : SeededFn → σ → β × σ) :
    List SeededFn → SeedWorld σ κ → Py (List β × SeedWorld σ κ)
  | [], w => .ok ([], w)
  | f :: fs, w => do
    let r ← callSeeded L f seed out (body f) w
    let rs ← callAll L seed out body fs r.2
    return (r.1 :: rs.1, rs.2)

end SALib
