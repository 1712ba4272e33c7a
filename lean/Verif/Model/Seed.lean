import Verif.Model.Basic

/-! # Seeds (`util_funcs.py` 184-202 and the first lines of the analysers and samplers)

A generator is a value of type `σ`, its state; whatever a function draws is a function of that state.  The world holds
the state of NumPy's global generator and counts the generators made from fresh entropy.  Seeds are integers or `None`.
`analyze/ff.py`, `pawn.py`, `rsa.py` and `discrepancy.py`, `sample/ff.py`, `finite_diff.py` and `saltelli.py` accept or
ignore a seed and draw nothing. -/

namespace SALib

variable {σ β : Type}

/-- NumPy's generators: `RandomState` by seed, `default_rng` by seed, and `default_rng(None)`. -/
structure RandLib (σ : Type) where
  mt : Nat → σ
  pcg : Nat → σ
  fresh : Nat → σ

/-- The world. -/
structure RandWorld (σ : Type) where
  glob : σ
  entropy : Nat
  deriving DecidableEq

/-- `if seed:`. -/
def seedTruthy : Option Int → Bool
  | none => false
  | some n => n ≠ 0

/-- `np.random.seed(seed)`; seeds outside 32 bits are a `ValueError`. -/
def npRandomSeed (L : RandLib σ) (seed : Option Int) (w : RandWorld σ) : Py (RandWorld σ) :=
  match seed with
  | none => .ok { glob := L.fresh w.entropy, entropy := w.entropy + 1 }
  | some n => if n < 0 ∨ 2 ^ 32 ≤ n then .error .valueError else .ok { w with glob := L.mt n.toNat }

/-- `np.random.default_rng(seed)`; negative seeds are a `ValueError`. -/
def defaultRng (L : RandLib σ) (seed : Option Int) (w : RandWorld σ) : Py (σ × RandWorld σ) :=
  match seed with
  | none => .ok (L.fresh w.entropy, { w with entropy := w.entropy + 1 })
  | some n => if n < 0 then .error .valueError else .ok (L.pcg n.toNat, w)

/-- `handle_seed`: `util_funcs.py` 193-195. -/
def handleSeed (L : RandLib σ) (seed : Option Int) (w : RandWorld σ) : Py (σ × RandWorld σ) := defaultRng L seed w

/-- Draws from the global generator. -/
def drawGlobal (body : σ → β × σ) (w : RandWorld σ) : β × RandWorld σ :=
  ((body w.glob).1, { w with glob := (body w.glob).2 })

/-- `if seed: np.random.seed(seed)`, then global draws: `delta.py` 162-163, `dgsm.py` 58-59, `enhanced_hdmr.py` 199-200,
`fast.py` 68-69. -/
def withGlobalSeed (L : RandLib σ) (seed : Option Int) (body : σ → β × σ) (w : RandWorld σ) : Py (β × RandWorld σ) :=
  if seedTruthy seed then do
    let w ← npRandomSeed L seed w
    return drawGlobal body w
  else return drawGlobal body w

/-- `rng = handle_seed(seed)`, then draws from `rng`: `analyze/morris.py` 136, `rbd_fast.py` 86; `sample/latin.py` 46,
`fast_sampler.py` 52, `morris/morris.py` 129; `qmc.Sobol(seed=seed)` in `sample/sobol.py` 107 does the same. -/
def withOwnRng (L : RandLib σ) (seed : Option Int) (body : σ → β × σ) (w : RandWorld σ) : Py (β × RandWorld σ) := do
  let r ← handleSeed L seed w
  return ((body r.1).1, r.2)

/-- `analyze/sobol.py` 113-117: an own generator for a true seed, else the global one. -/
def withOwnOrGlobal (L : RandLib σ) (seed : Option Int) (body : σ → β × σ) (w : RandWorld σ) : Py (β × RandWorld σ) :=
  if seedTruthy seed then do
    let r ← defaultRng L seed w
    return ((body r.1).1, r.2)
  else return drawGlobal body w

/-- `analyze/hdmr.py` 180-181, 384: a generator is made and not used; the draws are global. -/
def withIdleRng (L : RandLib σ) (seed : Option Int) (body : σ → β × σ) (w : RandWorld σ) : Py (β × RandWorld σ) :=
  if seedTruthy seed then do
    let r ← handleSeed L seed w
    return drawGlobal body r.2
  else return drawGlobal body w

/-- The analysers that draw. -/
inductive RandAnalyser
  | delta | dgsm | enhancedHdmr | fast | sobol | morris | rbdFast | hdmr
  deriving DecidableEq

/-- Their treatment of the seed. -/
def analyseSeeded (L : RandLib σ) : RandAnalyser → Option Int → (σ → β × σ) → RandWorld σ → Py (β × RandWorld σ)
  | .delta => withGlobalSeed L
  | .dgsm => withGlobalSeed L
  | .enhancedHdmr => withGlobalSeed L
  | .fast => withGlobalSeed L
  | .sobol => withOwnOrGlobal L
  | .morris => withOwnRng L
  | .rbdFast => withOwnRng L
  | .hdmr => withIdleRng L

/-- The samplers that draw. -/
inductive RandSampler
  | latin | fast | morris | sobol
  deriving DecidableEq

/-- Their treatment of the seed. -/
def sampleSeeded (L : RandLib σ) : RandSampler → Option Int → (σ → β × σ) → RandWorld σ → Py (β × RandWorld σ)
  | .latin => withOwnRng L
  | .fast => withOwnRng L
  | .morris => withOwnRng L
  | .sobol => withOwnRng L

end SALib
