import Verif.Model.Plotting

/-! # The plots of HDMR results, the covariance plot of Morris results, and the plot of several outputs

`src/SALib/plotting/hdmr.py`, `src/SALib/plotting/morris.py` 69-113, `src/SALib/util/problem.py` 475-515.  As in
`Model/Plotting.lean` a plot is the data handed to matplotlib, with the titles beside them. -/

namespace SALib

variable {α β : Type}

/-- What a plot can raise: an unassigned local variable is read (`UnboundLocalError`), or another exception. -/
inductive PlotErr
  | unboundLocal
  | py (e : PyErr)
  deriving DecidableEq

abbrev Draw (β : Type) := Except PlotErr β

/-- A panel: the number of its figure, its place there (counted from one), what it shows. -/
structure Panel (β : Type) where
  fig : Nat
  place : Nat
  shown : β
  deriving DecidableEq

/-- The local variables of the loops: figures made so far, `it` (none before its assignment), panels drawn. -/
structure PanelState (β : Type) where
  figs : Nat
  it : Option Nat
  panels : List (Panel β)

/-- `fig.add_subplot(row, col, it)` with `per = row * col`, and `it += 1`. -/
def addPanel (per : Nat) (st : PanelState β) (b : β) : Draw (PanelState β) :=
  match st.it with
  | none => .error .unboundLocal
  | some it =>
    if 1 ≤ it ∧ it ≤ per then .ok { figs := st.figs, it := some (it + 1), panels := st.panels ++ [⟨st.figs, it, b⟩] }
    else .error (.py .valueError)

/-- A new figure before every panel whose number is a multiple of `per`: `plotting/hdmr.py` 49-52, 73-75. -/
def newFigure (per : Nat) (st : PanelState β) (i : Nat) : PanelState β :=
  if i % per = 0 ∨ i = 0 then { st with figs := st.figs + 1, it := some 1 } else st

/-- `a[idx]` for an index array. -/
def takeAll (a : List α) (idx : List Nat) : Py (List α) := idx.mapM (pyGet a)

/-- An exception of NumPy or pandas. -/
def liftPy : Py β → Draw β
  | .ok b => .ok b
  | .error e => .error (.py e)

/-- A scatter plot with a number in its title. -/
structure Trial (α : Type) where
  title : Nat
  xs : List α
  ys : List α
  deriving DecidableEq

/-- One pass of the first loop: `plotting/hdmr.py` 47-62.  `Ye i` is `Em["Y_e"][:, i]`, `idx i` is `idx[:, i]`. -/
def trialStep (K : Nat) (Ye : Nat → List α) (idx : Nat → List Nat) (Y : List α) (st : PanelState (Trial α)) (i : Nat) :
    Draw (PanelState (Trial α)) := do
  let ys ← liftPy (takeAll Y (idx i))
  addPanel 10 (newFigure 10 st i) { title := K - i, xs := Ye i, ys := ys }

/-- The panels of the bootstrap trials: `plotting/hdmr.py` 27-68.  Without any pass `fig` in 68 is not assigned. -/
def hdmrTrials (K : Nat) (Ye : Nat → List α) (idx : Nat → List Nat) (Y : List α) : Draw (List (Panel (Trial α))) := do
  let st ← (List.range' (K - 10) (K - (K - 10))).foldlM (trialStep K Ye idx Y) { figs := 0, it := none, panels := [] }
  if st.figs = 0 then .error .unboundLocal else return st.panels

/-- A first-order component: the parameter in the title and the two clouds of points. -/
structure Regression (α : Type) where
  title : String
  xs : List α
  ys : List α
  fitted : List α
  deriving DecidableEq

/-- One pass of the second loop: `plotting/hdmr.py` 72-89.  `f0` is `np.mean(Em["f0"])`, `Yem i` is `Y_em[:, i]`. -/
def regressStep [Add α] (names : List String) (X : Mat α) (Y : List α) (last : List Nat) (f0 : α) (Yem : Nat → List α)
    (st : PanelState (Regression α)) (i : Nat) : Draw (PanelState (Regression α)) := do
  let name ← liftPy (pyGet names i)
  let rows ← liftPy (takeAll X last)
  let xs ← liftPy (rows.mapM fun row => pyGet row i)
  let ys ← liftPy (takeAll Y last)
  addPanel 3 (newFigure 3 st i) { title := name, xs := xs, ys := ys, fitted := (Yem i).map fun t => f0 + t }

/-- The panels of the component functions: `plotting/hdmr.py` 70-89; `d` is `X.shape[1]`. -/
def hdmrRegressions [Add α] (d : Nat) (names : List String) (X : Mat α) (Y : List α) (last : List Nat) (f0 : α)
    (Yem : Nat → List α) : Draw (List (Panel (Regression α))) := do
  let st ← (List.range d).foldlM (regressStep names X Y last f0 Yem) { figs := 0, it := none, panels := [] }
  return st.panels

/-- The entries `emulated` and `Y_test` of the result. -/
structure Emulated (α : Type) where
  emulated : Option (List α)
  yTest : Option (List α)

/-- What `emulate(X, Y)` stores: `analyze/hdmr.py` 909-914; `sums` are the sums of the component functions. -/
def storeEmulated [Field α] (st : Emulated α) (sums : List α) : Option (List α) → Emulated α
  | some Y => { emulated := some (sums.map fun s => s + Y.sum / (Y.length : α)), yTest := some Y }
  | none => { emulated := some (sums.map fun s => s + 0), yTest := st.yTest }

/-- The last figure: emulated values against observations and the sum of squares in its title: `plotting/hdmr.py` 94-112.
Subtracting vectors of different lengths (none of them of length one) is a `ValueError`. -/
def hdmrTest [Field α] (st : Emulated α) : Draw (Option (List (α × α) × α)) :=
  match st.emulated, st.yTest with
  | none, _ => .ok none
  | some _, none => .error (.py .keyError)
  | some e, some y =>
    if e.length = y.length then .ok (some (e.zip y, (List.zipWith (fun a b => (a - b) ^ 2) e y).sum))
    else .error (.py .valueError)

/-! ## Covariance plot -/

/-- The points and the label of the vertical axis. -/
structure CovPlot (α : Type) where
  points : List (Num α × Num α)
  yLabel : String
  slopes : List α

/-- `covariance_plot(ax, Si)`: `plotting/morris.py` 69-113.  `sigma` is `none` for `Si["sigma"] is None`.  (`scatter`
refuses different lengths with a `ValueError`.) -/
def covariancePlot [Field α] (muStar conf : List (Num α)) (sigma : Option (List (Num α))) : Py (CovPlot α) :=
  match sigma with
  | some s =>
    if muStar.length = s.length then .ok { points := muStar.zip s, yLabel := "sigma", slopes := [1, 1 / 2, 1 / 10] }
    else .error .valueError
  | none =>
    if muStar.length = conf.length then .ok { points := muStar.zip conf, yLabel := "95% CI", slopes := [] }
    else .error .valueError

/-- The points drawn: matplotlib leaves out those with a nan. -/
def CovPlot.drawn (p : CovPlot α) : List (α × α) := p.points.filterMap fun q => q.1.bind fun x => q.2.map fun y => (x, y)

/-! ## Several outputs -/

/-- The analyses, by the `plot` of their results: `ResultDict.plot(ax=None)`, `rsa.plot(factors=None)` (`rsa.py` 132-133,
209) and `hdmr.plot()` (`hdmr.py` 815-816, 934). -/
inductive PlotKind
  | resultDict
  | rsa
  | hdmr
  deriving DecidableEq

/-- `self._analysis[res].plot(ax=ax)` for one output: an argument that is not taken is a `TypeError`; otherwise the
method's own drawing. -/
def plotWithAx (kind : PlotKind) (draw : Py β) : Py β :=
  match kind with
  | .resultDict => draw
  | .rsa => .error .typeError
  | .hdmr => .error .typeError

/-- `ProblemSpec.plot()`: `util/problem.py` 475-515.  `draws` gives the drawing for each output, in order; without an analysis
a `RuntimeError`. -/
def specPlot (analysed : Bool) (kind : PlotKind) (draws : List (Py β)) : Py (List β) :=
  if !analysed then .error .runtimeError
  else match draws with
    | [d] => do
      let b ← d
      return [b]
    | [] => .error .indexError
    | ds => ds.mapM (plotWithAx kind)

end SALib
