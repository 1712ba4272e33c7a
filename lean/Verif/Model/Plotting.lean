import Verif.Model.Tables

/-! # What the plots show (`src/SALib/plotting/heatmap.py`, `bar.py`, `morris.py`, `util/results.py` 21-37)

matplotlib and the drawing itself are outside /repo.  A plot is modelled by the data handed over: which numbers are
drawn where, and the labels put beside them. -/

namespace SALib

variable {α β : Type}

/-! ## Result dictionaries -/

/-- A value of a result dictionary: an array of one or two axes, or a `list`, `str` or `dict` (which has no attribute
`shape`). -/
inductive ResVal (α : Type) where
  | vec (l : List (Num α))
  | mat (cols : Nat) (m : Mat (Num α))
  | plain

abbrev ResDict (α : Type) := List (String × ResVal α)

/-- `met_data[k]`. -/
def resGet (S : ResDict α) (k : String) : Py (ResVal α) :=
  match S.find? fun e => e.1 == k with
  | some e => .ok e.2
  | none => .error .keyError

/-- `v.shape`. -/
def ResVal.shape : ResVal α → Py (List Nat)
  | .vec l => .ok [l.length]
  | .mat c m => .ok [m.length, c]
  | .plain => .error .attributeError

/-- The rows of an array in `np.vstack` (a vector is one row). -/
def ResVal.rows : ResVal α → Mat (Num α)
  | .vec l => [l]
  | .mat _ m => m
  | .plain => []

/-- The columns kept in `S1_conf_all`, as the rows of an array. -/
def resampleRows (cols : List (List (Num α))) : Mat (Num α) :=
  (List.range (cols.headD []).length).map fun i => cols.map fun c => c.getD i none

/-- The entries for the kept resamples: `analyze/sobol.py` 255-258. -/
def keptEntries (r : SobolResult α) : ResDict α :=
  match r.S1all, r.STall with
  | some a, some b => [("S1_conf_all", .mat r.S1.length (resampleRows a)), ("ST_conf_all", .mat r.ST.length (resampleRows b))]
  | _, _ => []

/-- The entries for the pairs: `analyze/sobol.py` 260-262. -/
def pairEntries (r : SobolResult α) : ResDict α :=
  match r.S2, r.S2conf with
  | some a, some b => [("S2", .mat r.S1.length a), ("S2_conf", .mat r.S1.length b)]
  | _, _ => []

/-- The dictionary of a Sobol analysis, keys in order of insertion: `analyze/sobol.py` 249-264. -/
def sobolDict (r : SobolResult α) : ResDict α :=
  [("S1", .vec r.S1), ("S1_conf", .vec r.S1conf), ("ST", .vec r.ST), ("ST_conf", .vec r.STconf)] ++
    keptEntries r ++ pairEntries r

/-- The dictionary of a Morris analysis: `analyze/morris.py` 205-221. -/
def morrisDict (r : MorrisResult α) : ResDict α :=
  [("names", .plain), ("mu", .vec r.mu), ("mu_star", .vec r.muStar), ("sigma", .vec r.sigma),
    ("mu_star_conf", .vec r.muStarConf)]

/-- The dictionary of a DGSM analysis: `dgsm.py` 83-85. -/
def dgsmDict (r : DgsmResult α) : ResDict α :=
  [("vi", .vec r.vi), ("vi_std", .vec r.viStd), ("dgsm", .vec r.dgsm), ("dgsm_conf", .vec r.dgsmConf), ("names", .plain)]

/-- The dictionary of a FAST analysis: `fast.py` 86-87.  The values are lists (`[None] * D`). -/
def fastDict (_ : FastResult) : ResDict ℝ :=
  [("S1", .plain), ("ST", .plain), ("S1_conf", .plain), ("ST_conf", .plain), ("names", .plain)]

/-- The dictionary of an RBD-FAST analysis: `rbd_fast.py` 92-93.  The values are lists. -/
def rbdDict (_ : RbdResult) : ResDict ℝ := [("S1", .plain), ("S1_conf", .plain), ("names", .plain)]

/-! ## Heat map -/

/-- The argument `index`. -/
inductive IndexArg where
  | absent
  | one (k : String)
  | many (ks : List String)

/-- `k.endswith("_conf")`: `heatmap.py` 49. -/
def endsConf (k : String) : Bool := decide ("_conf".toList <:+ k.toList)

/-- `heatmap.py` 49. -/
def heatFilter (ks : List String) : List String := ks.filter fun k => !endsConf k && k != "names"

/-- The keys to show: `heatmap.py` 40-52 (`None`, `""` and `[]` are falsy). -/
def heatKeys (S : ResDict α) : IndexArg → List String
  | .absent => heatFilter (S.map (·.1))
  | .one k => if k = "" then heatFilter (S.map (·.1)) else [k]
  | .many ks => if ks = [] then heatFilter (S.map (·.1)) else heatFilter ks

/-- The rows contributed by a key: `heatmap.py` 60. -/
def heatRows (S : ResDict α) (sh : List Nat) (k : String) : Py (Mat (Num α)) := do
  let v ← resGet S k
  let s ← v.shape
  return if s = sh then v.rows else []

/-- `s_data`: `heatmap.py` 59-60. -/
def heatData (S : ResDict α) : List String → Py (Mat (Num α))
  | [] => .error .indexError
  | k :: ks => do
    let v ← resGet S k
    let sh ← v.shape
    let rows ← (k :: ks).mapM (heatRows S sh)
    return rows.flatten

/-- The image with the labels beside its columns and rows, and the title. -/
structure Heat (α : Type) where
  image : Mat (Num α)
  xLabels : List String
  yLabels : List String
  title : String

/-- The results of a `ProblemSpec`: one dictionary, or one for each output if there are several outputs. -/
structure SpecResults (α : Type) where
  outputs : List String
  single : ResDict α
  multi : List (String × ResDict α)

/-- `metric`: `heatmap.py` 34-38. -/
def heatMetric (sp : SpecResults α) : Option String → Py String
  | none => match sp.outputs with
    | [] => .error .indexError
    | o :: _ => .ok o
  | some m => if m ∈ sp.outputs then .ok m else .error .assertionError

/-- `met_data`: `heatmap.py` 54-57. -/
def heatSource (sp : SpecResults α) (m : String) : Py (ResDict α) :=
  if sp.outputs.length > 1 then
    match sp.multi.find? fun e => e.1 == m with
    | some e => .ok e.2
    | none => .error .keyError
  else .ok sp.single

/-- `heatmap(sp, metric, index, title)`: `heatmap.py` 14-84. -/
def heatmap (pb : Problem α) (sp : SpecResults α) (metric : Option String) (index : IndexArg) (title : Option String) :
    Py (Heat α) := do
  let m ← heatMetric sp metric
  let S ← heatSource sp m
  let keys := heatKeys S index
  let data ← heatData S keys
  return { image := data, xLabels := (extractGroupNames pb).1, yLabels := keys.take data.length, title := title.getD m }

/-! ## Bar chart -/

/-- `columns.str.contains("_conf")`: `bar.py` 33. -/
def containsConf (k : String) : Bool := decide ("_conf".toList <:+: k.toList)

/-- `c.replace("_conf", "")`: `bar.py` 36. -/
def stripConf : List Char → List Char
  | [] => []
  | c :: l => if "_conf".toList.isPrefixOf (c :: l) then stripConf (l.drop 4) else c :: stripConf l
termination_by l => l.length
decreasing_by all_goals simp; try omega

/-- A series of bars: the name of the series, a bar for each row label, and its error bars if it has any. -/
structure BarSeries (β : Type) where
  series : String
  bars : List (String × β)
  errors : Option (List β)
  deriving DecidableEq

/-- The entries of column `j`. -/
def tableColumn [Inhabited β] (t : Table β) (j : Nat) : List β := t.rows.map fun row => row.2.getD j default

/-- The columns of `confs`, renamed, with their positions: `bar.py` 33-36. -/
def barConfs (t : Table β) : List (String × Nat) :=
  (t.columns.zipIdx.filter fun c => containsConf c.1).map fun c => (String.ofList (stripConf c.1.toList), c.2)

/-- `plot(Si_df)`: `bar.py` 33-41.  pandas takes as error bars of a column the column of `yerr` with its name. -/
def barPlot [Inhabited β] (t : Table β) : List (BarSeries β) :=
  (t.columns.zipIdx.filter fun c => !containsConf c.1).map fun c =>
    { series := c.1
      bars := (t.rows.map (·.1)).zip (tableColumn t c.2)
      errors := ((barConfs t).find? fun e => e.1 == c.1).map fun e => tableColumn t e.2 }

/-- `ResultDict.plot` of several tables on `axes` axes: `results.py` 25-33.  (`None.columns` is an `AttributeError`.) -/
def plotTables [Inhabited β] (axes : Nat) (ts : List (Option (Table β))) : Py (List (List (BarSeries β))) :=
  ts.zipIdx.mapM fun t => if t.2 < axes then (match t.1 with
    | none => .error .attributeError
    | some t => .ok (barPlot t)) else .error .indexError

/-- The number of columns of axes made by `ProblemSpec.plot` for results of several tables: `problem.py` 495-498. -/
def specPlotCols (keys : Nat) : Nat := keys / 2

/-- The plot of one of several outputs, when `to_df` gives several tables: `problem.py` 505-506, `results.py` 31-32.
With a single column of axes, `ax[idx]` is an `Axes` indexed. -/
def specPlotOne [Inhabited β] (keys : Nat) (ts : List (Option (Table β))) : Py (List (List (BarSeries β))) :=
  if specPlotCols keys = 1 then .error .typeError else plotTables (specPlotCols keys) ts

/-! ## Morris plots -/

/-- The metric sorted by: `plotting/morris.py` 36. -/
inductive SortBy where
  | muStar
  | muStarConf
  | sigma
  | mu

def MorrisResult.metric (r : MorrisResult α) : SortBy → List (Num α)
  | .muStar => r.muStar
  | .muStarConf => r.muStarConf
  | .sigma => r.sigma
  | .mu => r.mu

/-- `_sort_Si(Si, key, sortby)`: `plotting/morris.py` 24-25.  `argsort` is `np.argsort`. -/
def sortSi (argsort : List (Num α) → List Nat) (col : List β) (by_ : List (Num α)) : Py (List β) :=
  (argsort by_).mapM (pyGet col)

/-- The bars from the bottom up: label, length, half-width of the error bar. -/
structure BarH (α : Type) where
  labels : List String
  widths : List (Num α)
  errors : List (Num α)

/-- `horizontal_bar_plot(ax, Si, opts, sortby)`: `plotting/morris.py` 32-66 (`min` of no positions: `ValueError`). -/
def horizontalBarPlot (argsort : List (Num α) → List Nat) (r : MorrisResult α) (sortby : SortBy) : Py (BarH α) := do
  let names ← sortSi argsort r.names (r.metric sortby)
  let mu ← sortSi argsort r.muStar (r.metric sortby)
  let conf ← sortSi argsort r.muStarConf (r.metric sortby)
  if mu = [] then .error .valueError
  else return { labels := names, widths := mu, errors := conf }

/-- `fig.add_subplot(k)` with one number: three digits rows, columns, position, counted from one (matplotlib). -/
def subplotPos (k : Nat) : Py (Nat × Nat × Nat) :=
  if 100 ≤ k ∧ k < 1000 ∧ 1 ≤ k / 10 % 10 ∧ 1 ≤ k % 10 ∧ k % 10 ≤ k / 100 * (k / 10 % 10) then
    .ok (k / 100, k / 10 % 10, k % 10)
  else .error .valueError

/-- A histogram: where it is, its title, the values, the number of bins. -/
structure Histogram (α : Type) where
  pos : Nat × Nat × Nat
  title : String
  values : List α
  bins : Nat

/-- One pass of the loop: `plotting/morris.py` 131-145. -/
def histogramOf (names : List String) (X : Mat α) (framing bins v : Nat) : Py (Histogram α) := do
  let p ← subplotPos (framing + v)
  let col ← X.mapM fun row => pyGet row v
  let t ← pyGet names v
  return { pos := p, title := t, values := col, bins := bins }

/-- `sample_histograms(fig, input_sample, problem)`: `plotting/morris.py` 116-162. -/
def sampleHistograms [DecidableEq α] (pb : Problem α) (X : Mat α) : Py (List (Histogram α)) := do
  let second ← X.mapM fun row => pyGet row 1
  (List.range pb.numVars).mapM (histogramOf pb.names X (101 + pb.numVars * 10) second.dedup.length)

end SALib
