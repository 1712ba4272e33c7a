import Verif.Model.Stats
import Verif.Model.Groups

/-! # Sobol analysis (`src/SALib/analyze/sobol.py`) -/

namespace SALib

variable {α : Type} [Field α] [LinearOrder α]

/-- `first_order(A, AB, B)` on vectors: `sobol.py` 209-219.  (The warning is not modelled.) -/
def firstOrder (A AB B : List α) : Num α :=
  let y := A ++ B
  if ptpZero y then some 0
  else do
    let m ← npMean (List.zipWith (fun b d => b * d) B (List.zipWith (fun ab a => ab - a) AB A))
    let v ← npVar y
    npDiv m v

/-- `total_order(A, AB, B)` on vectors: `sobol.py` 222-232. -/
def totalOrder (A AB B : List α) : Num α :=
  let y := A ++ B
  if ptpZero y then some 0
  else do
    let m ← npMean ((List.zipWith (fun a ab => a - ab) A AB).map (· ^ 2))
    let v ← npVar y
    npDiv (1 / 2 * m) v

/-- `second_order(A, ABj, ABk, BAj, B)` on vectors: `sobol.py` 235-246. -/
def secondOrder (A ABj ABk BAj B : List α) : Num α :=
  let y := A ++ B
  if ptpZero y then some 0
  else do
    let m ← npMean (List.zipWith (fun p q => p - q) (List.zipWith (· * ·) BAj ABk)
      (List.zipWith (· * ·) A B))
    let v ← npVar y
    let Vjk ← npDiv m v
    let Sj ← firstOrder A ABj B
    let Sk ← firstOrder A ABk B
    return Vjk - Sj - Sk

/-- Result of an estimator on resampled (2-d) input: the scalar `np.float64(0.0)` of the
constant-output branch, or one value per resample. -/
inductive Est (α : Type)
  | scalarZero
  | vec (vs : List (Num α))
  deriving DecidableEq

/-- `est.std(ddof=1)`: nan for the scalar. -/
def Est.std1 (sqrt : α → α) : Est α → Num α
  | .scalarZero => none
  | .vec vs => npStd1N sqrt vs

/-- Broadcast of an estimate into a column of `R` entries (`S["S1_conf_all"][:, j] = ...`). -/
def Est.column (R : Nat) : Est α → List (Num α)
  | .scalarZero => List.replicate R (some 0)
  | .vec vs => vs

/-- `X[r]` for a vector `X`; `r` is given by its columns, one list of `N` indices per resample. -/
def resample (X : List α) (r : List (List Nat)) : List (List α) :=
  r.map fun col => col.filterMap (X[·]?)

/-- `np.ptp(np.r_[A[r], B[r]]) == 0` over the whole 2-d array. -/
def ptpZero2 (A B : List (List α)) : Bool := ptpZero (A.flatten ++ B.flatten)

/-- `first_order` on 2-d input (columns): `sobol.py` 214-219 with `axis=0`. -/
def firstOrderR (A AB B : List (List α)) : Est α :=
  if ptpZero2 A B then .scalarZero
  else .vec (List.zipWith (fun a (p : List α × List α) => do
    let m ← npMean (List.zipWith (fun b d => b * d) p.2 (List.zipWith (fun ab a => ab - a) p.1 a))
    let v ← npVar (a ++ p.2)
    npDiv m v) A (AB.zip B))

/-- `total_order` on 2-d input (columns): `sobol.py` 227-232 with `axis=0`. -/
def totalOrderR (A AB B : List (List α)) : Est α :=
  if ptpZero2 A B then .scalarZero
  else .vec (List.zipWith (fun a (p : List α × List α) => do
    let m ← npMean ((List.zipWith (fun a ab => a - ab) a p.1).map (· ^ 2))
    let v ← npVar (a ++ p.2)
    npDiv (1 / 2 * m) v) A (AB.zip B))

/-- Elementwise difference of estimates (the constant branch was already excluded by the caller, so
both are vectors; a scalar 0 would broadcast). -/
def Est.sub : Est α → Est α → Est α
  | .vec a, .vec b => .vec (List.zipWith (fun x y => do let x ← x; let y ← y; return x - y) a b)
  | .vec a, .scalarZero => .vec a
  | .scalarZero, .vec b => .vec (b.map fun y => do let y ← y; return 0 - y)
  | .scalarZero, .scalarZero => .scalarZero

/-- `second_order` on 2-d input (columns): `sobol.py` 237-246 with `axis=0`. -/
def secondOrderR (A ABj ABk BAj B : List (List α)) : Est α :=
  if ptpZero2 A B then .scalarZero
  else
    let V : Est α := .vec (List.zipWith (fun (p q : List α × List α) => do
      let m ← npMean (List.zipWith (fun s t => s - t) (List.zipWith (· * ·) p.1 p.2)
        (List.zipWith (· * ·) q.1 q.2))
      let v ← npVar (q.1 ++ q.2)
      npDiv m v) (BAj.zip ABk) (A.zip B))
    (V.sub (firstOrderR A ABj B)).sub (firstOrderR A ABk B)

/-- The four arrays cut out of the outputs; `AB` and `BA` are given by their columns. -/
structure Separated (α : Type) where
  A : List α
  B : List α
  AB : List (List α)
  BA : List (List α)
  deriving DecidableEq

/-- `arr[:, j] = s` for a column of length `N`: a length mismatch is a `ValueError`.  Simplified: the
broadcast of a one-element slice is not modelled (it needs `N = 1`, where it is the identity). -/
def assignColumn {β : Type} (N : Nat) (s : List β) : Py (List β) :=
  if s.length = N then .ok s else .error .valueError

/-- `separate_output_values(Y, D, N, calc_second_order)`: `sobol.py` 267-279.  `BA` is `[]` for `None`. -/
def separateOutputValues {β : Type} (Y : List β) (D N : Nat) (second : Bool) :
    Py (Separated β) := do
  let step := if second then 2 * D + 2 else D + 2
  let A := strided Y 0 step
  let B := strided Y (step - 1) step
  let AB ← (List.range D).mapM fun j => assignColumn N (strided Y (j + 1) step)
  let BA ← if second then
      (List.range D).mapM fun j => assignColumn N (strided Y (j + 1 + D) step)
    else pure []
  return { A := A, B := B, AB := AB, BA := BA }

/-- `Y = (Y - Y.mean()) / Y.std()`: `sobol.py` 141.  `none`: every entry becomes nan (0/0). -/
def normalise (sqrt : α → α) (Y : List α) : Num (List α) := do
  let m ← npMean Y
  let v ← npVar Y
  if sqrt v = 0 then none else some (Y.map fun y => (y - m) / sqrt v)

/-- The result dictionary of the analysis. -/
structure SobolResult (α : Type) where
  S1 : List (Num α)
  S1conf : List (Num α)
  ST : List (Num α)
  STconf : List (Num α)
  /-- columns of `S1_conf_all` (`keep_resamples`) -/
  S1all : Option (List (List (Num α)))
  STall : Option (List (List (Num α)))
  S2 : Option (Mat (Num α))
  S2conf : Option (Mat (Num α))
  deriving DecidableEq

/-- `create_Si_dict`: `sobol.py` 249-264. -/
def createSiDict (D R : Nat) (keep second : Bool) : SobolResult α where
  S1 := List.replicate D (some 0)
  S1conf := List.replicate D (some 0)
  ST := List.replicate D (some 0)
  STconf := List.replicate D (some 0)
  S1all := if keep then some (List.replicate D (List.replicate R (some 0))) else none
  STall := if keep then some (List.replicate D (List.replicate R (some 0))) else none
  S2 := if second then some (List.replicate D (List.replicate D none)) else none
  S2conf := if second then some (List.replicate D (List.replicate D none)) else none

/-- `Z * v` with nan propagation. -/
def scaleNum (Z : α) (v : Num α) : Num α := v.map (Z * ·)

/-- The serial branch: `sobol.py` 147-182.  Every cell is assigned exactly once, at the index of the
loop variable(s), so the loops are written as comprehensions; cells of `S2` outside `j < k` keep the
initial nan. -/
def serialIndices (sqrt : α → α) (Z : α) (s : Separated α) (r : List (List Nat)) (D : Nat)
    (keep second : Bool) : SobolResult α :=
  let Ar := resample s.A r
  let Br := resample s.B r
  let AB := fun j => s.AB.getD j []
  let BA := fun j => s.BA.getD j []
  let ABr := fun j => resample (AB j) r
  let BAr := fun j => resample (BA j) r
  let conf := fun (e : Est α) => if ptpZero2 Ar Br then some 0 else scaleNum Z (e.std1 sqrt)
  { S1 := (List.range D).map fun j => firstOrder s.A (AB j) s.B
    S1conf := (List.range D).map fun j => conf (firstOrderR Ar (ABr j) Br)
    ST := (List.range D).map fun j => totalOrder s.A (AB j) s.B
    STconf := (List.range D).map fun j => conf (totalOrderR Ar (ABr j) Br)
    S1all := if keep then
        some ((List.range D).map fun j => (firstOrderR Ar (ABr j) Br).column r.length)
      else none
    STall := if keep then
        some ((List.range D).map fun j => (totalOrderR Ar (ABr j) Br).column r.length)
      else none
    S2 := if second then
        some ((List.range D).map fun j => (List.range D).map fun k =>
          if j < k then secondOrder s.A (AB j) (AB k) (BA j) s.B else none)
      else none
    S2conf := if second then
        some ((List.range D).map fun j => (List.range D).map fun k =>
          if j < k then
            scaleNum Z ((secondOrderR Ar (ABr j) (ABr k) (BAr j) Br).std1 sqrt)
          else none)
      else none }

/-- Keys of parallel tasks. -/
inductive SKey
  | s1 | s1conf | st | stconf | s2 | s2conf
  deriving DecidableEq

/-- A task `[d, j, k]`; `k = none` is Python's `None`. -/
structure Task where
  key : SKey
  j : Nat
  k : Option Nat
  deriving DecidableEq

/-- One evaluation in `sobol_parallel`: `sobol.py` 284-297.  (`AB[:, None]` cannot occur: second-order
tasks always carry `k`.) -/
def taskValue (sqrt : α → α) (Z : α) (s : Separated α) (r : List (List Nat)) (t : Task) : Num α :=
  let Ar := resample s.A r
  let Br := resample s.B r
  let AB := fun j => s.AB.getD j []
  let BA := fun j => s.BA.getD j []
  let ABr := fun j => resample (AB j) r
  let BAr := fun j => resample (BA j) r
  let k := t.k.getD 0
  match t.key with
  | .s1 => firstOrder s.A (AB t.j) s.B
  | .s1conf => scaleNum Z ((firstOrderR Ar (ABr t.j) Br).std1 sqrt)
  | .st => totalOrder s.A (AB t.j) s.B
  | .stconf => scaleNum Z ((totalOrderR Ar (ABr t.j) Br).std1 sqrt)
  | .s2 => secondOrder s.A (AB t.j) (AB k) (BA t.j) s.B
  | .s2conf => scaleNum Z ((secondOrderR Ar (ABr t.j) (ABr k) (BAr t.j) Br).std1 sqrt)

/-- `sobol_parallel(Z, A, AB, BA, B, r, tasks)`: `sobol.py` 282-299. -/
def sobolParallel (sqrt : α → α) (Z : α) (s : Separated α) (r : List (List Nat))
    (tasks : List Task) : List (Task × Num α) :=
  tasks.map fun t => (t, taskValue sqrt Z s r t)

/-- `itertools.zip_longest(a, b)` flattened by `sum(..., ())` with the `None` fill values dropped
(`sobol.py` 333-339). -/
def interleave {β : Type} : List β → List β → List β
  | [], bs => bs
  | as, [] => as
  | a :: as, b :: bs => a :: b :: interleave as bs

/-- `np.array_split(l, n)`: the first `len % n` parts have one entry more. -/
def arraySplit {β : Type} (l : List β) (n : Nat) : List (List β) :=
  let q := l.length / n
  let e := l.length % n
  (List.range n).map fun i => (l.drop (i * q + min i e)).take (q + if i < e then 1 else 0)

/-- `tasks_first_order`: `sobol.py` 308-310. -/
def tasksFirst (D : Nat) : List Task :=
  (List.range D).flatMap fun j =>
    [SKey.s1, .s1conf, .st, .stconf].map fun d => { key := d, j := j, k := none }

/-- `tasks_second_order`: `sobol.py` 315-320. -/
def tasksSecond (D : Nat) : List Task :=
  (List.range D).flatMap fun j => (List.range' (j + 1) (D - (j + 1))).flatMap fun k =>
    [SKey.s2, .s2conf].map fun d => { key := d, j := j, k := some k }

/-- `create_task_list(D, calc_second_order, n_processors)`: `sobol.py` 302-343.  `n_processors=None`
becomes `min(cpu_count(), number of tasks)`; `np.array_split(_, 0)` is a `ValueError`. -/
def createTaskList (D : Nat) (second : Bool) (nproc : Option Nat) (cpuCount : Nat) :
    Py (List (List Task)) :=
  let first := tasksFirst D
  let secondT := if second then tasksSecond D else []
  let n := nproc.getD (min cpuCount (first.length + secondT.length))
  if n = 0 then .error .valueError
  else if !second then .ok (arraySplit first n)
  else .ok (arraySplit (interleave first.reverse secondT) n)

/-- `S[key][j] = v` / `S[key][j, k] = v`: `sobol.py` 356-360. -/
def storeResult (S : SobolResult α) (t : Task × Num α) : SobolResult α :=
  let set2 := fun (M : Option (Mat (Num α))) (k : Nat) =>
    M.map fun M => M.set t.1.j ((M.getD t.1.j []).set k t.2)
  match t.1.k, t.1.key with
  | none, .s1 => { S with S1 := S.S1.set t.1.j t.2 }
  | none, .s1conf => { S with S1conf := S.S1conf.set t.1.j t.2 }
  | none, .st => { S with ST := S.ST.set t.1.j t.2 }
  | none, .stconf => { S with STconf := S.STconf.set t.1.j t.2 }
  | some k, .s2 => { S with S2 := set2 S.S2 k }
  | some k, .s2conf => { S with S2conf := set2 S.S2conf k }
  | _, _ => S

/-- `Si_list_to_dict`: `sobol.py` 346-362. -/
def siListToDict (lists : List (List (Task × Num α))) (D R : Nat) (keep second : Bool) :
    SobolResult α :=
  lists.flatten.foldl storeResult (createSiDict D R keep second)

/-- Result when normalisation gave nan everywhere: every estimator returns nan
(`np.ptp(nan) == 0` is false), every confidence value is nan (`nan != 0.0`). -/
def nanResult (D R : Nat) (keep second : Bool) : SobolResult α where
  S1 := List.replicate D none
  S1conf := List.replicate D none
  ST := List.replicate D none
  STconf := List.replicate D none
  S1all := if keep then some (List.replicate D (List.replicate R none)) else none
  STall := if keep then some (List.replicate D (List.replicate R none)) else none
  S2 := if second then some (List.replicate D (List.replicate D none)) else none
  S2conf := if second then some (List.replicate D (List.replicate D none)) else none

/-- How the indices are computed: serially, or in parallel with a processor count. -/
inductive Mode
  | serial
  | parallel (nproc : Option Nat) (cpuCount : Nat)
  deriving DecidableEq

/-- Size checks of `analyze`: `sobol.py` 121-135; returns `(D, N)`. -/
def sobolCheck (pb : Problem α) (size : Nat) (second : Bool) (conf : α) : Py (Nat × Nat) :=
  let D := (extractGroupNames pb).2
  if ¬ (0 < conf ∧ conf < 1) then .error .runtimeError
  else if second ∧ size % (2 * D + 2) = 0 then .ok (D, size / (2 * D + 2))
  else if ¬ second ∧ size % (D + 2) = 0 then .ok (D, size / (D + 2))
  else .error .runtimeError

/-- `sobol.analyze`: `sobol.py` 113-206.  `normPpf` is `norm.ppf`; `r` holds the resample draws (one list
of `N` indices below `N` per resample; how they are drawn is modelled in `Model/Seeds.lean`).  The two
`RuntimeError` checks are made in one step (either order gives the same error).  Empty `Y` and
`num_resamples = 0` end in a `ValueError` (`np.ptp` of an empty array). -/
def sobolAnalyze (sqrt normPpf : α → α) (pb : Problem α) (Y : List α) (second : Bool) (conf : α)
    (r : List (List Nat)) (keep : Bool) (mode : Mode) : Py (SobolResult α) := do
  let (D, N) ← sobolCheck pb Y.length second conf
  if N = 0 ∨ r.length = 0 then .error .valueError
  let Z := normPpf (1 / 2 + conf / 2)
  match normalise sqrt Y with
  | none =>
    match mode with
    | .serial => return nanResult D r.length keep second
    | .parallel np cpu => do
      let _ ← createTaskList D second np cpu
      let z := createSiDict D r.length keep second
      let n := nanResult D r.length keep second
      return { n with S1all := z.S1all, STall := z.STall }
  | some Y => do
    let s ← separateOutputValues Y D N second
    match mode with
    | .serial => return serialIndices sqrt Z s r D keep second
    | .parallel np cpu => do
      let tasks ← createTaskList D second np cpu
      return siListToDict (tasks.map (sobolParallel sqrt Z s r)) D r.length keep second

section
variable {α : Type}

/-- `list(combinations(names, 2))`. -/
def combinations2 : List String → List (String × String)
  | [] => []
  | a :: l => l.map (fun b => (a, b)) ++ combinations2 l

/-- `names.index(n)`: `ValueError` if absent. -/
def pyIndex (names : List String) (n : String) : Py Nat :=
  if names.idxOf n < names.length then .ok (names.idxOf n) else .error .valueError

/-- The index of the table: `sobol.py` 404-407.  For at most two names it is the single row `names`, of
which entries 0 and 1 are taken below (`IndexError` for a single name). -/
def tableIndex : List String → Py (List (String × String))
  | [] => .error .indexError
  | [_] => .error .indexError
  | [a, b] => .ok [(a, b)]
  | names => .ok (combinations2 names)

/-- `S_dict["S2"][i, j]`. -/
def matCell (M : Mat (Num α)) (i j : Nat) : Py (Num α) :=
  match (M[i]?).bind (·[j]?) with
  | some v => .ok v
  | none => .error .indexError

/-- The second-order part of `Si_to_pandas_dict`: `sobol.py` 401-414. -/
def secondOrderTable (names : List String) (M : Mat (Num α)) :
    Py (List (String × String) × List (Num α)) := do
  let idx ← tableIndex names
  let vals ← idx.mapM fun p => do
    let i ← pyIndex names p.1
    let j ← pyIndex names p.2
    matCell M i j
  return (idx, vals)

end

end SALib
