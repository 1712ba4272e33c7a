import Verif.Model.Basic

/-! # Scaling of samples (`src/SALib/util/__init__.py`, `src/SALib/util/util_funcs.py`) -/

namespace SALib

variable {α : Type} [Field α] [LinearOrder α]

/-- First two entries of one bounds row (`b[:, 0]`, `b[:, 1]`); `IndexError` when there are fewer.
(`util_funcs.py` 144-147).  Simplified: a ragged table is treated row by row. -/
def rowPair (b : List α) : Py (α × α) :=
  match b with
  | lo :: hi :: _ => .ok (lo, hi)
  | _ => .error .indexError

/-- `_check_bounds(bounds)`: `util_funcs.py` 132-152.
`np.array([])[:, 0]` is an `IndexError`. -/
def checkBounds (bounds : List (List α)) : Py (List (α × α)) := do
  if bounds.isEmpty then .error .indexError
  let ps ← bounds.mapM rowPair
  if ps.any (fun p => decide (p.2 ≤ p.1)) then .error .valueError
  return ps

/-- NumPy broadcasting of a bounds vector against rows of `D` columns, with the row array as output
(so the output shape cannot grow): same length, or a single entry repeated; otherwise
`ValueError`. -/
def broadcastBounds (D : Nat) (ps : List (α × α)) : Py (List (α × α)) :=
  if ps.length = D then .ok ps
  else match ps with
    | [p] => .ok (List.replicate D p)
    | _ => .error .valueError

/-- `_scale_samples(params, bounds)`: `__init__.py` 25-53.  `D` is `params.shape[1]`.  The in-place
update is modelled by returning the new matrix. -/
def scaleUniform (D : Nat) (params : Mat α) (bounds : List (List α)) : Py (Mat α) := do
  let ps ← checkBounds bounds
  if ps.any (fun p => decide (p.2 ≤ p.1)) then .error .valueError
  let ps ← broadcastBounds D ps
  return params.map fun row => List.zipWith (fun x p => x * (p.2 - p.1) + p.1) row ps

/-- `_unscale_samples(params, bounds)`: `__init__.py` 94-123. -/
def unscaleUniform (D : Nat) (params : Mat α) (bounds : List (List α)) : Py (Mat α) := do
  if bounds.isEmpty then .error .indexError
  let ps ← bounds.mapM rowPair
  if ps.any (fun p => decide (p.2 ≤ p.1)) then .error .valueError
  let ps ← broadcastBounds D ps
  return params.map fun row => List.zipWith (fun x p => (x - p.1) / (p.2 - p.1)) row ps

/-- The SciPy quantile functions and `np.exp` called by `_nonuniform_scale_samples`; outside /repo,
so they are parameters here.  `none` is nan/inf. -/
structure Ppf (α : Type) where
  /-- `scipy.stats.triang.ppf(q, c, scale, loc)` -/
  triang : (c scale loc q : α) → Num α
  /-- `scipy.stats.loguniform.ppf(q, a, b)` -/
  loguniform : (a b q : α) → Num α
  /-- `scipy.stats.norm.ppf(q, loc, scale)` -/
  norm : (loc scale q : α) → Num α
  /-- `scipy.stats.truncnorm.ppf(q, a, b, loc, scale)` -/
  truncnorm : (a b loc scale q : α) → Num α
  /-- `scipy.stats.weibull_min.ppf(q, c, scale, loc)` -/
  weibull : (c scale loc q : α) → Num α
  /-- `np.exp` -/
  exp : α → α

/-- Body of the loop of `_nonuniform_scale_samples` for one column (`__init__.py` 159-287): the
elementwise map that is assigned to `conv_params[:, i]`, or the exception.  `b` is `bounds[i]`, `d`
is `dists[i]`.  The deprecation warning (169-178) is not modelled. -/
def columnMap (F : Ppf α) (d : String) (b : List α) : Py (α → Num α) := do
  let (b1, b2) ← rowPair b                                             -- 161-162
  if d = "triang" then
    let (loc, b1, b2) ← (match b with                                  -- 165-187
      | [s, e, c] => .ok (s, e, c)
      | [e, c] => .ok (0, e, c)
      | _ => .error .valueError : Py (α × α × α))
    if b1 < 0 ∨ b2 < 0 ∨ 1 ≤ b2 ∨ b1 < loc then .error .valueError     -- 190
    else return F.triang b2 (b1 - loc) loc                             -- 197
  else if d = "unif" then
    if b2 ≤ b1 then .error .valueError                                 -- 202
    else return fun x => some (x * (b2 - b1) + b1)                     -- 208
  else if d = "logunif" then
    return F.loguniform b1 b2                                          -- 211
  else if d = "norm" then
    if b2 ≤ 0 then .error .valueError                                  -- 214
    else return F.norm b1 b2                                           -- 217
  else if d = "truncnorm" then
    match b with                                                       -- 222-223
    | _ :: _ :: b3 :: b4 :: _ =>
      if b4 ≤ 0 then .error .valueError                                -- 224
      else if b2 ≤ b1 then .error .valueError                          -- 229
      else return F.truncnorm ((b1 - b3) / b4) ((b2 - b3) / b4) b3 b4  -- 235
    | _ => .error .indexError
  else if d = "lognorm" then
    if b2 ≤ 0 then .error .valueError                                  -- 243
    else return fun x => (F.norm b1 b2 x).map F.exp                    -- 246
  else if d = "weibull" then
    let (b1, b2, loc) ← (match b with                                  -- 254-266
      | [k, l, loc] => .ok (k, l, loc)
      | [k, l] => .ok (k, l, 0)
      | _ => .error .valueError : Py (α × α × α))
    if b1 ≤ 0 ∨ b2 ≤ 0 then .error .valueError                         -- 268
    else return F.weibull b1 b2 loc                                    -- 273
  else .error .valueError                                              -- 287

/-- `b[i]` on a list, `IndexError` when out of range. -/
def pyGet {β : Type} (l : List β) (i : Nat) : Py β :=
  match l[i]? with
  | some v => .ok v
  | none => .error .indexError

/-- `_nonuniform_scale_samples(params, bounds, dists)`: `__init__.py` 126-289.  Column assignments
`conv_params[:, i] = f_i(params[:, i])` are collected as the list of `f_i` and applied entrywise. -/
def nonuniformScale (F : Ppf α) (D : Nat) (params : Mat α) (bounds : List (List α))
    (dists : List String) : Py (Mat (Num α)) := do
  let fs ← (List.range D).mapM fun i => do
    let b ← pyGet bounds i
    let d ← pyGet dists i
    columnMap F d b
  return params.map fun row => List.zipWith (fun f x => f x) fs row

/-- `scale_samples(params, problem)`: `__init__.py` 56-90.  Returns the scaled matrix and the updated
problem (`"sample_scaled"` set). -/
def scaleSamples (F : Ppf α) (D : Nat) (params : Mat α) (pb : Problem α) :
    Py (Mat (Num α) × Problem α) := do
  let out ← match pb.dists with
    | none => (do                                                       -- 77-78
      let m ← scaleUniform D params pb.bounds
      pure (m.map (·.map some)) : Py (Mat (Num α)))
    | some ds =>                                                        -- 80-86
      if D ≠ ds.length then .error .valueError
      else nonuniformScale F D params pb.bounds ds
  return (out, { pb with sampleScaled := true })                        -- 88

end SALib
