import Verif.Model.Pawn

/-! # The statistic of the two-sample Cramér–von Mises test

`rsa.py` 7, 166, 173: `cramervonmises_2samp(x, y).statistic` (SciPy, outside /repo). -/

namespace SALib

variable {α : Type} [Field α] [LinearOrder α]

/-- `scipy.stats.rankdata(z, method="average")`: rank of the value `v` in `z`, equal values sharing the mean of their
ranks. -/
def avgRank (z : List α) (v : α) : α :=
  ((z.filter fun w => decide (w < v)).length : α) + (((z.filter fun w => decide (w = v)).length : α) + 1) / 2

/-- `np.sum((r - np.arange(1, n + 1))**2)` where `r` are the ranks in `z` of the sorted values `l`. -/
def rankGap (z l : List α) : α := (l.zipIdx.map fun p => (avgRank z p.1 - ((p.2 : α) + 1)) ^ 2).sum

/-- `cramervonmises_2samp(a, b).statistic`: both samples are sorted, ranked together, and
`u = nx Σ (rx - i)² + ny Σ (ry - j)²`, `t = u / (k N) - (4 k - 1) / (6 N)` with `k = nx ny`, `N = nx + ny`.  SciPy
refuses a side with at most one observation. -/
def cvmStat (a b : List α) : α :=
  let z := npSort a ++ npSort b
  let nx := (a.length : α)
  let ny := (b.length : α)
  let u := nx * rankGap z (npSort a) + ny * rankGap z (npSort b)
  let k := nx * ny
  u / (k * (nx + ny)) - (4 * k - 1) / (6 * (nx + ny))

end SALib
