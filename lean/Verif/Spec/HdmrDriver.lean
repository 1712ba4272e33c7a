import Verif.Model.HdmrDriver
import Verif.Lemmas.Cov
import Mathlib.Algebra.BigOperators.Group.Finset.Basic
import Mathlib.Algebra.Order.Field.Basic

/-! # What an HDMR result and its printed report are to say -/

namespace SALib.Spec

open Finset

variable {α : Type} [Field α] [LinearOrder α]

/-- The fit to the rows `idx` of the sample. -/
def fitOn (reg : Mat α → Mat α) (o maxiter : Nat) (B1 B2 B3 : List (Mat α)) (Y : List α) (idx : List Nat) : HdmrFit α :=
  hdmrFit reg o maxiter (B1.map (pickRows idx)) (B2.map (pickRows idx)) (B3.map (pickRows idx)) (takeIdx Y idx) idx.length

/-- The indices of the terms with values `F` on a sample with output `y`: covariance of the term with the output, variance
of the term, covariance of the term with the other terms, each as a share of the variance of the output. -/
def IndicesOn (n : Nat) (y : List α) (F : List (List α)) (S Sa Sb : Nat → α) : Prop :=
  ∀ j < n, S j = devSum y.length (fun i => (F.getD j []).getD i 0) (fun i => y.getD i 0) / ((y.length : α) - 1) /
      (devSum y.length (fun i => y.getD i 0) (fun i => y.getD i 0) / (y.length : α)) ∧
    Sa j = devSum y.length (fun i => (F.getD j []).getD i 0) (fun i => (F.getD j []).getD i 0) / (y.length : α) /
      (devSum y.length (fun i => y.getD i 0) (fun i => y.getD i 0) / (y.length : α)) ∧
    Sb j = devSum y.length (fun i => (F.getD j []).getD i 0)
        (fun i => ∑ l ∈ (range n).erase j, (F.getD l []).getD i 0) / ((y.length : α) - 1) /
      (devSum y.length (fun i => y.getD i 0) (fun i => y.getD i 0) / (y.length : α))

/-- Average over the fits. -/
def meanOver (K : Nat) (x : Nat → α) : α := (∑ k ∈ range K, x k) / (K : α)

/-- Mean square deviation over the fits. -/
def varOver (K : Nat) (x : Nat → α) : α := (∑ k ∈ range K, (x k - meanOver K x) ^ 2) / (K : α)

/-- The terms among the first `n` in which input `i` takes part. -/
def termsWith (terms : List (List Nat)) (n i : Nat) : Finset Nat := (range n).filter fun j => i ∈ terms.getD j []

/-- Column `v`, `w` of a result report the averages of `x j k` over the fits `k`, and `mult` standard deviations. -/
def AverageColumn (sqrt : α → α) (mult : α) (K n : Nat) (x : Nat → Nat → α) (v w : List (Num α)) : Prop :=
  v.length = n ∧ w.length = n ∧ ∀ j < n, v[j]? = some (some (meanOver K (x j))) ∧
    w[j]? = some (some (mult * sqrt (varOver K (x j))))

/-- The indices `S j k`, `Sa j k`, `Sb j k` of term `j` in fit `k` are reported as averages with `mult` standard deviations;
the total index of an input is the sum of those of the terms it takes part in, the total index of anything else is nan. -/
structure HdmrReports (sqrt : α → α) (mult : α) (K n d : Nat) (terms : List (List Nat)) (S Sa Sb : Nat → Nat → α)
    (r : HdmrResult α) : Prop where
  all : AverageColumn sqrt mult K n S r.S r.SConf
  partA : AverageColumn sqrt mult K n Sa r.Sa r.SaConf
  partB : AverageColumn sqrt mult K n Sb r.Sb r.SbConf
  totals : r.ST.length = n ∧ r.STconf.length = n
  total : ∀ i < d, r.ST[i]? = some (some (∑ j ∈ termsWith terms n i, meanOver K (S j))) ∧
    r.STconf[i]? = some (some (mult * sqrt (varOver K fun k => ∑ j ∈ termsWith terms n i, S j k)))
  noTotal : ∀ j < n, d ≤ j → r.ST[j]? = some none ∧ r.STconf[j]? = some none

/-- The sums that go with it: the reported indices added up.  The half widths are zero whatever the fits. -/
def HdmrSumsOf (K n : Nat) (S Sa Sb : Nat → Nat → α) : HdmrSums α :=
  { Sa := some (∑ j ∈ range n, meanOver K (Sa j)), SaConf := some 0
    Sb := some (∑ j ∈ range n, meanOver K (Sb j)), SbConf := some 0
    S := some (∑ j ∈ range n, meanOver K (S j)), SConf := some 0 }

/-- Line `j` of a printed report repeats the entries of the result for term `j`. -/
def LineOf (r : HdmrResult α) (j : Nat) (l : HdmrLine α) : Prop :=
  r.term[j]? = some l.term ∧ r.Sa[j]? = some l.Sa.1 ∧ r.SaConf[j]? = some l.Sa.2 ∧ r.Sb[j]? = some l.Sb.1 ∧
    r.SbConf[j]? = some l.Sb.2 ∧ r.S[j]? = some l.S.1 ∧ r.SConf[j]? = some l.S.2 ∧
    ∀ t, l.total = some t → r.ST[j]? = some t.1 ∧ r.STconf[j]? = some t.2

end SALib.Spec
