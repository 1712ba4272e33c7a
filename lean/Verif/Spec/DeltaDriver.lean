import Verif.Model.DeltaDriver
import Verif.Props.DeltaAnalyze

/-! # Specification: what the delta analysis reports for a parameter -/

namespace SALib.Spec

variable {α : Type} [Field α] [LinearOrder α]

/-- The entry of parameter `i` under `key` (`none`: no such key or no such entry; `some none`: nan). -/
def entryAt (r : DeltaResult α) (key : String) (i : Nat) : Option (Num α) :=
  (r.entries.lookup key).bind fun l => l[i]?

/-- `col` is column `i` of the samples. -/
def IsColumn (X : Mat α) (i : Nat) (col : List α) : Prop := List.Forall₂ (fun row x => row[i]? = some x) X col

/-- `v` is twice the estimate from the rows `ind` less the mean of the estimates from the resamples `rs`, and `c` is `z`
standard deviations of the latter; the mean is nan without resamples. -/
def DeltaOf (kde : List α → List α → Option (List α)) (sqrt : α → α) (z : α) (Y grid X m : List α) (ind : List Nat)
    (rs : List (List Nat)) (v c : Num α) : Prop :=
  ∃ dHat d, calcDelta kde (takeIdx Y ind) grid (takeIdx X ind) m = .ok dHat ∧
    List.Forall₂ (fun i x => calcDelta kde (takeIdx Y i) grid (takeIdx X i) m = .ok x) rs d ∧
    v = some (2 * dHat - Spec.mean d) ∧ c = (npStd1 sqrt d).map (fun s => z * s)

/-- All rows can be drawn, and `v`, `c` come from them. -/
def ModeOk (draw : Nat → Py (List Nat)) (num : Nat) (value : List Nat → List (List Nat) → Num α → Num α → Prop)
    (v c : Num α) : Prop :=
  ∃ ind rs, draw 0 = .ok ind ∧ List.Forall₂ (fun t r => draw (t + 1) = .ok r) (List.range num) rs ∧ value ind rs v c

/-- Some rows cannot be drawn. -/
def ModeFails (draw : Nat → Py (List Nat)) (num : Nat) : Prop := ∃ t ≤ num, ∃ e, draw t = .error e

/-- Fewer than `k` values on one side of zero. -/
def FewOnASide (col : List α) (k : Nat) : Prop :=
  (col.filter fun x => decide (x ≤ 0)).length < k ∨ (col.filter fun x => decide (0 < x)).length < k

/-- What is reported for a parameter and whether its note is that of an exception.  `draw mode t` are the rows of the
estimate (`t = 0`) and of the resamples, `s1` and `s1c` the first-order index and its half width. -/
inductive DeltaOutcome (draw : DeltaMode → Nat → Py (List Nat)) (num : Nat)
    (value : List Nat → List (List Nat) → Num α → Num α → Prop) (few : Prop) (s1 s1c : Num α) :
    DeltaRow α → Bool → Prop
  /-- No balanced rows: nothing is reported. -/
  | unbalanced (h : ModeFails (draw .balanced) num) :
      DeltaOutcome draw num value few s1 s1c ⟨none, none, none, none, none, none, none, none⟩ true
  /-- No rows for the mode step: nothing is reported from there on. -/
  | unstepped (b bc w wc : Num α) (hb : ModeOk (draw .balanced) num value b bc)
      (hw : ModeOk (draw .raw) num value w wc) (hf : ¬few) (h : ModeFails (draw .step) num) :
      DeltaOutcome draw num value few s1 s1c ⟨b, bc, w, wc, none, none, none, none⟩ true
  /-- Everything is reported; the mode step is nan with few values on a side of zero. -/
  | done (b bc w wc u uc : Num α) (hb : ModeOk (draw .balanced) num value b bc)
      (hw : ModeOk (draw .raw) num value w wc)
      (hu : few ∧ u = none ∧ uc = none ∨ ¬few ∧ ModeOk (draw .step) num value u uc) :
      DeltaOutcome draw num value few s1 s1c ⟨b, bc, w, wc, u, uc, s1, s1c⟩ false

/-- The six entries of the delta indices of parameter `i` are those of `row`. -/
structure ReportsDelta (r : DeltaResult α) (i : Nat) (row : DeltaRow α) : Prop where
  balanced : entryAt r "delta_balanced" i = some row.balanced
  balancedConf : entryAt r "delta_balanced_conf" i = some row.balancedConf
  raw : entryAt r "delta_raw" i = some row.raw
  rawConf : entryAt r "delta_raw_conf" i = some row.rawConf
  step : entryAt r "delta_step" i = some row.step
  stepConf : entryAt r "delta_step_conf" i = some row.stepConf

/-- The two entries of the first-order index of parameter `i` are those of `row`. -/
structure ReportsFirst (r : DeltaResult α) (i : Nat) (row : DeltaRow α) : Prop where
  s1 : entryAt r "S1" i = some row.s1
  s1Conf : entryAt r "S1_conf" i = some row.s1Conf

end SALib.Spec
