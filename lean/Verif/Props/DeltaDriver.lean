import Verif.Spec.DeltaDriver
import Verif.Props.DeltaResample
import Verif.Props.Tables
import Verif.Props.Plotting

/-! # Delta method: the results of the whole analysis (C103) -/

set_option linter.unusedSectionVars false

namespace SALib

variable {α : Type} [Field α] [LinearOrder α] [IsStrictOrderedRing α]

theorem orNote_ok {β : Type} {x : Py β} {v : β} (h : orNote x = .ok v) : x = .ok v := by
  cases x with
  | error e => cases h
  | ok a => exact congrArg _ (Except.ok.inj h)

theorem orAbort_ok {β : Type} {x : Py β} {v : β} (h : orAbort x = .ok v) : x = .ok v := by
  cases x with
  | error e => cases h
  | ok a => exact congrArg _ (Except.ok.inj h)

/-- What the two ways out of one mode mean. -/
theorem modeDelta_cases (kde : List α → List α → Option (List α)) (sqrt : α → α) (hsq : ∀ x, 0 ≤ sqrt x) (z eps : α)
    (hz : 0 ≤ z) (R : Nat → DeltaDraws) (Y grid X m : List α) (num y : Nat) (hnum : 1 ≤ num) (mode : DeltaMode)
    (edges : List α) (minSize : Nat) :
    (∃ v, modeDelta kde sqrt z eps R Y grid X m num y mode edges minSize = .ok v ∧
      Spec.ModeOk (fun t => resampledSubset (R t) eps X y mode edges minSize) num
        (Spec.DeltaOf kde sqrt z Y grid X m) v.1 v.2) ∨
    (modeDelta kde sqrt z eps R Y grid X m num y mode edges minSize = .error .noted ∧
      Spec.ModeFails (fun t => resampledSubset (R t) eps X y mode edges minSize) num) ∨
    (modeDelta kde sqrt z eps R Y grid X m num y mode edges minSize = .error .abort ∧
      ∃ t ≤ num, ∃ rows, resampledSubset (R t) eps X y mode edges minSize = .ok rows ∧
        ∃ e, calcDelta kde (takeIdx Y rows) grid (takeIdx X rows) m = .error e) := by
  unfold modeDelta
  cases h0 : resampledSubset (R 0) eps X y mode edges minSize with
  | error e => exact .inr (.inl ⟨rfl, 0, by omega, e, h0⟩)
  | ok ind =>
    cases h1 : calcDelta kde (takeIdx Y ind) grid (takeIdx X ind) m with
    | error e =>
      refine .inr (.inr ⟨?_, 0, by omega, ind, h0, e, h1⟩)
      simp only [orNote, orAbort, Except.mapError, h1, bind, Except.bind]
    | ok dHat =>
      cases h2 : (List.range num).mapM fun t => resampledSubset (R (t + 1)) eps X y mode edges minSize with
      | error e =>
        refine .inr (.inl ⟨?_, ?_⟩)
        · simp only [orNote, orAbort, Except.mapError, h1, bind, Except.bind]
        · obtain ⟨t, ht, he⟩ := mapM_error _ _ _ h2
          exact ⟨t + 1, by have := List.mem_range.mp ht; omega, e, he⟩
      | ok rs =>
        have hf := (mapM_ok_iff _ _ _).mp h2
        have hrs : rs ≠ [] := by
          intro hh; subst hh
          have := hf.length_eq
          simp at this; omega
        cases h3 : biasReducedDelta kde sqrt z Y grid X m ind rs with
        | error e =>
          refine .inr (.inr ⟨?_, ?_⟩)
          · simp only [orNote, orAbort, Except.mapError, h1, h3, bind, Except.bind]
          · unfold biasReducedDelta at h3
            rw [h1] at h3
            simp only [pyBind_ok] at h3
            cases h4 : rs.mapM fun r => calcDelta kde (takeIdx Y r) grid (takeIdx X r) m with
            | ok d => rw [h4] at h3; cases h3
            | error e' =>
              obtain ⟨r, hr, he⟩ := mapM_error _ _ _ h4
              obtain ⟨t, ht, htr⟩ := List.getElem_of_mem hr
              have hlen := hf.length_eq
              simp only [List.length_range] at hlen
              have := (List.forall₂_iff_get.mp hf).2 t (by simpa using hlen ▸ ht) ht
              simp only [List.get_eq_getElem, List.getElem_range, htr] at this
              exact ⟨t + 1, by omega, r, this, e', he⟩
        | ok v =>
          refine .inl ⟨v, ?_, ind, rs, h0, hf, ?_⟩
          · simp only [orNote, orAbort, Except.mapError, h1, h3, bind, Except.bind]
          · obtain ⟨a, d, g1, g2, g3, g4, -⟩ := C74_bias kde sqrt hsq z hz Y grid X m ind rs hrs v h3
            exact ⟨a, d, g1, g2, g3, g4⟩

/-- Rows for the mode raw can be drawn from every column that is not constant. -/
theorem raw_draw (R : DeltaDraws) (eps : α) (X : List α) (y : Nat) (mode : DeltaMode) (edges edges' : List α)
    (k k' : Nat) (r : List Nat) (h : resampledSubset R eps X y mode edges k = .ok r) (R' : DeltaDraws) :
    ∃ r', resampledSubset R' eps X y .raw edges' k' = .ok r' := by
  obtain ⟨mn, mx, h1, h2, hne, -⟩ := resampledSubset_ok h
  refine ⟨R'.ints X.length y, ?_⟩
  unfold resampledSubset
  rw [h1, h2]
  simp only [pyBind_ok, if_neg hne]
  rfl

theorem column_isColumn (X : Mat α) (i : Nat) (col : List α) (h : (X.mapM fun row => pyGet row i) = .ok col) :
    Spec.IsColumn X i col := by
  refine ((mapM_ok_iff _ _ _).mp h).imp fun row x hx => ?_
  unfold pyGet at hx
  cases hr : row[i]? with
  | none => rw [hr] at hx; cases hx
  | some v => rw [hr] at hx; exact congrArg some (Except.ok.inj hx)

theorem isColumn_column (X : Mat α) (i : Nat) (col : List α) (h : Spec.IsColumn X i col) :
    (X.mapM fun row => pyGet row i) = .ok col := by
  rw [mapM_ok_iff]
  refine h.imp fun row x hx => ?_
  unfold pyGet
  rw [hx]

theorem stepShort_iff (col : List α) (k : Nat) : stepShort col k = true ↔ Spec.FewOnASide col k := by
  have key : ∀ p : α → Bool, (whereIdx col p).length = (col.filter p).length := by
    intro p
    unfold whereIdx
    have : col = (List.range col.length).map fun i => col.getD i 0 := by
      apply List.ext_getElem (by simp)
      intro i h1 h2
      simp [List.getD, List.getElem?_eq_getElem h1]
    conv_rhs => rw [this]
    rw [List.filter_map, List.length_map]
    rfl
  unfold stepShort Spec.FewOnASide
  rw [key, key]
  simp

/-- One parameter of an analysis with the delta indices. -/
theorem deltaParam_delta (s : DeltaSetup α) (hsq : ∀ x, 0 ≤ s.sqrt x) (hz : 0 ≤ s.z) (hnum : 1 ≤ s.num)
    (R : DeltaRandom) (method : DeltaMethod) (hm : method ≠ .sobol) (names : List String) (X : Mat α)
    (Y grid m : List α) (y i : Nat) (p : DeltaRow α × Bool)
    (h : deltaParam s R method names X Y grid m y i = .ok p) :
    ∃ name col lo hi, names[i]? = some name ∧ Spec.IsColumn X i col ∧ arrMin col = .ok lo ∧ arrMax col = .ok hi ∧
      Spec.DeltaOutcome
        (fun mode t => resampledSubset (R.subset i mode t) s.eps col y mode (checkBinInfo s.eps (s.bins name) lo hi)
          (max (X.length / 200) 10))
        s.num (Spec.DeltaOf s.kde s.sqrt s.z Y grid col m) (Spec.FewOnASide col (max (X.length / 200) 10))
        (if method = .all then sobolFirst (takeIdx Y (R.rows i)) (takeIdx col (R.rows i)) m else none)
        (if method = .all then sobolFirstConf s.sqrt s.z Y col m (R.boot i) else none) p.1 (!p.2) := by
  unfold deltaParam at h
  obtain ⟨name, h1, h⟩ := pyBind_inv _ _ _ h
  obtain ⟨col, h2, h⟩ := pyBind_inv _ _ _ h
  obtain ⟨lo, h3, h⟩ := pyBind_inv _ _ _ h
  obtain ⟨hi, h4, h⟩ := pyBind_inv _ _ _ h
  have hcol := column_isColumn X i col h2
  have hlen : X.length = col.length := hcol.length_eq
  have hname : names[i]? = some name := by
    unfold pyGet at h1
    cases hr : names[i]? with
    | none => rw [hr] at h1; cases h1
    | some v => rw [hr] at h1; exact congrArg some (Except.ok.inj h1)
  refine ⟨name, col, lo, hi, hname, hcol, h3, h4, ?_⟩
  rw [hlen]
  change Spec.DeltaOutcome (fun mode t => resampledSubset (R.subset i mode t) s.eps col y mode
    (checkBinInfo s.eps (s.bins name) lo hi) (minClass col.length)) _ _ (Spec.FewOnASide col (minClass col.length)) _ _ _ _
  set edges := checkBinInfo s.eps (s.bins name) lo hi
  set k := minClass col.length with hk
  have hd : method.hasDelta = true := by cases method <;> first | rfl | exact absurd rfl hm
  unfold deltaStages at h
  rw [if_pos hd, ← hk] at h
  simp only [List.cons_append, List.nil_append] at h
  rcases modeDelta_cases s.kde s.sqrt hsq s.z s.eps hz (R.subset i .balanced) Y grid col m s.num y hnum .balanced edges k
    with ⟨b, hb, hb'⟩ | ⟨hb, hb'⟩ | ⟨hb, hb'⟩
  · rw [hb] at h
    simp only [Except.map, runStages] at h
    rcases modeDelta_cases s.kde s.sqrt hsq s.z s.eps hz (R.subset i .raw) Y grid col m s.num y hnum .raw edges k
      with ⟨w, hw, hw'⟩ | ⟨hw, hw'⟩ | ⟨hw, hw'⟩
    · rw [hw] at h
      simp only [runStages] at h
      unfold stepStage at h
      rw [← hk] at h
      have last : ∀ row : DeltaRow α, runStages row (if method.hasSobol then
          [.ok fun row => { row with s1 := sobolFirst (takeIdx Y (R.rows i)) (takeIdx col (R.rows i)) m,
                                     s1Conf := sobolFirstConf s.sqrt s.z Y col m (R.boot i) }] else []) =
          .ok ({ row with
            s1 := if method = .all then sobolFirst (takeIdx Y (R.rows i)) (takeIdx col (R.rows i)) m else row.s1
            s1Conf := if method = .all then sobolFirstConf s.sqrt s.z Y col m (R.boot i) else row.s1Conf }, true) := by
        intro row
        cases method with
        | all => rfl
        | delta => rfl
        | sobol => exact absurd rfl hm
      by_cases hs : stepShort col k = true
      · rw [if_pos hs] at h
        simp only [runStages] at h
        rw [last] at h
        cases h
        exact .done _ _ _ _ _ _ hb' hw' (.inl ⟨(stepShort_iff col k).mp hs, rfl, rfl⟩)
      · rw [if_neg hs] at h
        have hs' := fun hh => hs ((stepShort_iff col k).mpr hh)
        rcases modeDelta_cases s.kde s.sqrt hsq s.z s.eps hz (R.subset i .step) Y grid col m s.num y hnum .step edges k
          with ⟨u, hu, hu'⟩ | ⟨hu, hu'⟩ | ⟨hu, hu'⟩
        · rw [hu] at h
          simp only [Except.map, runStages] at h
          rw [last] at h
          cases h
          exact .done _ _ _ _ _ _ hb' hw' (.inr ⟨hs', hu'⟩)
        · rw [hu] at h
          simp only [Except.map, runStages] at h
          cases h
          exact .unstepped _ _ _ _ hb' hw' hs' hu'
        · rw [hu] at h
          simp only [Except.map, runStages] at h
          cases h
    · obtain ⟨ind, rs, hi0, -⟩ := hb'
      obtain ⟨t, -, e, he⟩ := hw'
      obtain ⟨r', hr'⟩ := raw_draw _ _ _ _ _ _ edges _ k _ hi0 (R.subset i .raw t)
      exact absurd (he.symm.trans hr') (by simp)
    · rw [hw] at h
      simp only [runStages] at h
      cases h
  · rw [hb] at h
    simp only [Except.map, runStages] at h
    cases h
    exact .unbalanced hb'
  · rw [hb] at h
    simp only [Except.map, runStages] at h
    cases h

/-- What an analysis that ends normally has checked and computed. -/
theorem deltaAnalyze_inv (s : DeltaSetup α) (R : DeltaRandom) (pb : Problem α) (X : Mat α) (Y : List α) (conf : α)
    (yres : Option Nat) (method : DeltaMethod) (r : DeltaResult α)
    (h : deltaAnalyze s R pb X Y conf yres (some method) = .ok r) :
    X.length = Y.length ∧ (0 < conf ∧ conf < 1) ∧ yres.getD Y.length ≤ Y.length ∧
    pb.names.any forbiddenName = false ∧
    ∃ ylo yhi rows, arrMin Y = .ok ylo ∧ arrMax Y = .ok yhi ∧
      (List.range pb.numVars).mapM (deltaParam s R method pb.names X Y (linspace ylo yhi 100)
        (linspace 0 ((yres.getD Y.length : Nat) : α) (s.classes (yres.getD Y.length) + 1)) (yres.getD Y.length)) = .ok rows ∧
      r = { names := pb.names
            entries := deltaEntries method (rows.map (·.1))
            notes := if rows.any (·.2) then some (rows.map fun r => !r.2) else none } := by
  unfold deltaAnalyze at h
  split at h
  · cases h
  rename_i h1
  split at h
  · cases h
  rename_i h2
  simp only [] at h
  split at h
  · cases h
  rename_i h3
  obtain ⟨lo, h4, h⟩ := pyBind_inv _ _ _ h
  obtain ⟨hi, h5, h⟩ := pyBind_inv _ _ _ h
  split at h
  · cases h
  rename_i h6
  obtain ⟨rows, h7, h⟩ := pyBind_inv _ _ _ h
  exact ⟨not_not.mp h1, not_not.mp h2, not_not.mp h3, by simpa using h6, lo, hi, rows, h4, h5, h7, (Except.ok.inj h).symm⟩

theorem reports_delta (names : List String) (method : DeltaMethod) (hm : method ≠ .sobol) (rows : List (DeltaRow α))
    (notes : Option (List Bool)) (i : Nat) (row : DeltaRow α) (hi : rows[i]? = some row) :
    Spec.ReportsDelta ⟨names, deltaEntries method rows, notes⟩ i row := by
  have hd : method.hasDelta = true := by cases method <;> first | rfl | exact absurd rfl hm
  constructor <;>
    simp [Spec.entryAt, deltaEntries, List.lookup, hd, hi]

theorem reports_first (names : List String) (method : DeltaMethod) (hm : method ≠ .delta) (rows : List (DeltaRow α))
    (notes : Option (List Bool)) (i : Nat) (row : DeltaRow α) (hi : rows[i]? = some row) :
    Spec.ReportsFirst ⟨names, deltaEntries method rows, notes⟩ i row := by
  cases method with
  | delta => exact absurd rfl hm
  | all => constructor <;> simp [Spec.entryAt, deltaEntries, List.lookup, DeltaMethod.hasDelta, DeltaMethod.hasSobol, hi]
  | sobol => constructor <;> simp [Spec.entryAt, deltaEntries, List.lookup, DeltaMethod.hasDelta, DeltaMethod.hasSobol, hi]

/-- C103: the methods `delta` and `all`.  For each parameter one of the three outcomes is reported, all computed from
the column of the parameter; the notes are left out exactly if every parameter ended with an exception. -/
theorem C103_delta (s : DeltaSetup α) (hsq : ∀ x, 0 ≤ s.sqrt x) (hz : 0 ≤ s.z) (hnum : 1 ≤ s.num)
    (R : DeltaRandom) (pb : Problem α) (X : Mat α) (Y : List α) (conf : α) (yres : Option Nat) (method : DeltaMethod)
    (hm : method ≠ .sobol) (r : DeltaResult α)
    (h : deltaAnalyze s R pb X Y conf yres (some method) = .ok r) (y : Nat) (hy : y = yres.getD Y.length) :
    r.names = pb.names ∧
    r.entries.map (·.1) = ["delta_balanced", "delta_balanced_conf", "delta_raw", "delta_raw_conf", "delta_step",
      "delta_step_conf"] ++ (if method = .all then ["S1", "S1_conf"] else []) ∧
    (∀ e ∈ r.entries, e.2.length = pb.numVars) ∧
    ∃ ylo yhi, arrMin Y = .ok ylo ∧ arrMax Y = .ok yhi ∧ ∃ failed : List Bool, failed.length = pb.numVars ∧
      (r.notes = if ∀ b ∈ failed, b = true then none else some failed) ∧
      ∀ (i : Nat) (b : Bool), failed[i]? = some b → ∃ name col lo hi row,
        pb.names[i]? = some name ∧ Spec.IsColumn X i col ∧ arrMin col = .ok lo ∧ arrMax col = .ok hi ∧
        Spec.ReportsDelta r i row ∧ (method = .all → Spec.ReportsFirst r i row) ∧
        Spec.DeltaOutcome
          (fun mode t => resampledSubset (R.subset i mode t) s.eps col y mode (checkBinInfo s.eps (s.bins name) lo hi)
            (max (X.length / 200) 10))
          s.num
          (Spec.DeltaOf s.kde s.sqrt s.z Y (linspace ylo yhi 100) col (linspace 0 (y : α) (s.classes y + 1)))
          (Spec.FewOnASide col (max (X.length / 200) 10))
          (if method = .all then sobolFirst (takeIdx Y (R.rows i)) (takeIdx col (R.rows i))
            (linspace 0 (y : α) (s.classes y + 1)) else none)
          (if method = .all then sobolFirstConf s.sqrt s.z Y col (linspace 0 (y : α) (s.classes y + 1)) (R.boot i)
            else none) row b := by
  obtain ⟨-, -, -, -, ylo, yhi, rows, h1, h2, h3, rfl⟩ := deltaAnalyze_inv s R pb X Y conf yres method r h
  have hlen := mapM_length _ _ _ h3
  rw [List.length_range] at hlen
  refine ⟨rfl, ?_, ?_, ylo, yhi, h1, h2, rows.map fun r => !r.2, by simpa using hlen, ?_, ?_⟩
  · cases method with
    | sobol => exact absurd rfl hm
    | all => rfl
    | delta => rfl
  · intro e he
    cases method with
    | sobol => exact absurd rfl hm
    | all =>
      simp only [deltaEntries, DeltaMethod.hasDelta, DeltaMethod.hasSobol, if_true, List.cons_append, List.nil_append,
        List.mem_cons, List.not_mem_nil, or_false] at he
      rcases he with rfl | rfl | rfl | rfl | rfl | rfl | rfl | rfl <;> simpa using hlen
    | delta =>
      simp only [deltaEntries, DeltaMethod.hasDelta, DeltaMethod.hasSobol, if_true, List.cons_append, List.nil_append,
        List.mem_cons, List.not_mem_nil, or_false, List.append_nil, Bool.false_eq_true, if_false] at he
      rcases he with rfl | rfl | rfl | rfl | rfl | rfl <;> simpa using hlen
  · by_cases hany : rows.any (·.2) = true
    · rw [if_pos hany, if_neg]
      intro hall
      obtain ⟨p, hp, hp2⟩ := List.any_eq_true.mp hany
      have := hall (!p.2) (List.mem_map.mpr ⟨p, hp, rfl⟩)
      rw [hp2] at this
      cases this
    · rw [if_neg hany, if_pos]
      intro b hb
      obtain ⟨p, hp, rfl⟩ := List.mem_map.mp hb
      cases hp2 : p.2 with
      | false => rfl
      | true => exact absurd (List.any_eq_true.mpr ⟨p, hp, hp2⟩) hany
  · intro i b hb
    rw [List.getElem?_map] at hb
    obtain ⟨p, hp, rfl⟩ := Option.map_eq_some_iff.mp hb
    obtain ⟨hi, hpi⟩ := List.getElem?_eq_some_iff.mp hp
    have := (List.forall₂_iff_get.mp ((mapM_ok_iff _ _ _).mp h3)).2 i (by simpa using hlen ▸ hi) hi
    simp only [List.get_eq_getElem, List.getElem_range, hpi] at this
    obtain ⟨name, col, lo, hi', g1, g2, g3, g4, g5⟩ := deltaParam_delta s hsq hz hnum R method hm pb.names X Y _ _ _ i p this
    have hrow : (rows.map (·.1))[i]? = some p.1 := by rw [List.getElem?_map, hp]; rfl
    subst hy
    refine ⟨name, col, lo, hi', p.1, g1, g2, g3, g4, reports_delta _ _ hm _ _ _ _ hrow, ?_, g5⟩
    intro ha
    exact reports_first _ _ (by rw [ha]; decide) _ _ _ _ hrow

/-- A setup over the rationals; the density is a step function. -/
def exDeltaSetup : DeltaSetup ℚ where
  kde := fun data grid => if ptpZero data then none
    else some (grid.map fun g => ((data.filter fun d => decide (d ≤ g)).length : ℚ) / data.length)
  sqrt := fun x => |x|
  z := 2
  eps := 1 / 1000
  classes := fun _ => 3
  bins := fun n => if n = "k" then .count 1 else .count 2
  num := 2

/-- Draws that go round the list. -/
def exDeltaRandom : DeltaRandom where
  subset := fun i _ t => ⟨fun c l n => (List.range n).map fun k => l.getD ((k + t + c + i) % l.length) 0,
    fun N n => (List.range n).map fun k => (k * 5 + t) % N⟩
  rows := fun _ => List.range 24
  boot := fun _ => [List.range 24, (List.range 24).map fun k => k / 2]

/-- Three inputs: one on both sides of zero, one positive, one constant. -/
def exDeltaX : Mat ℚ := (List.range 24).map fun (k : Nat) => [(k : ℚ) - 12, (((k * 7) % 24 : ℕ) : ℚ) + 1, 5]

def exDeltaY : List ℚ := (List.range 24).map fun (k : Nat) => ((k * k % 31 : Nat) : ℚ)

/-- The hypotheses of `C103_delta`: the three inputs end in three different ways. -/
example : (deltaAnalyze exDeltaSetup exDeltaRandom ⟨["a", "b", "c"], [], none, none, 3, false⟩ exDeltaX exDeltaY (1 / 2) none
      (some .all)).toOption.map (fun r => (r.notes, (List.range 3).map fun i =>
        ["delta_balanced", "delta_raw", "delta_step", "S1"].map fun k => ((Spec.entryAt r k i).join).isSome)) =
    some (some [false, false, true],
      [[true, true, true, true], [true, true, false, true], [false, false, false, false]]) ∧
    (∀ x, 0 ≤ exDeltaSetup.sqrt x) ∧ 0 ≤ exDeltaSetup.z ∧ 1 ≤ exDeltaSetup.num :=
  ⟨by decide +kernel, fun x => abs_nonneg x, by decide +kernel, by decide +kernel⟩

/-- The samples fit the problem: a name and a value in every row for each parameter, and no forbidden name. -/
structure Spec.FitsDelta (pb : Problem α) (X : Mat α) (Y : List α) (conf : α) (y : Nat) : Prop where
  rows : X.length = Y.length
  conf : 0 < conf ∧ conf < 1
  some : 1 ≤ y
  few : y ≤ Y.length
  names : pb.numVars ≤ pb.names.length
  width : ∀ row ∈ X, pb.numVars ≤ row.length
  suffix : ∀ n ∈ pb.names, ∀ t ∈ ["_raw", "_balanced", "_step", "_conf"], ¬t.toList <:+ n.toList

theorem forbidden_none (names : List String)
    (h : ∀ n ∈ names, ∀ t ∈ ["_raw", "_balanced", "_step", "_conf"], ¬t.toList <:+ n.toList) :
    names.any forbiddenName = false := by
  rw [List.any_eq_false]
  intro n hn hf
  unfold forbiddenName at hf
  obtain ⟨t, ht, hd⟩ := List.any_eq_true.mp hf
  exact h n hn t ht (of_decide_eq_true hd)

theorem fits_column (pb : Problem α) (X : Mat α) (hw : ∀ row ∈ X, pb.numVars ≤ row.length) (i : Nat)
    (hi : i < pb.numVars) : ∃ col, (X.mapM fun row => pyGet row i) = .ok col ∧ col.length = X.length := by
  refine ⟨X.map fun row => row.getD i 0, ?_, by simp⟩
  apply mapM_ok_of
  intro row hrow
  have : i < row.length := lt_of_lt_of_le hi (hw row hrow)
  unfold pyGet
  rw [List.getElem?_eq_getElem this]
  simp [List.getD, List.getElem?_eq_getElem this]

/-- Where the pass over a parameter of fitting samples leads. -/
theorem deltaParam_fits (s : DeltaSetup α) (R : DeltaRandom) (method : DeltaMethod) (pb : Problem α) (X : Mat α)
    (Y grid m : List α) (y i : Nat) (hi : i < pb.numVars) (hX : X ≠ []) (hn : pb.numVars ≤ pb.names.length)
    (hw : ∀ row ∈ X, pb.numVars ≤ row.length) :
    ∃ name col lo hi, pb.names[i]? = some name ∧ Spec.IsColumn X i col ∧ arrMin col = .ok lo ∧ arrMax col = .ok hi ∧
      deltaParam s R method pb.names X Y grid m y i =
        runStages {} (deltaStages s R method Y grid col m (checkBinInfo s.eps (s.bins name) lo hi) y i) := by
  obtain ⟨col, hc, hlen⟩ := fits_column pb X hw i hi
  have hne : col ≠ [] := by
    intro hh; subst hh
    exact hX (List.length_eq_zero_iff.mp hlen.symm)
  obtain ⟨lo, hi', h1, h2⟩ := arr_exists col hne
  have hname : i < pb.names.length := lt_of_lt_of_le hi hn
  refine ⟨pb.names[i], col, lo, hi', List.getElem?_eq_getElem hname, column_isColumn X i col hc, h1, h2, ?_⟩
  unfold deltaParam
  have : pyGet pb.names i = .ok pb.names[i] := by unfold pyGet; rw [List.getElem?_eq_getElem hname]
  rw [this, hc]
  simp only [pyBind_ok]
  rw [h1, h2]
  rfl

/-- The driver on fitting samples. -/
theorem deltaAnalyze_fits (s : DeltaSetup α) (R : DeltaRandom) (pb : Problem α) (X : Mat α) (Y : List α) (conf : α)
    (yres : Option Nat) (method : DeltaMethod) (y : Nat) (hy : y = yres.getD Y.length)
    (hf : Spec.FitsDelta pb X Y conf y) :
    ∃ ylo yhi, arrMin Y = .ok ylo ∧ arrMax Y = .ok yhi ∧
      deltaAnalyze s R pb X Y conf yres (some method) =
        ((List.range pb.numVars).mapM (deltaParam s R method pb.names X Y (linspace ylo yhi 100)
          (linspace 0 (y : α) (s.classes y + 1)) y) >>= fun rows => .ok
            { names := pb.names
              entries := deltaEntries method (rows.map (·.1))
              notes := if rows.any (·.2) then some (rows.map fun r => !r.2) else none }) := by
  have hYne : Y ≠ [] := by
    intro hh
    have h1 := hf.few
    have h2 := hf.some
    rw [hh] at h1; simp at h1; omega
  obtain ⟨lo, hi, h1, h2⟩ := arr_exists Y hYne
  refine ⟨lo, hi, h1, h2, ?_⟩
  unfold deltaAnalyze
  rw [if_neg (not_not.mpr hf.rows), if_neg (not_not.mpr hf.conf)]
  simp only []
  rw [← hy, if_neg (not_not.mpr hf.few), h1, h2]
  simp only [pyBind_ok]
  rw [if_neg (by rw [forbidden_none _ hf.suffix]; decide)]
  rfl

/-- C103: the method `sobol` accepts all fitting samples, reports every index, in `[0, 1]`, and notes no exception. -/
theorem C103_sobol (s : DeltaSetup ℝ) (hcls : s.classes = deltaM) (R : DeltaRandom) (pb : Problem ℝ) (X : Mat ℝ)
    (Y : List ℝ) (conf : ℝ) (yres : Option Nat) (y : Nat) (hy : y = yres.getD Y.length)
    (hf : Spec.FitsDelta pb X Y conf y) (hR : ∀ i, (R.rows i).length = y) (hD : 1 ≤ pb.numVars) :
    ∃ r, deltaAnalyze s R pb X Y conf yres (some .sobol) = .ok r ∧ r.names = pb.names ∧
      r.entries.map (·.1) = ["S1", "S1_conf"] ∧ (∀ e ∈ r.entries, e.2.length = pb.numVars) ∧
      r.notes = some (List.replicate pb.numVars false) ∧
      ∀ i < pb.numVars, ∃ col v, Spec.IsColumn X i col ∧ 0 ≤ v ∧ v ≤ 1 ∧
        Spec.entryAt r "S1" i = some (some v) ∧
        sobolFirst (takeIdx Y (R.rows i)) (takeIdx col (R.rows i)) (linspace 0 (y : ℝ) (deltaM y + 1)) = some v ∧
        Spec.entryAt r "S1_conf" i =
          some (sobolFirstConf s.sqrt s.z Y col (linspace 0 (y : ℝ) (deltaM y + 1)) (R.boot i)) := by
  obtain ⟨ylo, yhi, -, -, he⟩ := deltaAnalyze_fits s R pb X Y conf yres .sobol y hy hf
  have hX : X ≠ [] := by
    intro hh
    have h1 := hf.few
    have h2 := hf.some
    have h3 := hf.rows
    rw [hh] at h3; simp at h3; omega
  have key : ∀ i, ∃ col : List ℝ, i < pb.numVars → Spec.IsColumn X i col ∧
      deltaParam s R .sobol pb.names X Y (linspace ylo yhi 100) (linspace 0 (y : ℝ) (s.classes y + 1)) y i =
        .ok (⟨none, none, none, none, none, none,
          sobolFirst (takeIdx Y (R.rows i)) (takeIdx col (R.rows i)) (linspace 0 (y : ℝ) (deltaM y + 1)),
          sobolFirstConf s.sqrt s.z Y col (linspace 0 (y : ℝ) (deltaM y + 1)) (R.boot i)⟩, true) := by
    intro i
    by_cases hi : i < pb.numVars
    · obtain ⟨name, col, lo, hi', -, h2, -, -, h5⟩ := deltaParam_fits s R .sobol pb X Y (linspace ylo yhi 100)
        (linspace 0 (y : ℝ) (s.classes y + 1)) y i hi hX hf.names hf.width
      refine ⟨col, fun _ => ⟨h2, ?_⟩⟩
      rw [h5, hcls]
      rfl
    · exact ⟨[], fun h => absurd h hi⟩
  choose col hcol using key
  rw [mapM_ok_of _ _ _ (fun i hi => (hcol i (List.mem_range.mp hi)).2)] at he
  refine ⟨_, he, rfl, rfl, ?_, ?_, ?_⟩
  · intro e hm
    simp only [deltaEntries, DeltaMethod.hasDelta, DeltaMethod.hasSobol, if_true, List.nil_append,
        List.mem_cons, List.not_mem_nil, or_false, Bool.false_eq_true, if_false] at hm
    rcases hm with rfl | rfl <;> simp
  · simp only []
    rw [if_pos]
    · congr 1
      rw [List.map_map]
      apply List.ext_getElem (by simp)
      intro i h1 h2
      simp
    · rw [List.any_eq_true]
      exact ⟨_, List.mem_map.mpr ⟨0, List.mem_range.mpr hD, rfl⟩, rfl⟩
  · intro i hi
    obtain ⟨v, hv, hv0, hv1⟩ := C51_analyze Y (col i) y hf.some (R.rows i) (hR i)
    unfold deltaS1 at hv
    have hrow := fun notes => reports_first pb.names .sobol (by decide) _ notes i _ (show
      (((List.range pb.numVars).map fun i => ((⟨none, none, none, none, none, none,
          sobolFirst (takeIdx Y (R.rows i)) (takeIdx (col i) (R.rows i)) (linspace 0 (y : ℝ) (deltaM y + 1)),
          sobolFirstConf s.sqrt s.z Y (col i) (linspace 0 (y : ℝ) (deltaM y + 1)) (R.boot i)⟩ : DeltaRow ℝ), true)).map
            (·.1))[i]? = some _ by simp [hi]; rfl)
    refine ⟨col i, v, (hcol i hi).1, hv0, hv1, ?_, hv, (hrow _).s1Conf⟩
    rw [(hrow _).s1, hv]

/-- C103: what is refused, in the order of the checks. -/
theorem C103_errors (s : DeltaSetup α) (R : DeltaRandom) (pb : Problem α) (X : Mat α) (Y : List α) (conf : α)
    (yres : Option Nat) (method : Option DeltaMethod) :
    (X.length ≠ Y.length → deltaAnalyze s R pb X Y conf yres method = .error .runtimeError) ∧
    (¬(0 < conf ∧ conf < 1) → deltaAnalyze s R pb X Y conf yres method = .error .runtimeError) ∧
    (X.length = Y.length → 0 < conf → conf < 1 → method = none →
      deltaAnalyze s R pb X Y conf yres method = .error .valueError) ∧
    (∀ m y, X.length = Y.length → 0 < conf → conf < 1 → method = some m → yres = some y → Y.length < y →
      deltaAnalyze s R pb X Y conf yres method = .error .runtimeError) ∧
    (∀ m y, X.length = Y.length → 0 < conf → conf < 1 → method = some m → y = yres.getD Y.length → y ≤ Y.length →
      (∃ n ∈ pb.names, ∃ t ∈ ["_raw", "_balanced", "_step", "_conf"], t.toList <:+ n.toList) →
      deltaAnalyze s R pb X Y conf yres method = .error .valueError) := by
  refine ⟨?_, ?_, ?_, ?_, ?_⟩
  · intro h
    unfold deltaAnalyze
    rw [if_pos h]
  · intro h
    unfold deltaAnalyze
    by_cases h0 : X.length ≠ Y.length
    · rw [if_pos h0]
    · rw [if_neg h0, if_pos h]
  · rintro h1 h2 h3 rfl
    unfold deltaAnalyze
    rw [if_neg (not_not.mpr h1), if_neg (not_not.mpr ⟨h2, h3⟩)]
  · rintro m y h1 h2 h3 rfl rfl h4
    unfold deltaAnalyze
    rw [if_neg (not_not.mpr h1), if_neg (not_not.mpr ⟨h2, h3⟩)]
    simp only [Option.getD_some]
    rw [if_pos (by omega)]
  · rintro m y h1 h2 h3 rfl rfl h4 ⟨n, hn, t, ht, hs⟩
    unfold deltaAnalyze
    rw [if_neg (not_not.mpr h1), if_neg (not_not.mpr ⟨h2, h3⟩)]
    simp only []
    rw [if_neg (not_not.mpr h4)]
    cases h5 : arrMin Y with
    | error e => cases Y with
      | nil => cases h5; rfl
      | cons a l => cases h5
    | ok lo =>
      cases h6 : arrMax Y with
      | error e => cases Y with
        | nil => cases h5
        | cons a l => cases h6
      | ok hi =>
        simp only [pyBind_ok]
        rw [if_pos]
        rw [List.any_eq_true]
        exact ⟨n, hn, List.any_eq_true.mpr ⟨t, ht, by simpa using hs⟩⟩

/-- C103: what is reported for a parameter depends only on its name, its column and the draws made for it: two analyses
of the same outputs agree on it whatever the other columns and parameters are. -/
theorem C103_local (s : DeltaSetup α) (R R' : DeltaRandom) (pb pb' : Problem α) (X X' : Mat α) (Y : List α)
    (conf conf' : α) (yres : Option Nat) (method : DeltaMethod) (r r' : DeltaResult α)
    (h : deltaAnalyze s R pb X Y conf yres (some method) = .ok r)
    (h' : deltaAnalyze s R' pb' X' Y conf' yres (some method) = .ok r') (i : Nat)
    (hi : i < pb.numVars) (hi' : i < pb'.numVars) (hn : pb.names[i]? = pb'.names[i]?) (col : List α)
    (hc : Spec.IsColumn X i col) (hc' : Spec.IsColumn X' i col)
    (hR : R.subset i = R'.subset i ∧ R.rows i = R'.rows i ∧ R.boot i = R'.boot i) (key : String) :
    Spec.entryAt r key i = Spec.entryAt r' key i := by
  obtain ⟨-, -, -, -, ylo, yhi, rows, h1, h2, h3, rfl⟩ := deltaAnalyze_inv s R pb X Y conf yres method r h
  obtain ⟨-, -, -, -, ylo', yhi', rows', h1', h2', h3', rfl⟩ := deltaAnalyze_inv s R' pb' X' Y conf' yres method r' h'
  cases h1.symm.trans h1'
  cases h2.symm.trans h2'
  have hlen := mapM_length _ _ _ h3
  have hlen' := mapM_length _ _ _ h3'
  rw [List.length_range] at hlen hlen'
  have g := (List.forall₂_iff_get.mp ((mapM_ok_iff _ _ _).mp h3)).2 i (by simpa using hi) (by omega)
  have g' := (List.forall₂_iff_get.mp ((mapM_ok_iff _ _ _).mp h3')).2 i (by simpa using hi') (by omega)
  simp only [List.get_eq_getElem, List.getElem_range] at g g'
  have heq : rows[i]'(by omega) = rows'[i]'(by omega) := by
    have : (Except.ok (rows[i]'(by omega)) : Py _) = .ok (rows'[i]'(by omega)) := by
      rw [← g, ← g']
      unfold deltaParam
      rw [isColumn_column X i col hc, isColumn_column X' i col hc']
      have : pyGet pb.names i = pyGet pb'.names i := by unfold pyGet; rw [hn]
      rw [this]
      unfold deltaStages stepStage
      rw [hR.1, hR.2.1, hR.2.2]
    exact Except.ok.inj this
  have hr : rows[i]? = rows'[i]? := by
    rw [List.getElem?_eq_getElem (by omega), List.getElem?_eq_getElem (by omega), heq]
  unfold Spec.entryAt deltaEntries
  have hf : ∀ f : DeltaRow α → Num α, ((rows.map (·.1)).map f)[i]? = ((rows'.map (·.1)).map f)[i]? := by
    intro f
    simp only [List.getElem?_map, hr]
  cases method <;>
    simp only [DeltaMethod.hasDelta, DeltaMethod.hasSobol, if_true, List.nil_append, List.cons_append,
      Bool.false_eq_true, if_false, List.append_nil, List.lookup] <;>
    (repeat' split) <;> first | exact hf _ | rfl

theorem runStages_ok {row : DeltaRow α} {l : List (Except DeltaStop (DeltaRow α → DeltaRow α))}
    (h : ∀ x ∈ l, x ≠ .error .abort) : ∃ p, runStages row l = .ok p := by
  induction l generalizing row with
  | nil => exact ⟨_, rfl⟩
  | cons x l ih =>
    cases x with
    | ok f => exact ih fun y hy => h y (List.mem_cons_of_mem _ hy)
    | error e =>
      cases e with
      | noted => exact ⟨_, rfl⟩
      | abort => exact absurd rfl (h _ (by simp))

theorem runStages_total (row : DeltaRow α) (l : List (Except DeltaStop (DeltaRow α → DeltaRow α))) :
    (∃ p, runStages row l = .ok p) ∨ runStages row l = .error .valueError := by
  induction l generalizing row with
  | nil => exact .inl ⟨_, rfl⟩
  | cons x l ih =>
    cases x with
    | ok f => exact ih _
    | error e =>
      cases e with
      | noted => exact .inl ⟨_, rfl⟩
      | abort => exact .inr rfl

/-- `calc_delta` fails only if a density estimate does. -/
theorem calcDelta_ok (kde : List α → List α → Option (List α)) (hk : ∀ data grid, kde data grid ≠ none)
    (Y grid X m : List α) : ∃ d, calcDelta kde Y grid X m = .ok d := by
  unfold calcDelta
  obtain ⟨fy, hfy⟩ := Option.ne_none_iff_exists'.mp (hk Y grid)
  rw [hfy]
  simp only [pyBind_ok]
  have key : ∀ (l : List Nat) (acc : α), ∃ d, l.foldlM (fun acc j =>
        if (classOf (rankOrdinal X) m j).length = 0 then (Except.ok acc : Py α)
        else if ptpZero ((classOf (rankOrdinal X) m j).map fun i => Y.getD i 0) then .ok acc
        else match kde ((classOf (rankOrdinal X) m j).map fun i => Y.getD i 0) grid with
          | none => .error .valueError
          | some fyc => .ok (acc + ((classOf (rankOrdinal X) m j).length : α) / (2 * (Y.length : α)) *
              trapezoid (List.zipWith (fun a b => |a - b|) fy fyc) grid)) acc = .ok d := by
    intro l
    induction l with
    | nil => exact fun acc => ⟨acc, rfl⟩
    | cons j l ih =>
      intro acc
      rw [List.foldlM_cons]
      split
      · exact ih _
      · split
        · exact ih _
        · obtain ⟨fyc, hfyc⟩ := Option.ne_none_iff_exists'.mp
            (hk ((classOf (rankOrdinal X) m j).map fun i => Y.getD i 0) grid)
          rw [hfyc]
          exact ih _
  exact key _ _

/-- C103: an analysis of fitting samples ends normally unless a density estimate fails (`LinAlgError`). -/
theorem C103_accepts (s : DeltaSetup α) (hk : ∀ data grid, s.kde data grid ≠ none) (hsq : ∀ x, 0 ≤ s.sqrt x)
    (hz : 0 ≤ s.z) (hnum : 1 ≤ s.num) (R : DeltaRandom) (pb : Problem α) (X : Mat α) (Y : List α) (conf : α)
    (yres : Option Nat) (method : DeltaMethod) (y : Nat) (hy : y = yres.getD Y.length)
    (hf : Spec.FitsDelta pb X Y conf y) :
    ∃ r, deltaAnalyze s R pb X Y conf yres (some method) = .ok r := by
  obtain ⟨ylo, yhi, -, -, he⟩ := deltaAnalyze_fits s R pb X Y conf yres method y hy hf
  have hX : X ≠ [] := by
    intro hh
    have h1 := hf.few
    have h2 := hf.some
    have h3 := hf.rows
    rw [hh] at h3; simp at h3; omega
  have noabort : ∀ (col m edges : List α) (i : Nat) (mode : DeltaMode),
      modeDelta s.kde s.sqrt s.z s.eps (R.subset i mode) Y (linspace ylo yhi 100) col m s.num y mode edges
        (minClass col.length) ≠ .error .abort := by
    intro col m edges i mode ha
    rcases modeDelta_cases s.kde s.sqrt hsq s.z s.eps hz (R.subset i mode) Y (linspace ylo yhi 100) col m s.num y hnum
      mode edges (minClass col.length) with ⟨v, hv, -⟩ | ⟨hv, -⟩ | ⟨-, t, -, rows, -, e, he⟩
    · rw [hv] at ha; cases ha
    · rw [hv] at ha; cases ha
    · obtain ⟨d, hd⟩ := calcDelta_ok s.kde hk (takeIdx Y rows) (linspace ylo yhi 100) (takeIdx col rows) m
      rw [hd] at he; cases he
  have map_ne : ∀ (x : Except DeltaStop (Num α × Num α)) (f : Num α × Num α → DeltaRow α → DeltaRow α),
      x ≠ .error .abort → x.map f ≠ .error .abort := by
    intro x f hx
    cases x with
    | ok v => intro hh; cases hh
    | error e => intro hh; exact hx (by cases hh; rfl)
  have hall : ∀ i, ∃ p, i < pb.numVars → deltaParam s R method pb.names X Y (linspace ylo yhi 100)
      (linspace 0 (y : α) (s.classes y + 1)) y i = .ok p := by
    intro i
    by_cases hi : i < pb.numVars
    · obtain ⟨name, col, lo, hi', -, -, -, -, h5⟩ := deltaParam_fits s R method pb X Y (linspace ylo yhi 100)
        (linspace 0 (y : α) (s.classes y + 1)) y i hi hX hf.names hf.width
      rw [h5]
      obtain ⟨p, hp⟩ := runStages_ok (row := ({} : DeltaRow α)) (l := deltaStages s R method Y (linspace ylo yhi 100) col
        (linspace 0 (y : α) (s.classes y + 1)) (checkBinInfo s.eps (s.bins name) lo hi') y i) (by
          intro x hx
          unfold deltaStages at hx
          rcases List.mem_append.mp hx with hx | hx
          · split at hx
            · simp only [List.mem_cons, List.not_mem_nil, or_false] at hx
              rcases hx with rfl | rfl | rfl
              · exact map_ne _ _ (noabort _ _ _ _ _)
              · exact map_ne _ _ (noabort _ _ _ _ _)
              · unfold stepStage
                split
                · intro hh; cases hh
                · exact map_ne _ _ (noabort _ _ _ _ _)
            · simp at hx
          · split at hx
            · simp only [List.mem_cons, List.not_mem_nil, or_false] at hx
              subst hx
              intro hh; cases hh
            · simp at hx)
      exact ⟨p, fun _ => hp⟩
    · exact ⟨({}, true), fun h => absurd h hi⟩
  choose g hg using hall
  rw [mapM_ok_of _ g _ (fun i hi => hg i (List.mem_range.mp hi))] at he
  exact ⟨_, he⟩

/-- C103: `delta_step` is nan for an input with fewer than `max(N // 200, 10)` values on one side of zero. -/
theorem C103_few (s : DeltaSetup α) (hsq : ∀ x, 0 ≤ s.sqrt x) (hz : 0 ≤ s.z) (hnum : 1 ≤ s.num)
    (R : DeltaRandom) (pb : Problem α) (X : Mat α) (Y : List α) (conf : α) (yres : Option Nat) (method : DeltaMethod)
    (hm : method ≠ .sobol) (r : DeltaResult α) (h : deltaAnalyze s R pb X Y conf yres (some method) = .ok r)
    (i : Nat) (hi : i < pb.numVars) (col : List α) (hc : Spec.IsColumn X i col)
    (hfew : Spec.FewOnASide col (max (X.length / 200) 10)) :
    Spec.entryAt r "delta_step" i = some none ∧ Spec.entryAt r "delta_step_conf" i = some none := by
  obtain ⟨-, -, -, ylo, yhi, -, -, failed, hfl, -, hall⟩ :=
    C103_delta s hsq hz hnum R pb X Y conf yres method hm r h _ rfl
  obtain ⟨name, col', lo, hi', row, -, g2, -, -, g5, -, g7⟩ := hall i _ (List.getElem?_eq_getElem (by omega))
  have hcc : col' = col := by
    have := (isColumn_column X i col' g2).symm.trans (isColumn_column X i col hc)
    exact Except.ok.inj this
  subst hcc
  rw [g5.step, g5.stepConf]
  generalize failed[i]'(by omega) = fl at g7
  cases g7 with
  | unbalanced h => exact ⟨rfl, rfl⟩
  | unstepped b bc w wc hb hw hf h => exact ⟨rfl, rfl⟩
  | done b bc w wc u uc hb hw hu =>
    rcases hu with ⟨-, rfl, rfl⟩ | ⟨hf, -⟩
    · exact ⟨rfl, rfl⟩
    · exact absurd hfew hf

/-- C103 fails for an input that never varies: all its entries are nan, the first-order index too (which the method
`sobol` reports, `C103_sobol`). -/
theorem C103_constant_input (s : DeltaSetup α) (hsq : ∀ x, 0 ≤ s.sqrt x) (hz : 0 ≤ s.z) (hnum : 1 ≤ s.num)
    (R : DeltaRandom) (pb : Problem α) (X : Mat α) (Y : List α) (conf : α) (yres : Option Nat)
    (r : DeltaResult α) (h : deltaAnalyze s R pb X Y conf yres (some .all) = .ok r)
    (i : Nat) (hi : i < pb.numVars) (col : List α) (hc : Spec.IsColumn X i col) (c : α) (hconst : ∀ x ∈ col, x = c) :
    (∀ key ∈ ["delta_balanced", "delta_balanced_conf", "delta_raw", "delta_raw_conf", "delta_step", "delta_step_conf",
      "S1", "S1_conf"], Spec.entryAt r key i = some none) ∧
    ∀ ns, r.notes = some ns → ns[i]? = some true := by
  obtain ⟨-, -, -, ylo, yhi, -, -, failed, hfl, hnotes, hall⟩ :=
    C103_delta s hsq hz hnum R pb X Y conf yres .all (by decide) r h _ rfl
  obtain ⟨name, col', lo, hi', row, -, g2, g3, g4, g5, g6, g7⟩ := hall i _ (List.getElem?_eq_getElem (by omega))
  have hcc : col' = col := by
    have := (isColumn_column X i col' g2).symm.trans (isColumn_column X i col hc)
    exact Except.ok.inj this
  subst hcc
  have hno : ∀ mode t rows, resampledSubset (R.subset i mode t) s.eps col' (yres.getD Y.length) mode
      (checkBinInfo s.eps (s.bins name) lo hi') (max (X.length / 200) 10) ≠ .ok rows := by
    intro mode t rows hr
    obtain ⟨mn, mx, h1, h2, hne, -⟩ := resampledSubset_ok hr
    exact hne ((hconst _ (arrMax_spec _ _ h2).1).trans (hconst _ (arrMin_spec _ _ h1).1).symm)
  have hfi : failed[i]? = some (failed[i]'(by omega)) := List.getElem?_eq_getElem (by omega)
  generalize failed[i]'(by omega) = fl at g7 hfi
  have g6 := g6 rfl
  cases g7 with
  | unbalanced h =>
    constructor
    · intro key hkey
      simp only [List.mem_cons, List.not_mem_nil, or_false] at hkey
      rcases hkey with rfl | rfl | rfl | rfl | rfl | rfl | rfl | rfl
      · exact g5.balanced
      · exact g5.balancedConf
      · exact g5.raw
      · exact g5.rawConf
      · exact g5.step
      · exact g5.stepConf
      · exact g6.s1
      · exact g6.s1Conf
    · intro ns hns
      rw [hnotes] at hns
      split at hns
      · cases hns
      · cases hns; exact hfi
  | unstepped b bc w wc hb hw hf h =>
    obtain ⟨ind, rs, h0, -⟩ := hb
    exact absurd h0 (hno _ _ _)
  | done b bc w wc u uc hb hw hu =>
    obtain ⟨ind, rs, h0, -⟩ := hb
    exact absurd h0 (hno _ _ _)

/-- C103 fails for outputs that never vary: SciPy's density estimate refuses them, and one input for which rows can be
drawn makes the methods `delta` and `all` end with `ValueError` (the method `sobol` reports zero). -/
theorem C103_constant_output (s : DeltaSetup α) (hk : ∀ data grid c, (∀ x ∈ data, x = c) → s.kde data grid = none)
    (R : DeltaRandom) (pb : Problem α) (X : Mat α) (Y : List α) (conf : α)
    (yres : Option Nat) (method : DeltaMethod) (hm : method ≠ .sobol) (y : Nat) (hy : y = yres.getD Y.length)
    (hf : Spec.FitsDelta pb X Y conf y) (c : α) (hY : ∀ x ∈ Y, x = c)
    (i : Nat) (hi : i < pb.numVars) (name : String) (hname : pb.names[i]? = some name) (col : List α)
    (hc : Spec.IsColumn X i col) (lo hi' : α) (hlo : arrMin col = .ok lo) (hhi : arrMax col = .ok hi')
    (ind : List Nat) (hlt : ∀ k ∈ ind, k < Y.length)
    (hdraw : resampledSubset (R.subset i .balanced 0) s.eps col y .balanced (checkBinInfo s.eps (s.bins name) lo hi')
      (max (X.length / 200) 10) = .ok ind) :
    deltaAnalyze s R pb X Y conf yres (some method) = .error .valueError := by
  obtain ⟨ylo, yhi, -, -, he⟩ := deltaAnalyze_fits s R pb X Y conf yres method y hy hf
  have hX : X ≠ [] := by
    intro hh
    have h1 := hf.few
    have h2 := hf.some
    have h3 := hf.rows
    rw [hh] at h3; simp at h3; omega
  rw [he, mapM_error_at _ _ .valueError i (List.mem_range.mpr hi)]
  · rfl
  · obtain ⟨name', col', lo', hi'', h1, h2, h3, h4, h5⟩ := deltaParam_fits s R method pb X Y (linspace ylo yhi 100)
        (linspace 0 (y : α) (s.classes y + 1)) y i hi hX hf.names hf.width
    cases hname.symm.trans h1
    have hcc : col' = col := Except.ok.inj ((isColumn_column X i col' h2).symm.trans (isColumn_column X i col hc))
    subst hcc
    cases hlo.symm.trans h3
    cases hhi.symm.trans h4
    rw [h5]
    have hlen : X.length = col'.length := hc.length_eq
    rw [hlen] at hdraw
    unfold deltaStages
    have hd : method.hasDelta = true := by cases method <;> first | rfl | exact absurd rfl hm
    rw [if_pos hd]
    have hfirst : modeDelta s.kde s.sqrt s.z s.eps (R.subset i .balanced) Y (linspace ylo yhi 100) col'
        (linspace 0 (y : α) (s.classes y + 1)) s.num y .balanced (checkBinInfo s.eps (s.bins name) lo hi')
        (minClass col'.length) = .error .abort := by
      unfold modeDelta minClass
      rw [hdraw]
      have : calcDelta s.kde (takeIdx Y ind) (linspace ylo yhi 100) (takeIdx col' ind)
          (linspace 0 (y : α) (s.classes y + 1)) = .error .valueError := by
        unfold calcDelta
        rw [hk _ _ c]
        · rfl
        · intro x hx
          unfold takeIdx at hx
          obtain ⟨k, hk', rfl⟩ := List.mem_map.mp hx
          have := hlt k hk'
          exact hY _ (by simp [List.getD, List.getElem?_eq_getElem this])
      simp only [orNote, orAbort, Except.mapError, this, bind, Except.bind]
    rw [hfirst]
    rfl
  · intro j hj
    obtain ⟨_, _, _, _, -, -, -, -, h5⟩ := deltaParam_fits s R method pb X Y (linspace ylo yhi 100)
        (linspace 0 (y : α) (s.classes y + 1)) y j (List.mem_range.mp hj) hX hf.names hf.width
    rw [h5]
    exact runStages_total _ _

/-- The samples of the examples fit. -/
theorem exDelta_fits : Spec.FitsDelta (⟨["a", "b", "c"], [], none, none, 3, false⟩ : Problem ℚ) exDeltaX exDeltaY (1 / 2) 24 :=
  ⟨by decide +kernel, by decide +kernel, by decide, by decide +kernel, by decide +kernel, by decide +kernel,
    by decide +kernel⟩

/-- The hypotheses of `C103_accepts`, with a density estimate that never fails. -/
example : ∃ r, deltaAnalyze { exDeltaSetup with kde := fun data grid => some (grid.map fun g =>
      ((data.filter fun d => decide (d ≤ g)).length : ℚ)) } exDeltaRandom ⟨["a", "b", "c"], [], none, none, 3, false⟩
    exDeltaX exDeltaY (1 / 2) none (some .all) = .ok r :=
  C103_accepts _ (fun _ _ => by simp) (fun x => abs_nonneg x) (by decide +kernel) (by decide +kernel) _ _ _ _ _ _ _ 24
    (by decide +kernel) exDelta_fits

/-- The hypotheses of `C103_few` and `C103_constant_input`: the second input is positive, the third constant. -/
example : Spec.FewOnASide (exDeltaX.map fun row => row.getD 1 0) (max (exDeltaX.length / 200) 10) ∧
    (∀ x ∈ exDeltaX.map (fun row => row.getD 2 0), x = 5) ∧
    (deltaAnalyze exDeltaSetup exDeltaRandom ⟨["a", "b", "c"], [], none, none, 3, false⟩ exDeltaX exDeltaY (1 / 2) none
      (some .all)).toOption.isSome = true :=
  ⟨.inl (by decide +kernel), by decide +kernel, by decide +kernel⟩

/-- The hypotheses of `C103_constant_output`: the rows of the first input can be drawn, and the analysis fails. -/
example : (resampledSubset (exDeltaRandom.subset 0 .balanced 0) exDeltaSetup.eps (exDeltaX.map fun row => row.getD 0 0) 24
      .balanced (checkBinInfo exDeltaSetup.eps (exDeltaSetup.bins "a") (-12) 11) 10).toOption.isSome = true ∧
    deltaAnalyze exDeltaSetup exDeltaRandom ⟨["a", "b", "c"], [], none, none, 3, false⟩ exDeltaX (List.replicate 24 7) (1 / 2)
      none (some .all) = .error .valueError ∧
    (deltaAnalyze exDeltaSetup exDeltaRandom ⟨["a", "b", "c"], [], none, none, 3, false⟩ exDeltaX (List.replicate 24 7)
      (1 / 2) none (some .sobol)).toOption.map (fun r => Spec.entryAt r "S1" 0) = some (some (some 0)) :=
  ⟨by decide +kernel, by decide +kernel, by decide +kernel⟩

/-- The hypotheses of `C103_local`: the same input alone and among others. -/
example : (deltaAnalyze exDeltaSetup exDeltaRandom ⟨["a"], [], none, none, 1, false⟩ exDeltaX exDeltaY (1 / 2) none
      (some .all)).toOption.map (fun r => Spec.entryAt r "delta_raw" 0) =
    (deltaAnalyze exDeltaSetup exDeltaRandom ⟨["a", "b", "c"], [], none, none, 3, false⟩ exDeltaX exDeltaY (1 / 2) none
      (some .all)).toOption.map (fun r => Spec.entryAt r "delta_raw" 0) := by decide +kernel

/-- The hypotheses of `C103_sobol`. -/
example (s : DeltaSetup ℝ) (hs : s.classes = deltaM) : ∃ r, deltaAnalyze s ⟨fun _ _ _ => ⟨fun _ l _ => l, fun _ _ => []⟩,
      fun _ => [0, 2, 2], fun _ => [[0, 1, 2]]⟩ (⟨["a", "b"], [], none, none, 2, false⟩ : Problem ℝ)
    [[1, 2], [3, 4], [5, 5]] [1, 2, 4] (1 / 2) none (some .sobol) = .ok r := by
  obtain ⟨r, hr, -⟩ := C103_sobol s hs ⟨fun _ _ _ => ⟨fun _ l _ => l, fun _ _ => []⟩,
      fun _ => [0, 2, 2], fun _ => [[0, 1, 2]]⟩ (⟨["a", "b"], [], none, none, 2, false⟩ : Problem ℝ)
    [[1, 2], [3, 4], [5, 5]] [1, 2, 4] (1 / 2) none 3 rfl
    ⟨rfl, by norm_num, by decide, by decide, le_refl _, by simp, by decide +kernel⟩ (fun _ => rfl) (by decide)
  exact ⟨r, hr⟩

/-- The hypotheses of `C103_errors`: a name that ends in `_raw`. -/
example : deltaAnalyze exDeltaSetup exDeltaRandom ⟨["a", "b_raw"], [], none, none, 2, false⟩ exDeltaX exDeltaY (1 / 2) none
    (some .all) = .error .valueError :=
  (C103_errors exDeltaSetup exDeltaRandom _ exDeltaX exDeltaY _ none (some .all)).2.2.2.2 .all 24 (by decide +kernel)
    (by decide +kernel) (by decide +kernel) rfl (by decide +kernel) (by decide +kernel)
    ⟨"b_raw", by simp, "_raw", by simp, by decide +kernel⟩

/-- No notes at all when every input fails. -/
example : (deltaAnalyze exDeltaSetup exDeltaRandom ⟨["k"], [], none, none, 1, false⟩ exDeltaX exDeltaY (1 / 2) none
      (some .all)).toOption.map (fun r => (r.notes, Spec.entryAt r "S1" 0)) = some (none, some none) := by decide +kernel

end SALib
