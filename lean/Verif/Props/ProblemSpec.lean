import Verif.Model.ProblemSpec
import Verif.Lemmas.ArraySplit
import Verif.Lemmas.ListAux

/-! # `ProblemSpec` as a state machine (C60-C63, C83-C85) -/

set_option linter.unusedSectionVars false

namespace SALib

variable {α β A : Type} [Inhabited β]

namespace Spec

/-- Samples and results, when both present, have the same number of rows. -/
def SameRows (s : SpecState α β A) : Prop :=
  ∀ X Y, s.samples = some X → s.results = some Y → Y.len = X.rows.length

/-- A model that returns one row for every row of its input. -/
def RowPreserving (func : Option (InArr α) → Py (OutArr β)) : Prop :=
  ∀ X Y, func (some X) = .ok Y → Y.len = X.rows.length

/-- Models given to `evaluate` return as many rows as they get. -/
def GoodOp : SpecOp α β A → Prop
  | .evaluate func => RowPreserving func
  | _ => True

/-- A model that treats every row on its own, with a number or a row of `w` numbers as result. -/
def RowWise (func : Option (InArr α) → Py (OutArr β)) : Prop :=
  (∃ g : List α → β, ∀ c rows, func (some { cols := c, rows := rows }) = .ok (.vec (rows.map g))) ∨
    ∃ (w : Nat) (g : List α → List β), ∀ c rows, func (some { cols := c, rows := rows }) = .ok (.mat w (rows.map g))

/-- Declared outputs fit the results. -/
def OutputsFit (s : SpecState α β A) : Prop :=
  ∀ Y, s.results = some Y → ∃ o, s.outputs = some o ∧ o.length = Y.numCols

/-- `Y`, or `Y1 … Yn`. -/
def DefaultNames (o : List String) : Prop :=
  o = ["Y"] ∨ (o.length ≠ 1 ∧ ∀ (i : Nat), i < o.length → o[i]? = some ("Y" ++ toString (i + 1)))

/-- The analyser of an operation, and whether it gets the samples. -/
def analyserOf : SpecOp α β A → Option (Bool × (Option (InArr α) → OutArr β → Py A))
  | .analyze w f => some (w, f)
  | .analyzeParallel w f => some (w, f)
  | _ => none

/-- The analysis `a` consists of results of `func` for the samples `X` and the results `Y`. -/
def ComputedBy (w : Bool) (func : Option (InArr α) → OutArr β → Py A) (X : Option (InArr α)) (Y : OutArr β)
    (outs : Option (List String)) : SpecAnalysis A → Prop
  | .single v => func (if w then X else none) Y = .ok v
  | .byOutput d => ∀ e ∈ d, ∃ (i : Nat) (y : OutArr β), (outs.getD [])[i]? = some e.1 ∧ Y.column i = .ok y ∧
      func (if w then X else none) y = .ok e.2

/-- The analysis held was computed, by one of the analysers called, from the samples and results held. -/
def Current (s : SpecState α β A) (ops : List (SpecOp α β A)) : Prop :=
  ∀ a, s.analysis = some a → ∃ op ∈ ops, ∃ w f Y, analyserOf op = some (w, f) ∧ s.results = some Y ∧
    ComputedBy w f s.samples Y s.outputs a

/-- Operations that replace samples or results without a new sample. -/
def Replaces : SpecOp α β A → Prop
  | .setSamples _ | .setResults _ | .evaluate _ | .evaluateParallel _ _ _ _ _
    | .evaluateDistributed _ _ _ _ _ _ => True
  | _ => False

/-- Samples and results are replaced only while there is no analysis. -/
def Disciplined (s : SpecState α β A) : List (SpecOp α β A) → Prop
  | [] => True
  | op :: ops => (Replaces op → s.analysis = none) ∧ Disciplined (specStep s op).1 ops

end Spec

open Spec

/-! ### The setters -/

theorem mapM_ok_getElem {γ δ : Type} (f : γ → Py δ) (l : List γ) (r : List δ) (h : l.mapM f = .ok r) (i : Nat)
    (hi : i < l.length) (hi' : i < r.length) : f l[i] = .ok r[i] := by
  rw [mapM_ok_iff] at h
  exact (List.forall₂_iff_get.mp h).2 i hi hi'

theorem setResultsProp_samples (s : SpecState α β A) (Y : OutArr β) : (setResultsProp s Y).1.samples = s.samples ∧
    (setResultsProp s Y).1.analysis = s.analysis ∧ (setResultsProp s Y).1.numVars = s.numVars := by
  unfold setResultsProp
  split
  · exact ⟨rfl, rfl, rfl⟩
  · split <;> exact ⟨rfl, rfl, rfl⟩

theorem setResultsProp_results (s : SpecState α β A) (Y : OutArr β) :
    (setResultsProp s Y).1.results = s.results ∨ (setResultsProp s Y).1.results = some Y := by
  unfold setResultsProp
  split
  · exact Or.inr rfl
  · split
    · exact Or.inl rfl
    · exact Or.inr rfl

theorem assignOutcome_samples (s : SpecState α β A) (r : Py (OutArr β)) : (assignOutcome s r).1.samples = s.samples ∧
    (assignOutcome s r).1.analysis = s.analysis := by
  unfold assignOutcome
  split
  · exact ⟨rfl, rfl⟩
  · exact ⟨(setResultsProp_samples s _).1, (setResultsProp_samples s _).2.1⟩

theorem assignOutcome_results (s : SpecState α β A) (r : Py (OutArr β)) :
    (assignOutcome s r).1.results = s.results ∨ ∃ Y, r = .ok Y ∧ (assignOutcome s r).1.results = some Y := by
  unfold assignOutcome
  split
  · exact Or.inl rfl
  · rename_i Y
    rcases setResultsProp_results s Y with h | h
    · exact Or.inl h
    · exact Or.inr ⟨Y, rfl, h⟩

theorem analyze_keeps (s : SpecState α β A) (w : Bool) (f : Option (InArr α) → OutArr β → Py A) :
    ((specAnalyze s w f).1.samples = s.samples ∧ (specAnalyze s w f).1.results = s.results) ∧
      (specAnalyzeParallel s w f).1.samples = s.samples ∧ (specAnalyzeParallel s w f).1.results = s.results := by
  constructor
  · unfold specAnalyze
    split
    · exact ⟨rfl, rfl⟩
    · split
      · exact ⟨rfl, rfl⟩
      · rename_i Y hY
        simp only []
        split
        · exact ⟨rfl, hY.symm ▸ rfl⟩
        · split <;> exact ⟨rfl, rfl⟩
  · unfold specAnalyzeParallel
    split
    · exact ⟨rfl, rfl⟩
    · simp only []
      split
      · split <;> exact ⟨rfl, rfl⟩
      · split
        · exact ⟨rfl, rfl⟩
        · split <;> exact ⟨rfl, rfl⟩

/-! ### Parallel evaluation -/

theorem assignSlice_length {γ : Type} (l : List γ) (i : Nat) (r l' : List γ) (h : assignSlice l i r = .ok l') :
    l'.length = l.length := by
  unfold assignSlice at h
  simp only [] at h
  split at h
  · rename_i hw
    cases h
    simp only [List.length_append, List.length_take, List.length_drop]
    omega
  · split at h
    · cases h; rfl
    · cases h

theorem collectLoop_length {γ : Type} (init : List γ) (res : List (List γ)) (r : List γ × Nat)
    (h : collectLoop init res = .ok r) : r.1.length = init.length := by
  unfold collectLoop at h
  have : ∀ (res : List (List γ)) (st : List γ × Nat) (r : List γ × Nat),
      res.foldlM (fun st r => do
        let l ← assignSlice st.1 st.2 r
        return (l, st.2 + r.length)) st = (Except.ok r : Py _) → r.1.length = st.1.length := by
    intro res
    induction res with
    | nil => intro st r h; cases h; rfl
    | cons x xs ih =>
      intro st r h
      rw [List.foldlM_cons] at h
      cases hs : assignSlice st.1 st.2 x with
      | error e => rw [hs] at h; cases h
      | ok l =>
        rw [hs] at h
        simp only [pyBind_ok, pyPure] at h
        rw [ih _ _ h]
        exact assignSlice_length _ _ _ _ hs
  exact this res (init, 0) r h

theorem collectResults_len (n : Nat) (junk : β) (res : List (OutArr β)) (Y : OutArr β)
    (h : collectResults n junk res = .ok Y) : Y.len = n := by
  unfold collectResults at h
  split at h
  · cases h
  · rename_i v rest
    cases hp : (OutArr.vec v :: rest).mapM asVec with
    | error e => rw [hp] at h; cases h
    | ok parts =>
      rw [hp, pyBind_ok] at h
      cases hc : collectLoop (List.replicate n junk) parts with
      | error e => rw [hc] at h; cases h
      | ok r =>
        rw [hc] at h
        simp only [pyBind_ok, pyPure] at h
        cases h
        have := collectLoop_length _ _ _ hc
        simpa [OutArr.len] using this
  · rename_i w rows rest
    cases hp : (OutArr.mat w rows :: rest).mapM (asRows w) with
    | error e => rw [hp] at h; cases h
    | ok parts =>
      rw [hp, pyBind_ok] at h
      cases hc : collectLoop (List.replicate n (List.replicate w junk)) parts with
      | error e => rw [hc] at h; cases h
      | ok r =>
        rw [hc] at h
        simp only [pyBind_ok, pyPure] at h
        cases h
        have := collectLoop_length _ _ _ hc
        simpa [OutArr.len] using this

theorem parallelResults_len (X : InArr α) (pt : Bool) (n : Nat) (junk : β) (func : Option (InArr α) → Py (OutArr β))
    (Y : OutArr β) (h : parallelResults X pt n junk func = .ok Y) : Y.len = X.rows.length := by
  unfold parallelResults at h
  split at h
  · cases h
  · split at h
    · cases h
    · cases hm : (arraySplit X.rows n).mapM fun rows => func (some { cols := X.cols, rows := rows }) with
      | error e => rw [hm] at h; cases h
      | ok res =>
        rw [hm, pyBind_ok] at h
        exact collectResults_len _ _ _ _ h

theorem distributedResults_len (X : InArr α) (n : Nat) (sv : Option (List String)) (junk : β)
    (func : List α → Option (InArr α) → Py (OutArr β)) (Y : OutArr β)
    (h : distributedResults (some X) n sv junk func = .ok Y) : Y.len = X.rows.length := by
  cases sv with
  | none => cases h
  | some sv =>
    simp only [distributedResults] at h
    split at h
    · cases h
    · cases hm : (arraySplit X.rows (n * sv.length)).mapM fun rows =>
          wrapFunc func [] (some { cols := X.cols, rows := rows }) with
      | error e => rw [hm] at h; cases h
      | ok res =>
        rw [hm, pyBind_ok] at h
        exact collectResults_len _ _ _ _ h

theorem collectLoop_ok {γ : Type} (init : List γ) (res : List (List γ)) (h : res.flatten.length = init.length) :
    collectLoop init res = .ok (res.flatten, init.length) := by
  have : ∀ (res : List (List γ)) (done rest : List γ), res.flatten.length = rest.length →
      res.foldlM (fun (st : List γ × Nat) r => do
        let l ← assignSlice st.1 st.2 r
        return (l, st.2 + r.length)) (done ++ rest, done.length) =
      (Except.ok (done ++ res.flatten, done.length + rest.length) : Py _) := by
    intro res
    induction res with
    | nil =>
      intro done rest h
      have : rest = [] := by
        simp at h
        exact List.eq_nil_of_length_eq_zero h.symm
      subst this
      simp [pyPure]
    | cons x xs ih =>
      intro done rest h
      rw [List.flatten_cons, List.length_append] at h
      have hs : assignSlice (done ++ rest) done.length x = .ok ((done ++ x) ++ rest.drop x.length) := by
        unfold assignSlice
        simp only [List.length_append]
        rw [if_pos (by omega)]
        congr 1
        rw [List.take_left, List.drop_length_add_append]
      rw [List.foldlM_cons, hs, pyBind_ok, pyPure, pyBind_ok]
      simp only []
      have hlen : (done ++ x).length = done.length + x.length := List.length_append
      rw [← hlen, ih (done ++ x) (rest.drop x.length) (by rw [List.length_drop]; omega)]
      congr 1
      rw [List.flatten_cons, List.append_assoc, hlen, List.length_drop]
      congr 1
      omega
  have := this res [] init h
  unfold collectLoop
  simpa using this

/-- The parts of a row-wise model's results together are its results for all rows. -/
theorem parallelResults_rowWise (X : InArr α) (n : Nat) (junk : β) (func : Option (InArr α) → Py (OutArr β))
    (hrow : RowWise func) (hp : 0 < n) : parallelResults X false n junk func = func (some X) := by
  have hfl := arraySplit_flatten X.rows n hp
  have hlen := length_arraySplit X.rows n
  have hne : arraySplit X.rows n ≠ [] := by
    intro e
    rw [e] at hlen
    simp at hlen
    omega
  unfold parallelResults
  rw [if_neg (by omega), if_neg (by simp)]
  generalize arraySplit X.rows (n) = L at hfl hne
  have hflm : ∀ {γ : Type} (g : List α → γ), (L.map fun rows => rows.map g).flatten = X.rows.map g := by
    intro γ g
    rw [← hfl, List.map_flatten]
  rcases hrow with ⟨g, hg⟩ | ⟨w, g, hg⟩
  · rw [mapM_ok_of _ (fun rows => OutArr.vec (rows.map g)) L fun rows _ => hg X.cols rows, pyBind_ok,
      show func (some X) = .ok (.vec (X.rows.map g)) from hg X.cols X.rows]
    cases L with
    | nil => exact absurd rfl hne
    | cons l ls =>
      rw [List.map_cons]
      unfold collectResults
      simp only []
      rw [← List.map_cons (f := fun rows : List (List α) => OutArr.vec (List.map g rows))]
      have hm : ((l :: ls).map fun rows => OutArr.vec (List.map g rows)).mapM asVec =
          (Except.ok ((l :: ls).map fun rows => rows.map g) : Py _) := by
        rw [List.mapM_map]
        exact mapM_ok_of _ _ _ fun rows _ => rfl
      rw [hm, pyBind_ok, collectLoop_ok _ _ (by rw [hflm]; simp), pyBind_ok, pyPure, hflm]
  · rw [mapM_ok_of _ (fun rows => OutArr.mat w (rows.map g)) L fun rows _ => hg X.cols rows, pyBind_ok,
      show func (some X) = .ok (.mat w (X.rows.map g)) from hg X.cols X.rows]
    cases L with
    | nil => exact absurd rfl hne
    | cons l ls =>
      rw [List.map_cons]
      unfold collectResults
      simp only []
      rw [← List.map_cons (f := fun rows : List (List α) => OutArr.mat w (List.map g rows))]
      have hm : ((l :: ls).map fun rows => OutArr.mat w (List.map g rows)).mapM (asRows w) =
          (Except.ok ((l :: ls).map fun rows => rows.map g) : Py _) := by
        rw [List.mapM_map]
        refine mapM_ok_of _ _ _ fun rows _ => ?_
        simp [asRows]
      rw [hm, pyBind_ok, collectLoop_ok _ _ (by rw [hflm]; simp), pyBind_ok, pyPure, hflm]

/-- **C62**: with at least one processor (and without `p_tqdm`), parallel evaluation of a row-wise model leaves the
object exactly as sequential evaluation does; the parts are consecutive rows, and together all rows. -/
theorem C62_parallel (s : SpecState α β A) (X : InArr α) (nprocs : Option Nat) (maxProcs : Nat) (junk : β)
    (func : Option (InArr α) → Py (OutArr β)) (hX : s.samples = some X) (hrow : RowWise func)
    (hp : 0 < effProcs nprocs maxProcs) :
    specEvaluateParallel s false nprocs maxProcs junk func = specEvaluate s func ∧
      (arraySplit X.rows (effProcs nprocs maxProcs)).flatten = X.rows := by
  refine ⟨?_, arraySplit_flatten X.rows (effProcs nprocs maxProcs) hp⟩
  unfold specEvaluateParallel specEvaluate
  rw [hX]
  simp only []
  rw [parallelResults_rowWise X _ junk func hrow hp]

/-- With `p_tqdm` installed parallel evaluation always raises `TypeError`. -/
theorem C62_ptqdm_fail (s : SpecState α β A) (X : InArr α) (nprocs : Option Nat) (maxProcs : Nat) (junk : β)
    (func : Option (InArr α) → Py (OutArr β)) (hX : s.samples = some X) (hp : 0 < effProcs nprocs maxProcs) :
    specEvaluateParallel s true nprocs maxProcs junk func = (s, .error .typeError) := by
  unfold specEvaluateParallel
  rw [hX]
  simp only [parallelResults]
  rw [if_neg (by omega)]
  rfl

/-- Five rows on two of four processors. -/
example : (specEvaluateParallel ({ names := ["a"], numVars := 1, groups := ["a"], outputs := none
                                   samples := some ⟨1, [[1], [2], [3], [4], [5]]⟩ } : SpecState Nat Nat Nat) false (some 2) 4 99
      (fun X => .ok (.vec ((X.map InArr.rows).getD [] |>.map fun r => 10 * r.getD 0 0)))).1.results =
    some (.vec [10, 20, 30, 40, 50]) := by
  decide +kernel

/-! ### C60 -/

theorem sameRows_step (s : SpecState α β A) (op : SpecOp α β A) (h : SameRows s) (hop : GoodOp op) :
    SameRows (specStep s op).1 := by
  have keep : ∀ s' : SpecState α β A, s'.samples = s.samples → s'.results = s.results → SameRows s' := by
    intro s' h1 h2 X Y hX hY
    exact h X Y (h1 ▸ hX) (h2 ▸ hY)
  cases op with
  | sample func eff =>
    intro X Y _ hY
    simp only [specStep, specSample] at hY
    split at hY <;> simp at hY
  | setSamples X =>
    simp only [specStep, setSamplesProp]
    split
    · exact h
    · intro X' Y _ hY
      simp at hY
  | setResults Y =>
    simp only [specStep, specSetResults]
    split
    · rename_i hs
      intro X' Y' hX' _
      rw [(setResultsProp_samples s Y).1, hs] at hX'
      cases hX'
    · rename_i X hs
      split
      · exact h
      · rename_i hlen
        intro X' Y' hX' hY'
        rw [(setResultsProp_samples s Y).1, hs] at hX'
        cases hX'
        rcases setResultsProp_results s Y with e | e
        · rw [e] at hY'; exact h X Y' hs hY'
        · rw [e] at hY'; cases hY'
          exact (not_not.mp hlen).symm
  | evaluate func =>
    simp only [specStep, specEvaluate]
    intro X' Y' hX' hY'
    rw [(assignOutcome_samples s _).1] at hX'
    rcases assignOutcome_results s (func s.samples) with e | ⟨Y, hok, e⟩
    · rw [e] at hY'; exact h X' Y' hX' hY'
    · rw [e] at hY'; cases hY'
      rw [hX'] at hok
      exact hop X' _ hok
  | evaluateParallel pt nprocs maxProcs junk func =>
    simp only [specStep, specEvaluateParallel]
    split
    · exact h
    · rename_i X hs
      intro X' Y' hX' hY'
      rw [(assignOutcome_samples s _).1, hs] at hX'
      cases hX'
      rcases assignOutcome_results s (parallelResults X pt (effProcs nprocs maxProcs) junk func) with e | ⟨Y, hok, e⟩
      · rw [e] at hY'; exact h X Y' hs hY'
      · rw [e] at hY'; cases hY'
        exact parallelResults_len _ _ _ _ _ _ hok
  | evaluateDistributed pathos nprocs servers junk func args =>
    simp only [specStep, specEvaluateDistributed]
    split
    · exact h
    · intro X' Y' hX' hY'
      rw [(assignOutcome_samples s _).1] at hX'
      rcases assignOutcome_results s (distributedResults s.samples nprocs servers junk func) with e | ⟨Y, hok, e⟩
      · rw [e] at hY'; exact h X' Y' hX' hY'
      · rw [e] at hY'; cases hY'
        rw [hX'] at hok
        exact distributedResults_len _ _ _ _ _ _ hok
  | analyze w f => exact keep _ (analyze_keeps s w f).1.1 (analyze_keeps s w f).1.2
  | analyzeParallel w f => exact keep _ (analyze_keeps s w f).2.1 (analyze_keeps s w f).2.2

theorem specInit_fresh (names : Option (List String)) (bounds : Option (List (List α))) (groups outputs : Option (List String))
    (s : SpecState α β A) (h : specInit names bounds groups outputs = .ok s) :
    s.samples = none ∧ s.results = none ∧ s.analysis = none ∧ s.outputs = outputs := by
  unfold specInit at h
  split at h
  · cases h
  · cases h
  · split at h
    · cases h
    · split at h
      · cases h; exact ⟨rfl, rfl, rfl, rfl⟩
      · cases h; exact ⟨rfl, rfl, rfl, rfl⟩
      · split at h
        · cases h
        · cases h; exact ⟨rfl, rfl, rfl, rfl⟩

/-- **C60**, for models that return one row for every row they get: whatever is called in whatever order, with or
without exceptions, samples and results fit together; and `sample` removes results and analysis even when it raises. -/
theorem C60_rows_partial (names : Option (List String)) (bounds : Option (List (List α)))
    (groups outputs : Option (List String)) (s : SpecState α β A) (h : specInit names bounds groups outputs = .ok s)
    (ops : List (SpecOp α β A)) (hops : ∀ op ∈ ops, GoodOp op) : SameRows (specRun s ops) := by
  have h0 : SameRows s := by
    intro X Y hX
    rw [(specInit_fresh names bounds groups outputs s h).1] at hX
    cases hX
  clear h
  unfold specRun
  induction ops generalizing s with
  | nil => exact h0
  | cons op ops ih =>
    rw [List.foldl_cons]
    exact ih _ (fun op' hop' => hops op' (by simp [hop'])) (sameRows_step s op h0 (hops op (by simp)))

theorem C60_sample_clears (s : SpecState α β A) (func : SpecState α β A → Py (InArr α)) (eff : Nat → Nat) :
    (specStep s (.sample func eff)).1.results = none ∧ (specStep s (.sample func eff)).1.analysis = none := by
  simp only [specStep, specSample]
  split <;> exact ⟨rfl, rfl⟩

/-- **C60 fails** without that condition: `evaluate` accepts results with any number of rows. -/
theorem C60_evaluate_fail (s : SpecState α β A) (X : InArr α) (v : List β) (hX : s.samples = some X)
    (ho : s.outputs = none) (hv : v.length ≠ X.rows.length) :
    (specStep s (.evaluate fun _ => .ok (.vec v))).2 = .ok () ∧ ¬SameRows (specStep s (.evaluate fun _ => .ok (.vec v))).1 := by
  have e : specStep s (.evaluate fun _ => .ok (.vec v)) =
      ({ s with outputs := some (defaultOutputs 1), results := some (.vec v) }, .ok ()) := by
    simp only [specStep, specEvaluate, assignOutcome, setResultsProp, ho]
    rfl
  rw [e]
  refine ⟨rfl, ?_⟩
  intro h
  exact hv (h X (.vec v) hX rfl)

example : SameRows (specRun ({ names := ["a", "b"], numVars := 2, groups := ["a", "b"], outputs := none } :
      SpecState Nat Nat Nat)
    [.setResults (.vec [1]), .sample (fun _ => .ok ⟨2, [[1, 2], [3, 4], [5, 6]]⟩) id,
      .setResults (.vec [1, 2]), .evaluate (fun X => .ok (.vec (((X.map InArr.rows).getD []).map fun r => r.getD 0 0)))]) ∧
    (specRun ({ names := ["a", "b"], numVars := 2, groups := ["a", "b"], outputs := none } : SpecState Nat Nat Nat)
    [.setResults (.vec [1]), .sample (fun _ => .ok ⟨2, [[1, 2], [3, 4], [5, 6]]⟩) id,
      .setResults (.vec [1, 2]), .evaluate (fun X => .ok (.vec (((X.map InArr.rows).getD []).map fun r => r.getD 0 0)))]).results
      = some (.vec [1, 3, 5]) := by
  constructor
  · refine C60_rows_partial (some ["a", "b"]) (some [[0, 1], [0, 1]]) none none _ rfl _ ?_
    intro op hop
    simp only [List.mem_cons, List.not_mem_nil, or_false] at hop
    rcases hop with rfl | rfl | rfl | rfl <;> try trivial
    intro X Y hY
    cases hY
    simp [OutArr.len]
  · decide +kernel

/-! ### C61 -/

theorem dictSet_mem {γ : Type} (d : List (String × γ)) (k : String) (v : γ) (e : String × γ) (he : e ∈ dictSet d k v) :
    e ∈ d ∨ e = (k, v) := by
  unfold dictSet at he
  split at he
  · obtain ⟨x, hx, rfl⟩ := List.mem_map.mp he
    split
    · exact Or.inr rfl
    · exact Or.inl hx
  · rcases List.mem_append.mp he with h | h
    · exact Or.inl h
    · exact Or.inr (by simpa using h)

theorem analyzeLoop_mem (f : OutArr β → Py A) (Y : OutArr β) (outs : List String) :
    ∀ (l : List (String × Nat)) (d : List (String × A)), (∀ p ∈ l, outs[p.2]? = some p.1) →
      (∀ e ∈ d, ∃ (i : Nat) (y : OutArr β), outs[i]? = some e.1 ∧ Y.column i = .ok y ∧ f y = .ok e.2) →
      ∀ e ∈ (analyzeLoop f Y l d).1, ∃ (i : Nat) (y : OutArr β), outs[i]? = some e.1 ∧ Y.column i = .ok y ∧ f y = .ok e.2 := by
  intro l
  induction l with
  | nil => intro d _ hd; exact hd
  | cons p l ih =>
    intro d hl hd
    obtain ⟨out, i⟩ := p
    unfold analyzeLoop
    split
    · exact hd
    · rename_i y hy
      split
      · exact hd
      · rename_i a ha
        apply ih
        · intro p hp; exact hl p (by simp [hp])
        · intro e he
          rcases dictSet_mem d out a e he with h | h
          · exact hd e h
          · subst h
            exact ⟨i, y, hl (out, i) (by simp), hy, ha⟩

theorem foldl_dictSet_mem {γ : Type} (l : List (String × γ)) :
    ∀ (d : List (String × γ)), ∀ e ∈ l.foldl (fun d e => dictSet d e.1 e.2) d, e ∈ d ∨ e ∈ l := by
  induction l with
  | nil => intro d e he; exact Or.inl he
  | cons x l ih =>
    intro d e he
    rw [List.foldl_cons] at he
    rcases ih _ e he with h | h
    · rcases dictSet_mem _ _ _ _ h with h | h
      · exact Or.inl h
      · exact Or.inr (by rw [h]; simp)
    · exact Or.inr (by simp [h])

theorem analyze_current (s : SpecState α β A) (w : Bool) (f : Option (InArr α) → OutArr β → Py A) (a : SpecAnalysis A)
    (ha : (specAnalyze s w f).1.analysis = some a) :
    ((specAnalyze s w f).1.analysis = s.analysis ∧
        (s.analysis = some a → s.outputs ≠ none → (specAnalyze s w f).1.outputs = s.outputs)) ∨
      ∃ Y, s.results = some Y ∧ ComputedBy w f s.samples Y (specAnalyze s w f).1.outputs a := by
  unfold specAnalyze at ha ⊢
  split at ha
  · rename_i hc
    rw [if_pos hc]
    exact Or.inl ⟨rfl, fun _ _ => rfl⟩
  · rename_i hc
    rw [if_neg hc]
    cases hr : s.results with
    | none => exact Or.inl ⟨rfl, fun _ _ => rfl⟩
    | some Y =>
      rw [hr] at ha
      simp only [] at ha ⊢
      have houts : s.outputs ≠ none → some (analyzeOutputs s Y) = s.outputs := by
        intro hn
        unfold analyzeOutputs
        cases ho : s.outputs with
        | none => exact absurd ho hn
        | some o => rfl
      by_cases hl : (analyzeOutputs s Y).length > 1
      · rw [if_pos hl] at ha ⊢
        right
        refine ⟨Y, rfl, ?_⟩
        simp only [Option.some.injEq] at ha
        subst ha
        simp only [ComputedBy, Option.getD_some]
        apply analyzeLoop_mem
        · intro p hp
          obtain ⟨x, i⟩ := p
          have := List.mem_zipIdx hp
          simp at this
          rw [List.getElem?_eq_getElem this.1]
          simp [this.2]
        · simp
      · rw [if_neg hl] at ha ⊢
        cases hf : f (if w then s.samples else none) Y with
        | error e =>
          left
          exact ⟨rfl, fun _ hn => houts hn⟩
        | ok v =>
          right
          rw [hf] at ha
          simp only [Option.some.injEq] at ha
          subst ha
          exact ⟨Y, rfl, hf⟩

theorem analyzeParallel_current (s : SpecState α β A) (w : Bool) (f : Option (InArr α) → OutArr β → Py A)
    (a : SpecAnalysis A) (ha : (specAnalyzeParallel s w f).1.analysis = some a) :
    ((specAnalyzeParallel s w f).1.analysis = s.analysis ∧
        (s.analysis = some a → s.outputs ≠ none → (specAnalyzeParallel s w f).1.outputs = s.outputs)) ∨
      ∃ Y, s.results = some Y ∧ ComputedBy w f s.samples Y (specAnalyzeParallel s w f).1.outputs a := by
  unfold specAnalyzeParallel at ha ⊢
  cases hr : s.results with
  | none => exact Or.inl ⟨rfl, fun _ _ => rfl⟩
  | some Y =>
    rw [hr] at ha
    simp only [] at ha ⊢
    have houts : s.outputs ≠ none → some (analyzeOutputs s Y) = s.outputs := by
      intro hn
      unfold analyzeOutputs
      cases ho : s.outputs with
      | none => exact absurd ho hn
      | some o => rfl
    by_cases hl : (analyzeOutputs s Y).length = 1
    · rw [if_pos hl] at ha ⊢
      cases hf : f (if w then s.samples else none) Y with
      | error e =>
        left
        exact ⟨rfl, fun _ hn => houts hn⟩
      | ok v =>
        right
        rw [hf] at ha
        simp only [Option.some.injEq] at ha
        subst ha
        exact ⟨Y, rfl, hf⟩
    · rw [if_neg hl] at ha ⊢
      by_cases hl0 : (analyzeOutputs s Y).length = 0
      · rw [if_pos hl0] at ha ⊢
        left
        exact ⟨rfl, fun _ hn => houts hn⟩
      · rw [if_neg hl0] at ha ⊢
        cases hm : (List.range (analyzeOutputs s Y).length).mapM (fun i => do
            f (if w then s.samples else none) (← Y.column i)) with
        | error e =>
          left
          exact ⟨rfl, fun _ hn => houts hn⟩
        | ok res =>
          right
          rw [hm] at ha
          simp only [Option.some.injEq] at ha
          subst ha
          refine ⟨Y, rfl, ?_⟩
          simp only [ComputedBy, Option.getD_some]
          intro e he
          rcases foldl_dictSet_mem _ _ e he with h | h
          · simp at h
          · obtain ⟨i, hi, he'⟩ := List.mem_iff_getElem.mp h
            rw [List.getElem_zip] at he'
            have hi' : i < (analyzeOutputs s Y).length ∧ i < res.length := by
              rw [List.length_zip] at hi; omega
            have hok := mapM_ok_getElem _ _ _ hm i (by simpa using hi'.1) hi'.2
            simp only [List.getElem_range] at hok
            cases hcol : Y.column i with
            | error e2 => rw [hcol] at hok; cases hok
            | ok y =>
              rw [hcol, pyBind_ok] at hok
              refine ⟨i, y, ?_, hcol, ?_⟩
              · rw [List.getElem?_eq_getElem hi'.1, ← he']
              · rw [hok, ← he']

/-- The state part of `Current` for one step. -/
theorem current_step (s : SpecState α β A) (op : SpecOp α β A) (done : List (SpecOp α β A)) (h : Current s done)
    (hfit : OutputsFit s) (hd : Replaces op → s.analysis = none) : Current (specStep s op).1 (done ++ [op]) := by
  have keep : ∀ s' : SpecState α β A, s'.analysis = none → Current s' (done ++ [op]) := by
    intro s' h1 a ha
    rw [h1] at ha
    cases ha
  have grow : ∀ s' : SpecState α β A, s'.samples = s.samples → s'.results = s.results →
      ∀ a, s'.analysis = some a → s'.analysis = s.analysis ∧ (s.analysis = some a → s.outputs ≠ none → s'.outputs = s.outputs) →
      ∃ op' ∈ done ++ [op], ∃ w f Y, analyserOf op' = some (w, f) ∧ s'.results = some Y ∧
        ComputedBy w f s'.samples Y s'.outputs a := by
    intro s' h1 h2 a ha h3
    have ha' : s.analysis = some a := by rw [← h3.1, ha]
    obtain ⟨op', hop', w, f, Y, e1, e2, e3⟩ := h a ha'
    obtain ⟨o, ho, _⟩ := hfit Y e2
    refine ⟨op', by simp [hop'], w, f, Y, e1, by rw [h2, e2], ?_⟩
    rw [h1, h3.2 ha' (by rw [ho]; simp)]
    exact e3
  cases op with
  | sample func eff => exact keep _ (by simp only [specStep, specSample]; split <;> rfl)
  | setSamples X =>
    refine keep _ ?_
    simp only [specStep, setSamplesProp]
    split <;> exact hd trivial
  | setResults Y =>
    refine keep _ ?_
    simp only [specStep, specSetResults]
    split
    · rw [(setResultsProp_samples s Y).2.1]; exact hd trivial
    · split
      · exact hd trivial
      · rw [(setResultsProp_samples s Y).2.1]; exact hd trivial
  | evaluate func =>
    refine keep _ ?_
    simp only [specStep, specEvaluate]
    rw [(assignOutcome_samples s _).2]; exact hd trivial
  | evaluateParallel pt nprocs maxProcs junk func =>
    refine keep _ ?_
    simp only [specStep, specEvaluateParallel]
    split
    · exact hd trivial
    · rw [(assignOutcome_samples s _).2]; exact hd trivial
  | evaluateDistributed pathos nprocs servers junk func args =>
    refine keep _ ?_
    simp only [specStep, specEvaluateDistributed]
    split
    · exact hd trivial
    · rw [(assignOutcome_samples s _).2]; exact hd trivial
  | analyze w f =>
    intro a ha
    simp only [specStep] at ha ⊢
    have hk := analyze_keeps s w f
    rcases analyze_current s w f a ha with h1 | ⟨Y, hY, hC⟩
    · exact grow _ hk.1.1 hk.1.2 a ha h1
    · exact ⟨.analyze w f, by simp, w, f, Y, rfl, by rw [hk.1.2, hY], by rw [hk.1.1]; exact hC⟩
  | analyzeParallel w f =>
    intro a ha
    simp only [specStep] at ha ⊢
    have hk := analyze_keeps s w f
    rcases analyzeParallel_current s w f a ha with h1 | ⟨Y, hY, hC⟩
    · exact grow _ hk.2.1 hk.2.2 a ha h1
    · exact ⟨.analyzeParallel w f, by simp, w, f, Y, rfl, by rw [hk.2.2, hY], by rw [hk.2.1]; exact hC⟩

/-! ### C63 -/

theorem defaultOutputs_length (c : Nat) : (defaultOutputs c).length = c := by
  unfold defaultOutputs
  split
  · rename_i h; simp [h]
  · simp

theorem defaultOutputs_names (c : Nat) : DefaultNames (defaultOutputs c) := by
  unfold defaultOutputs
  split
  · exact Or.inl rfl
  · rename_i h
    right
    refine ⟨by simpa using h, ?_⟩
    intro i hi
    simp only [List.length_map, List.length_range] at hi
    rw [List.getElem?_map, List.getElem?_range hi]
    rfl

theorem setResultsProp_fit (s : SpecState α β A) (Y : OutArr β) (h : OutputsFit s) : OutputsFit (setResultsProp s Y).1 := by
  unfold setResultsProp
  split
  · intro Y' hY'
    simp only [Option.some.injEq] at hY'
    subst hY'
    exact ⟨_, rfl, defaultOutputs_length _⟩
  · rename_i outs ho
    split
    · exact h
    · rename_i hl
      intro Y' hY'
      simp only [Option.some.injEq] at hY'
      subst hY'
      exact ⟨outs, ho, (not_not.mp hl).symm⟩

theorem setResultsProp_outputs (s : SpecState α β A) (Y : OutArr β) :
    (setResultsProp s Y).1.outputs = s.outputs ∨
      (s.outputs = none ∧ ∃ c, (setResultsProp s Y).1.outputs = some (defaultOutputs c)) := by
  unfold setResultsProp
  split
  · rename_i h; exact Or.inr ⟨h, _, rfl⟩
  · split <;> exact Or.inl rfl

theorem assignOutcome_fit (s : SpecState α β A) (r : Py (OutArr β)) (h : OutputsFit s) : OutputsFit (assignOutcome s r).1 := by
  unfold assignOutcome
  split
  · exact h
  · exact setResultsProp_fit s _ h

theorem assignOutcome_outputs (s : SpecState α β A) (r : Py (OutArr β)) :
    (assignOutcome s r).1.outputs = s.outputs ∨
      (s.outputs = none ∧ ∃ c, (assignOutcome s r).1.outputs = some (defaultOutputs c)) := by
  unfold assignOutcome
  split
  · exact Or.inl rfl
  · exact setResultsProp_outputs s _

theorem analyze_outputs (s : SpecState α β A) (w : Bool) (f : Option (InArr α) → OutArr β → Py A) (h : OutputsFit s) :
    (specAnalyze s w f).1.outputs = s.outputs ∧ (specAnalyzeParallel s w f).1.outputs = s.outputs := by
  have houts : ∀ Y, s.results = some Y → some (analyzeOutputs s Y) = s.outputs := by
    intro Y hY
    obtain ⟨o, ho, _⟩ := h Y hY
    unfold analyzeOutputs
    rw [ho]
  constructor
  · unfold specAnalyze
    split
    · rfl
    · cases hr : s.results with
      | none => rfl
      | some Y =>
        simp only []
        split
        · exact houts Y hr
        · split <;> exact houts Y hr
  · unfold specAnalyzeParallel
    cases hr : s.results with
    | none => rfl
    | some Y =>
      simp only []
      split
      · split <;> exact houts Y hr
      · split
        · exact houts Y hr
        · split <;> exact houts Y hr

theorem fit_step (s : SpecState α β A) (op : SpecOp α β A) (h : OutputsFit s) :
    OutputsFit (specStep s op).1 ∧ ((specStep s op).1.outputs = s.outputs ∨
      (s.outputs = none ∧ ∃ c, (specStep s op).1.outputs = some (defaultOutputs c))) := by
  have none_fit : ∀ s' : SpecState α β A, s'.results = none → OutputsFit s' := by
    intro s' h1 Y hY
    rw [h1] at hY
    cases hY
  cases op with
  | sample func eff =>
    simp only [specStep, specSample]
    split
    · exact ⟨none_fit _ rfl, Or.inl rfl⟩
    · exact ⟨none_fit _ rfl, Or.inl rfl⟩
  | setSamples X =>
    simp only [specStep, setSamplesProp]
    split
    · exact ⟨h, Or.inl rfl⟩
    · exact ⟨none_fit _ rfl, Or.inl rfl⟩
  | setResults Y =>
    simp only [specStep, specSetResults]
    split
    · exact ⟨setResultsProp_fit s Y h, setResultsProp_outputs s Y⟩
    · split
      · exact ⟨h, Or.inl rfl⟩
      · exact ⟨setResultsProp_fit s Y h, setResultsProp_outputs s Y⟩
  | evaluate func => exact ⟨assignOutcome_fit s _ h, assignOutcome_outputs s _⟩
  | evaluateParallel pt nprocs maxProcs junk func =>
    simp only [specStep, specEvaluateParallel]
    split
    · exact ⟨h, Or.inl rfl⟩
    · exact ⟨assignOutcome_fit s _ h, assignOutcome_outputs s _⟩
  | evaluateDistributed pathos nprocs servers junk func args =>
    simp only [specStep, specEvaluateDistributed]
    split
    · exact ⟨h, Or.inl rfl⟩
    · exact ⟨assignOutcome_fit s _ h, assignOutcome_outputs s _⟩
  | analyze w f =>
    have ho := (analyze_outputs s w f h).1
    refine ⟨?_, Or.inl ho⟩
    intro Y hY
    simp only [specStep] at hY ⊢
    rw [ho]
    exact h Y ((analyze_keeps s w f).1.2 ▸ hY)
  | analyzeParallel w f =>
    have ho := (analyze_outputs s w f h).2
    refine ⟨?_, Or.inl ho⟩
    intro Y hY
    simp only [specStep] at hY ⊢
    rw [ho]
    exact h Y ((analyze_keeps s w f).2.2 ▸ hY)

theorem fit_run (s : SpecState α β A) (h : OutputsFit s) (ops : List (SpecOp α β A)) :
    OutputsFit (specRun s ops) ∧ ((specRun s ops).outputs = s.outputs ∨
      (s.outputs = none ∧ ∃ c, (specRun s ops).outputs = some (defaultOutputs c))) := by
  unfold specRun
  induction ops generalizing s with
  | nil => exact ⟨h, Or.inl rfl⟩
  | cons op ops ih =>
    rw [List.foldl_cons]
    obtain ⟨h1, h2⟩ := fit_step s op h
    obtain ⟨h3, h4⟩ := ih _ h1
    refine ⟨h3, ?_⟩
    rcases h2 with e | ⟨e, c, e'⟩
    · rw [e] at h4; exact h4
    · rcases h4 with h4 | ⟨h4, _⟩
      · exact Or.inr ⟨e, c, by rw [h4, e']⟩
      · rw [e'] at h4; cases h4

/-- **C63**: after any sequence of calls the results have one column for every declared output; outputs given at
construction are never changed; others are called `Y`, or `Y1 … Yn`. -/
theorem C63_outputs (names : Option (List String)) (bounds : Option (List (List α)))
    (groups outputs : Option (List String)) (s : SpecState α β A) (h : specInit names bounds groups outputs = .ok s)
    (ops : List (SpecOp α β A)) :
    (∀ Y, (specRun s ops).results = some Y →
        ∃ o, (specRun s ops).outputs = some o ∧ o.length = Y.numCols) ∧
      (∀ o, outputs = some o → (specRun s ops).outputs = some o) ∧
      (outputs = none → ∀ o, (specRun s ops).outputs = some o → DefaultNames o) := by
  obtain ⟨_, h1, _, h2⟩ := specInit_fresh names bounds groups outputs s h
  have h0 : OutputsFit s := by
    intro Y hY
    rw [h1] at hY
    cases hY
  obtain ⟨h3, h4⟩ := fit_run s h0 ops
  refine ⟨h3, ?_, ?_⟩
  · intro o ho
    rw [h2, ho] at h4
    rcases h4 with h4 | ⟨h4, _⟩
    · exact h4
    · cases h4
  · intro hn o ho
    rw [h2, hn] at h4
    rcases h4 with h4 | ⟨_, c, h4⟩
    · rw [h4] at ho; cases ho
    · rw [h4] at ho; cases ho
      exact defaultOutputs_names c

/-- Once outputs are named, results with another number of columns are refused, whatever came between (also a new
sample): the names stay, and so does the number of columns. -/
theorem C63_sticky (s : SpecState α β A) (hfit : OutputsFit s) (o : List String) (ho : s.outputs = some o)
    (ops : List (SpecOp α β A)) : (specRun s ops).outputs = some o ∧
      ∀ Y, (specRun s ops).results = some Y → Y.numCols = o.length := by
  obtain ⟨h3, h4⟩ := fit_run s hfit ops
  have he : (specRun s ops).outputs = some o := by
    rcases h4 with h4 | ⟨h4, _⟩
    · rw [h4, ho]
    · rw [ho] at h4; cases h4
  refine ⟨he, fun Y hY => ?_⟩
  obtain ⟨o', ho', hl⟩ := h3 Y hY
  rw [he] at ho'
  cases ho'
  exact hl.symm

/-- Three columns are named, a later two-column result is refused. -/
example : (specStep ({ names := ["a", "b"], numVars := 2, groups := ["a", "b"], outputs := none } : SpecState Nat Nat Nat)
      (.setResults (.mat 3 [[1, 2, 3]]))).1.outputs = some ["Y1", "Y2", "Y3"] ∧
    (specStep (specRun ({ names := ["a", "b"], numVars := 2, groups := ["a", "b"], outputs := none } : SpecState Nat Nat Nat)
      [.setResults (.mat 3 [[1, 2, 3]]), .sample (fun _ => .ok ⟨2, [[1, 2]]⟩) id])
      (.setResults (.mat 2 [[1, 2]]))).2 = .error .valueError := by
  decide +kernel

/-- **C61**, when samples and results are replaced (by `set_samples`, `set_results`, `evaluate`, `evaluate_parallel`)
only while no analysis is held: after any sequence of calls, with or without exceptions, the analysis held was computed,
by one of the analysers called, from the samples and results held, and per output from its column. -/
theorem C61_current_partial (names : Option (List String)) (bounds : Option (List (List α)))
    (groups outputs : Option (List String)) (s : SpecState α β A) (h : specInit names bounds groups outputs = .ok s)
    (ops : List (SpecOp α β A)) (hd : Disciplined s ops) : Current (specRun s ops) ops := by
  obtain ⟨_, h1, h2, _⟩ := specInit_fresh names bounds groups outputs s h
  have h0 : OutputsFit s := by
    intro Y hY
    rw [h1] at hY
    cases hY
  have hc : Current s [] := by
    intro a ha
    rw [h2] at ha
    cases ha
  clear h h1 h2
  have : ∀ (ops done : List (SpecOp α β A)) (s : SpecState α β A), OutputsFit s → Current s done → Disciplined s ops →
      Current (specRun s ops) (done ++ ops) := by
    intro ops
    induction ops with
    | nil => intro done s _ hc _; simpa [specRun] using hc
    | cons op ops ih =>
      intro done s h0 hc hd
      have := ih (done ++ [op]) (specStep s op).1 (fit_step s op h0).1 (current_step s op done hc h0 hd.1) hd.2
      simpa [specRun] using this
  simpa using this ops [] s h0 hc hd

/-- **C61 fails** for `set_samples`: the analysis of the old samples stays, beside no results at all. -/
theorem C61_set_samples_fail (s : SpecState α β A) (X : InArr α) (a : SpecAnalysis A) (ha : s.analysis = some a)
    (hX : X.cols = s.numVars) (ops : List (SpecOp α β A)) : (specStep s (.setSamples X)).2 = .ok () ∧
      (specStep s (.setSamples X)).1.analysis = some a ∧ ¬Current (specStep s (.setSamples X)).1 ops := by
  have e : specStep s (.setSamples X) = ({ s with samples := some X, results := none }, .ok ()) := by
    simp [specStep, setSamplesProp, hX]
  rw [e]
  refine ⟨rfl, ha, ?_⟩
  intro hc
  obtain ⟨_, _, _, _, Y, _, hY, _⟩ := hc a ha
  cases hY

/-- **C61 fails** for `evaluate` and `set_results`: new results are taken and the analysis of the old ones stays. -/
theorem C61_evaluate_fail (s : SpecState α β A) (Y : OutArr β) (a : SpecAnalysis A) (o : List String)
    (ha : s.analysis = some a) (ho : s.outputs = some o) (hY : Y.numCols = o.length) :
    ((specStep s (.evaluate fun _ => .ok Y)).1.results = some Y ∧
        (specStep s (.evaluate fun _ => .ok Y)).1.analysis = some a) ∧
      ((∀ X, s.samples = some X → X.rows.length = Y.len) →
        (specStep s (.setResults Y)).1.results = some Y ∧ (specStep s (.setResults Y)).1.analysis = some a) := by
  have e : setResultsProp s Y = ({ s with results := some Y }, .ok ()) := by
    simp [setResultsProp, ho, hY]
  constructor
  · simp only [specStep, specEvaluate, assignOutcome, e]
    exact ⟨trivial, ha⟩
  · intro hX
    simp only [specStep, specSetResults]
    split
    · rw [e]; exact ⟨rfl, ha⟩
    · rename_i X hs
      rw [if_neg (not_not.mpr (hX X hs)), e]
      exact ⟨rfl, ha⟩

/-- The histories of `C61_current_partial`: sample, evaluate, analyse, sample again, evaluate. -/
example : Disciplined ({ names := ["a", "b"], numVars := 2, groups := ["a", "b"], outputs := none } : SpecState Nat Nat Nat)
      [.sample (fun _ => .ok ⟨2, [[1, 2]]⟩) id, .evaluate (fun _ => .ok (.vec [3])), .analyze true (fun _ _ => .ok 1),
        .sample (fun _ => .ok ⟨2, [[5, 6]]⟩) id, .evaluate (fun _ => .ok (.vec [4]))] ∧
    (specRun ({ names := ["a", "b"], numVars := 2, groups := ["a", "b"], outputs := none } : SpecState Nat Nat Nat)
      [.sample (fun _ => .ok ⟨2, [[1, 2]]⟩) id, .evaluate (fun _ => .ok (.vec [3])),
        .analyze true (fun X Y => .ok (Y.len + (X.map InArr.cols).getD 0))]).analysis = some (.single 3) := by
  constructor
  · refine ⟨?_, ?_, ?_, ?_, ?_, trivial⟩ <;> intro _ <;> first | rfl | contradiction
  · decide +kernel

/-- An analysis of `[3]` kept beside the results `[4]`. -/
example : (specRun ({ names := ["a", "b"], numVars := 2, groups := ["a", "b"], outputs := none } : SpecState Nat Nat Nat)
      [.sample (fun _ => .ok ⟨2, [[1, 2]]⟩) id, .evaluate (fun _ => .ok (.vec [3])),
        .analyze true (fun _ Y => .ok (match Y with | .vec v => v.sum | _ => 0)), .evaluate (fun _ => .ok (.vec [4]))]).analysis =
      some (.single 3) := by
  decide +kernel

/-! ### C83: construction -/

/-- **C83**: an object is made exactly from names and bounds of the same number, with no groups, an empty list of
groups, or one group per name; it holds no data, knows the number of names, and has the given groups or one group per
name. -/
theorem C83_construct (names : Option (List String)) (bounds : Option (List (List α)))
    (groups outputs : Option (List String)) (s : SpecState α β A) :
    specInit names bounds groups outputs = .ok s ↔
      ∃ ns bs, names = some ns ∧ bounds = some bs ∧ bs.length = ns.length ∧
        (∀ gs, groups = some gs → gs = [] ∨ gs.length = ns.length) ∧
        s.names = ns ∧ s.numVars = ns.length ∧ s.outputs = outputs ∧ s.samples = none ∧ s.results = none ∧
        s.analysis = none ∧ (groups = none ∨ groups = some [] → s.groups = ns) ∧
        (∀ gs, groups = some gs → gs ≠ [] → s.groups = gs) := by
  constructor
  · intro h
    unfold specInit at h
    split at h
    · cases h
    · cases h
    · rename_i ns bs
      split at h
      · cases h
      · rename_i hl
        refine ⟨ns, bs, rfl, rfl, not_not.mp hl, ?_⟩
        split at h
        · cases h; simp
        · cases h; simp
        · rename_i gs hne
          split at h
          · cases h
          · rename_i hg
            have hne' : gs ≠ [] := by
              rintro rfl
              exact hne rfl
            cases h
            simp [not_not.mp hg, hne']
  · rintro ⟨ns, bs, rfl, rfl, hl, hg, h1, h2, h3, h4, h5, h6, h7, h8⟩
    unfold specInit
    simp only []
    rw [if_neg (not_not.mpr hl)]
    obtain ⟨_, _, _, _, _, _, _⟩ := s
    simp only at h1 h2 h3 h4 h5 h6 h7 h8
    subst h1 h2 h3 h4 h5 h6
    match groups with
    | none => simp [h7]
    | some [] => simp [h7]
    | some (g :: gs) =>
      have := hg (g :: gs) rfl
      have h9 := h8 (g :: gs) rfl (by simp)
      subst h9
      rcases this with h | h
      · cases h
      · simp only []
        rw [if_neg (not_not.mpr h)]

example : ((specInit (some ["a", "b"]) (some [[0, 1], [0, 1]]) (some ["g", "g"]) none : Py (SpecState Nat Nat Nat)).map
      (·.groups)) = .ok ["g", "g"] ∧
    ((specInit (some ["a", "b"]) (some [[0, 1], [0, 1]]) (some ["g"]) none : Py (SpecState Nat Nat Nat)).map (·.groups)) =
      .error .valueError := by
  decide +kernel

/-! ### C84: single parameters and single groups -/

/-- **C84**, the part about parameters: `analyze` refuses a problem with a single parameter and changes nothing; and
without results it raises `RuntimeError`. -/
theorem C84_single_partial (s : SpecState α β A) (w : Bool) (f : Option (InArr α) → OutArr β → Py A) :
    (s.numVars = 1 → specAnalyze s w f = (s, .error .valueError)) ∧
      (s.numVars ≠ 1 → s.results = none → specAnalyze s w f = (s, .error .runtimeError)) := by
  constructor
  · intro h
    unfold specAnalyze
    rw [if_pos (Or.inl h)]
  · intro h hr
    unfold specAnalyze
    rw [if_neg (by rintro (h' | ⟨_, h'⟩); exacts [h h', absurd h' (by decide +kernel)])]
    rw [hr]

/-- **C84 fails** for groups: with two or more parameters the groups have no effect on the test at all, so a single
group is analysed; and `analyze_parallel` does not test the number of parameters either. -/
theorem C84_single_fail (s : SpecState α β A) (w : Bool) (f : Option (InArr α) → OutArr β → Py A) (v : List β) (o : String)
    (a : A) (hr : s.results = some (.vec v)) (ho : s.outputs = some [o])
    (hf : f (if w then s.samples else none) (.vec v) = .ok a) :
    (s.numVars ≠ 1 → (specAnalyze s w f).2 = .ok () ∧ (specAnalyze s w f).1.analysis = some (.single a)) ∧
      (specAnalyzeParallel s w f).2 = .ok () ∧ (specAnalyzeParallel s w f).1.analysis = some (.single a) := by
  constructor
  · intro h
    unfold specAnalyze
    rw [if_neg (by rintro (h' | ⟨_, h'⟩); exacts [h h', absurd h' (by decide +kernel)])]
    simp [hr, analyzeOutputs, ho, hf]
  · unfold specAnalyzeParallel
    simp [hr, analyzeOutputs, ho, hf]

example : (specAnalyze ({ names := ["a", "b"], numVars := 2, groups := ["g", "g"], outputs := some ["Y"]
                          results := some (.vec [1, 2]) } : SpecState Nat Nat Nat) false fun _ _ => .ok 7).1.analysis =
    some (.single 7) := by
  decide +kernel

/-! ### C85: parallel analysis -/

theorem analyzeLoop_ok (f : OutArr β → Py A) (Y : OutArr β) :
    ∀ (l : List (String × Nat)) (d d' : List (String × A)), analyzeLoop f Y l d = (d', .ok ()) →
      ∃ res, (l.map Prod.snd).mapM (fun i => do f (← Y.column i)) = .ok res ∧
        d' = ((l.map Prod.fst).zip res).foldl (fun d e => dictSet d e.1 e.2) d := by
  intro l
  induction l with
  | nil => intro d d' h; cases h; exact ⟨[], rfl, rfl⟩
  | cons p l ih =>
    intro d d' h
    obtain ⟨out, i⟩ := p
    unfold analyzeLoop at h
    cases hy : Y.column i with
    | error e => rw [hy] at h; simp at h
    | ok y =>
      rw [hy] at h
      simp only [] at h
      cases ha : f y with
      | error e => rw [ha] at h; simp at h
      | ok a =>
        rw [ha] at h
        simp only [] at h
        obtain ⟨res, h1, h2⟩ := ih _ _ h
        refine ⟨a :: res, ?_, ?_⟩
        · rw [List.map_cons, List.mapM_cons, h1]
          simp [hy, ha, pyPure]
        · simp [h2]

theorem analyzeLoop_of (f : OutArr β → Py A) (Y : OutArr β) :
    ∀ (l : List (String × Nat)) (d : List (String × A)) (res : List A),
      (l.map Prod.snd).mapM (fun i => do f (← Y.column i)) = .ok res →
      analyzeLoop f Y l d = (((l.map Prod.fst).zip res).foldl (fun d e => dictSet d e.1 e.2) d, .ok ()) := by
  intro l
  induction l with
  | nil => intro d res h; cases h; rfl
  | cons p l ih =>
    intro d res h
    obtain ⟨out, i⟩ := p
    rw [List.map_cons, mapM_ok_iff] at h
    cases h with
    | cons h1 h2 =>
      rename_i b bs
      rw [← mapM_ok_iff] at h2
      unfold analyzeLoop
      simp only at h1
      cases hy : Y.column i with
      | error e => rw [hy] at h1; cases h1
      | ok y =>
        rw [hy, pyBind_ok] at h1
        simp only [h1]
        rw [ih _ _ h2]
        rfl

/-- **C85**: for a problem with more than one parameter and at least one output, parallel analysis succeeds exactly when
sequential analysis does, and then leaves the object in the same state. -/
theorem C85_parallel (s : SpecState α β A) (w : Bool) (f : Option (InArr α) → OutArr β → Py A) (hn : s.numVars ≠ 1)
    (ho : s.outputs ≠ some []) (hY : ∀ rows, s.results ≠ some (.mat 0 rows)) :
    ((specAnalyze s w f).2 = .ok () ↔ (specAnalyzeParallel s w f).2 = .ok ()) ∧
      ((specAnalyze s w f).2 = .ok () → specAnalyzeParallel s w f = specAnalyze s w f) := by
  unfold specAnalyze specAnalyzeParallel
  rw [if_neg (by rintro (h' | ⟨_, h'⟩); exacts [hn h', absurd h' (by decide +kernel)])]
  cases hr : s.results with
  | none => simp
  | some Y =>
    simp only []
    have hpos : 0 < (analyzeOutputs s Y).length := by
      unfold analyzeOutputs
      cases hs : s.outputs with
      | some o =>
        cases o with
        | nil => exact absurd hs ho
        | cons x xs => simp
      | none =>
        cases Y with
        | vec v => simp
        | mat c rows =>
          simp only [List.length_map, List.length_range]
          rcases Nat.eq_zero_or_pos c with h | h
          · subst h; exact absurd hr (hY rows)
          · exact h
    by_cases h1 : (analyzeOutputs s Y).length = 1
    · rw [if_pos h1, if_neg (by omega)]
      exact ⟨Iff.rfl, fun _ => rfl⟩
    · rw [if_neg h1, if_neg (show ¬(analyzeOutputs s Y).length = 0 by omega),
        if_pos (show (analyzeOutputs s Y).length > 1 by omega)]
      generalize analyzeOutputs s Y = outs at *
      generalize f (if w then s.samples else none) = g at *
      have hsnd : outs.zipIdx.map Prod.snd = List.range outs.length := by
        rw [List.zipIdx_map_snd, List.range_eq_range']
      have hfst : outs.zipIdx.map Prod.fst = outs := List.zipIdx_map_fst 0 outs
      cases hm : (List.range outs.length).mapM (fun i => do g (← Y.column i)) with
      | ok res =>
        rw [analyzeLoop_of g Y outs.zipIdx [] res (by rw [hsnd, hm]), hfst]
        simp
      | error e =>
        have : (analyzeLoop g Y outs.zipIdx []).2 ≠ .ok () := by
          intro hk
          obtain ⟨res, h2, _⟩ := analyzeLoop_ok g Y outs.zipIdx [] (analyzeLoop g Y outs.zipIdx []).1 (by rw [← hk])
          rw [hsnd, hm] at h2
          cases h2
        simp [this]

example : (specAnalyzeParallel ({ names := ["a", "b"], numVars := 2, groups := ["a", "b"], outputs := some ["u", "v"]
                                  results := some (.mat 2 [[1, 2], [3, 4]]) } : SpecState Nat Nat Nat) false
      fun _ Y => .ok (match Y with | .vec v => v.sum | _ => 0)).1.analysis =
    some (.byOutput [("u", 4), ("v", 6)]) := by
  decide +kernel

theorem dictSet_keys {γ : Type} (d : List (String × γ)) (k : String) (v : γ) :
    (dictSet d k v).map Prod.fst = if k ∈ d.map Prod.fst then d.map Prod.fst else d.map Prod.fst ++ [k] := by
  unfold dictSet
  have hany : (d.any fun e => e.1 == k) = true ↔ k ∈ d.map Prod.fst := by
    simp only [List.any_eq_true, List.mem_map, beq_iff_eq]
  by_cases h : (d.any fun e => e.1 == k) = true
  · rw [if_pos h, if_pos (hany.mp h), List.map_map]
    apply List.map_congr_left
    intro e _
    simp only [Function.comp]
    split
    · rename_i h'; exact (eq_of_beq h').symm
    · rfl
  · rw [if_neg h, if_neg (fun h' => h (hany.mpr h'))]
    simp

theorem foldl_dictSet_keys {γ : Type} (l : List (String × γ)) (d : List (String × γ)) (hd : (d.map Prod.fst).Nodup) :
    ((l.foldl (fun d e => dictSet d e.1 e.2) d).map Prod.fst).Nodup ∧
      ∀ k, k ∈ (l.foldl (fun d e => dictSet d e.1 e.2) d).map Prod.fst ↔ k ∈ d.map Prod.fst ∨ k ∈ l.map Prod.fst := by
  induction l generalizing d with
  | nil => exact ⟨hd, by simp⟩
  | cons x l ih =>
    rw [List.foldl_cons]
    have hk := dictSet_keys d x.1 x.2
    have hn : ((dictSet d x.1 x.2).map Prod.fst).Nodup := by
      rw [hk]
      split
      · exact hd
      · rename_i h
        rw [List.nodup_append]
        refine ⟨hd, by simp, ?_⟩
        intro a ha b hb
        rw [List.mem_singleton] at hb
        subst hb
        rintro rfl
        exact h ha
    obtain ⟨h1, h2⟩ := ih _ hn
    refine ⟨h1, fun k => ?_⟩
    rw [h2 k, hk]
    split
    · rename_i h
      rw [List.map_cons, List.mem_cons]
      constructor
      · rintro (h' | h')
        exacts [Or.inl h', Or.inr (Or.inr h')]
      · rintro (h' | rfl | h')
        exacts [Or.inl h', Or.inl h, Or.inr h']
    · rw [List.map_cons, List.mem_cons, List.mem_append, List.mem_singleton]
      tauto

/-- **C85**, the keys: with several outputs a successful analysis has exactly one entry for every output. -/
theorem C85_keys (s : SpecState α β A) (w : Bool) (f : Option (InArr α) → OutArr β → Py A) (o : List String)
    (ho : s.outputs = some o) (hl : 1 < o.length) (hok : (specAnalyze s w f).2 = .ok ()) :
    ∃ d, (specAnalyze s w f).1.analysis = some (.byOutput d) ∧ (d.map Prod.fst).Nodup ∧
      ∀ k, k ∈ d.map Prod.fst ↔ k ∈ o := by
  unfold specAnalyze at hok ⊢
  split at hok
  · cases hok
  · rename_i hc
    rw [if_neg hc]
    cases hr : s.results with
    | none => rw [hr] at hok; cases hok
    | some Y =>
      rw [hr] at hok
      simp only [] at hok ⊢
      have hao : analyzeOutputs s Y = o := by simp [analyzeOutputs, ho]
      rw [hao, if_pos hl] at hok
      rw [hao, if_pos hl]
      simp only [] at hok
      refine ⟨_, rfl, ?_⟩
      obtain ⟨res, h1, h2⟩ := analyzeLoop_ok (f (if w then s.samples else none)) Y o.zipIdx []
        (analyzeLoop (f (if w then s.samples else none)) Y o.zipIdx []).1 (by rw [← hok])
      have hfst : o.zipIdx.map Prod.fst = o := List.zipIdx_map_fst 0 o
      have hlen : res.length = o.length := by
        rw [mapM_ok_iff] at h1
        have := h1.length_eq
        simpa using this.symm
      rw [h2, hfst]
      obtain ⟨h3, h4⟩ := foldl_dictSet_keys (o.zip res) [] (by simp)
      refine ⟨h3, fun k => ?_⟩
      rw [h4 k, List.map_fst_zip (by omega)]
      simp

/-- An output named twice has one entry, from the last of its columns. -/
example : (specAnalyze ({ names := ["a", "b"], numVars := 2, groups := ["a", "b"], outputs := some ["u", "v", "u"]
                          results := some (.mat 3 [[1, 2, 3], [3, 4, 5]]) } : SpecState Nat Nat Nat) false
      fun _ Y => .ok (match Y with | .vec v => v.sum | _ => 0)).1.analysis =
    some (.byOutput [("u", 8), ("v", 6)]) := by
  decide +kernel

end SALib
