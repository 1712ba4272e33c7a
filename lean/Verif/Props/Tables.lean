import Verif.Spec.Tables
import Verif.Props.Discrepancy
import Verif.Props.Groups
import Verif.Props.FracFact

/-! # C88: results as tables

Whenever an analysis has succeeded, its table (`to_df`) can be made, has one row per label, and the row of a label
holds that label's values.  For the discrepancy analysis this fails whenever two parameters share a group
(`C88_disc_fail`). -/

namespace SALib

open Spec

theorem dataFrame_ok {β : Type} [Inhabited β] (cols : List (String × List β)) (names : List String)
    (h : ∀ c ∈ cols, c.2.length = names.length) : ∃ t, dataFrame cols names = .ok t ∧ TableOf names cols t := by
  refine ⟨_, if_neg (by rintro ⟨c, hc, hn⟩; exact hn (h c hc)), rfl, ?_, ?_⟩
  · apply List.ext_getElem?
    intro i
    simp only [List.map_map, List.getElem?_map, List.getElem?_zipIdx]
    cases names[i]? <;> rfl
  · intro k row hk
    simp only [List.getElem?_map, List.getElem?_zipIdx, Nat.zero_add] at hk
    cases hn : names[k]? with
    | none => rw [hn] at hk; cases hk
    | some n =>
      rw [hn] at hk
      obtain rfl := Option.some.inj hk
      refine ⟨by simp, fun c col hc => ?_⟩
      have hl := h col (List.mem_of_getElem? hc)
      have hlt : k < col.2.length := by rw [hl]; exact (List.getElem?_eq_some_iff.mp hn).1
      refine ⟨?_, _, List.getElem?_eq_getElem hlt⟩
      simp [List.getElem?_map, hc, List.getElem?_eq_getElem hlt]

theorem dataFrame_error {β : Type} [Inhabited β] (cols : List (String × List β)) (names : List String)
    (c : String × List β) (hc : c ∈ cols) (h : c.2.length ≠ names.length) :
    dataFrame cols names = .error .valueError := if_pos ⟨c, hc, h⟩

theorem pyBind_inv {β γ : Type} (m : Py β) (f : β → Py γ) (r : γ) (h : (m >>= f) = .ok r) :
    ∃ a, m = .ok a ∧ f a = .ok r := by
  cases m with
  | error e => cases h
  | ok a => exact ⟨a, rfl, h⟩

theorem mapM_length {β γ : Type} (f : β → Py γ) (l : List β) (r : List γ) (h : l.mapM f = .ok r) :
    r.length = l.length := by
  induction l generalizing r with
  | nil => simp only [List.mapM_nil] at h; cases h; rfl
  | cons a l ih =>
    rw [List.mapM_cons] at h
    cases ha : f a with
    | error e => rw [ha] at h; cases h
    | ok b =>
      rw [ha, pyBind_ok] at h
      cases hl : l.mapM f with
      | error e => rw [hl] at h; cases h
      | ok bs =>
        rw [hl] at h
        cases h
        simp [ih bs hl]

section

variable {α : Type} [Field α] [LinearOrder α] [IsStrictOrderedRing α]

omit [IsStrictOrderedRing α] in
theorem groupedMetric_length (m : List (Num α)) (G : Mat Nat) (g : Nat) (r : List (Num α))
    (h : groupedMetric m G g = .ok r) : r.length = g := by
  unfold groupedMetric at h
  split at h
  · cases h
  · cases h; simp

omit [IsStrictOrderedRing α] in
theorem groupedSigma_length (m : List (Num α)) (G : Mat Nat) (g : Nat) (r : List (Num α))
    (h : groupedSigma m G g = .ok r) : r.length = g := by
  unfold groupedSigma at h
  cases hg : groupedMetric m G g with
  | error e => rw [hg] at h; cases h
  | ok a => rw [hg] at h; cases h; simp

omit [IsStrictOrderedRing α] in
/-- **C88**, Morris: every result has a table, with the group names as labels. -/
theorem C88_morris (sqrt : α → α) (z conf : α) (resample : Nat → List (List Nat)) (pb : Problem α) (X : Mat α)
    (D : Nat) (Y : List α) (scaled : Bool) (p : Nat) (r : MorrisResult α)
    (h : morrisAnalyze sqrt z conf resample pb X D Y scaled p = .ok r) :
    ∃ t, morrisDf r = .ok t ∧ TableOf r.names
      [("mu", r.mu), ("mu_star", r.muStar), ("sigma", r.sigma), ("mu_star_conf", r.muStarConf)] t := by
  have hlen : r.mu.length = r.names.length ∧ r.muStar.length = r.names.length ∧
      r.sigma.length = r.names.length ∧ r.muStarConf.length = r.names.length := by
    unfold morrisAnalyze at h
    cases h1 : defineProblemWithGroups pb with
    | error e => rw [h1] at h; cases h
    | ok q =>
    rw [h1, pyBind_ok] at h
    cases h2 : computeDelta (α := α) p with
    | error e => rw [h2] at h; cases h
    | ok d =>
    rw [h2, pyBind_ok] at h
    cases h3 : computeGroupsMatrix (q.groups.getD []) with
    | error e => rw [h3] at h; cases h
    | ok Gn =>
    obtain ⟨G, names⟩ := Gn
    rw [h3, pyBind_ok] at h
    simp only [] at h
    split at h
    · cases h
    cases h4 : elementaryEffects sqrt X D Y (Y.length / (Y.length / (names.length + 1))) d scaled with
    | error e => rw [h4] at h; cases h
    | ok EE =>
    rw [h4, pyBind_ok] at h
    unfold statisticalOutputs at h
    simp only [] at h
    cases h5 : muStarConf sqrt z conf resample EE q.numVars with
    | error e => rw [h5] at h; cases h
    | ok mc =>
    rw [h5, pyBind_ok] at h
    cases g1 : groupedMetric (EE.map npMeanN) G names.length with
    | error e => rw [g1] at h; cases h
    | ok a =>
    rw [g1, pyBind_ok] at h
    cases g2 : groupedMetric (EE.map fun ee => npMeanN (ee.map (Option.map abs))) G names.length with
    | error e => rw [g2] at h; cases h
    | ok b =>
    rw [g2, pyBind_ok] at h
    cases g3 : groupedSigma (EE.map (npStd1N sqrt)) G names.length with
    | error e => rw [g3] at h; cases h
    | ok c =>
    rw [g3, pyBind_ok] at h
    cases g4 : groupedMetric mc G names.length with
    | error e => rw [g4] at h; cases h
    | ok e =>
    rw [g4, pyBind_ok, pyPure] at h
    cases h
    exact ⟨groupedMetric_length _ _ _ _ g1, groupedMetric_length _ _ _ _ g2, groupedSigma_length _ _ _ _ g3,
      groupedMetric_length _ _ _ _ g4⟩
  exact dataFrame_ok _ _ (by simp [hlen])

omit [IsStrictOrderedRing α] in
/-- **C88**, DGSM: every result has a table, with the parameter names as labels. -/
theorem C88_dgsm (sqrt : α → α) (pi2 z conf : α) (pb : Problem α) (X : Mat α) (Y : List α)
    (draws : Nat → List (List Nat)) (r : DgsmResult α) (hn : pb.names.length = pb.numVars)
    (h : dgsmAnalyze sqrt pi2 z conf pb X Y draws = .ok r) :
    r.names = pb.names ∧ ∃ t, dgsmDf r = .ok t ∧ TableOf pb.names
      [("vi", r.vi), ("vi_std", r.viStd), ("dgsm", r.dgsm), ("dgsm_conf", r.dgsmConf)] t := by
  unfold dgsmAnalyze at h
  split at h
  · cases h
  split at h
  · cases h
  split at h
  · cases h
  cases h1 : (List.range pb.numVars).mapM (dgsmOne sqrt pi2 z pb (X.take Y.length) Y draws) with
  | error e => rw [h1] at h; cases h
  | ok rs =>
    rw [h1, pyBind_ok, pyPure] at h
    cases h
    have hl := mapM_length _ _ _ h1
    exact ⟨rfl, dataFrame_ok _ _ (by simp [hl, hn])⟩

omit [LinearOrder α] [IsStrictOrderedRing α] in
theorem storeResult_lengths (l : List (Task × Num α)) (S : SobolResult α) :
    (l.foldl storeResult S).S1.length = S.S1.length ∧ (l.foldl storeResult S).S1conf.length = S.S1conf.length ∧
      (l.foldl storeResult S).ST.length = S.ST.length ∧ (l.foldl storeResult S).STconf.length = S.STconf.length := by
  induction l generalizing S with
  | nil => simp
  | cons t l ih =>
    rw [List.foldl_cons]
    obtain ⟨a, b, c, d⟩ := ih (storeResult S t)
    rw [a, b, c, d]
    unfold storeResult
    split <;> simp

/-- **C88**, Sobol: every result, serial or parallel, has its tables of total and first-order indices, with the names
of the groups (or parameters) as labels. -/
theorem C88_sobol (sqrt normPpf : α → α) (pb : Problem α) (Y : List α) (second : Bool) (conf : α)
    (rs : List (List Nat)) (keep : Bool) (mode : Mode) (r : SobolResult α) (names : List String)
    (hnames : DistinctInOrder (effectiveLabels pb) names)
    (h : sobolAnalyze sqrt normPpf pb Y second conf rs keep mode = .ok r) :
    ∃ t1 t2, sobolDf pb r = .ok (t1, t2) ∧ TableOf names [("ST", r.ST), ("ST_conf", r.STconf)] t1 ∧
      TableOf names [("S1", r.S1), ("S1_conf", r.S1conf)] t2 := by
  have hx : (extractGroupNames pb).1 = names := by
    have hp := (C07_group_names pb).1
    have hperm : (extractGroupNames pb).1.Perm names :=
      (List.perm_ext_iff_of_nodup hp.nodup hnames.nodup).mpr fun g => by rw [hp.mem_iff, hnames.mem_iff]
    exact hperm.eq_of_pairwise (fun a b _ _ h h' => absurd h (by omega)) hp.first_mention hnames.first_mention
  have hg := (C07_group_names pb).2
  have hlen : r.S1.length = names.length ∧ r.S1conf.length = names.length ∧ r.ST.length = names.length ∧
      r.STconf.length = names.length := by
    unfold sobolAnalyze at h
    cases hc : sobolCheck pb Y.length second conf with
    | error e => rw [hc] at h; cases h
    | ok DN =>
    obtain ⟨D, N⟩ := DN
    have hD : D = names.length := by
      unfold sobolCheck at hc
      simp only [] at hc
      rw [hg, hx] at hc
      split at hc
      · cases hc
      split at hc
      · cases hc; rfl
      split at hc
      · cases hc; rfl
      · cases hc
    subst hD
    rw [hc, pyBind_ok] at h
    simp only [] at h
    split at h
    · cases h
    cases hnm : normalise sqrt Y with
    | none =>
      rw [hnm] at h
      cases mode with
      | serial => simp only [pyPure] at h; cases h; simp [nanResult]
      | parallel np cpu =>
        simp only [] at h
        cases ht : createTaskList names.length second np cpu with
        | error e => rw [ht] at h; cases h
        | ok tasks => rw [ht, pyBind_ok, pyPure] at h; cases h; simp [nanResult]
    | some Y' =>
      rw [hnm] at h
      simp only [] at h
      cases hs : separateOutputValues Y' names.length N second with
      | error e => rw [hs] at h; cases h
      | ok s =>
      rw [hs, pyBind_ok] at h
      cases mode with
      | serial => simp only [pyPure] at h; cases h; simp [serialIndices]
      | parallel np cpu =>
        simp only [] at h
        cases ht : createTaskList names.length second np cpu with
        | error e => rw [ht] at h; cases h
        | ok tasks =>
          rw [ht, pyBind_ok, pyPure] at h
          cases h
          unfold siListToDict
          have := storeResult_lengths (tasks.map (sobolParallel sqrt
            (normPpf (1 / 2 + conf / 2)) s rs)).flatten (createSiDict names.length rs.length keep second)
          simpa [createSiDict] using this
  unfold sobolDf
  simp only []
  rw [hx]
  obtain ⟨t1, e1, p1⟩ := dataFrame_ok [("ST", r.ST), ("ST_conf", r.STconf)] names (by simp [hlen])
  obtain ⟨t2, e2, p2⟩ := dataFrame_ok [("S1", r.S1), ("S1_conf", r.S1conf)] names (by simp [hlen])
  exact ⟨t1, t2, by rw [e1, pyBind_ok, e2]; rfl, p1, p2⟩

/-- **C88**, fractional factorial: every result has a table of main effects; the labels are the names followed by those
of the dummy parameters. -/
theorem C88_ff [Inhabited α] (pb : Problem α) (k : Nat) (Y : List α) (so : Bool) (hv : pb.numVars ≤ 512)
    (hk : LeastPower pb.numVars k) (hn : pb.names.length = pb.numVars) (hY : Y.length = 2 * 2 ^ k) :
    ∃ r t, ffAnalyze pb Y so = .ok r ∧ ffDf r = .ok t ∧ TableOf r.names [("ME", r.ME)] t ∧
      pb.names <+: r.names := by
  obtain ⟨r, h, h1, h2, -⟩ := ffAnalyze_eq pb k Y so hv hk hn hY
  have hle := hk.1
  obtain ⟨t, e, p⟩ := dataFrame_ok [("ME", r.ME)] r.names (by
    intro c hc
    simp only [List.mem_singleton] at hc
    subst hc
    rw [h1, h2]
    simp only [List.length_map, List.length_range, List.length_append, hn]
    omega)
  exact ⟨r, t, h, e, p, by rw [h1]; exact List.prefix_append _ _⟩

/-- **C88**, discrepancy without groups: every result has a table. -/
theorem C88_disc_partial (disc : List (α × α) → α) (pb : Problem α) (X : Mat α) (Y : List α) (P : List (α × α))
    (hs : DiscShape pb P X Y) (hg : pb.groups = none) (hn : pb.names.length = pb.numVars)
    (r : List (Num α) × List String) (h : discAnalyze disc pb X Y = .ok r) :
    ∃ t, discDf r = .ok t ∧ TableOf pb.names [("s_discrepancy", r.1)] t := by
  have hI := (C87_accept disc pb X Y P hs).1.mp ⟨r, h⟩
  have hY : Y ≠ [] := by
    rintro rfl
    obtain ⟨-, -, y, hy, -⟩ := hI
    simp at hy
  obtain ⟨mn, mx, h1, h2⟩ := exists_extremes Y hY
  have e := discParams_eq disc pb X Y P mn mx hs.bounds hs.count hs.rows hs.length h1 h2
  rw [if_pos hI] at e
  have e' := discAnalyze_of_params disc pb X Y P hs _ (by simp) e
  have hc : checkGroups pb = none := by unfold checkGroups; rw [hg]
  rw [hc] at e'
  rw [h] at e'
  obtain rfl := Except.ok.inj e'
  exact dataFrame_ok _ _ (by simp [hn, hs.count])

/-- **C88 fails** for the discrepancy analysis with groups: the names stay those of the parameters, so as soon as two
parameters share a group (of at least two) no table can be made; printing it (`print_to_console`) ends in the same
error. -/
theorem C88_disc_fail (disc : List (α × α) → α) (pb : Problem α) (X : Mat α) (Y : List α) (P : List (α × α))
    (hs : DiscShape pb P X Y) (gs us : List String) (hgs : pb.groups = some gs) (hd : DistinctInOrder gs us)
    (h2 : 2 ≤ us.length) (hne : gs ≠ pb.names) (hdup : ¬gs.Nodup) (hn : pb.names.length = pb.numVars)
    (hI : DiscInputs P X Y) :
    ∃ r, discAnalyze disc pb X Y = .ok r ∧ discDf r = .error .valueError := by
  obtain ⟨r, hr⟩ := (C87_accept disc pb X Y P hs).1.mpr hI
  refine ⟨r, hr, ?_⟩
  have hus : pdUnique gs = us := by
    have hp := pdUnique_distinct gs
    have hperm : (pdUnique gs).Perm us :=
      (List.perm_ext_iff_of_nodup hp.nodup hd.nodup).mpr fun g => by rw [hp.mem_iff, hd.mem_iff]
    exact hperm.eq_of_pairwise (fun a b _ _ h h' => absurd h (by omega)) hp.first_mention hd.first_mention
  have hc : checkGroups pb = some gs := by
    unfold checkGroups
    rw [hgs]
    cases gs with
    | nil => rw [← hus] at h2; simp [pdUnique] at h2
    | cons g gs =>
      simp only []
      rw [if_neg hne, if_neg (by rw [hus]; omega)]
  have hlt : us.length < gs.length := by
    have hsub : us.Subperm gs := hd.nodup.subperm fun g hg => (hd.mem_iff g).mp hg
    refine lt_of_le_of_ne hsub.length_le fun he => hdup ?_
    exact (hsub.perm_of_length_le he.ge).nodup_iff.mp hd.nodup
  have hY : Y ≠ [] := by
    rintro rfl
    obtain ⟨-, -, y, hy, -⟩ := hI
    simp at hy
  obtain ⟨mn, mx, m1, m2⟩ := exists_extremes Y hY
  have e := discParams_eq disc pb X Y P mn mx hs.bounds hs.count hs.rows hs.length m1 m2
  rw [if_pos hI] at e
  have e' := discAnalyze_of_params disc pb X Y P hs _ (by simp) e
  rw [hc, hr] at e'
  obtain rfl := Except.ok.inj e'
  refine dataFrame_error _ _ _ (List.mem_singleton.mpr rfl) ?_
  simp only [List.length_map, hus, hn, hs.count]
  rw [← hs.groups gs hgs]
  omega

end

/-- **C88**, FAST. -/
theorem C88_fast (bnd : ℝ) (draws : Nat → List (List Nat)) (pb : Problem ℝ) (Y : List ℝ) (M : Nat) (r : FastResult)
    (hn : pb.names.length = pb.numVars) (h : fastAnalyze bnd draws pb Y M = .ok r) :
    ∃ t, fastDf r = .ok t ∧ TableOf pb.names
      [("S1", r.S1), ("ST", r.ST), ("S1_conf", r.S1conf), ("ST_conf", r.STconf)] t := by
  unfold fastAnalyze at h
  simp only [] at h
  split at h
  · cases h
  split at h
  · cases h
  split at h
  · cases h
  obtain ⟨rows, hm, h⟩ := pyBind_inv _ _ _ h
  cases h
  have hl := mapM_length _ _ _ hm
  exact dataFrame_ok _ _ (by simp [hl, hn])

/-- **C88**, RBD-FAST. -/
theorem C88_rbd (argsort : List ℝ → List Nat) (bnd : ℝ) (draws : Nat → List (List Nat)) (pb : Problem ℝ) (X : Mat ℝ)
    (Y : List ℝ) (M : Nat) (r : RbdResult) (hn : pb.names.length = pb.numVars)
    (h : rbdAnalyze argsort bnd draws pb X Y M = .ok r) :
    ∃ t, rbdDf r = .ok t ∧ TableOf pb.names [("S1", r.S1), ("S1_conf", r.S1conf)] t := by
  unfold rbdAnalyze at h
  obtain ⟨rows, hm, h⟩ := pyBind_inv _ _ _ h
  cases h
  have hl := mapM_length _ _ _ hm
  exact dataFrame_ok _ _ (by simp [hl, hn])

/-! Witnesses. -/

example : (discAnalyze discWD discEx [[0, 10], [1 / 2, 20], [1, 15]] [3, 5, 7] >>= discDf) =
    .ok { columns := ["s_discrepancy"], rows := [("a", [some (12 / 23)]), ("b", [some (11 / 23)])] } := by
  decide +kernel

example : (discAnalyze discWD discExG [[0, 10, 1], [1 / 2, 20, 0], [1, 15, 0]] [3, 5, 7] >>= discDf) =
    .error .valueError := by decide +kernel

example : ((ffAnalyze ({ names := ["a", "b", "c"], bounds := [[0, 1], [0, 1], [0, 1]] } : Problem ℚ)
    [1, 2, 3, 4, 5, 6, 7, 8] false) >>= ffDf).map (·.rows.map (·.1)) = .ok ["a", "b", "c", "dummy_0"] := by
  decide +kernel

end SALib
