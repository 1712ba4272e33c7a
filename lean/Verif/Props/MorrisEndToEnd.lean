import Verif.Props.MorrisAnalyze

/-! # C28 (scaled), C29, C31: Morris sample, model, Morris analysis -/

set_option linter.unusedSectionVars false

namespace SALib
open Spec

variable {α : Type} [Field α] [LinearOrder α] [IsStrictOrderedRing α]

/-- What the sampler delivered, before scaling: a list of Morris trajectories inside the unit cube. -/
structure IsMorrisUnit (labels : List String) (p : Nat) (names : List String) (ts : List (Mat α)) : Prop where
  distinct : DistinctInOrder labels names
  traj : ∃ groupOf, (∀ j (l : String), labels[j]? = some l → names[groupOf j]? = some l) ∧
    ∀ T ∈ ts, IsTrajectory (morrisDelta p) labels.length names.length groupOf T
  unit : ∀ T ∈ ts, UnitRange T
  grid : Even p → ∀ T ∈ ts, ∀ row ∈ T, ∀ x ∈ row, OnGrid p x

theorem IsMorrisUnit.isSample {labels : List String} {p : Nat} {names : List String} {ts : List (Mat α)}
    (h : IsMorrisUnit labels p names ts) : IsSample ts.length labels.length names.length ts ts.flatten := by
  obtain ⟨groupOf, -, ht⟩ := h.traj
  exact ⟨rfl, rfl, fun T hT => (ht T hT).rows, fun T hT => (ht T hT).cols⟩

theorem sampleMorrisUnit_isMorris (draws : Nat → TrajDraws α) (labels : List String) (N p : Nat) (hp : 2 ≤ p)
    (hv : ∀ i, ValidTrajDraws p (draws i)) :
    ∃ names ts, sampleMorrisUnit draws labels N p = .ok ts.flatten ∧ ts.length = N ∧
      IsMorrisUnit labels p names ts := by
  obtain ⟨g, groupOf, hnum, ts, h1, h2, h3⟩ := C27_trajectories draws labels N p hp hv
  obtain ⟨M, h4, -, h5, h6⟩ := C28_range_and_grid draws labels N p hp hv
  rw [h1] at h4
  cases h4
  obtain ⟨names, hd, rfl, hgo⟩ := hnum
  refine ⟨names, ts, h1, h2, hd, ⟨groupOf, hgo, h3⟩, ?_, ?_⟩
  · intro T hT row hr
    exact h5 row (List.mem_flatten.mpr ⟨T, hT, hr⟩)
  · intro he T hT row hr
    exact h6 he row (List.mem_flatten.mpr ⟨T, hT, hr⟩)

/-- Every successful optimisation step leaves a list of whole initial trajectories. -/
theorem optimiseStep_isMorris (sqrt : α → α) (argsort : List α → List Nat) (ha : ValidArgsort argsort)
    (labels names : List String) (p : Nat) (ts : List (Mat α)) (h : IsMorrisUnit labels p names ts)
    (hD : 0 < labels.length) (hts : ts ≠ []) (opt : OptArg α) (localOpt : Bool) (M : Mat α)
    (hM : optimiseStep sqrt argsort ts.flatten labels labels.length ts.length opt localOpt = .ok M) :
    ∃ ts', M = ts'.flatten ∧ ts' ≠ [] ∧ IsMorrisUnit labels p names ts' ∧ (∀ T ∈ ts', T ∈ ts) := by
  have hg0 : 0 < names.length :=
    List.length_pos_of_mem ((h.distinct.mem_iff _).mpr (List.getElem_mem hD))
  have hsame : M = ts.flatten → ∃ ts', M = ts'.flatten ∧ ts' ≠ [] ∧ IsMorrisUnit labels p names ts' ∧
      (∀ T ∈ ts', T ∈ ts) := fun e => ⟨ts, e, hts, h, fun _ hT => hT⟩
  have hu : UnitRange ts.flatten := by
    intro row hr
    obtain ⟨T, hT, hr⟩ := List.mem_flatten.mp hr
    exact h.unit T hT row hr
  cases opt with
  | none => exact hsame (by simpa [optimiseStep] using hM.symm)
  | float x =>
    unfold optimiseStep at hM
    simp only at hM
    split at hM
    · exact hsame (by simpa using hM.symm)
    · split at hM
      · cases hM
      · split at hM
        · cases hM
        · split at hM <;> cases hM
  | int k =>
    by_cases hk0 : k = 0
    · exact hsame (by simpa [optimiseStep, hk0] using hM.symm)
    · have hacc := ((C37_accept_iff_partial sqrt argsort ha labels ts.length labels.length names.length ts ts.flatten
        h.isSample ⟨names, h.distinct, rfl⟩ hD hg0 hu k hk0 localOpt).1).mp ⟨M, hM⟩
      obtain ⟨combo, h1, h2, h3, -⟩ := C33_whole_trajectories sqrt argsort ha labels ts.length labels.length
        names.length ts ts.flatten h.isSample ⟨names, h.distinct, rfl⟩ hD hg0 hu k localOpt hacc
      rw [hM] at h1
      cases h1
      have hmem : ∀ T ∈ combo.map (fun c => ts.getD c []), T ∈ ts := by
        intro T hT
        obtain ⟨c, hc, rfl⟩ := List.mem_map.mp hT
        exact h.isSample.getD_mem c (h3 c hc)
      refine ⟨_, rfl, ?_, ⟨h.distinct, ?_, fun T hT => h.unit T (hmem T hT), fun he T hT => h.grid he T (hmem T hT)⟩, hmem⟩
      · have : 2 ≤ k := hacc.1
        intro e
        have := congrArg List.length e
        simp at this
        rw [this] at h2
        simp at h2
        omega
      · obtain ⟨groupOf, h4, h5⟩ := h.traj
        exact ⟨groupOf, h4, fun T hT => h5 T (hmem T hT)⟩

/-- A successful call of the sampler: a non-empty list of Morris trajectories, scaled column by column. -/
theorem morrisSample_inv (F : Ppf α) (sqrt : α → α) (argsort : List α → List Nat) (ha : ValidArgsort argsort)
    (draws : Nat → TrajDraws α) (pb : Problem α) (N p : Nat) (hp : 2 ≤ p) (hN : 0 < N)
    (hv : ∀ i, ValidTrajDraws p (draws i)) (hlab : (effectiveLabels pb).length = pb.numVars)
    (hD : 0 < pb.numVars) (opt : OptArg α) (localOpt : Bool) (X : Mat (Num α)) (q : Problem α)
    (h : morrisSample F sqrt argsort draws pb N p opt localOpt = .ok (X, q)) :
    ∃ names ts, ts ≠ [] ∧ IsMorrisUnit (effectiveLabels pb) p names ts ∧
      scaleSamples F pb.numVars ts.flatten { pb with groups := some (effectiveLabels pb) } = .ok (X, q) := by
  obtain ⟨names, ts, h1, h2, h3⟩ := sampleMorrisUnit_isMorris draws (effectiveLabels pb) N p hp hv
  unfold morrisSample at h
  simp only [defineProblem_ok pb hlab, pyBind_ok, Option.getD_some, h1] at h
  cases hM : optimiseStep sqrt argsort ts.flatten (effectiveLabels pb) pb.numVars N opt localOpt with
  | error e => simp only [hM, pyBind_error] at h; cases h
  | ok M =>
    simp only [hM, pyBind_ok] at h
    rw [← h2, ← hlab] at hM
    obtain ⟨ts', rfl, h4, h5, -⟩ := optimiseStep_isMorris sqrt argsort ha _ names p ts h3 (by omega)
      (by rintro rfl; simp at h2; omega) opt localOpt M hM
    exact ⟨names, ts', h4, h5, h⟩

/-- **C28**, scaled: with legal uniform bounds every coordinate of a Morris sample (whatever optimisation
was applied) is a finite number inside the bounds of its column. -/
theorem C28_scaled_in_bounds (F : Ppf α) (sqrt : α → α) (argsort : List α → List Nat) (ha : ValidArgsort argsort)
    (draws : Nat → TrajDraws α) (pb : Problem α) (bs : List (α × α)) (N p : Nat) (hp : 2 ≤ p) (hN : 0 < N)
    (hv : ∀ i, ValidTrajDraws p (draws i)) (hlab : (effectiveLabels pb).length = pb.numVars)
    (hb : pb.bounds = boundsTable bs) (hbl : bs.length = pb.numVars) (hD : 0 < pb.numVars)
    (hd : pb.dists = none) (hlegal : ∀ b ∈ bs, b.1 < b.2) :
    (∃ X q, morrisSample F sqrt argsort draws pb N p .none true = .ok (X, q)) ∧
    ∀ opt localOpt X q, morrisSample F sqrt argsort draws pb N p opt localOpt = .ok (X, q) →
      HasCols pb.numVars X ∧ ∀ r c v lo hi, entry X r c = some v → bs[c]? = some (lo, hi) →
        ∃ y, v = some y ∧ lo ≤ y ∧ y ≤ hi := by
  have hne : bs ≠ [] := by rintro rfl; simp at hbl; omega
  have hcols : ∀ (names : List String) (ts : List (Mat α)), IsMorrisUnit (effectiveLabels pb) p names ts →
      HasCols bs.length ts.flatten ∧ UnitRange ts.flatten := by
    intro names ts h
    constructor
    · intro row hr
      obtain ⟨T, hT, hr⟩ := List.mem_flatten.mp hr
      rw [h.isSample.cols T hT row hr, hbl, hlab]
    · intro row hr
      obtain ⟨T, hT, hr⟩ := List.mem_flatten.mp hr
      exact h.unit T hT row hr
  constructor
  · obtain ⟨names, ts, h1, h2, h3⟩ := sampleMorrisUnit_isMorris draws (effectiveLabels pb) N p hp hv
    obtain ⟨hc, hu⟩ := hcols names ts h3
    obtain ⟨out, h4, -⟩ := C01_scale_in_bounds F { pb with groups := some (effectiveLabels pb) } bs ts.flatten hb hd
      hne hlegal hc hu
    refine ⟨out, { pb with groups := some (effectiveLabels pb), sampleScaled := true }, ?_⟩
    unfold morrisSample
    simp only [defineProblem_ok pb hlab, pyBind_ok, Option.getD_some, h1, optimiseStep]
    rw [hbl] at h4
    exact h4
  · intro opt localOpt X q h
    obtain ⟨names, ts, -, h3, h4⟩ := morrisSample_inv F sqrt argsort ha draws pb N p hp hN hv hlab hD opt localOpt X q h
    obtain ⟨hc, hu⟩ := hcols names ts h3
    obtain ⟨out, h5, h6, h7⟩ := C01_scale_in_bounds F { pb with groups := some (effectiveLabels pb) } bs ts.flatten hb hd
      hne hlegal hc hu
    rw [hbl, h4] at h5
    cases h5
    have hXc : HasCols pb.numVars X := by
      intro row hr
      obtain ⟨i, hi, rfl⟩ := List.mem_iff_getElem.mp hr
      unfold SameShape at h6
      have hli : i < ts.flatten.length := by
        have := congrArg List.length h6; simp only [List.length_map] at this; omega
      have := (List.ext_getElem_iff.mp h6).2 i (by rw [List.length_map]; exact hli) (by rw [List.length_map]; exact hi)
      simp only [List.getElem_map] at this
      rw [← this, hc _ (List.getElem_mem _), hbl]
    refine ⟨hXc, ?_⟩
    intro r c v lo hi hv' hbc
    have hx : ∃ x, entry ts.flatten r c = some x := by
      unfold entry at hv' ⊢
      cases hr : X[r]? with
      | none => rw [hr] at hv'; cases hv'
      | some row =>
        obtain ⟨hlt, -⟩ := List.getElem?_eq_some_iff.mp hr
        have hli : r < ts.flatten.length := by
          have := congrArg List.length h6; simp only [List.length_map] at this; omega
        rw [List.getElem?_eq_getElem hli, Option.bind_some]
        have hcl : c < bs.length := (List.getElem?_eq_some_iff.mp hbc).1
        rw [List.getElem?_eq_getElem (by rw [hc _ (List.getElem_mem _)]; exact hcl)]
        exact ⟨_, rfl⟩
    obtain ⟨x, hx⟩ := hx
    obtain ⟨y, h8, -, h9, h10⟩ := h7 r c x lo hi hx hbc
    rw [h8] at hv'
    cases hv'
    exact ⟨y, rfl, h9, h10⟩

/-! ## The steps of a scaled trajectory -/

theorem entry_map_applyCols {β : Type} (fs : List (α → β)) (T : Mat α) (t j : Nat) (hj : j < fs.length) :
    entry (T.map (applyCols fs)) t j = (entry T t j).map fs[j] := by
  unfold entry applyCols
  rw [List.getElem?_map]
  cases T[t]? with
  | none => rfl
  | some row =>
    simp only [Option.map_some, Option.bind_some]
    rw [List.getElem?_zipWith, List.getElem?_eq_getElem hj]
    cases row[j]? <;> rfl

/-- A parameter of a Morris trajectory moves at exactly one step, by `±delta`, and at that step exactly the
parameters with its label move. -/
theorem trajectory_step (labels names : List String) (p : Nat) (ts : List (Mat α))
    (h : IsMorrisUnit labels p names ts) (T : Mat α) (hT : T ∈ ts) (j : Nat) (l : String)
    (hj : labels[j]? = some l) :
    ∃ t, t < names.length ∧ ChangesOnlyAt T j t ∧
      (∃ x y, entry T t j = some x ∧ entry T (t + 1) j = some y ∧
        (y = x + morrisDelta p ∨ y = x - morrisDelta p)) ∧
      ∀ i l', labels[i]? = some l' → l' ≠ l → entry T t i = entry T (t + 1) i := by
  obtain ⟨groupOf, hgo, htr⟩ := h.traj
  obtain ⟨hrows, hcols, order, hperm, hst⟩ := htr T hT
  have hjD : j < labels.length := (List.getElem?_eq_some_iff.mp hj).1
  have hgj := hgo j l hj
  have hgl : groupOf j < names.length := (List.getElem?_eq_some_iff.mp hgj).1
  have hmem : groupOf j ∈ order := hperm.mem_iff.mpr (List.mem_range.mpr hgl)
  obtain ⟨t, ht⟩ := List.mem_iff_getElem?.mp hmem
  have hol : order.length = names.length := by rw [hperm.length_eq, List.length_range]
  have htl : t < names.length := by rw [← hol]; exact (List.getElem?_eq_some_iff.mp ht).1
  have hnd : order.Nodup := hperm.nodup_iff.mpr List.nodup_range
  refine ⟨t, htl, ?_, ?_, ?_⟩
  · intro s hs hsl
    have hso : s < order.length := by omega
    obtain ⟨x, y, h1, h2, h3⟩ := hst s order[s] (List.getElem?_eq_getElem hso) j hjD
    rw [if_neg] at h3
    · rw [h1, h2, h3]
    · intro e
      apply hs
      obtain ⟨htl', ht'⟩ := List.getElem?_eq_some_iff.mp ht
      exact (hnd.getElem_inj_iff).mp (e.symm.trans ht'.symm)
  · obtain ⟨x, y, h1, h2, h3⟩ := hst t _ ht j hjD
    rw [if_pos rfl] at h3
    exact ⟨x, y, h1, h2, h3⟩
  · intro i l' hi hne
    have hiD : i < labels.length := (List.getElem?_eq_some_iff.mp hi).1
    obtain ⟨x, y, h1, h2, h3⟩ := hst t _ ht i hiD
    rw [if_neg] at h3
    · rw [h1, h2, h3]
    · intro e
      have := hgo i l' hi
      rw [e, hgj] at this
      exact hne (Option.some.inj this).symm

/-! ## Grouped statistics when all effects of a group agree -/

theorem mem_groupRows_label {β : Type} (labels : List String) (G : Mat Nat) (names : List String)
    (hG : computeGroupsMatrix labels = .ok (G, names)) (rows : List β) (c : Nat) (l : String)
    (hc : names[c]? = some l) (r : β) (hr : r ∈ groupRows rows G c) :
    ∃ j : Nat, rows[j]? = some r ∧ labels[j]? = some l := by
  obtain ⟨M, names', hM, -, hMl, hMc, hent⟩ := C07_groups_matrix labels
  rw [hG] at hM
  cases hM
  unfold groupRows at hr
  obtain ⟨⟨r', row⟩, hm, rfl⟩ := List.mem_map.mp hr
  obtain ⟨hm, hne⟩ := List.mem_filter.mp hm
  obtain ⟨j, hj⟩ := List.mem_iff_getElem?.mp hm
  rw [List.getElem?_zip_eq_some] at hj
  have hjl : j < labels.length := by
    rw [← hMl]; exact (List.getElem?_eq_some_iff.mp hj.2).1
  refine ⟨j, hj.1, ?_⟩
  have := hent j c labels[j] l (List.getElem?_eq_getElem hjl) hc
  unfold entry at this
  rw [hj.2, Option.bind_some] at this
  rw [List.getElem?_eq_getElem hjl]
  by_cases e : labels[j] = l
  · rw [e]
  · rw [if_neg e] at this
    simp [List.getD_eq_getElem?_getD, this] at hne

theorem column_sum_count (labels : List String) (G : Mat Nat) (names : List String)
    (hG : computeGroupsMatrix labels = .ok (G, names)) (c : Nat) (l : String) (hc : names[c]? = some l) :
    (G.map (·.getD c 0)).sum = labels.count l := by
  obtain ⟨M, names', hM, -, hMl, hMc, hent⟩ := C07_groups_matrix labels
  rw [hG] at hM
  cases hM
  have e : G.map (·.getD c 0) = labels.map fun g => if g = l then 1 else 0 := by
    apply List.ext_getElem
    · simp [hMl]
    · intro j h1 h2
      have h1' : j < G.length := by simpa using h1
      have h2' : j < labels.length := by simpa using h2
      have := hent j c labels[j] l (List.getElem?_eq_getElem h2') hc
      unfold entry at this
      rw [List.getElem?_eq_getElem h1', Option.bind_some] at this
      simp [List.getD_eq_getElem?_getD, this]
  rw [e]
  clear e hent hMl hG
  induction labels with
  | nil => rfl
  | cons g ls ih =>
    rw [List.map_cons, List.sum_cons, ih, List.count_cons]
    by_cases h : g = l
    · simp [h, Nat.add_comm]
    · simp [h]

theorem npMeanN_const (l : List (Num α)) (v : α) (hne : l ≠ []) (h : ∀ e ∈ l, e = some v) :
    npMeanN l = some v := by
  have hl : l = (List.replicate l.length v).map some := by
    rw [List.map_replicate]; exact List.eq_replicate_iff.mpr ⟨rfl, h⟩
  have hlen : (l.length : α) ≠ 0 := by
    have := List.length_pos_of_ne_nil hne
    positivity
  rw [hl, npMeanN_some _ (by simpa using hne)]
  simp only [List.sum_replicate, List.length_replicate, nsmul_eq_mul]
  congr 1
  field_simp

theorem npStd1N_const (sqrt : α → α) (l : List (Num α)) (v : α) (hne : 2 ≤ l.length) (h : ∀ e ∈ l, e = some v) :
    npStd1N sqrt l = some (sqrt 0) := by
  have hl : l.mapM id = some (List.replicate l.length v) := by
    rw [optMapM_id, List.map_replicate]; exact List.eq_replicate_iff.mpr ⟨rfl, h⟩
  have hm : npMean (List.replicate l.length v) = some v := by
    have := npMeanN_const (l := l) (v := v) (by rintro rfl; simp at hne) h
    unfold npMeanN at this
    rw [hl] at this
    exact this
  unfold npStd1N npStd1
  rw [hl]
  simp only [Option.bind_eq_bind, Option.bind_some, hm]
  have h2 : (2 : α) ≤ l.length := by exact_mod_cast hne
  rw [npDiv_some _ _ (by rw [List.length_replicate]; intro e; linarith)]
  simp

/-- If all effects of all parameters of group `c` are `v`, then `mu = v`, `mu_star = |v|`, and `sigma = 0`
when the group has one parameter and there are at least two trajectories. -/
theorem grouped_const (sqrt : α → α) (z conf : α) (resample : Nat → List (List Nat)) (labels : List String)
    (EE : Mat (Num α)) (n : Nat) (G : Mat Nat) (names : List String) (res : MorrisResult α)
    (hG : computeGroupsMatrix labels = .ok (G, names))
    (h : statisticalOutputs sqrt z conf resample EE n G names = .ok res)
    (c : Nat) (l : String) (hc : names[c]? = some l) (v : α)
    (hEE : ∀ (j : Nat) ee, EE[j]? = some ee → labels[j]? = some l → ee ≠ [] ∧ ∀ e ∈ ee, e = some v) :
    res.mu[c]? = some (some v) ∧ res.muStar[c]? = some (some |v|) ∧
    (labels.count l = 1 → (∀ (j : Nat) ee, EE[j]? = some ee → labels[j]? = some l → 2 ≤ ee.length) →
      res.sigma[c]? = some (some (sqrt 0))) := by
  obtain ⟨hl, hn, hmu, hms, hsg⟩ := statisticalOutputs_eq sqrt z conf resample EE n G names res h
  have hclt : c < names.length := (List.getElem?_eq_some_iff.mp hc).1
  have hmem := mem_groupRows_label labels G names hG EE c l hc
  have hne : groupRows EE G c ≠ [] := by
    obtain ⟨p, hp⟩ := (C07_partition labels G names hG).2 c hclt
    have hpl : p < EE.length := by
      rw [hl]
      unfold entry at hp
      cases hgp : G[p]? with
      | none => rw [hgp] at hp; cases hp
      | some row => exact (List.getElem?_eq_some_iff.mp hgp).1
    exact List.ne_nil_of_mem (mem_groupRows EE G c p _ (List.getElem?_eq_getElem hpl) hp)
  have hrow : ∀ ee ∈ groupRows EE G c, ee ≠ [] ∧ ∀ e ∈ ee, e = some v := by
    intro ee hee
    obtain ⟨j, h1, h2⟩ := hmem ee hee
    exact hEE j ee h1 h2
  refine ⟨?_, ?_, ?_⟩
  · rw [hmu, List.getElem?_map, List.getElem?_range hclt, Option.map_some]
    congr 1
    apply npMeanN_const _ _ (by simpa using hne)
    intro e he
    obtain ⟨ee, hee, rfl⟩ := List.mem_map.mp he
    exact npMeanN_const _ _ (hrow ee hee).1 (hrow ee hee).2
  · rw [hms, List.getElem?_map, List.getElem?_range hclt, Option.map_some]
    congr 1
    apply npMeanN_const _ _ (by simpa using hne)
    intro e he
    obtain ⟨ee, hee, rfl⟩ := List.mem_map.mp he
    apply npMeanN_const _ _ (by simpa using (hrow ee hee).1)
    intro e he
    obtain ⟨e', he', rfl⟩ := List.mem_map.mp he
    rw [(hrow ee hee).2 e' he']
    rfl
  · intro hcount h2
    rw [hsg, List.getElem?_map, List.getElem?_range hclt, Option.map_some]
    congr 1
    rw [if_pos (by rw [column_sum_count labels G names hG c l hc]; exact hcount)]
    apply npMeanN_const _ _ (by simpa using hne)
    intro e he
    obtain ⟨ee, hee, rfl⟩ := List.mem_map.mp he
    obtain ⟨j, h3, h4⟩ := hmem ee hee
    exact npStd1N_const sqrt ee v (h2 j ee h3 h4) (hrow ee hee).2

/-! ## C31, C29 -/

/-- A finite sample as trajectories with one (finite) scaling function per column. -/
theorem morrisSample_finite (F : Ppf α) (sqrt : α → α) (argsort : List α → List Nat) (ha : ValidArgsort argsort)
    (draws : Nat → TrajDraws α) (pb : Problem α) (N p : Nat) (hp : 2 ≤ p) (hN : 0 < N)
    (hv : ∀ i, ValidTrajDraws p (draws i)) (hlab : (effectiveLabels pb).length = pb.numVars)
    (hD : 0 < pb.numVars) (opt : OptArg α) (localOpt : Bool) (X : Mat α) (q : Problem α)
    (h : morrisSample F sqrt argsort draws pb N p opt localOpt = .ok (X.map (·.map some), q)) :
    ∃ names ts, ∃ gs : List (α → α), ts ≠ [] ∧ IsMorrisUnit (effectiveLabels pb) p names ts ∧
      gs.length = pb.numVars ∧ X = (ts.map (·.map (applyCols gs))).flatten ∧
      scaleSamples F pb.numVars ts.flatten { pb with groups := some (effectiveLabels pb) } =
        .ok (X.map (·.map some), q) := by
  obtain ⟨names, ts, h1, h2, h3⟩ := morrisSample_inv F sqrt argsort ha draws pb N p hp hN hv hlab hD opt localOpt _ q h
  rcases scaleSamples_columns F pb.numVars { pb with groups := some (effectiveLabels pb) } with ⟨e, he⟩ | ⟨fs, hfl, hfs⟩
  · rw [he] at h3; cases h3
  · refine ⟨names, ts, fs.map fun f x => (f x).getD 0, h1, h2, by simpa using hfl, ?_, h3⟩
    rw [hfs] at h3
    have e : X.map (·.map some) = ts.flatten.map (applyCols fs) := by
      have := Except.ok.inj h3
      exact (congrArg Prod.fst this).symm
    have e2 : X = (X.map (·.map some)).map (·.map fun v => v.getD 0) := by
      simp [List.map_map, Function.comp_def]
    rw [e2, e, List.map_map, List.map_flatten]
    congr 1
    apply List.map_congr_left
    intro T _
    apply List.map_congr_left
    intro row _
    simp only [Function.comp, applyCols, List.map_zipWith, List.zipWith_map_left]

theorem changesOnlyAt_applyCols (gs : List (α → α)) (T : Mat α) (j t : Nat) (hj : j < gs.length)
    (h : ChangesOnlyAt T j t) : ChangesOnlyAt (T.map (applyCols gs)) j t := by
  intro s hs hl
  rw [entry_map_applyCols gs T _ j hj, entry_map_applyCols gs T _ j hj, h s hs (by simpa using hl)]

/-- Every Morris sample satisfies the proviso of `C32_scale`: within a trajectory every parameter moves at
exactly one step. -/
theorem morris_changes_once (labels names : List String) (p : Nat) (ts : List (Mat α))
    (h : IsMorrisUnit labels p names ts) (gs : List (α → α)) (hgl : gs.length = labels.length)
    (T : Mat α) (hT : T ∈ ts) (j : Nat) (hj : j < labels.length) :
    ∃ t, ChangesOnlyAt (T.map (applyCols gs)) j t := by
  obtain ⟨t, -, h1, -⟩ := trajectory_step labels names p ts h T hT j labels[j] (List.getElem?_eq_getElem hj)
  exact ⟨t, changesOnlyAt_applyCols gs T j t (by omega) h1⟩

/-- The model `f` does not depend on the parameters labelled `l`. -/
def Spec.IgnoresLabel (labels : List String) (l : String) (f : List α → α) : Prop :=
  ∀ a b : List α, a.length = labels.length → b.length = labels.length →
    (∀ (i : Nat) l', labels[i]? = some l' → l' ≠ l → a[i]? = b[i]?) → f a = f b

/-- **C31.** Sample with the Morris sampler (any grouping, distributions and optimisation; all points
finite), evaluate a model that ignores the parameters labelled `l`, and analyse: `mu` and `mu_star` of `l`
are exactly 0, and so is `sigma` when `l` labels one parameter and there are two or more trajectories. -/
theorem C31_ignored_factor (F : Ppf α) (sqrt : α → α) (argsort : List α → List Nat) (ha : ValidArgsort argsort)
    (draws : Nat → TrajDraws α) (pb pbA : Problem α) (N p : Nat) (hp : 2 ≤ p) (hN : 0 < N)
    (hv : ∀ i, ValidTrajDraws p (draws i)) (hlab : (effectiveLabels pb).length = pb.numVars)
    (hD : 0 < pb.numVars) (opt : OptArg α) (localOpt : Bool) (X : Mat α) (q : Problem α)
    (h : morrisSample F sqrt argsort draws pb N p opt localOpt = .ok (X.map (·.map some), q))
    (hA : effectiveLabels pbA = effectiveLabels pb) (hAn : pbA.numVars = pb.numVars)
    (z conf : α) (hc : 0 < conf ∧ conf < 1) (resample : Nat → List (List Nat))
    (l : String) (f : List α → α) (hf : IgnoresLabel (effectiveLabels pb) l f) :
    ∃ res, morrisAnalyze sqrt z conf resample pbA X pb.numVars (X.map f) false p = .ok res ∧
      DistinctInOrder (effectiveLabels pb) res.names ∧
      ∀ c : Nat, res.names[c]? = some l →
        res.mu[c]? = some (some 0) ∧ res.muStar[c]? = some (some 0) ∧
        ((effectiveLabels pb).count l = 1 → 2 * (res.names.length + 1) ≤ X.length →
          res.sigma[c]? = some (some (sqrt 0))) := by
  obtain ⟨names, ts, gs, h1, h2, hgl, rfl, -⟩ := morrisSample_finite F sqrt argsort ha draws pb N p hp hN hv hlab hD
    opt localOpt X q h
  let S := fun T : Mat α => T.map (applyCols gs)
  let zs := ts.map fun T => (S T, (S T).map f)
  have hrows := h2.isSample.rows
  have hcols := h2.isSample.cols
  have hz : ∀ z ∈ zs, z.1.length = names.length + 1 ∧ z.2.length = names.length + 1 := by
    intro z hz
    obtain ⟨T, hT, rfl⟩ := List.mem_map.mp hz
    simp [S, hrows T hT]
  have e1 : zs.map Prod.fst = ts.map S := by simp [zs, List.map_map, Function.comp_def]
  have e2 : (zs.map Prod.snd).flatten = (ts.map S).flatten.map f := by
    rw [List.map_flatten]; simp [zs, List.map_map, Function.comp_def]
  obtain ⟨res, G, h3, hG, h4⟩ := morrisAnalyze_blocks sqrt z conf resample pbA zs false p hp hc (by rw [hA, hAn, hlab]) names
    (by rw [hA]; exact h2.distinct) (by simpa [zs] using h1) hz
  rw [e1, e2, hAn] at h3
  rw [hA] at hG
  have hn : res.names = names := (statisticalOutputs_eq _ _ _ _ _ _ _ _ _ h4).2.1
  refine ⟨res, h3, by rw [hn]; exact h2.distinct, ?_⟩
  intro c hcl
  rw [hn] at hcl
  have hEE : ∀ (j : Nat) ee, ((List.range pbA.numVars).map fun j => zs.map (effect sqrt (morrisDelta p) false j))[j]? =
      some ee → (effectiveLabels pb)[j]? = some l → ee.length = ts.length ∧ ∀ e ∈ ee, e = some 0 := by
    intro j ee hee hj
    have hjD : j < pb.numVars := by rw [← hlab]; exact (List.getElem?_eq_some_iff.mp hj).1
    rw [List.getElem?_map, List.getElem?_range (by omega), Option.map_some, Option.some.injEq] at hee
    subst hee
    refine ⟨by simp [zs], ?_⟩
    intro e he
    obtain ⟨w, hw, rfl⟩ := List.mem_map.mp he
    obtain ⟨T, hT, rfl⟩ := List.mem_map.mp hw
    obtain ⟨t, ht, hch, -, hoth⟩ := trajectory_step _ names p ts h2 T hT j l hj
    have hTl := hrows T hT
    have hdiff : effectDifference (S T) ((S T).map f) j = 0 := by
      rw [effectDifference_eq (S T) _ j t (by simp) (by simp [S, hTl]; omega)
        (changesOnlyAt_applyCols gs T j t (by omega) hch)]
      have hlen : (S T).length = names.length + 1 := by simp [S, hTl]
      have hfe : f (S T)[t] = f (S T)[t + 1] := by
        have hll : ∀ s (hs : s < T.length), (applyCols gs T[s]).length = (effectiveLabels pb).length := by
          intro s hs
          simp only [applyCols, List.length_zipWith]
          rw [hcols T hT _ (List.getElem_mem hs), hgl, hlab]; omega
        apply hf
        · simp only [S, List.getElem_map]; exact hll _ _
        · simp only [S, List.getElem_map]; exact hll _ _
        · intro i l' hi hne
          have hiD : i < gs.length := by rw [hgl, ← hlab]; exact (List.getElem?_eq_some_iff.mp hi).1
          have h5 := entry_map_applyCols gs T t i hiD
          have h6 := entry_map_applyCols gs T (t + 1) i hiD
          rw [hoth i l' hi hne, ← h6] at h5
          unfold entry at h5
          rw [List.getElem?_eq_getElem (by simp; omega), List.getElem?_eq_getElem (by simp; omega),
            Option.bind_some, Option.bind_some] at h5
          exact h5
      have hyt : ∀ s (hs : s < (S T).length), ((S T).map f).getD s 0 = f (S T)[s] := by
        intro s hs
        rw [List.getD_eq_getElem?_getD, List.getElem?_map, List.getElem?_eq_getElem hs]
        rfl
      have hy : ((S T).map f).getD (t + 1) 0 = ((S T).map f).getD t 0 := by
        rw [hyt (t + 1) (by omega), hyt t (by omega), hfe]
      rw [hy, sub_self]
      simp
    show npDiv _ _ = _
    rw [hdiff]
    rw [npDiv_some _ _ (morrisDelta_pos p hp).ne', zero_div]
  have hpos := List.length_pos_of_ne_nil h1
  obtain ⟨k1, k2, k3⟩ := grouped_const sqrt z conf resample (effectiveLabels pb) _ pbA.numVars G names res hG h4 c l hcl 0
    (fun j ee hee hj => ⟨fun e => by have := (hEE j ee hee hj).1; rw [e] at this; simp at this; omega,
      (hEE j ee hee hj).2⟩)
  refine ⟨k1, by simpa using k2, ?_⟩
  intro hcount hlen
  refine k3 hcount ?_
  intro j ee hee hj
  rw [(hEE j ee hee hj).1]
  rw [hn, length_flatten_blocks _ (names.length + 1) (by
    intro b hb; obtain ⟨T, hT, rfl⟩ := List.mem_map.mp hb; simp [hrows T hT]), List.length_map] at hlen
  exact Nat.le_of_mul_le_mul_right hlen (by omega)

/-- The linear model with intercept `c0` and coefficients `cs`. -/
def Spec.linearModel (c0 : α) (cs : List α) (row : List α) : α := c0 + (List.zipWith (· * ·) cs row).sum

theorem linear_one_change (c0 : α) (cs a b : List α) (j : Nat) (hj : j < cs.length) (ha : a.length = cs.length)
    (hb : b.length = cs.length) (h : ∀ i, i ≠ j → a[i]? = b[i]?) :
    linearModel c0 cs b - linearModel c0 cs a = cs.getD j 0 * (b.getD j 0 - a.getD j 0) := by
  unfold linearModel
  have key : ∀ (cs a b : List α) (j : Nat), j < cs.length → a.length = cs.length → b.length = cs.length →
      (∀ i, i ≠ j → a[i]? = b[i]?) →
      (List.zipWith (· * ·) cs b).sum - (List.zipWith (· * ·) cs a).sum =
        cs.getD j 0 * (b.getD j 0 - a.getD j 0) := by
    intro cs
    induction cs with
    | nil => intro a b j hj; simp at hj
    | cons x cs ih =>
      intro a b j hj ha hb h
      cases a with
      | nil => simp at ha
      | cons u a =>
        cases b with
        | nil => simp at hb
        | cons v b =>
          cases j with
          | zero =>
            have : a = b := by
              apply List.ext_getElem?
              intro i
              simpa using h (i + 1) (by omega)
            subst this
            simp; ring
          | succ j =>
            have h0 := h 0 (by omega)
            simp only [List.getElem?_cons_zero, Option.some.injEq] at h0
            subst h0
            have := ih a b j (by simpa using hj) (by simpa using ha) (by simpa using hb) (fun i hi => by
              simpa using h (i + 1) (by omega))
            simp only [List.zipWith_cons_cons, List.sum_cons, List.getD_cons_succ]
            linear_combination this
  linear_combination key cs a b j hj ha hb h

theorem scaleSamples_legal (F : Ppf α) (pb : Problem α) (bs : List (α × α)) (params : Mat α)
    (hb : pb.bounds = boundsTable bs) (hd : pb.dists = none) (hne : bs ≠ [])
    (hlegal : ∀ p ∈ bs, p.1 < p.2) :
    scaleSamples F bs.length params pb =
      .ok ((params.map (applyCols (bs.map fun p x => x * (p.2 - p.1) + p.1))).map (·.map some),
        { pb with sampleScaled := true }) := by
  unfold scaleSamples
  rw [hd, hb]
  simp only [scaleUniform_legal bs hne hlegal]
  have e : (fun row : List α => List.zipWith (fun x (p : α × α) => x * (p.2 - p.1) + p.1) row bs) =
      applyCols (bs.map fun p x => x * (p.2 - p.1) + p.1) := by
    funext row
    unfold applyCols
    rw [List.zipWith_map_left, List.zipWith_comm]
  rw [← e]
  rfl

/-- **C29.** Sample with the Morris sampler (no groups, legal uniform bounds, any optimisation), evaluate a
linear model and analyse: every elementary effect of parameter `j` is `c_j * (upper_j - lower_j)`; `mu` is
that number, `mu_star` its absolute value, and `sigma` is 0 when there are two or more trajectories. -/
theorem C29_linear_exact (F : Ppf α) (sqrt : α → α) (argsort : List α → List Nat) (ha : ValidArgsort argsort)
    (draws : Nat → TrajDraws α) (pb pbA : Problem α) (bs : List (α × α)) (N p : Nat) (hp : 2 ≤ p) (hN : 0 < N)
    (hv : ∀ i, ValidTrajDraws p (draws i)) (hlab : (effectiveLabels pb).length = pb.numVars)
    (hnd : (effectiveLabels pb).Nodup)
    (hb : pb.bounds = boundsTable bs) (hbl : bs.length = pb.numVars) (hd : pb.dists = none)
    (hlegal : ∀ b ∈ bs, b.1 < b.2)
    (hD : 0 < pb.numVars) (opt : OptArg α) (localOpt : Bool) (X : Mat α) (q : Problem α)
    (h : morrisSample F sqrt argsort draws pb N p opt localOpt = .ok (X.map (·.map some), q))
    (hA : effectiveLabels pbA = effectiveLabels pb) (hAn : pbA.numVars = pb.numVars)
    (z conf : α) (hc : 0 < conf ∧ conf < 1) (resample : Nat → List (List Nat))
    (c0 : α) (cs : List α) (hcs : cs.length = pb.numVars) :
    ∃ EE res, elementaryEffects sqrt X pb.numVars (X.map (linearModel c0 cs)) (pb.numVars + 1) (morrisDelta p)
        false = .ok EE ∧ EE.length = pb.numVars ∧
      morrisAnalyze sqrt z conf resample pbA X pb.numVars (X.map (linearModel c0 cs)) false p = .ok res ∧
      res.names = effectiveLabels pb ∧
      ∀ (j : Nat) c lo hi, cs[j]? = some c → bs[j]? = some (lo, hi) →
        (∃ ee, EE[j]? = some ee ∧ ee ≠ [] ∧ ∀ e ∈ ee, e = some (c * (hi - lo))) ∧
        res.mu[j]? = some (some (c * (hi - lo))) ∧ res.muStar[j]? = some (some |c * (hi - lo)|) ∧
        (2 * (pb.numVars + 1) ≤ X.length → res.sigma[j]? = some (some (sqrt 0))) := by
  have hbne : bs ≠ [] := by rintro rfl; simp at hbl; omega
  obtain ⟨names, ts, -, h1, h2, -, -, hsc⟩ := morrisSample_finite F sqrt argsort ha draws pb N p hp hN hv hlab hD
    opt localOpt X q h
  have hnames : names = effectiveLabels pb := by
    have hperm : names.Perm (pdUnique (effectiveLabels pb)) :=
      (List.perm_ext_iff_of_nodup h2.distinct.nodup (nodup_pdUnique _)).mpr fun x => by
        rw [h2.distinct.mem_iff, mem_pdUnique]
    have := hperm.eq_of_pairwise (fun a b _ _ h1 h2 => absurd h2 (by omega)) h2.distinct.first_mention
      (pdUnique_distinct (effectiveLabels pb)).first_mention
    rw [this, pdUnique_of_nodup _ hnd]
  subst hnames
  let gs : List (α → α) := bs.map fun p x => x * (p.2 - p.1) + p.1
  have hgl : gs.length = pb.numVars := by simpa [gs] using hbl
  have hX : X = (ts.map (·.map (applyCols gs))).flatten := by
    have hs2 := scaleSamples_legal F { pb with groups := some (effectiveLabels pb) } bs ts.flatten hb hd hbne hlegal
    rw [hbl, hsc] at hs2
    have e : X.map (·.map some) = (ts.flatten.map (applyCols gs)).map (·.map some) :=
      congrArg Prod.fst (Except.ok.inj hs2)
    have hinj : ∀ A B : Mat α, A.map (·.map some) = B.map (·.map some) → A = B := by
      intro A B hAB
      have := congrArg (List.map (List.map fun v : Num α => v.getD 0)) hAB
      simpa [List.map_map, Function.comp_def] using this
    rw [hinj _ _ e, List.map_flatten]
  subst hX
  let f := linearModel c0 cs
  let S := fun T : Mat α => T.map (applyCols gs)
  let zs := ts.map fun T => (S T, (S T).map f)
  have hrows := h2.isSample.rows
  have hcols := h2.isSample.cols
  have hz : ∀ z ∈ zs, z.1.length = pb.numVars + 1 ∧ z.2.length = pb.numVars + 1 := by
    intro z hz
    obtain ⟨T, hT, rfl⟩ := List.mem_map.mp hz
    simp [S, hrows T hT, hlab]
  have e1 : zs.map Prod.fst = ts.map S := by simp [zs, List.map_map, Function.comp_def]
  have e2 : (zs.map Prod.snd).flatten = (ts.map S).flatten.map f := by
    rw [List.map_flatten]; simp [zs, List.map_map, Function.comp_def]
  obtain ⟨res, G, h3, hG, h4⟩ := morrisAnalyze_blocks sqrt z conf resample pbA zs false p hp hc (by rw [hA, hAn, hlab])
    (effectiveLabels pb) (by rw [hA]; exact h2.distinct) (by simpa [zs] using h1) (by rw [hlab]; exact hz)
  have hEEeq := elementaryEffects_blocks sqrt zs pb.numVars (pb.numVars + 1) (morrisDelta p) false (by omega) hz
  rw [e1, e2, hAn] at h3
  rw [e1, e2] at hEEeq
  rw [hA] at hG
  rw [hAn] at h4
  have hn : res.names = effectiveLabels pb := (statisticalOutputs_eq _ _ _ _ _ _ _ _ _ h4).2.1
  refine ⟨_, res, hEEeq, by simp, h3, hn, ?_⟩
  intro j c lo hi hcj hbj
  have hjD : j < pb.numVars := by rw [← hbl]; exact (List.getElem?_eq_some_iff.mp hbj).1
  have hjl : j < (effectiveLabels pb).length := by omega
  have hlj := List.getElem?_eq_getElem hjl
  have hpos := List.length_pos_of_ne_nil h1
  have heff : ∀ e ∈ zs.map (effect sqrt (morrisDelta p) false j), e = some (c * (hi - lo)) := by
    intro e he
    obtain ⟨w, hw, rfl⟩ := List.mem_map.mp he
    obtain ⟨T, hT, rfl⟩ := List.mem_map.mp hw
    obtain ⟨t, ht, hch, ⟨x, y, hx, hy, hxy⟩, hoth⟩ := trajectory_step _ _ p ts h2 T hT j _ hlj
    have hTl := hrows T hT
    have hlen : (S T).length = (effectiveLabels pb).length + 1 := by simp [S, hTl]
    have hgj : gs[j]'(by omega) = fun x => x * (hi - lo) + lo := by
      have : bs[j]'(by omega) = (lo, hi) := (List.getElem?_eq_some_iff.mp hbj).2
      simp [gs, this]
    have hsx : entry (S T) t j = some (x * (hi - lo) + lo) := by
      simp only [S]; rw [entry_map_applyCols gs T t j (by omega), hx, hgj]; rfl
    have hsy : entry (S T) (t + 1) j = some (y * (hi - lo) + lo) := by
      simp only [S]; rw [entry_map_applyCols gs T _ j (by omega), hy, hgj]; rfl
    have hll : ∀ s (hs : s < T.length), (applyCols gs T[s]).length = cs.length := by
      intro s hs
      simp only [applyCols, List.length_zipWith]
      rw [hcols T hT _ (List.getElem_mem hs), hgl, hlab, hcs]; omega
    have hlin : f (S T)[t + 1] - f (S T)[t] = c * ((y - x) * (hi - lo)) := by
      have := linear_one_change c0 cs (S T)[t] (S T)[t + 1] j (by omega)
        (by simp only [S, List.getElem_map]; exact hll _ _) (by simp only [S, List.getElem_map]; exact hll _ _) (by
          intro i hij
          by_cases hiD : i < gs.length
          · have hil : i < (effectiveLabels pb).length := by omega
            have h5 := entry_map_applyCols gs T t i hiD
            have h6 := entry_map_applyCols gs T (t + 1) i hiD
            rw [hoth i _ (List.getElem?_eq_getElem hil) (fun e => hij ((hnd.getElem_inj_iff).mp e)), ← h6] at h5
            unfold entry at h5
            rw [List.getElem?_eq_getElem (by simp; omega), List.getElem?_eq_getElem (by simp; omega), Option.bind_some,
              Option.bind_some] at h5
            exact h5
          · rw [List.getElem?_eq_none, List.getElem?_eq_none]
            · simp only [S, List.getElem_map]; rw [hll]; omega
            · simp only [S, List.getElem_map]; rw [hll]; omega)
      rw [this]
      unfold entry at hsx hsy
      rw [List.getElem?_eq_getElem (by omega), Option.bind_some] at hsx hsy
      simp only [List.getD_eq_getElem?_getD, hsx, hsy, hcj, Option.getD_some]
      ring
    have hpd := morrisDelta_pos (α := α) p hp
    have hlh : 0 < hi - lo := by
      have := hlegal _ (List.mem_of_getElem? hbj)
      simpa using this
    have hdiff : effectDifference (S T) ((S T).map f) j = c * (hi - lo) * morrisDelta p := by
      rw [effectDifference_eq (S T) _ j t (by simp) (by omega)
        (changesOnlyAt_applyCols gs T j t (by omega) hch), hsx, hsy]
      have hyt : ∀ s (hs : s < (S T).length), ((S T).map f).getD s 0 = f (S T)[s] := by
        intro s hs
        rw [List.getD_eq_getElem?_getD, List.getElem?_map, List.getElem?_eq_getElem hs]
        rfl
      rw [hyt (t + 1) (by omega), hyt t (by omega)]
      have hsub : (some (y * (hi - lo) + lo)).getD 0 - (some (x * (hi - lo) + lo)).getD 0 =
          (y - x) * (hi - lo) := by
        simp only [Option.getD_some]; ring
      rw [hsub]
      rcases hxy with rfl | rfl
      · rw [if_pos (by have := mul_pos hpd hlh; linarith [this, show (x + morrisDelta p - x) * (hi - lo) = morrisDelta p * (hi - lo) by ring]),
          hlin]
        ring
      · have hneg : (x - morrisDelta p - x) * (hi - lo) < 0 := by
          have := mul_pos hpd hlh
          linarith [this, show (x - morrisDelta p - x) * (hi - lo) = - (morrisDelta p * (hi - lo)) by ring]
        rw [if_neg (not_lt.mpr hneg.le), if_pos hneg]
        linear_combination (-1 : α) * hlin
    show npDiv _ _ = _
    rw [hdiff, npDiv_some _ _ hpd.ne', mul_div_cancel_right₀ _ hpd.ne']
  have hEEj : ((List.range pb.numVars).map fun j => zs.map (effect sqrt (morrisDelta p) false j))[j]? =
      some (zs.map (effect sqrt (morrisDelta p) false j)) := by
    rw [List.getElem?_map, List.getElem?_range hjD, Option.map_some]
  have huniq : ∀ i : Nat, (effectiveLabels pb)[i]? = some (effectiveLabels pb)[j] → i = j := by
    intro i hi
    obtain ⟨hil, hi⟩ := List.getElem?_eq_some_iff.mp hi
    exact (hnd.getElem_inj_iff).mp hi
  have hzne : zs.map (effect sqrt (morrisDelta p) false j) ≠ [] := by simpa [zs] using h1
  obtain ⟨k1, k2, k3⟩ := grouped_const sqrt z conf resample (effectiveLabels pb) _ pb.numVars G _ res hG h4 j _
    hlj (c * (hi - lo)) (fun i ee hee hi => by
      rw [huniq i hi, hEEj] at hee
      cases hee
      exact ⟨hzne, heff⟩)
  refine ⟨⟨_, hEEj, hzne, heff⟩, k1, k2, ?_⟩
  intro hlen
  refine k3 (List.count_eq_one_of_mem hnd (List.getElem_mem _)) ?_
  intro i ee hee hi
  rw [huniq i hi, hEEj] at hee
  cases hee
  rw [length_flatten_blocks _ (pb.numVars + 1) (by
    intro b hb; obtain ⟨T, hT, rfl⟩ := List.mem_map.mp hb; simp [hrows T hT, hlab]), List.length_map] at hlen
  simp only [List.length_map, zs]
  exact Nat.le_of_mul_le_mul_right hlen (by omega)

/-- The proviso of `C32_scale` is needed: if a parameter moves up and then down again inside a trajectory,
adding 1 to all outputs changes `mu` (of the first parameter here from 0 to -3/2). -/
theorem C32_shift_fails :
    let pb : Problem ℚ := { names := ["x", "y"], bounds := [[0, 1], [0, 1]] }
    let X : Mat ℚ := [[0, 0], [1, 0], [0, 1]]
    let run := fun Y : List ℚ => (morrisAnalyze (fun x => x) 1 (1/2) (fun _ => []) pb X 2 Y false 4).map (·.mu)
    run [0, 0, 0] = .ok [some 0, some 0] ∧ run [1, 1, 1] = .ok [some (-3/2), some 0] := by
  decide +kernel

/-- The analyser does not check that the number of outputs is a multiple of the trajectory size: with two
parameters (trajectories of 3 points), 8 outputs are read as two trajectories of 4 points. -/
theorem morris_wrong_size_accepted :
    let pb : Problem ℚ := { names := ["x", "y"], bounds := [[0, 1], [0, 1]] }
    let X : Mat ℚ := [[0, 0], [1, 0], [1, 1], [0, 0], [1, 0], [1, 1], [0, 0], [1, 0]]
    (morrisAnalyze (fun x => x) 1 (1/2) (fun _ => []) pb X 2 [0, 1, 2, 3, 4, 5, 6, 7] false 4).map (·.names) =
      .ok ["x", "y"] := by
  decide +kernel

/-- The hypotheses of C28, C29, C31 and C32 are met: three parameters with different bounds, two
trajectories with different group orders, the linear model 1 + 3x - 5y (which ignores the third parameter). -/
example :
    let draws : Nat → TrajDraws ℚ := fun i =>
      { shuffle := fun M => if i = 0 then M.reverse else M, up := fun j => j == i, pick := fun j => j % 2 }
    let pb : Problem ℚ := { names := ["x", "y", "w"], bounds := [[0, 2], [1, 4], [-1, 1]] }
    let F : Ppf ℚ := ⟨fun _ _ _ _ => none, fun _ _ _ => none, fun _ _ _ => none, fun _ _ _ _ _ => none,
      fun _ _ _ _ => none, fun x => x⟩
    (∀ i, ValidTrajDraws 4 (draws i)) ∧ (effectiveLabels pb).length = pb.numVars ∧
    (effectiveLabels pb).Nodup ∧ pb.bounds = boundsTable [(0, 2), (1, 4), (-1, 1)] ∧
    IgnoresLabel (effectiveLabels pb) "w" (linearModel (1 : ℚ) [3, -5, 0]) ∧
    ∃ (X : Mat ℚ) (q : Problem ℚ), morrisSample F (fun x => x) stableArgsort draws pb 2 4 .none true = .ok (X.map (·.map some), q) ∧
      X.length = 8 ∧
      (morrisAnalyze (fun x => x) 1 (1/2) (fun _ => []) q X 3 (X.map (linearModel 1 [3, -5, 0])) false 4).map
        (fun r => (r.names, r.mu, r.muStar, r.sigma)) =
      .ok (["x", "y", "w"], [some 6, some (-15), some 0], [some 6, some 15, some 0], [some 0, some 0, some 0]) := by
  intro draws pb F
  refine ⟨fun i => ⟨fun M => ?_, fun j => by simp only [draws]; omega⟩, rfl, by decide, rfl, ?_, ?_⟩
  · by_cases h : i = 0
    · simp only [draws, h, if_true]; exact List.reverse_perm M
    · simp only [draws, h, if_false]; exact List.Perm.refl M
  · intro a b ha hb h
    have ha : a.length = 3 := ha
    have hb : b.length = 3 := hb
    obtain ⟨a0, a1, a2, rfl⟩ := List.length_eq_three.mp ha
    obtain ⟨b0, b1, b2, rfl⟩ := List.length_eq_three.mp hb
    have h0 := h 0 "x" rfl (by decide)
    have h1 := h 1 "y" rfl (by decide)
    simp only [List.getElem?_cons_zero, List.getElem?_cons_succ, Option.some.injEq] at h0 h1
    simp [linearModel, h0, h1]
  · refine ⟨((morrisSample F (fun x => x) stableArgsort draws pb 2 4 .none true).toOption.getD ([], pb)).1.map
      (·.map fun v => v.getD 0),
      ((morrisSample F (fun x => x) stableArgsort draws pb 2 4 .none true).toOption.getD ([], pb)).2,
      by decide +kernel, by decide +kernel, by decide +kernel⟩

end SALib
