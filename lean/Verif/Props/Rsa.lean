import Verif.Props.PawnAnalyze

/-! # Regional sensitivity analysis: bins and reported columns (C55, C76) -/

set_option linter.unusedSectionVars false

namespace SALib

variable {α : Type} [Field α] [LinearOrder α] [IsStrictOrderedRing α]

theorem rsaEdges_getD (t : List α) (bins s : Nat) (hs : s ≤ bins) :
    (rsaEdges t bins).getD s 0 = npQuantile t s bins := by
  simp [rsaEdges, List.getD, Nat.lt_succ_of_le hs]

theorem mem_rsaBin (t : List α) (bins s i : Nat) (hs : s < bins) :
    i ∈ rsaBin t bins s ↔ ∃ x, t[i]? = some x ∧ (if s = 0 then npQuantile t 0 bins ≤ x else npQuantile t s bins < x) ∧
      x ≤ npQuantile t (s + 1) bins := by
  unfold rsaBin
  by_cases h0 : s = 0
  · subst h0
    simp only [if_pos]
    rw [rsaEdges_getD t bins 0 (by omega), rsaEdges_getD t bins 1 (by omega), mem_whereIdx]
    simp
  · simp only [if_neg h0]
    rw [rsaEdges_getD t bins s (by omega), rsaEdges_getD t bins (s + 1) (by omega), mem_whereIdx]
    simp

/-- **C55**: for every target array and every number of bins, each sample is in exactly one bin. -/
theorem C55_once (t : List α) (bins : Nat) (hb : 0 < bins) (i : Nat) (hi : i < t.length) :
    ∃! s : Nat, s < bins ∧ i ∈ rsaBin t bins s := by
  have ht : t ≠ [] := by rintro rfl; simp at hi
  obtain ⟨x, hx⟩ : ∃ x, t[i]? = some x := ⟨_, List.getElem?_eq_getElem hi⟩
  have hxm : x ∈ t := List.mem_of_getElem? hx
  have hlo : npQuantile t 0 bins ≤ x := by
    rw [npQuantile_zero t bins]
    exact npSort_first_le t x hxm
  have hhi : x ≤ npQuantile t bins bins := by
    rw [npQuantile_one t ht bins hb]
    exact npSort_le_last t x hxm
  have hmono : ∀ a b, a ≤ b → b ≤ bins → npQuantile t a bins ≤ npQuantile t b bins :=
    fun a b hab hb' => npQuantile_mono t ht a b bins hb hab hb'
  have hmem : ∀ s < bins, (i ∈ rsaBin t bins s ↔ (if s = 0 then npQuantile t 0 bins ≤ x else npQuantile t s bins < x) ∧
      x ≤ npQuantile t (s + 1) bins) := by
    intro s hs
    rw [mem_rsaBin t bins s i hs]
    constructor
    · rintro ⟨y, hy, h⟩
      rw [hx] at hy; cases hy; exact h
    · exact fun h => ⟨x, hx, h⟩
  have hex : ∃ s, s < bins ∧ x ≤ npQuantile t (s + 1) bins := ⟨bins - 1, by omega, by
    rw [Nat.sub_add_cancel hb]; exact hhi⟩
  classical
  obtain ⟨hs1, hs2⟩ := Nat.find_spec hex
  have hmin : ∀ m < Nat.find hex, ¬(m < bins ∧ x ≤ npQuantile t (m + 1) bins) := fun m hm => Nat.find_min hex hm
  generalize Nat.find hex = s at *
  refine ⟨s, ⟨hs1, (hmem s hs1).mpr ⟨?_, hs2⟩⟩, ?_⟩
  · by_cases h0 : s = 0
    · rw [if_pos h0]; exact hlo
    · rw [if_neg h0]
      have := hmin (s - 1) (by omega)
      rw [Nat.sub_add_cancel (by omega)] at this
      by_contra hc
      exact this ⟨by omega, not_lt.mp hc⟩
  · rintro u ⟨hu, hum⟩
    obtain ⟨h1, h2⟩ := (hmem u hu).mp hum
    by_contra hne
    rcases lt_or_gt_of_ne hne with hlt | hgt
    · exact hmin u hlt ⟨hu, h2⟩
    · rw [if_neg (by omega)] at h1
      have := hmono (s + 1) u (by omega) (by omega)
      exact absurd (hs2.trans this) (not_le.mpr h1)

theorem nodup_rsaBin (t : List α) (bins s : Nat) : (rsaBin t bins s).Nodup := by
  unfold rsaBin
  simp only []
  split <;> exact nodup_whereIdx _ _

/-- The rows compared for a bin: those in it and those outside it are together all rows, each once. -/
theorem C55_sides (t : List α) (bins s : Nat) (hs : s < bins) :
    (rsaBin t bins s ++ rowsNot t.length (rsaBin t bins s)).Perm (List.range t.length) := by
  have hlt : ∀ i ∈ rsaBin t bins s, i < t.length := by
    intro i hi
    obtain ⟨x, hx, -⟩ := (mem_rsaBin t bins s i hs).mp hi
    exact (List.getElem?_eq_some_iff.mp hx).1
  rw [List.perm_ext_iff_of_nodup]
  · intro i
    unfold rowsNot
    rw [List.mem_append, List.mem_filter, List.mem_range, decide_eq_true_iff]
    constructor
    · rintro (h | h)
      · exact hlt i h
      · exact h.1
    · intro h
      by_cases hm : i ∈ rsaBin t bins s
      · exact Or.inl hm
      · exact Or.inr ⟨h, hm⟩
  · rw [List.nodup_append]
    refine ⟨nodup_rsaBin t bins s, List.nodup_range.filter _, ?_⟩
    intro a ha b hb hab
    subst hab
    have := (List.mem_filter.mp hb).2
    simp [ha] at this
  · exact List.nodup_range

theorem dedup_length_gt (l : List α) : l.dedup.length > 1 ↔ ∃ a ∈ l, ∃ b ∈ l, a < b := by
  constructor
  · intro h
    match hd : l.dedup, h with
    | a :: b :: _, _ =>
      have ha : a ∈ l := by rw [← List.mem_dedup, hd]; simp
      have hb : b ∈ l := by rw [← List.mem_dedup, hd]; simp
      have hn := List.nodup_dedup l
      rw [hd] at hn
      have hab : a ≠ b := by
        intro e; subst e; simp at hn
      rcases lt_or_gt_of_ne hab with h1 | h1
      · exact ⟨a, ha, b, hb, h1⟩
      · exact ⟨b, hb, a, ha, h1⟩
  · rintro ⟨a, ha, b, hb, hab⟩
    rw [← List.mem_dedup] at ha hb
    match hd : l.dedup with
    | [] => rw [hd] at ha; simp at ha
    | [c] =>
      rw [hd] at ha hb
      simp at ha hb
      exact absurd hab (by rw [ha, hb]; exact lt_irrefl _)
    | _ :: _ :: _ => simp

/-- **C55**, the value of a bin: it is missing exactly when the output is constant (or absent) inside the bin, or no
sample lies outside it.  Otherwise it is the statistic of the samples inside against all others. -/
theorem C55_entry (cvm : List α → List α → α) (col y : List α) (hl : col.length = y.length) (bins s : Nat)
    (hs : s < bins) (target : RsaTarget) :
    (rsaEntry cvm col y bins target s = none ↔
      ¬((∃ i ∈ rsaBin (if target = .X then col else y) bins s, ∃ j ∈ rsaBin (if target = .X then col else y) bins s,
          y.getD i 0 < y.getD j 0) ∧
        ∃ i < y.length, i ∉ rsaBin (if target = .X then col else y) bins s)) ∧
    ∀ v, rsaEntry cvm col y bins target s = some v →
      ∃ inside outside : List Nat, (inside ++ outside).Perm (List.range y.length) ∧
        (∀ i, i ∈ inside ↔ i ∈ rsaBin (if target = .X then col else y) bins s) ∧
        v = if target = .X then cvm (inside.map fun i => y.getD i 0) (outside.map fun i => y.getD i 0)
          else cvm (inside.map fun i => col.getD i 0) (outside.map fun i => col.getD i 0) := by
  have hhas : ∀ b : List Nat, hasSamples y b = true ↔ ((∃ i ∈ b, ∃ j ∈ b, y.getD i 0 < y.getD j 0) ∧
      ∃ i < y.length, i ∉ b) := by
    intro b
    unfold hasSamples
    rw [Bool.and_eq_true, Bool.and_eq_true, decide_eq_true_iff, decide_eq_true_iff, decide_eq_true_iff,
      dedup_length_gt]
    constructor
    · rintro ⟨⟨-, h2⟩, a, ha, c, hc, hac⟩
      obtain ⟨i, hi, rfl⟩ := List.mem_map.mp ha
      obtain ⟨j, hj, rfl⟩ := List.mem_map.mp hc
      refine ⟨⟨i, hi, j, hj, hac⟩, ?_⟩
      obtain ⟨k, hk⟩ := List.exists_mem_of_length_pos (Nat.pos_of_ne_zero h2)
      obtain ⟨h3, h4⟩ := List.mem_filter.mp hk
      exact ⟨k, List.mem_range.mp h3, by simpa using h4⟩
    · rintro ⟨⟨i, hi, j, hj, hac⟩, k, hk, hkb⟩
      refine ⟨⟨?_, ?_⟩, _, List.mem_map_of_mem hi, _, List.mem_map_of_mem hj, hac⟩
      · exact (List.length_pos_of_mem hi).ne'
      · exact (List.length_pos_of_mem (List.mem_filter.mpr ⟨List.mem_range.mpr hk, by simpa using hkb⟩)).ne'
  unfold rsaEntry
  cases target
  · simp only [if_true]
    constructor
    · rw [← hhas]
      split <;> simp [*]
    · intro v h
      split at h
      · cases h
        refine ⟨_, _, ?_, fun _ => Iff.rfl, rfl⟩
        rw [← hl]
        exact C55_sides col bins s hs
      · cases h
  · simp only [reduceCtorEq, if_false]
    constructor
    · rw [← hhas]
      split <;> simp [*]
    · intro v h
      split at h
      · cases h
        exact ⟨_, _, C55_sides y bins s hs, fun _ => Iff.rfl, rfl⟩
      · cases h

/-- Five samples (with a tie) in two bins, and the entries with a toy statistic. -/
example : rsaBin [(3 : ℚ), 1, 2, 2, 5] 2 0 = [1, 2, 3] ∧ rsaBin [(3 : ℚ), 1, 2, 2, 5] 2 1 = [0, 4] ∧
    rsaEntry (fun a b => a.sum - b.sum) [3, 1, 2, 2, 5] [(7 : ℚ), 8, 9, 10, 7] 2 .X 0 = some 13 ∧
    rsaEntry (fun a b => a.sum - b.sum) [3, 1, 2, 2, 5] [(7 : ℚ), 8, 9, 10, 7] 2 .X 1 = none := by
  decide +kernel

/-! ### C76: what is reported -/

theorem pawnParams_length (sqrt : α → α) (pb : Problem α) (X : Mat α) (Y : List α) (S : Nat)
    (res : List (PawnRow α)) (h : pawnParams sqrt pb X Y S = .ok res) : res.length = pb.numVars := by
  have := ((mapM_ok_iff _ _ _).mp h).length_eq
  rw [List.length_range] at this
  exact this.symm

/-- **C76**, PAWN without groups: one row per parameter, labelled by the parameters' names. -/
theorem C76_pawn_params (sqrt : α → α) (pb : Problem α) (hg : pb.groups = none) (hn : pb.names.Nodup)
    (hl : pb.names.length = pb.numVars) (X : Mat α) (Y : List α) (S : Nat) (rows : List (PawnRow α))
    (names : List String) (h : pawnAnalyze sqrt pb X Y S = .ok (rows, names)) :
    names = pb.names ∧ rows.length = names.length := by
  unfold pawnAnalyze at h
  by_cases hS : S = 0
  · rw [if_pos hS] at h; cases h
  rw [if_neg hS] at h
  cases hp : pawnParams sqrt pb X Y S with
  | error e => rw [hp] at h; cases h
  | ok res =>
    have hgn : (extractGroupNames pb).1 = pb.names := by
      simp [extractGroupNames, hg, pdUnique_of_nodup _ hn]
    have hc : checkGroups pb = none := by simp [checkGroups, hg]
    rw [hp] at h
    simp only [pyBind_ok, hc, hgn] at h
    cases h
    exact ⟨rfl, by rw [hl]; exact pawnParams_length sqrt pb X Y S _ hp⟩

/-- **C76**, PAWN with at least two groups: one row per group, labelled by the group; each entry is the mean of
the rows of the parameters in that group. -/
theorem C76_pawn_groups (sqrt : α → α) (pb : Problem α) (gs : List String) (hg : pb.groups = some gs)
    (hne : gs ≠ pb.names) (h2 : ∃ a ∈ gs, ∃ b ∈ gs, a ≠ b) (X : Mat α) (Y : List α) (S : Nat)
    (rows : List (PawnRow α)) (names : List String) (h : pawnAnalyze sqrt pb X Y S = .ok (rows, names)) :
    Spec.DistinctInOrder gs names ∧ rows.length = names.length ∧ gs.length = pb.numVars ∧
    ∃ res : List (PawnRow α), pawnParams sqrt pb X Y S = .ok res ∧
      ∀ (k : Nat) (g : String), names[k]? = some g → ∃ row, rows[k]? = some row ∧
        let members := (List.range gs.length).filter fun d => gs[d]? = some g
        let mean := fun f : PawnRow α → Num α => npMeanN (members.map fun d => (res[d]?).bind f)
        row = ⟨mean (·.minimum), mean (·.mean), mean (·.median), mean (·.maximum), mean (·.cv), mean (·.stdev)⟩ := by
  unfold pawnAnalyze at h
  by_cases hS : S = 0
  · rw [if_pos hS] at h; cases h
  rw [if_neg hS] at h
  cases hp : pawnParams sqrt pb X Y S with
  | error e => rw [hp] at h; cases h
  | ok res =>
    have hgs : gs ≠ [] := by rintro rfl; obtain ⟨a, ha, -⟩ := h2; simp at ha
    have hgn : (extractGroupNames pb).1 = pdUnique gs := by
      cases gs with
      | nil => exact absurd rfl hgs
      | cons a l => simp [extractGroupNames, hg]
    have hc : checkGroups pb = some gs := by
      cases gs with
      | nil => exact absurd rfl hgs
      | cons a l =>
        simp only [checkGroups, hg, if_neg hne]
        rw [if_neg]
        intro h1
        obtain ⟨c, hc⟩ := List.length_eq_one_iff.mp h1
        obtain ⟨x, hx, y, hy, hxy⟩ := h2
        rw [← mem_pdUnique, hc] at hx hy
        simp at hx hy
        exact hxy (hx.trans hy.symm)
    rw [hp] at h
    simp only [pyBind_ok, hc, hgn] at h
    have hlen := pawnParams_length sqrt pb X Y S _ hp
    by_cases hl : gs.length ≠ res.length
    · rw [if_pos hl] at h; cases h
    · rw [if_neg hl] at h
      have hl : gs.length = res.length := not_not.mp hl
      cases h
      refine ⟨pdUnique_distinct gs, by simp, hl.trans hlen, res, rfl, ?_⟩
      intro k g hk
      refine ⟨_, by rw [List.getElem?_map, hk]; rfl, ?_⟩
      have hf : ∀ (rs : List (PawnRow α)) (gl : List String), gl.length = rs.length → ∀ f : PawnRow α → Num α,
          (((rs.zip gl).filter fun p => p.2 = g).map (·.1)).map f =
          ((List.range gl.length).filter fun d => gl[d]? = some g).map fun d => (rs[d]?).bind f := by
        intro rs gl hgl f
        induction rs using List.reverseRecOn generalizing gl with
        | nil => simp at hgl; subst hgl; simp
        | append_singleton rs r ih =>
          rcases List.eq_nil_or_concat gl with rfl | ⟨gl', y, rfl⟩
          · simp at hgl
          · have hl' : gl'.length = rs.length := by simpa using hgl
            rw [List.concat_eq_append] at *
            rw [List.zip_append hl'.symm, List.filter_append, List.map_append, List.map_append, ih gl' hl',
              List.length_append, List.length_singleton, List.range_succ, List.filter_append, List.map_append]
            congr 1
            · have e : (List.range gl'.length).filter (fun d => decide ((gl' ++ [y])[d]? = some g)) =
                  (List.range gl'.length).filter fun d => decide (gl'[d]? = some g) := by
                apply List.filter_congr
                intro i hi
                rw [List.getElem?_append_left (List.mem_range.mp hi)]
              rw [e]
              apply List.map_congr_left
              intro i hi
              have := List.mem_range.mp (List.mem_filter.mp hi).1
              rw [List.getElem?_append_left (by omega)]
            · by_cases h : y = g <;> simp [List.filter_cons, h, hl']
      unfold pawnGroupRow
      simp only [hf res gs hl]

theorem rsaColumns_length (cvm : List α → List α → α) (X : Mat α) (y : List α) (D bins : Nat) (target : RsaTarget)
    (res : List (List (Num α))) (h : rsaColumns cvm X y D bins target = .ok res) :
    res.length = D ∧ ∀ c ∈ res, c.length = bins := by
  unfold rsaColumns at h
  by_cases hb : bins = 0
  · rw [if_pos hb] at h; cases h
  rw [if_neg hb] at h
  have h' := (mapM_ok_iff _ _ _).mp h
  refine ⟨by have := h'.length_eq; rw [List.length_range] at this; exact this.symm, ?_⟩
  intro c hc
  clear h
  generalize List.range D = ds at h'
  induction h' with
  | nil => simp at hc
  | cons hd _ ih =>
    rcases List.mem_cons.mp hc with rfl | hc
    · rename_i d _ _ _
      cases hcol : inputColumn X d with
      | error e => rw [hcol] at hd; cases hd
      | ok col =>
        rw [hcol] at hd
        simp only [pyBind_ok] at hd
        split at hd
        · cases hd
        · cases hd; simp
    · exact ih hc

theorem mapM_range_pyGet {β : Type} (l : List β) : (List.range l.length).mapM (fun i => pyGet l i) = .ok l := by
  rw [mapM_ok_iff, List.forall₂_iff_get]
  refine ⟨by simp, ?_⟩
  intro i h1 h2
  simp [pyGet, h2]

/-- **C76**, RSA without groups: one column per parameter with one entry per bin, labelled by the names. -/
theorem C76_rsa_params (cvm : List α → List α → α) (pb : Problem α) (hg : pb.groups = none) (hn : pb.names.Nodup)
    (X : Mat α) (y : List α) (D bins : Nat) (hl : pb.names.length = D) (target : RsaTarget)
    (cols : List (List (Num α))) (names : List String)
    (h : rsaAnalyze cvm pb X y D bins target = .ok (cols, names)) :
    names = pb.names ∧ cols.length = names.length ∧ (∀ c ∈ cols, c.length = bins) ∧
    rsaColumns cvm X y D bins target = .ok cols := by
  unfold rsaAnalyze at h
  cases hr : rsaColumns cvm X y D bins target with
  | error e => rw [hr] at h; cases h
  | ok res =>
    obtain ⟨hlen, hbins⟩ := rsaColumns_length cvm X y D bins target res hr
    have hgn : (extractGroupNames pb).1 = pb.names := by
      simp [extractGroupNames, hg, pdUnique_of_nodup _ hn]
    have hc : checkGroups pb = none := by simp [checkGroups, hg]
    rw [hr] at h
    simp only [pyBind_ok, hc, hgn] at h
    rw [hl, ← hlen, mapM_range_pyGet] at h
    cases h
    exact ⟨rfl, by rw [hlen, hl], hbins, rfl⟩

/-- **C76 fails** for RSA with groups: whenever there are fewer groups than parameters (and at least two groups), the
analysis stops with an error, whatever the data. -/
theorem C76_rsa_groups_fail (cvm : List α → List α → α) (pb : Problem α) (gs : List String)
    (hg : pb.groups = some gs) (h2 : ∃ a ∈ gs, ∃ b ∈ gs, a ≠ b) (hdup : ¬gs.Nodup) (hn : pb.names.Nodup)
    (X : Mat α) (y : List α) (D bins : Nat) (hl : gs.length = D) (target : RsaTarget) :
    ∃ e, rsaAnalyze cvm pb X y D bins target = .error e := by
  have hgs : gs ≠ [] := by rintro rfl; obtain ⟨a, ha, -⟩ := h2; simp at ha
  have hne : gs ≠ pb.names := by rintro rfl; exact hdup hn
  have hgn : (extractGroupNames pb).1 = pdUnique gs := by
    cases gs with
    | nil => exact absurd rfl hgs
    | cons a l => simp [extractGroupNames, hg]
  have hc : checkGroups pb = some gs := by
    cases gs with
    | nil => exact absurd rfl hgs
    | cons a l =>
      simp only [checkGroups, hg, if_neg hne]
      rw [if_neg]
      intro h1
      obtain ⟨c, hc⟩ := List.length_eq_one_iff.mp h1
      obtain ⟨x, hx, y, hy, hxy⟩ := h2
      rw [← mem_pdUnique, hc] at hx hy
      simp at hx hy
      exact hxy (hx.trans hy.symm)
  have hlt : (pdUnique gs).length ≠ D := by
    intro he
    apply hdup
    have hsub : (pdUnique gs).Subperm gs :=
      (nodup_pdUnique gs).subperm fun g hgm => (mem_pdUnique gs g).mp hgm
    have hperm := hsub.perm_of_length_le (by rw [he, hl])
    exact hperm.nodup_iff.mp (nodup_pdUnique gs)
  unfold rsaAnalyze
  cases hr : rsaColumns cvm X y D bins target with
  | error e => exact ⟨e, rfl⟩
  | ok res =>
    refine ⟨.indexError, ?_⟩
    simp only [pyBind_ok, hc, hgn, if_pos hlt]

/-- **C76 fails** when all parameters are in one group: RSA reports the column of the first parameter under the
group's name, and PAWN has one row per parameter but a single label. -/
theorem C76_single_group_fail (cvm : List α → List α → α) (sqrt : α → α) (pb : Problem α) (g : String) (n : Nat)
    (hg : pb.groups = some (List.replicate (n + 1) g)) (hv : pb.numVars = n + 1) (X : Mat α) (y : List α)
    (bins S : Nat) (target : RsaTarget) :
    (∀ cols names, rsaAnalyze cvm pb X y (n + 1) bins target = .ok (cols, names) →
      names = [g] ∧ ∃ c rest, rsaColumns cvm X y (n + 1) bins target = .ok (c :: rest) ∧ cols = [c]) ∧
    (∀ rows names, pawnAnalyze sqrt pb X y S = .ok (rows, names) → names = [g] ∧ rows.length = n + 1) := by
  have hu : ∀ n, pdUnique (List.replicate (n + 1) g) = [g] := by
    intro n
    induction n with
    | zero => rfl
    | succ n ih => rw [List.replicate_succ', pdUnique_concat, ih]; simp
  have hgn : (extractGroupNames pb).1 = [g] := by
    simp only [extractGroupNames, hg, List.replicate_succ]
    rw [← List.replicate_succ]
    exact hu n
  have hc : checkGroups pb = none := by
    simp only [checkGroups, hg, List.replicate_succ]
    rw [← List.replicate_succ, hu]
    simp
  constructor
  · intro cols names h
    unfold rsaAnalyze at h
    cases hr : rsaColumns cvm X y (n + 1) bins target with
    | error e => rw [hr] at h; cases h
    | ok res =>
      obtain ⟨hlen, -⟩ := rsaColumns_length cvm X y (n + 1) bins target res hr
      cases res with
      | nil => simp at hlen
      | cons c rest =>
        rw [hr] at h
        simp only [pyBind_ok, hc, hgn] at h
        cases h
        exact ⟨rfl, c, rest, rfl, rfl⟩
  · intro rows names h
    unfold pawnAnalyze at h
    by_cases hS : S = 0
    · rw [if_pos hS] at h; cases h
    rw [if_neg hS] at h
    cases hp : pawnParams sqrt pb X y S with
    | error e => rw [hp] at h; cases h
    | ok res =>
      rw [hp] at h
      simp only [pyBind_ok, hc, hgn] at h
      cases h
      exact ⟨rfl, (pawnParams_length sqrt pb X y S _ hp).trans hv⟩

/-- The three situations on concrete problems. -/
example : (rsaAnalyze (fun a b => a.sum - b.sum) (⟨["a", "b"], [], none, none, 2, false⟩ : Problem ℚ)
      [[0, 3], [1, 1], [2, 4], [3, 2]] [5, 6, 8, 7] 2 2 .X).map (·.2) = .ok ["a", "b"] ∧
    rsaAnalyze (fun a b => a.sum - b.sum) (⟨["a", "b", "c"], [], some ["g", "h", "g"], none, 3, false⟩ : Problem ℚ)
      [[0, 3, 1], [1, 1, 1], [2, 4, 2], [3, 2, 7]] [5, 6, 8, 7] 3 2 .X = .error .indexError ∧
    (rsaAnalyze (fun a b => a.sum - b.sum) (⟨["a", "b"], [], some ["g", "g"], none, 2, false⟩ : Problem ℚ)
      [[0, 3], [1, 1], [2, 4], [3, 2]] [5, 6, 8, 7] 2 2 .X).map (fun r => (r.1.length, r.2)) = .ok (1, ["g"]) ∧
    (pawnAnalyze id (⟨["a", "b"], [], some ["g", "g"], none, 2, false⟩ : Problem ℚ)
      [[0, 3], [1, 1], [2, 4], [3, 2]] [5, 6, 8, 7] 2).map (fun r => (r.1.length, r.2)) = .ok (2, ["g"]) := by
  decide +kernel

end SALib
