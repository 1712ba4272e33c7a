import Verif.Props.RsaValue

/-! # PAWN and regional sensitivity analysis use only the order of the values (C75, C128) -/

set_option linter.unusedSectionVars false

namespace SALib

variable {α : Type} [Field α] [LinearOrder α] [IsStrictOrderedRing α]

/-! ### Quantiles and order -/

theorem mem_sortedAt (l : List α) (hl : l ≠ []) (k : Nat) : sortedAt l k ∈ l := by
  have := List.length_pos_iff.mpr hl
  exact npSort_mem l _ (by omega) 0

/-- A value of the list is at most the sorted value at position `k`, or at least the next one. -/
theorem sortedAt_gap (l : List α) (x : α) (hx : x ∈ l) (k : Nat) (h : sortedAt l k < x) : sortedAt l (k + 1) ≤ x := by
  have hne : l ≠ [] := by rintro rfl; simp at hx
  obtain ⟨i, hi, rfl⟩ := List.mem_iff_getElem.mp ((npSort_perm l).mem_iff.mpr hx)
  have hi' : i < l.length := by rwa [npSort_length] at hi
  have e : (npSort l)[i] = sortedAt l i := by
    unfold sortedAt
    rw [min_eq_left (by omega), List.getD_eq_getElem (npSort l) 0 hi]
  rw [e] at h ⊢
  refine sortedAt_mono l hne (k + 1) i ?_
  by_contra hc
  exact absurd (sortedAt_mono l hne i k (by omega)) (not_le.mpr h)

theorem le_quantile_iff (l : List α) (x : α) (hx : x ∈ l) (s S : Nat) (hS : 0 < S) (hs : s ≤ S) :
    x ≤ npQuantile l s S ↔ x ≤ sortedAt l (s * (l.length - 1) / S) := by
  have hne : l ≠ [] := by rintro rfl; simp at hx
  have hS' : (0 : α) < S := by exact_mod_cast hS
  rw [npQuantile_eq l hne s S hs]
  have h0 : (0 : α) ≤ ((s * (l.length - 1) % S : Nat) : α) / S := by positivity
  have h1 : ((s * (l.length - 1) % S : Nat) : α) / S < 1 := by
    rw [div_lt_one hS']; exact_mod_cast Nat.mod_lt _ hS
  have hm := sortedAt_mono l hne _ _ (Nat.le_succ (s * (l.length - 1) / S))
  have hgap := sortedAt_gap l x hx (s * (l.length - 1) / S)
  generalize ((s * (l.length - 1) % S : Nat) : α) / S = r at *
  rw [Nat.succ_eq_add_one] at hm
  generalize sortedAt l (s * (l.length - 1) / S + 1) = b at *
  generalize sortedAt l (s * (l.length - 1) / S) = a at *
  constructor
  · intro h
    by_contra hc
    have hb := hgap (not_le.mp hc)
    have : r * (b - a) ≤ b - a := by nlinarith
    rcases lt_or_eq_of_le hm with hab | hab
    · have : r * (b - a) < b - a := by nlinarith
      linarith
    · rw [← hab, sub_self, mul_zero, add_zero] at h
      exact hc h
  · intro h
    have : 0 ≤ r * (b - a) := mul_nonneg h0 (by linarith)
    linarith

theorem lt_quantile_iff (l : List α) (x : α) (hx : x ∈ l) (s S : Nat) (hS : 0 < S) (hs : s ≤ S) :
    x < npQuantile l s S ↔ x < sortedAt l (s * (l.length - 1) / S) ∨ (x = sortedAt l (s * (l.length - 1) / S) ∧
      0 < s * (l.length - 1) % S ∧ sortedAt l (s * (l.length - 1) / S) < sortedAt l (s * (l.length - 1) / S + 1)) := by
  have hne : l ≠ [] := by rintro rfl; simp at hx
  have hS' : (0 : α) < S := by exact_mod_cast hS
  have hle := le_quantile_iff l x hx s S hS hs
  have hm := sortedAt_mono l hne _ _ (Nat.le_succ (s * (l.length - 1) / S))
  rw [Nat.succ_eq_add_one] at hm
  have h0 : (0 : α) ≤ ((s * (l.length - 1) % S : Nat) : α) / S := by positivity
  constructor
  · intro h
    rcases lt_or_eq_of_le (hle.mp h.le) with h1 | h1
    · exact Or.inl h1
    · right
      rw [npQuantile_eq l hne s S hs, ← h1] at h
      refine ⟨h1, ?_, ?_⟩
      · by_contra hc
        have : s * (l.length - 1) % S = 0 := by omega
        rw [this, Nat.cast_zero, zero_div, zero_mul, add_zero] at h
        exact lt_irrefl _ h
      · rcases lt_or_eq_of_le hm with h2 | h2
        · exact h2
        · rw [← h1] at h2
          rw [← h2, sub_self, mul_zero, add_zero] at h
          exact absurd h (lt_irrefl _)
  · rintro (h | ⟨h1, h2, h3⟩)
    · rw [npQuantile_eq l hne s S hs]
      have : 0 ≤ ((s * (l.length - 1) % S : Nat) : α) / S *
          (sortedAt l (s * (l.length - 1) / S + 1) - sortedAt l (s * (l.length - 1) / S)) :=
        mul_nonneg h0 (by linarith)
      linarith
    · rw [npQuantile_eq l hne s S hs, h1]
      have h2' : (0 : α) < ((s * (l.length - 1) % S : Nat) : α) / S := by
        have : (0 : α) < ((s * (l.length - 1) % S : Nat) : α) := by exact_mod_cast h2
        positivity
      have : 0 < ((s * (l.length - 1) % S : Nat) : α) / S *
          (sortedAt l (s * (l.length - 1) / S + 1) - sortedAt l (s * (l.length - 1) / S)) :=
        mul_pos h2' (by linarith)
      linarith

theorem sortedAt_map (l : List α) (hl : l ≠ []) (f : α → α) (hf : ∀ x ∈ l, ∀ z ∈ l, x < z → f x < f z) (k : Nat) :
    sortedAt (l.map f) k = f (sortedAt l k) := by
  have hpos := List.length_pos_iff.mpr hl
  unfold sortedAt
  rw [npSort_map_on l f hf, List.length_map]
  have hk : min k (l.length - 1) < (npSort l).length := by rw [npSort_length]; omega
  simp only [List.getD, List.getElem?_map, List.getElem?_eq_getElem hk, Option.map_some, Option.getD_some]

theorem map_lt_iff (l : List α) (f : α → α) (hf : ∀ x ∈ l, ∀ z ∈ l, x < z → f x < f z) (x z : α) (hx : x ∈ l)
    (hz : z ∈ l) : (f x < f z ↔ x < z) ∧ (f x ≤ f z ↔ x ≤ z) ∧ (f x = f z ↔ x = z) := by
  have h1 := hf x hx z hz
  have h2 := hf z hz x hx
  rcases lt_trichotomy x z with h | h | h
  · have := h1 h
    exact ⟨iff_of_true this h, iff_of_true this.le h.le, iff_of_false this.ne h.ne⟩
  · subst h
    simp
  · have := h2 h
    exact ⟨iff_of_false (not_lt.mpr this.le) (not_lt.mpr h.le), iff_of_false (not_le.mpr this) (not_le.mpr h),
      iff_of_false this.ne' h.ne'⟩

theorem le_quantile_map (l : List α) (f : α → α) (hf : ∀ x ∈ l, ∀ z ∈ l, x < z → f x < f z) (x : α) (hx : x ∈ l)
    (s S : Nat) (hS : 0 < S) (hs : s ≤ S) : f x ≤ npQuantile (l.map f) s S ↔ x ≤ npQuantile l s S := by
  have hne : l ≠ [] := by rintro rfl; simp at hx
  rw [le_quantile_iff _ _ (List.mem_map_of_mem hx) s S hS hs, le_quantile_iff l x hx s S hS hs, List.length_map,
    sortedAt_map l hne f hf]
  exact (map_lt_iff l f hf x _ hx (mem_sortedAt l hne _)).2.1

theorem lt_quantile_map (l : List α) (f : α → α) (hf : ∀ x ∈ l, ∀ z ∈ l, x < z → f x < f z) (x : α) (hx : x ∈ l)
    (s S : Nat) (hS : 0 < S) (hs : s ≤ S) : f x < npQuantile (l.map f) s S ↔ x < npQuantile l s S := by
  have hne : l ≠ [] := by rintro rfl; simp at hx
  rw [lt_quantile_iff _ _ (List.mem_map_of_mem hx) s S hS hs, lt_quantile_iff l x hx s S hS hs, List.length_map,
    sortedAt_map l hne f hf, sortedAt_map l hne f hf]
  have m := mem_sortedAt l hne
  rw [(map_lt_iff l f hf x _ hx (m _)).1, (map_lt_iff l f hf x _ hx (m _)).2.2, (map_lt_iff l f hf _ _ (m _) (m _)).1]

/-! ### Columns -/

theorem inputColumn_eq (X : Mat α) (d : Nat) :
    inputColumn X d = if ∀ row ∈ X, d < row.length then .ok (X.map fun row => row.getD d 0) else .error .indexError := by
  unfold inputColumn
  split
  · rename_i h
    apply mapM_ok_of (fun row : List α => pyGet row d)
    intro row hrow
    have hd := h row hrow
    simp [pyGet, List.getD, hd]
  · rename_i h
    cases hm : X.mapM fun row => pyGet row d with
    | ok l =>
      exfalso
      apply h
      intro row hrow
      obtain ⟨b, hb⟩ : ∃ b, pyGet row d = .ok b := by
        have := (mapM_ok_iff _ _ _).mp hm
        obtain ⟨i, hi, rfl⟩ := List.mem_iff_getElem.mp hrow
        have hl := this.length_eq
        exact ⟨_, (List.forall₂_iff_get.mp this).2 i hi (by omega)⟩
      by_contra hc
      simp [pyGet, List.getElem?_eq_none (not_lt.mp hc)] at hb
    | error e =>
      obtain ⟨row, -, he⟩ := mapM_error _ _ _ hm
      unfold pyGet at he
      split at he
      · cases he
      · cases he; rfl

theorem inputColumn_mapIdx (X : Mat α) (φ : Nat → α → α) (d : Nat) :
    inputColumn (X.map fun row => row.mapIdx φ) d = (inputColumn X d).map fun col => col.map (φ d) := by
  rw [inputColumn_eq, inputColumn_eq]
  by_cases h : ∀ row ∈ X, d < row.length
  · rw [if_pos h, if_pos]
    · simp only [Except.map, List.map_map]
      congr 1
      apply List.map_congr_left
      intro row hrow
      have hd := h row hrow
      simp [List.getD, hd]
    · intro row hrow
      obtain ⟨r, hr, rfl⟩ := List.mem_map.mp hrow
      rw [List.length_mapIdx]; exact h r hr
  · rw [if_neg h, if_neg]
    · rfl
    · intro hc
      apply h
      intro row hrow
      have := hc _ (List.mem_map_of_mem hrow)
      rwa [List.length_mapIdx] at this

theorem mem_inputColumn (X : Mat α) (d : Nat) (col : List α) (h : inputColumn X d = .ok col) (x : α) (hx : x ∈ col) :
    ∃ row ∈ X, row[d]? = some x := by
  rw [inputColumn_eq] at h
  split at h
  · rename_i hd
    cases h
    obtain ⟨row, hrow, rfl⟩ := List.mem_map.mp hx
    refine ⟨row, hrow, ?_⟩
    have := hd row hrow
    simp [List.getD, this]
  · cases h

/-! ### PAWN -/

theorem pawnColumn_monotone (X Y : List α) (S : Nat) (f : α → α) (hf : ∀ x ∈ X, ∀ z ∈ X, x < z → f x < f z) :
    pawnColumn (X.map f) Y S = pawnColumn X Y S := by
  unfold pawnColumn
  apply List.map_congr_left
  intro s hs
  have hs := List.mem_range.mp hs
  have hslice : pawnSlice (pawnEdges (X.map f) S) (X.map f) s = pawnSlice (pawnEdges X S) X s := by
    unfold pawnSlice whereIdx
    rw [List.length_map]
    apply List.filter_congr
    intro i hi
    have hi := List.mem_range.mp hi
    have hx : (X.map f).getD i 0 = f (X.getD i 0) := by
      simp [List.getD, hi]
    have hm : X.getD i 0 ∈ X := by
      rw [List.getD_eq_getElem X 0 hi]; exact List.getElem_mem hi
    rw [pawnEdges_getD _ S s (by omega), pawnEdges_getD _ S (s + 1) (by omega), pawnEdges_getD _ S s (by omega),
      pawnEdges_getD _ S (s + 1) (by omega), hx]
    have h1 := lt_quantile_map X f hf _ hm s S (by omega) (by omega)
    have h2 := lt_quantile_map X f hf _ hm (s + 1) S (by omega) (by omega)
    rw [Bool.eq_iff_iff]
    simp only [Bool.and_eq_true, decide_eq_true_eq]
    rw [h2, ← not_lt, h1, not_lt]
  rw [hslice]

/-- **C75**, inputs: replacing the values of each input by others in the same order leaves the PAWN table unchanged. -/
theorem C75_monotone (sqrt : α → α) (pb : Problem α) (X : Mat α) (Y : List α) (S : Nat) (φ : Nat → α → α)
    (h : ∀ d, ∀ r ∈ X, ∀ r' ∈ X, ∀ x z, r[d]? = some x → r'[d]? = some z → x < z → φ d x < φ d z) :
    pawnAnalyze sqrt pb (X.map fun row => row.mapIdx φ) Y S = pawnAnalyze sqrt pb X Y S := by
  have hp : pawnParams sqrt pb (X.map fun row => row.mapIdx φ) Y S = pawnParams sqrt pb X Y S := by
    unfold pawnParams
    congr 1
    funext d
    rw [inputColumn_mapIdx]
    cases hc : inputColumn X d with
    | error e => rfl
    | ok col =>
      simp only [Except.map, pyBind_ok, List.length_map]
      rw [pawnColumn_monotone col Y S (φ d)]
      intro x hx z hz
      obtain ⟨r, hr, hrx⟩ := mem_inputColumn X d col hc x hx
      obtain ⟨r', hr', hrz⟩ := mem_inputColumn X d col hc z hz
      exact h d r hr r' hr' x z hrx hrz
  unfold pawnAnalyze
  rw [hp]

theorem column_zip (X X' : Mat α) (Y Y' : List α) (h : (X'.zip Y').Perm (X.zip Y)) (g : List α → α) :
    ((X'.map g).zip Y').Perm ((X.map g).zip Y) := by
  have := h.map (Prod.map g id)
  rw [← List.zip_map, ← List.zip_map, List.map_id, List.map_id] at this
  exact this

theorem inputColumn_rows (X X' : Mat α) (h : X'.Perm X) (d : Nat) :
    (inputColumn X d = .ok (X.map fun row => row.getD d 0) ∧ inputColumn X' d = .ok (X'.map fun row => row.getD d 0)) ∨
      (inputColumn X d = .error .indexError ∧ inputColumn X' d = .error .indexError) := by
  rw [inputColumn_eq, inputColumn_eq]
  by_cases hd : ∀ row ∈ X, d < row.length
  · left
    rw [if_pos hd, if_pos fun row hr => hd row (h.mem_iff.mp hr)]
    exact ⟨rfl, rfl⟩
  · right
    rw [if_neg hd, if_neg fun hc => hd fun row hr => hc row (h.mem_iff.mpr hr)]
    exact ⟨rfl, rfl⟩

/-- **C75**, the order of the samples: the same rows with their outputs in another order give the same PAWN table. -/
theorem C75_rows (sqrt : α → α) (pb : Problem α) (X X' : Mat α) (Y Y' : List α) (hlen : Y.length = X.length)
    (hlen' : Y'.length = X'.length) (h : (X'.zip Y').Perm (X.zip Y)) (S : Nat) :
    pawnAnalyze sqrt pb X' Y' S = pawnAnalyze sqrt pb X Y S := by
  have hX : X'.Perm X := by
    have := h.map Prod.fst
    rwa [List.map_fst_zip hlen'.symm.le, List.map_fst_zip hlen.symm.le] at this
  have hp : pawnParams sqrt pb X' Y' S = pawnParams sqrt pb X Y S := by
    unfold pawnParams
    congr 1
    funext d
    rcases inputColumn_rows X X' hX d with ⟨h1, h2⟩ | ⟨h1, h2⟩
    · rw [h1, h2]
      simp only [pyBind_ok]
      rw [if_neg (by simpa using hlen'), if_neg (by simpa using hlen),
        C75_order (X.map fun row => row.getD d 0) Y (X'.map fun row => row.getD d 0) Y' (by rw [List.length_map, hlen])
          (by rw [List.length_map, hlen']) (column_zip X X' Y Y' h _)]
    · rw [h1, h2]
      rfl
  unfold pawnAnalyze
  rw [hp]

/-! ### Regional sensitivity analysis -/

theorem rsaBin_monotone (t : List α) (bins s : Nat) (hs : s < bins) (f : α → α)
    (hf : ∀ x ∈ t, ∀ z ∈ t, x < z → f x < f z) : rsaBin (t.map f) bins s = rsaBin t bins s := by
  have key : ∀ i < t.length, ∀ u ≤ bins, (npQuantile (t.map f) u bins < (t.map f).getD i 0 ↔ npQuantile t u bins < t.getD i 0) ∧
      ((t.map f).getD i 0 ≤ npQuantile (t.map f) u bins ↔ t.getD i 0 ≤ npQuantile t u bins) ∧
      (npQuantile (t.map f) u bins ≤ (t.map f).getD i 0 ↔ npQuantile t u bins ≤ t.getD i 0) := by
    intro i hi u hu
    have hx : (t.map f).getD i 0 = f (t.getD i 0) := by
      simp [List.getD, hi]
    have hm : t.getD i 0 ∈ t := by
      rw [List.getD_eq_getElem t 0 hi]; exact List.getElem_mem hi
    have h1 := lt_quantile_map t f hf _ hm u bins (by omega) hu
    have h2 := le_quantile_map t f hf _ hm u bins (by omega) hu
    rw [hx]
    refine ⟨?_, h2, ?_⟩
    · rw [← not_le, h2, not_le]
    · rw [← not_lt, h1, not_lt]
  unfold rsaBin whereIdx
  simp only []
  rw [rsaEdges_getD _ bins s (by omega), rsaEdges_getD _ bins (s + 1) (by omega), rsaEdges_getD _ bins 0 (by omega),
    rsaEdges_getD _ bins 1 (by omega), rsaEdges_getD _ bins s (by omega), rsaEdges_getD _ bins (s + 1) (by omega),
    rsaEdges_getD _ bins 0 (by omega), rsaEdges_getD _ bins 1 (by omega), List.length_map]
  split
  · apply List.filter_congr
    intro i hi
    have hi := List.mem_range.mp hi
    rw [Bool.eq_iff_iff]
    simp only [Bool.and_eq_true, decide_eq_true_eq]
    rw [(key i hi 0 (by omega)).2.2, (key i hi 1 (by omega)).2.1]
  · apply List.filter_congr
    intro i hi
    have hi := List.mem_range.mp hi
    rw [Bool.eq_iff_iff]
    simp only [Bool.and_eq_true, decide_eq_true_eq]
    rw [(key i hi s (by omega)).1, (key i hi (s + 1) (by omega)).2.1]

theorem pick_map (l : List α) (f : α → α) (I : List Nat) (hI : ∀ i ∈ I, i < l.length) :
    (I.map fun i => (l.map f).getD i 0) = (I.map fun i => l.getD i 0).map f := by
  rw [List.map_map]
  apply List.map_congr_left
  intro i hi
  have := hI i hi
  simp [List.getD, this]

theorem mem_pick (l : List α) (I : List Nat) (hI : ∀ i ∈ I, i < l.length) (x : α) (hx : x ∈ I.map fun i => l.getD i 0) :
    x ∈ l := by
  obtain ⟨i, hi, rfl⟩ := List.mem_map.mp hx
  rw [List.getD_eq_getElem l 0 (hI i hi)]
  exact List.getElem_mem _

theorem hasSamples_map (y : List α) (b : List Nat) (hb : ∀ i ∈ b, i < y.length) (f : α → α)
    (hf : ∀ x ∈ y, ∀ z ∈ y, x < z → f x < f z) : hasSamples (y.map f) b = hasSamples y b := by
  unfold hasSamples
  rw [List.length_map, pick_map y f b hb]
  congr 1
  rw [decide_eq_decide, dedup_length_gt, dedup_length_gt]
  constructor
  · rintro ⟨a, ha, c, hc, hac⟩
    obtain ⟨a, ha', rfl⟩ := List.mem_map.mp ha
    obtain ⟨c, hc', rfl⟩ := List.mem_map.mp hc
    exact ⟨a, ha', c, hc', (map_lt_iff y f hf a c (mem_pick y b hb a ha') (mem_pick y b hb c hc')).1.mp hac⟩
  · rintro ⟨a, ha, c, hc, hac⟩
    exact ⟨f a, List.mem_map_of_mem ha, f c, List.mem_map_of_mem hc,
      hf a (mem_pick y b hb a ha) c (mem_pick y b hb c hc) hac⟩

theorem rsaEntry_monotone (col y : List α) (hl : col.length = y.length) (bins s : Nat) (hs : s < bins)
    (target : RsaTarget) (f g : α → α) (hf : ∀ x ∈ col, ∀ z ∈ col, x < z → f x < f z)
    (hg : ∀ x ∈ y, ∀ z ∈ y, x < z → g x < g z) :
    rsaEntry cvmStat (col.map f) (y.map g) bins target s = rsaEntry cvmStat col y bins target s := by
  have hlt : ∀ t : List α, t.length = y.length → ∀ i ∈ rsaBin t bins s, i < y.length := by
    intro t ht i hi
    obtain ⟨x, hx, -⟩ := (mem_rsaBin t bins s i hs).mp hi
    rw [← ht]
    exact (List.getElem?_eq_some_iff.mp hx).1
  have hno : ∀ b, ∀ i ∈ rowsNot y.length b, i < y.length := fun b i hi =>
    List.mem_range.mp (List.mem_filter.mp hi).1
  cases target
  · unfold rsaEntry
    simp only []
    rw [rsaBin_monotone col bins s hs f hf, hasSamples_map y _ (hlt col hl) g hg, List.length_map, hl,
      pick_map y g _ (hlt col hl), pick_map y g _ (hno _), cvmStat_map]
    intro x hx z hz
    have hm : ∀ x ∈ (rsaBin col bins s).map (fun i => y.getD i 0) ++
        (rowsNot y.length (rsaBin col bins s)).map (fun i => y.getD i 0), x ∈ y := by
      intro x hx
      rcases List.mem_append.mp hx with h | h
      · exact mem_pick y _ (hlt col hl) x h
      · exact mem_pick y _ (hno _) x h
    exact hg x (hm x hx) z (hm z hz)
  · have hlt' := hlt y rfl
    unfold rsaEntry
    simp only []
    rw [rsaBin_monotone y bins s hs g hg, hasSamples_map y _ hlt' g hg, List.length_map]
    rw [← hl] at hlt' hno ⊢
    rw [pick_map col f _ hlt', pick_map col f _ (hno _), cvmStat_map]
    intro x hx z hz
    have hm : ∀ x ∈ (rsaBin y bins s).map (fun i => col.getD i 0) ++
        (rowsNot col.length (rsaBin y bins s)).map (fun i => col.getD i 0), x ∈ col := by
      intro x hx
      rcases List.mem_append.mp hx with h | h
      · exact mem_pick col _ hlt' x h
      · exact mem_pick col _ (hno _) x h
    exact hf x (hm x hx) z (hm z hz)

/-- **C128**, only the order counts: replacing the values of each input, and those of the output, by others in the same
order leaves the whole analysis unchanged (ties allowed, either target). -/
theorem C128_invariant (pb : Problem α) (X : Mat α) (y : List α) (D bins : Nat) (target : RsaTarget) (φ : Nat → α → α)
    (g : α → α) (h : ∀ d, ∀ r ∈ X, ∀ r' ∈ X, ∀ x z, r[d]? = some x → r'[d]? = some z → x < z → φ d x < φ d z)
    (hg : ∀ x ∈ y, ∀ z ∈ y, x < z → g x < g z) :
    rsaAnalyze cvmStat pb (X.map fun row => row.mapIdx φ) (y.map g) D bins target =
      rsaAnalyze cvmStat pb X y D bins target := by
  have hp : rsaColumns cvmStat (X.map fun row => row.mapIdx φ) (y.map g) D bins target =
      rsaColumns cvmStat X y D bins target := by
    unfold rsaColumns
    by_cases hb : bins = 0
    · rw [if_pos hb, if_pos hb]
    rw [if_neg hb, if_neg hb]
    congr 1
    funext d
    rw [inputColumn_mapIdx]
    cases hc : inputColumn X d with
    | error e => rfl
    | ok col =>
      have hcl : col.length = X.length := ((mapM_ok_iff _ _ _).mp hc).length_eq.symm
      simp only [Except.map, pyBind_ok, List.length_map]
      by_cases hl : y.length ≠ X.length
      · rw [if_pos hl, if_pos hl]
      · rw [if_neg hl, if_neg hl]
        congr 1
        apply List.map_congr_left
        intro s hs
        refine rsaEntry_monotone col y (by rw [hcl]; exact (not_not.mp hl).symm) bins s (List.mem_range.mp hs) target (φ d) g
          ?_ hg
        intro x hx z hz
        obtain ⟨r, hr, hrx⟩ := mem_inputColumn X d col hc x hx
        obtain ⟨r', hr', hrz⟩ := mem_inputColumn X d col hc z hz
        exact h d r hr r' hr' x z hrx hrz
  unfold rsaAnalyze
  rw [hp]

theorem rsaBin_rows (t t' : List α) (h : t'.Perm t) (bins s : Nat) :
    ∃ P : α → Bool, rsaBin t bins s = whereIdx t P ∧ rsaBin t' bins s = whereIdx t' P := by
  have hq : rsaEdges t' bins = rsaEdges t bins := by
    unfold rsaEdges npQuantile
    rw [npSort_of_perm t' t h, h.length_eq]
  unfold rsaBin
  simp only []
  rw [hq]
  by_cases h0 : s = 0
  · rw [if_pos h0, if_pos h0]
    exact ⟨_, rfl, rfl⟩
  · rw [if_neg h0, if_neg h0]
    exact ⟨_, rfl, rfl⟩

theorem rowsNot_whereIdx (t : List α) (P : α → Bool) : rowsNot t.length (whereIdx t P) = whereIdx t fun x => !P x := by
  unfold rowsNot whereIdx
  apply List.filter_congr
  intro i hi
  rw [Bool.eq_iff_iff, decide_eq_true_iff, List.mem_filter, Bool.not_eq_true', ← Bool.not_eq_true]
  exact not_congr ⟨fun h => h.2, fun h => ⟨hi, h⟩⟩

theorem pick_perm (t t' w w' : List α) (hl : w.length = t.length) (hl' : w'.length = t'.length)
    (h : (t'.zip w').Perm (t.zip w)) (P : α → Bool) :
    ((whereIdx t' P).map fun i => w'.getD i 0).Perm ((whereIdx t P).map fun i => w.getD i 0) := by
  rw [whereIdx_zip t' w' hl', whereIdx_zip t w hl]
  exact (h.filter _).map _

theorem rsaEntry_shuffle (col col' y y' : List α) (hl : y.length = col.length) (hl' : y'.length = col'.length)
    (h : (col'.zip y').Perm (col.zip y)) (bins s : Nat) (target : RsaTarget) :
    rsaEntry cvmStat col' y' bins target s = rsaEntry cvmStat col y bins target s := by
  have hX : col'.Perm col := by
    have := h.map Prod.fst
    rwa [List.map_fst_zip hl'.symm.le, List.map_fst_zip hl.symm.le] at this
  have hY : y'.Perm y := by
    have := h.map Prod.snd
    rwa [List.map_snd_zip hl'.le, List.map_snd_zip hl.le] at this
  have hcv : ∀ a a' b b' : List α, a.Perm a' → b.Perm b' → cvmStat a b = cvmStat a' b' := by
    intro a a' b b' h1 h2
    unfold cvmStat
    rw [npSort_of_perm a a' h1, npSort_of_perm b b' h2, h1.length_eq, h2.length_eq]
  have hded : ∀ a a' : List α, a.Perm a' → a.dedup.length = a'.dedup.length := fun a a' h => h.dedup.length_eq
  have hcomm : (y'.zip col').Perm (y.zip col) := by
    have := h.map Prod.swap
    rwa [List.zip_swap, List.zip_swap] at this
  have hself : (y'.zip y').Perm (y.zip y) := by
    have := hY.map fun a => (a, a)
    rwa [show (y'.map fun a => (a, a)) = y'.zip y' by simp [List.zip, List.zipWith_self],
      show (y.map fun a => (a, a)) = y.zip y by simp [List.zip, List.zipWith_self]] at this
  cases target
  · obtain ⟨P, h1, h2⟩ := rsaBin_rows col col' hX bins s
    have e1 := pick_perm col col' y y' hl hl' h P
    have e2 := pick_perm col col' y y' hl hl' h fun x => !P x
    unfold rsaEntry hasSamples
    simp only []
    rw [h1, h2, hl, hl', rowsNot_whereIdx, rowsNot_whereIdx, hcv _ _ _ _ e1 e2, hded _ _ e1]
    have l1 := e1.length_eq
    have l2 := e2.length_eq
    rw [List.length_map, List.length_map] at l1 l2
    rw [l1, l2]
  · obtain ⟨P, h1, h2⟩ := rsaBin_rows y y' hY bins s
    have e1 := pick_perm y y' col col' hl.symm hl'.symm hcomm P
    have e2 := pick_perm y y' col col' hl.symm hl'.symm hcomm fun x => !P x
    have e3 := pick_perm y y' y y' rfl rfl hself P
    unfold rsaEntry hasSamples
    simp only []
    rw [h1, h2, rowsNot_whereIdx, rowsNot_whereIdx, hcv _ _ _ _ e1 e2, hded _ _ e3]
    have l1 := e1.length_eq
    have l2 := e2.length_eq
    rw [List.length_map, List.length_map] at l1 l2
    rw [l1, l2]

/-- **C128**, the order of the samples: the same rows with their outputs in another order give the same analysis. -/
theorem C128_rows (pb : Problem α) (X X' : Mat α) (y y' : List α) (hlen : y.length = X.length)
    (hlen' : y'.length = X'.length) (h : (X'.zip y').Perm (X.zip y)) (D bins : Nat) (target : RsaTarget) :
    rsaAnalyze cvmStat pb X' y' D bins target = rsaAnalyze cvmStat pb X y D bins target := by
  have hX : X'.Perm X := by
    have := h.map Prod.fst
    rwa [List.map_fst_zip hlen'.symm.le, List.map_fst_zip hlen.symm.le] at this
  have hp : rsaColumns cvmStat X' y' D bins target = rsaColumns cvmStat X y D bins target := by
    unfold rsaColumns
    by_cases hb : bins = 0
    · rw [if_pos hb, if_pos hb]
    rw [if_neg hb, if_neg hb]
    congr 1
    funext d
    rcases inputColumn_rows X X' hX d with ⟨h1, h2⟩ | ⟨h1, h2⟩
    · rw [h1, h2]
      simp only [pyBind_ok]
      rw [if_neg (by simpa using hlen'), if_neg (by simpa using hlen)]
      congr 1
      apply List.map_congr_left
      intro s _
      exact rsaEntry_shuffle _ _ y y' (by rw [List.length_map, hlen]) (by rw [List.length_map, hlen'])
        (column_zip X X' y y' h _) bins s target
    · rw [h1, h2]
      rfl
  unfold rsaAnalyze
  rw [hp]

/-- The hypotheses of `C75_monotone`, `C75_rows`, `C128_rows` and `C128_invariant`: cubes of one input, the other unchanged; and the
result of the analysis. -/
example : (∀ d, ∀ r ∈ ([[0, 3], [1, 1], [2, 4], [3, 2]] : Mat ℚ), ∀ r' ∈ ([[0, 3], [1, 1], [2, 4], [3, 2]] : Mat ℚ), ∀ x z,
      r[d]? = some x → r'[d]? = some z → x < z →
      (fun (d : Nat) (x : ℚ) => if d = 0 then x ^ 3 else x) d x < (fun (d : Nat) (x : ℚ) => if d = 0 then x ^ 3 else x) d z) ∧
    (([[1, 1], [0, 3], [3, 2], [2, 4]] : Mat ℚ).zip [6, 5, 7, 8]).Perm (([[0, 3], [1, 1], [2, 4], [3, 2]] : Mat ℚ).zip [5, 6, 8, 7]) ∧
    rsaAnalyze cvmStat (⟨["a", "b"], [], none, none, 2, false⟩ : Problem ℚ)
      [[0, 3], [1, 1], [2, 4], [3, 2]] [5, 6, 8, 7] 2 2 .Y =
      .ok ([[some (3 / 8), some (3 / 8)], [some (1 / 8), some (1 / 8)]], ["a", "b"]) := by
  refine ⟨?_, by decide +kernel, by decide +kernel⟩
  intro d r _ r' _ x z _ _ hxz
  beta_reduce
  by_cases hd : d = 0
  · rw [if_pos hd, if_pos hd]
    exact Odd.strictMono_pow (by decide) hxz
  · rw [if_neg hd, if_neg hd]
    exact hxz

end SALib
