import Verif.Props.HdmrDriver

/-! # C104 (tables, enhanced HDMR), C105: what is printed -/

namespace SALib

open Spec Finset

variable {α : Type} [Field α] [LinearOrder α] [IsStrictOrderedRing α]

/-! ### Tables -/

theorem hdmrLabels_length (names : List String) (d o : Nat) (l : List String) (h : hdmrLabels names d o = .ok l) :
    l.length = hdmrN d o := by
  unfold hdmrLabels at h
  obtain ⟨l1, h1, h⟩ := pyBind_inv _ _ _ h
  obtain ⟨l2, h2, h⟩ := pyBind_inv _ _ _ h
  obtain ⟨l3, h3, h⟩ := pyBind_inv _ _ _ h
  have h := Except.ok.inj h
  rw [← h, List.length_append, List.length_append, mapM_length _ _ _ h1, mapM_length _ _ _ h2, mapM_length _ _ _ h3,
    List.length_range]
  rfl

/-- All columns of the result have one entry per term. -/
def FullColumns (n : Nat) (r : HdmrResult α) : Prop :=
  r.term.length = n ∧ r.Sa.length = n ∧ r.SaConf.length = n ∧ r.Sb.length = n ∧ r.SbConf.length = n ∧ r.S.length = n ∧
    r.SConf.length = n ∧ r.ST.length = n ∧ r.STconf.length = n

theorem hdmrFinalize_full (sqrt : α → α) (mult : α) (names : List String) (d o : Nat) (passes : List (HdmrPass α))
    (r : HdmrResult α) (h : hdmrFinalize sqrt mult names d o passes = .ok r) : FullColumns (hdmrN d o) r := by
  unfold hdmrFinalize at h
  simp only [] at h
  obtain ⟨l, h1, h⟩ := pyBind_inv _ _ _ h
  have h := Except.ok.inj h
  subst h
  refine ⟨hdmrLabels_length names d o l h1, ?_, ?_, ?_, ?_, ?_, ?_, ?_, ?_⟩ <;>
    simp [termMeans, termWidths, totalEntries]

theorem hdmrDf_full (n : Nat) (r : HdmrResult α) (h : FullColumns n r) :
    ∃ t, hdmrDf r = .ok t ∧ TableOf r.term [("Sa", r.Sa), ("Sa_conf", r.SaConf), ("Sb", r.Sb), ("Sb_conf", r.SbConf),
      ("S", r.S), ("S_conf", r.SConf), ("ST", r.ST), ("ST_conf", r.STconf)] t := by
  obtain ⟨h0, h1, h2, h3, h4, h5, h6, h7, h8⟩ := h
  unfold hdmrDf
  apply dataFrame_ok
  intro c hc
  simp only [List.mem_cons, List.not_mem_nil, or_false] at hc
  rcases hc with rfl | rfl | rfl | rfl | rfl | rfl | rfl | rfl <;> simp only [] <;> omega

/-- The stages of a completed analysis. -/
theorem hdmrAnalyze_inv (sqrt : α → α) (mult : α) (reg : Mat α → Mat α) (fppf : Nat → Nat → Option α)
    (perm : Nat → List Nat) (pb : Problem α) (X : Mat α) (d : Nat) (Y : List α) (o maxiter m K : Nat) (R : Option Nat)
    (alpha lambdax : α) (print : Bool) (out : HdmrResult α × Option (HdmrPrint α))
    (h : hdmrAnalyze sqrt mult reg fppf perm pb X d Y o maxiter m K R alpha lambdax print = .ok out) :
    ∃ r, FullColumns (hdmrN d o) r ∧
      (∀ print, hdmrAnalyze sqrt mult reg fppf perm pb X d Y o maxiter m K R alpha lambdax print =
        .ok (if print then (dropSums r, some (printReport r pb.numVars)) else (r, none))) ∧
      out = if print then (dropSums r, some (printReport r pb.numVars)) else (r, none) := by
  unfold hdmrAnalyze at h ⊢
  obtain ⟨Rn, h1, h⟩ := pyBind_inv _ _ _ h
  obtain ⟨B, h2, h⟩ := pyBind_inv _ _ _ h
  obtain ⟨r, h3, h⟩ := pyBind_inv _ _ _ h
  refine ⟨r, hdmrFinalize_full _ _ _ _ _ _ _ h3, fun print => ?_, (Except.ok.inj h).symm⟩
  rw [h1, pyBind_ok, h2, pyBind_ok]
  simp only []
  rw [h3, pyBind_ok]
  rfl

/-- **C104**: the table made from a result has a row per term with the values reported for it, printed or not. -/
theorem C104_table (sqrt : α → α) (mult : α) (reg : Mat α → Mat α) (fppf : Nat → Nat → Option α)
    (perm : Nat → List Nat) (pb : Problem α) (X : Mat α) (d : Nat) (Y : List α) (o maxiter m K : Nat) (R : Option Nat)
    (alpha lambdax : α) (print : Bool) (r : HdmrResult α) (p : Option (HdmrPrint α))
    (h : hdmrAnalyze sqrt mult reg fppf perm pb X d Y o maxiter m K R alpha lambdax print = .ok (r, p)) :
    ∃ t, hdmrDf r = .ok t ∧ TableOf r.term [("Sa", r.Sa), ("Sa_conf", r.SaConf), ("Sb", r.Sb), ("Sb_conf", r.SbConf),
      ("S", r.S), ("S_conf", r.SConf), ("ST", r.ST), ("ST_conf", r.STconf)] t := by
  obtain ⟨r0, hf, -, ho⟩ := hdmrAnalyze_inv _ _ _ _ _ _ _ _ _ _ _ _ _ _ _ _ _ _ h
  cases print with
  | true =>
    have := (Prod.mk.inj ho).1
    subst this
    exact hdmrDf_full _ _ hf
  | false =>
    have := (Prod.mk.inj ho).1
    subst this
    exact hdmrDf_full _ _ hf

/-! ### The printed report -/

theorem getElem?_getD {β : Type} (l : List β) (i : Nat) (x : β) (h : i < l.length) : l[i]? = some (l.getD i x) := by
  rw [List.getD, List.getElem?_eq_getElem h]; rfl

theorem printReport_lines (n d : Nat) (r : HdmrResult α) (h : FullColumns n r) :
    (printReport r d).lines.length = n ∧ ∀ j < n, ∃ l, (printReport r d).lines[j]? = some l ∧ LineOf r j l ∧
      (l.total.isSome ↔ j < d) ∧ l.mark = r.marks.getD j none := by
  obtain ⟨h0, h1, h2, h3, h4, h5, h6, h7, h8⟩ := h
  unfold printReport
  refine ⟨by simp [h1], fun j hj => ⟨_, by rw [List.getElem?_map, List.getElem?_range (by omega), Option.map_some], ?_, ?_, rfl⟩⟩
  · refine ⟨getElem?_getD _ _ _ (by omega), getElem?_getD _ _ _ (by omega), getElem?_getD _ _ _ (by omega),
      getElem?_getD _ _ _ (by omega), getElem?_getD _ _ _ (by omega), getElem?_getD _ _ _ (by omega),
      getElem?_getD _ _ _ (by omega), fun t ht => ?_⟩
    simp only [] at ht
    split at ht
    · have := Option.some.inj ht
      subst this
      exact ⟨getElem?_getD _ _ _ (by omega), getElem?_getD _ _ _ (by omega)⟩
    · cases ht
  · simp only []
    split <;> simp [*]

/-- **C105**: the printed report of `hdmr` has a line per term with the label and the values in the result, the total index
for the first `num_vars` of them, and the sums. -/
theorem C105_lines (sqrt : α → α) (mult : α) (reg : Mat α → Mat α) (fppf : Nat → Nat → Option α)
    (perm : Nat → List Nat) (pb : Problem α) (X : Mat α) (d : Nat) (Y : List α) (o maxiter m K : Nat) (R : Option Nat)
    (alpha lambdax : α) (r : HdmrResult α) (p : Option (HdmrPrint α))
    (h : hdmrAnalyze sqrt mult reg fppf perm pb X d Y o maxiter m K R alpha lambdax true = .ok (r, p)) :
    ∃ rep r', p = some rep ∧
      hdmrAnalyze sqrt mult reg fppf perm pb X d Y o maxiter m K R alpha lambdax false = .ok (r', none) ∧
      rep.lines.length = hdmrN d o ∧ rep.sums = r'.sums ∧
      ∀ j < hdmrN d o, ∃ l, rep.lines[j]? = some l ∧ LineOf r' j l ∧ (l.total.isSome ↔ j < pb.numVars) := by
  obtain ⟨r0, hf, hall, ho⟩ := hdmrAnalyze_inv _ _ _ _ _ _ _ _ _ _ _ _ _ _ _ _ _ _ h
  obtain ⟨hl, hlines⟩ := printReport_lines (hdmrN d o) pb.numVars r0 hf
  refine ⟨printReport r0 pb.numVars, r0, (Prod.mk.inj ho).2, hall false, hl, rfl, fun j hj => ?_⟩
  obtain ⟨l, a, b, c, -⟩ := hlines j hj
  exact ⟨l, a, b, c⟩

/-- **C105 fails** for the result itself: printing takes the sums out of it.  Everything else stays. -/
theorem C105_printing_drops_sums (sqrt : α → α) (mult : α) (reg : Mat α → Mat α) (fppf : Nat → Nat → Option α)
    (perm : Nat → List Nat) (pb : Problem α) (X : Mat α) (d : Nat) (Y : List α) (o maxiter m K : Nat) (R : Option Nat)
    (alpha lambdax : α) (r : HdmrResult α) (p : Option (HdmrPrint α))
    (h : hdmrAnalyze sqrt mult reg fppf perm pb X d Y o maxiter m K R alpha lambdax true = .ok (r, p)) :
    ∃ r' s, hdmrAnalyze sqrt mult reg fppf perm pb X d Y o maxiter m K R alpha lambdax false = .ok (r', none) ∧
      r'.sums = some s ∧ r.sums = none ∧ r' = { r with sums := some s } := by
  unfold hdmrAnalyze at h ⊢
  obtain ⟨Rn, h1, h⟩ := pyBind_inv _ _ _ h
  obtain ⟨B, h2, h⟩ := pyBind_inv _ _ _ h
  obtain ⟨r0, h3, h⟩ := pyBind_inv _ _ _ h
  have hr : dropSums r0 = r := (Prod.mk.inj (Except.ok.inj h)).1
  rw [h1, pyBind_ok, h2, pyBind_ok]
  simp only []
  rw [h3, pyBind_ok]
  unfold hdmrFinalize at h3
  simp only [] at h3
  obtain ⟨l, h4, h3⟩ := pyBind_inv _ _ _ h3
  have h3 := Except.ok.inj h3
  obtain ⟨s, hs⟩ : ∃ s, r0.sums = some s := by
    rw [← h3]
    exact ⟨_, rfl⟩
  refine ⟨r0, s, rfl, hs, ?_, ?_⟩
  · rw [← hr]; rfl
  · rw [← hr, ← hs]; rfl

/-- **C105** in part: with a single fit, the last column of the printed report says whether the term was selected. -/
theorem C105_select_partial (sqrt : α → α) (hs : sqrt 0 = 0) (mult : α) (reg : Mat α → Mat α) (fppf : Nat → Nat → Option α)
    (perm : Nat → List Nat) (pb : Problem α) (X : Mat α) (d : Nat) (Y : List α) (o maxiter m K : Nat) (R : Option Nat)
    (alpha lambdax : α) (Rn : Nat) (B1 B2 B3 : List (Mat α))
    (hR : hdmrSettings X.length d Y.length o maxiter m K (R.map fun r : Nat => (r : Int)) alpha lambdax = .ok (Rn : Int))
    (hB : hdmrBasis m d o X = .ok (B1, B2, B3)) (hn : d ≤ pb.names.length)
    (hperm : ∀ k < K, (perm k).Perm (List.range X.length))
    (hY : ∀ k < K, ∃ a ∈ hdmrRows perm X.length K Rn k, ∃ b ∈ hdmrRows perm X.length K Rn k, Y.getD a 0 ≠ Y.getD b 0) :
    ∃ r rep, hdmrAnalyze sqrt mult reg fppf perm pb X d Y o maxiter m K R alpha lambdax true = .ok (r, some rep) ∧
      ∀ i < hdmrN d o, ∃ l b, rep.lines[i]? = some l ∧
        (hdmrFTest fppf (takeIdx Y (hdmrRows perm X.length K Rn (i % K)))
          (fitOn reg o maxiter B1 B2 B3 Y (hdmrRows perm X.length K Rn (i % K))).f0
          (fitOn reg o maxiter B1 B2 B3 Y (hdmrRows perm X.length K Rn (i % K))).Yem Rn (m + 3) ((m + 3) ^ 2) ((m + 3) ^ 3) d
          (hdmrC2 d o).length)[i / K]? = some b ∧
        l.mark = some (selectMark b) ∧ (K = 1 → i % K = 0 ∧ i / K = i) := by
  obtain ⟨terms, S, Sa, Sb, r, h1, -, -, -, -, -, h7, h8⟩ := C104_results sqrt hs mult reg fppf perm pb X d Y o maxiter m K R
    alpha lambdax true Rn B1 B2 B3 hR hB hn hperm hY
  obtain ⟨-, -, -, hK, -⟩ := hdmrSettings_inv _ _ _ _ _ _ _ R alpha lambdax Rn hR
  obtain ⟨r0, hf, -, ho⟩ := hdmrAnalyze_inv _ _ _ _ _ _ _ _ _ _ _ _ _ _ _ _ _ _ h1
  rw [if_pos rfl, if_pos rfl] at ho
  refine ⟨_, _, h1, fun i hi => ?_⟩
  have hfull : FullColumns (hdmrN d o) r := by
    have := (Prod.mk.inj ho).1
    obtain ⟨f1, f2, f3, f4, f5, f6, f7, f8, f9⟩ := hf
    have e : dropSums r = dropSums r0 := this
    refine ⟨?_, ?_, ?_, ?_, ?_, ?_, ?_, ?_, ?_⟩
    · rw [← f1]; exact congrArg (fun x => x.term.length) e
    · rw [← f2]; exact congrArg (fun x => x.Sa.length) e
    · rw [← f3]; exact congrArg (fun x => x.SaConf.length) e
    · rw [← f4]; exact congrArg (fun x => x.Sb.length) e
    · rw [← f5]; exact congrArg (fun x => x.SbConf.length) e
    · rw [← f6]; exact congrArg (fun x => x.S.length) e
    · rw [← f7]; exact congrArg (fun x => x.SConf.length) e
    · rw [← f8]; exact congrArg (fun x => x.ST.length) e
    · rw [← f9]; exact congrArg (fun x => x.STconf.length) e
  obtain ⟨-, hlines⟩ := printReport_lines (hdmrN d o) pb.numVars r hfull
  obtain ⟨l, hl, -, -, hm⟩ := hlines i hi
  have hdiv : i / K < hdmrN d o := lt_of_le_of_lt (Nat.div_le_self _ _) hi
  obtain ⟨b, hb1, hb2⟩ := h8 (i / K) hdiv (i % K) (Nat.mod_lt _ (by omega))
  refine ⟨l, b, hl, hb1, ?_, ?_⟩
  · have hidx : i / K * K + i % K = i := Nat.div_add_mod' i K
    rw [hidx] at hb2
    rw [hm, List.getD, hb2]
    rfl
  · rintro rfl
    exact ⟨Nat.mod_one _, Nat.div_one _⟩

/-- The number of fits in which term `j` was selected. -/
def timesSelected (passes : List (HdmrPass α)) (j : Nat) : Nat := (passes.filter fun p => p.select.getD j false).length

/-- **C105 fails**: a term selected in two or more of the fits is printed with 0 or 1 beside it. -/
theorem C105_select_fail (sqrt : α → α) (mult : α) (names : List String) (d o : Nat) (passes : List (HdmrPass α))
    (r : HdmrResult α) (h : hdmrFinalize sqrt mult names d o passes = .ok r) (numVars j : Nat) (l : HdmrLine α)
    (hl : (printReport r numVars).lines[j]? = some l) (h2 : 2 ≤ timesSelected passes j) :
    l.mark ≠ some (timesSelected passes j : α) := by
  have hfull := hdmrFinalize_full _ _ _ _ _ _ _ h
  obtain ⟨hlen, hlines⟩ := printReport_lines (hdmrN d o) numVars r hfull
  have hj : j < hdmrN d o := by rw [← hlen]; exact (List.getElem?_eq_some_iff.mp hl).1
  obtain ⟨l', hl', -, -, hm⟩ := hlines j hj
  rw [hl] at hl'
  obtain rfl := Option.some.inj hl'
  rw [hm]
  have hmarks : ∀ v ∈ r.marks, v = some 0 ∨ v = some 1 := by
    unfold hdmrFinalize at h
    simp only [] at h
    obtain ⟨lab, h4, h3⟩ := pyBind_inv _ _ _ h
    have h3 := Except.ok.inj h3
    rw [← h3]
    intro v hv
    obtain ⟨i, -, hv⟩ := List.mem_flatMap.mp hv
    obtain ⟨p, -, rfl⟩ := List.mem_map.mp hv
    unfold selectMark
    split
    · exact Or.inr rfl
    · exact Or.inl rfl
  intro hc
  have h2' : (2 : α) ≤ (timesSelected passes j : α) := by exact_mod_cast h2
  rw [List.getD] at hc
  cases hg : r.marks[j]? with
  | none => rw [hg] at hc; cases hc
  | some v =>
    rw [hg] at hc
    simp only [Option.getD_some] at hc
    rcases hmarks v (List.mem_of_getElem? hg) with rfl | rfl
    · have := Option.some.inj hc; linarith
    · have := Option.some.inj hc; linarith

/-! ### Enhanced HDMR -/

/-- **C104** for `enhanced_hdmr` with terms up to the second order: from the indices of the fits the same report follows,
with the percentage of the fits in which a term was significant. -/
theorem C104_enhanced (sqrt : α → α) (hs : sqrt 0 = 0) (mult : α) (names : List String) (d K : Nat)
    (S Sa Sb : Nat → Nat → α) (signf : List (List Bool)) (hn : names.length = d) (hK : 1 ≤ K) (hsig : signf.length = K) :
    ∃ terms labels r, ehLabels names d 2 = .ok labels ∧
      ehFinalize sqrt mult labels d 2 (storedAll K (hdmrN d 2) S Sa Sb) signf = .ok r ∧
      terms.length = hdmrN d 2 ∧ GoodTerms names d 2 terms r.term (hdmrTotalRows d 2) ∧
      HdmrReports sqrt mult K (hdmrN d 2) d terms S Sa Sb r ∧ r.sums = some (HdmrSumsOf K (hdmrN d 2) S Sa Sb) ∧
      r.marks.length = hdmrN d 2 ∧
      ∀ j < hdmrN d 2, r.marks[j]? =
        some (some (100 * ((signf.filter fun col => col.getD j false).length : α) / (K : α))) := by
  obtain ⟨terms, labels, h1, h2, h3⟩ := C56_hdmr names d 2 (by omega) (by omega) hn.ge
  have hlab : ehLabels names d 2 = .ok labels := by
    rw [ehLabels_eq names d 2 hn, ← h1, hdmrLabels_eq names d 2 hn.ge]
    unfold hdmrTerms
    rw [List.map_append, List.map_append, List.map_map]
    congr 3
    apply List.ext_getElem
    · simp [hn]
    · intro i hi hi'
      simp [termLabel, List.getD, hi]
  have hN : (ehNc d 2).1 + (ehNc d 2).2.1 + (ehNc d 2).2.2 = hdmrN d 2 := by rw [ehNc_eq]; rfl
  have hrows : (List.range d).mapM (ehTotalRows d 2) = .ok ((List.range d).map (hdmrTotalRows d 2)) := by
    apply mapM_ok_of
    intro r hr
    rfl
  have hget : ∀ i < d, ((List.range d).map (hdmrTotalRows d 2)).getD i [] = hdmrTotalRows d 2 i := by
    intro i hi
    simp [List.getD, hi]
  have hdn : d ≤ hdmrN d 2 := by unfold hdmrN; omega
  have htot : ∀ i < d, (((List.range d).map (hdmrTotalRows d 2)).getD i []).Nodup ∧
      ∀ j, j ∈ ((List.range d).map (hdmrTotalRows d 2)).getD i [] ↔ ∃ c, terms[j]? = some c ∧ i ∈ c := by
    intro i hi
    rw [hget i hi]
    exact h3.total i hi
  have hT1 := totalEntries_stored npMeanN (meanOver K) (((List.range d).map (hdmrTotalRows d 2)).getD · []) K (hdmrN d 2) d
    terms S Sa Sb h2 htot (npMeanN_range K hK)
  have hT2 := totalEntries_stored (halfWidth sqrt mult) (fun x => mult * sqrt (varOver K x))
    (((List.range d).map (hdmrTotalRows d 2)).getD · []) K (hdmrN d 2) d terms S Sa Sb h2 htot
    (halfWidth_range sqrt mult K hK)
  have hsum : ∀ (f : Num α × Num α × Num α → Num α) (x : Nat → Nat → α), (∀ k j, f (stored S Sa Sb k j) = some (x j k)) →
      numSum (termMeans f (storedAll K (hdmrN d 2) S Sa Sb) (hdmrN d 2)) =
        some (∑ j ∈ range (hdmrN d 2), meanOver K (x j)) := by
    intro f x hf
    have : termMeans f (storedAll K (hdmrN d 2) S Sa Sb) (hdmrN d 2) =
        (List.range (hdmrN d 2)).map fun j => some (meanOver K (x j)) := by
      unfold termMeans
      refine List.map_congr_left fun j hj => ?_
      rw [perFit_stored f K _ S Sa Sb j (List.mem_range.mp hj)]
      simp only [hf]
      rw [npMeanN_range K hK]
    rw [this, numSum_map, sum_map_finRange]
  unfold ehFinalize
  simp only []
  refine ⟨terms, labels, _, hlab, by rw [hrows, pyBind_ok, hN]; rfl, h2, h3, ⟨?_, ?_, ?_, ?_, ?_, ?_⟩, ?_, ?_, ?_⟩
  · exact columns_stored sqrt mult K _ hK S Sa Sb S _ fun _ _ => rfl
  · exact columns_stored sqrt mult K _ hK S Sa Sb Sa _ fun _ _ => rfl
  · exact columns_stored sqrt mult K _ hK S Sa Sb Sb _ fun _ _ => rfl
  · simp [totalEntries]
  · intro i hi
    refine ⟨?_, (hT2 i (by omega)).1 hi⟩
    rw [← sum_meanOver K (hdmrN d 2) S]
    exact (hT1 i (by omega)).1 hi
  · exact fun j hj hd => ⟨(hT1 j hj).2 hd, (hT2 j hj).2 hd⟩
  · simp only [HdmrSumsOf]
    rw [hsum (fun t => t.2.1) Sa fun _ _ => rfl, hsum (fun t => t.2.2) Sb fun _ _ => rfl, hsum (fun t => t.1) S fun _ _ => rfl,
      sumWidth_stored sqrt hs mult K _ S Sa Sb Sa (fun t => t.2.1) fun _ _ => rfl,
      sumWidth_stored sqrt hs mult K _ S Sa Sb Sb (fun t => t.2.2) fun _ _ => rfl,
      sumWidth_stored sqrt hs mult K _ S Sa Sb S (fun t => t.1) fun _ _ => rfl]
  · simp
  · intro j hj
    simp only []
    rw [List.getElem?_map, List.getElem?_range hj, Option.map_some, npMean_some _ (by
      intro hc
      have := congrArg List.length hc
      rw [List.length_map, List.length_nil] at this
      omega), Option.map_some, List.length_map, hsig]
    have hcount : ∀ l : List (List Bool), (l.map fun col => (selectMark (col.getD j false) : α)).sum =
        ((l.filter fun col => col.getD j false).length : α) := by
      intro l
      induction l with
      | nil => simp
      | cons a l ih =>
        rw [List.map_cons, List.sum_cons, ih, List.filter_cons]
        unfold selectMark
        split
        · rw [List.length_cons]; push_cast; ring
        · ring
    rw [hcount, mul_div_assoc]

/-- **C105 fails** for `enhanced_hdmr`: the report counts the nan entries among the totals and takes that for the number of
inputs.  Line `i` shows a total index exactly when `i` is less than the number of pairs. -/
theorem C105_enhanced_lines (sqrt : α → α) (hs : sqrt 0 = 0) (mult : α) (names : List String) (d K : Nat)
    (S Sa Sb : Nat → Nat → α) (signf : List (List Bool)) (hn : names.length = d) (hK : 1 ≤ K) (hsig : signf.length = K) :
    ∃ labels r, ehLabels names d 2 = .ok labels ∧
      ehFinalize sqrt mult labels d 2 (storedAll K (hdmrN d 2) S Sa Sb) signf = .ok r ∧
      (ehPrint r).lines.length = hdmrN d 2 ∧ (ehPrint r).sums = r.sums ∧
      ∀ i < hdmrN d 2, ∃ l, (ehPrint r).lines[i]? = some l ∧ LineOf r i l ∧ r.marks[i]? = some l.mark ∧
        (l.total.isSome ↔ i < d.choose 2) := by
  obtain ⟨terms, labels, r, h1, h2, h3, h4, h5, h6, h7, h8⟩ :=
    C104_enhanced sqrt hs mult names d K S Sa Sb signf hn hK hsig
  have hN : hdmrN d 2 = d + d.choose 2 := by
    unfold hdmrN hdmrC2 hdmrC3
    rw [if_pos (by omega), if_neg (by omega), length_combinations, List.length_range]
    simp
  have hfull : FullColumns (hdmrN d 2) r :=
    ⟨by rw [h4.label, List.length_map, h3], h5.partA.1, h5.partA.2.1, h5.partB.1, h5.partB.2.1, h5.all.1, h5.all.2.1, h5.totals.1,
      h5.totals.2⟩
  have hnan : (r.ST.filter fun v => v.isNone).length = d.choose 2 := by
    have hsplit : r.ST = (List.range (hdmrN d 2)).map fun j => r.ST.getD j none := by
      apply List.ext_getElem
      · simp [h5.totals.1]
      · intro i hi hi'
        simp [List.getD, hi]
    rw [hsplit, hN, List.range_add, List.map_append, List.filter_append, List.length_append]
    rw [List.filter_eq_nil_iff.mpr, List.filter_eq_self.mpr]
    · simp
    · intro v hv
      simp only [List.map_map, List.mem_map, List.mem_range] at hv
      obtain ⟨i, hi, rfl⟩ := hv
      simp only [Function.comp]
      rw [List.getD, (h5.noTotal (d + i) (by omega) (by omega)).1]
      rfl
    · intro v hv
      obtain ⟨i, hi, rfl⟩ := List.mem_map.mp hv
      rw [List.getD, (h5.total i (List.mem_range.mp hi)).1]
      simp
  obtain ⟨hl, hlines⟩ := printReport_lines (hdmrN d 2) (d.choose 2) r hfull
  refine ⟨labels, r, h1, h2, ?_, rfl, fun i hi => ?_⟩
  · unfold ehPrint; rw [hnan]; exact hl
  · obtain ⟨l, a, b, c, e⟩ := hlines i hi
    refine ⟨l, ?_, b, ?_, c⟩
    · unfold ehPrint; rw [hnan]; exact a
    · rw [e]; exact getElem?_getD _ _ _ (by omega)

/-- The totals are shown for exactly the inputs only with three inputs. -/
theorem C105_enhanced_fail (sqrt : α → α) (hs : sqrt 0 = 0) (mult : α) (names : List String) (d K : Nat) (hd : 2 ≤ d)
    (S Sa Sb : Nat → Nat → α) (signf : List (List Bool)) (hn : names.length = d) (hK : 1 ≤ K) (hsig : signf.length = K)
    (labels : List String) (r : HdmrResult α) (h1 : ehLabels names d 2 = .ok labels)
    (h2 : ehFinalize sqrt mult labels d 2 (storedAll K (hdmrN d 2) S Sa Sb) signf = .ok r) :
    (∀ i l, (ehPrint r).lines[i]? = some l → (l.total.isSome ↔ i < d)) ↔ d = 3 := by
  obtain ⟨labels', r', e1, e2, e3, -, e4⟩ := C105_enhanced_lines sqrt hs mult names d K S Sa Sb signf hn hK hsig
  rw [h1] at e1
  obtain rfl := Except.ok.inj e1
  rw [h2] at e2
  obtain rfl := Except.ok.inj e2
  have hN : hdmrN d 2 = d + d.choose 2 := by
    unfold hdmrN hdmrC2 hdmrC3
    rw [if_pos (by omega), if_neg (by omega), length_combinations, List.length_range]
    simp
  constructor
  · intro h
    by_contra hne
    rcases Nat.lt_or_ge d 3 with hlt | hge
    · obtain rfl : d = 2 := by omega
      obtain ⟨l, a, -, -, b⟩ := e4 1 (by rw [hN]; omega)
      have := (b.mp ((h 1 l a).mpr (by omega)))
      simp at this
    · have hch : d < d.choose 2 := by
        rw [Nat.choose_two_right]
        obtain ⟨e, rfl⟩ : ∃ e, d = e + 4 := ⟨d - 4, by omega⟩
        have : 2 * (e + 5) ≤ (e + 4) * (e + 4 - 1) := by
          rw [show e + 4 - 1 = e + 3 by omega]
          nlinarith [sq_nonneg e]
        omega
      obtain ⟨l, a, -, -, b⟩ := e4 d (by omega)
      exact absurd ((h d l a).mp (b.mpr hch)) (by omega)
  · rintro rfl i l hl
    have hi : i < hdmrN 3 2 := by rw [← e3]; exact (List.getElem?_eq_some_iff.mp hl).1
    obtain ⟨l', a, -, -, b⟩ := e4 i hi
    rw [hl] at a
    obtain rfl := Option.some.inj a
    exact b

/-! ### Examples -/

/-- Two fits of two inputs, the first selected in both: the report says 1 for it, and 1 for the second, which was selected in
neither fit. -/
example : ∃ r, hdmrFinalize (fun x : ℚ => x) 2 ["a", "b"] 2 1
      [⟨[(some (1 / 2), some (1 / 2), some 0), (some (1 / 4), some (1 / 4), some 0)], [true, false]⟩,
       ⟨[(some 1, some 1, some 0), (some 0, some 0, some 0)], [true, false]⟩] = .ok r ∧
    (printReport r 2).lines.map (·.mark) = [some 1, some 1] ∧
    timesSelected [(⟨[(some (1 / 2 : ℚ), some (1 / 2), some 0), (some (1 / 4), some (1 / 4), some 0)], [true, false]⟩ : HdmrPass ℚ),
       ⟨[(some 1, some 1, some 0), (some 0, some 0, some 0)], [true, false]⟩] 0 = 2 :=
  ⟨_, rfl, by decide +kernel, by decide +kernel⟩

/-- Enhanced HDMR with four inputs prints a total for six terms, two of them pairs. -/
example : ∃ labels r, ehLabels ["a", "b", "c", "d"] 4 2 = .ok labels ∧
    ehFinalize (fun x : ℚ => x) 2 labels 4 2 (storedAll 1 (hdmrN 4 2) (fun _ _ => 1) (fun _ _ => 1) fun _ _ => 0) [[]] = .ok r ∧
    ((ehPrint r).lines.filter fun l => l.total.isSome).map (·.term) = ["a", "b", "c", "d", "a/b", "a/c"] := by
  refine ⟨_, _, rfl, rfl, ?_⟩
  decide +kernel

end SALib
