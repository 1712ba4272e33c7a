import Verif.Props.DeltaBins
import Mathlib.Algebra.BigOperators.Group.List.Basic

/-! # Delta method: resampling (C52) -/

set_option linter.unusedSectionVars false

namespace SALib

variable {α : Type} [Field α] [LinearOrder α] [IsStrictOrderedRing α]

/-- What NumPy promises about the draws: `choice` returns `n` members of the list, `randint(N)` returns `n`
numbers below `N`. -/
structure Spec.ValidResample (R : DeltaDraws) : Prop where
  choice : ∀ t l n, (l ≠ [] ∨ n = 0) → (R.choice t l n).length = n ∧ ∀ x ∈ R.choice t l n, x ∈ l
  ints : ∀ N n, 0 < N → (R.ints N n).length = n ∧ ∀ x ∈ R.ints N n, x < N

/-- `rows` consists of one part per class, in order; part `c` is drawn from class `c` (mapped by `f`), and the
parts of the classes that are not empty differ in size by at most one, the larger ones first. -/
def Spec.Stratified (f : Nat → Nat) (classes : List (List Nat)) (size : Nat) (rows : List Nat) : Prop :=
  ∃ part : Nat → List Nat, rows = (List.range classes.length).flatMap part ∧
    ∀ (c : Nat) (cls : List Nat), classes[c]? = some cls →
      (∀ x ∈ part c, ∃ i ∈ cls, x = f i) ∧
      (cls ≠ [] → (part c).length = size / classes.length + if c < size % classes.length then 1 else 0)

theorem sum_shares (q r n : Nat) (h : r ≤ n) :
    ((List.range n).map fun c => q + if c < r then 1 else 0).sum = n * q + r := by
  have key : ∀ n, ((List.range n).map fun c => q + if c < r then 1 else 0).sum = n * q + min r n := by
    intro n
    induction n with
    | zero => simp
    | succ n ih =>
      rw [List.range_succ, List.map_append, List.sum_append, ih]
      simp only [List.map_cons, List.map_nil, List.sum_cons, List.sum_nil]
      split
      · rw [min_eq_right (by omega), min_eq_right (by omega)]; ring
      · rw [min_eq_left (by omega), min_eq_left (by omega)]; ring
  rw [key, min_eq_left h]

/-- A stratified draw without empty classes has the requested size. -/
theorem Spec.Stratified.length {f : Nat → Nat} {classes : List (List Nat)} {size : Nat} {rows : List Nat}
    (h : Spec.Stratified f classes size rows) (hne : classes ≠ []) (he : ∀ cls ∈ classes, cls ≠ []) :
    rows.length = size := by
  obtain ⟨part, rfl, hp⟩ := h
  have hn : 0 < classes.length := List.length_pos_iff.mpr hne
  rw [List.length_flatMap]
  have : (List.range classes.length).map (fun c => (part c).length) =
      (List.range classes.length).map fun c => size / classes.length +
        if c < size % classes.length then 1 else 0 := by
    apply List.map_congr_left
    intro c hc
    have hc := List.mem_range.mp hc
    exact (hp c _ (List.getElem?_eq_getElem hc)).2 (he _ (List.getElem_mem hc))
  rw [this, sum_shares _ _ _ (Nat.mod_lt _ hn).le]
  exact Nat.div_add_mod _ _

theorem zipIdx_range (l : List (List Nat)) :
    l.zipIdx = (List.range l.length).map fun c => (l.getD c [], c) := by
  apply List.ext_getElem (by simp)
  intro i h1 h2
  have h1 : i < l.length := by simpa using h1
  simp [List.getD, h1]

theorem flatten_map_filter {β γ : Type} (l : List β) (p : β → Bool) (g : β → List γ) :
    ((l.filter p).map g).flatten = l.flatMap fun x => if p x then g x else [] := by
  induction l with
  | nil => rfl
  | cons a l ih =>
    rw [List.flatMap_cons, ← ih]
    by_cases h : p a <;> simp [h]

theorem drawBins_stratified (R : DeltaDraws) (hR : Spec.ValidResample R) (f : Nat → Nat)
    (classes : List (List Nat)) (size : Nat) :
    ∃ ds, drawBins R f (size / classes.length) (size - size / classes.length * classes.length) classes =
      .ok ds ∧ Spec.Stratified f classes size ds.flatten := by
  have hmod : size - size / classes.length * classes.length = size % classes.length := by
    have := Nat.div_add_mod size classes.length
    rw [Nat.mul_comm] at this
    omega
  rw [hmod]
  set q := size / classes.length with hq
  set r := size % classes.length with hr
  refine ⟨((classes.zipIdx.filter fun p => decide (p.1.length ≠ 0)).map fun p =>
    (R.choice (p.2 + 1) p.1 (q + if p.2 < r then 1 else 0)).map f), ?_, ?_⟩
  · unfold drawBins
    apply mapM_ok_of
    intro p hp
    have hp := (List.mem_filter.mp hp).2
    have hne : p.1 ≠ [] := by
      rintro h; rw [h] at hp; simp at hp
    simp [npChoice, hne, pyBind_ok]
  · rw [flatten_map_filter, zipIdx_range, List.flatMap_map]
    refine ⟨_, rfl, ?_⟩
    intro c cls hc
    simp only [List.getD, hc, Option.getD_some]
    by_cases hne : cls = []
    · subst hne; simp
    · obtain ⟨h1, h2⟩ := hR.choice (c + 1) cls (q + if c < r then 1 else 0) (.inl hne)
      have hl : cls.length ≠ 0 := by simpa using hne
      simp only [ne_eq, hl, not_false_eq_true, decide_true, if_true, List.length_map, List.mem_map]
      refine ⟨?_, fun _ => h1⟩
      rintro x ⟨i, hi, rfl⟩
      exact ⟨i, h2 i hi, rfl⟩

theorem drawClasses_ok (R : DeltaDraws) (hR : Spec.ValidResample R) (f : Nat → Nat) (edges X : List α)
    (minSize size : Nat) :
    (2 ≤ (binsIndices edges X minSize).2.length ∧
        minSize ≤ size / (binsIndices edges X minSize).2.length →
      ∃ ds, drawClasses R f edges X minSize size = .ok ds) ∧
    ∀ ds, drawClasses R f edges X minSize size = .ok ds →
      2 ≤ (binsIndices edges X minSize).2.length ∧
      minSize ≤ size / (binsIndices edges X minSize).2.length ∧
      Spec.Stratified f (binsIndices edges X minSize).2 size ds.flatten := by
  unfold drawClasses
  simp only []
  set final := (binsIndices edges X minSize).2
  obtain ⟨ds, h1, h2⟩ := drawBins_stratified R hR f final size
  rw [h1]
  by_cases hn0 : final.length = 0
  · simp [hn0]
  · rw [if_neg hn0]
    by_cases hn : final.length < 2
    · rw [if_pos hn]
      exact ⟨fun h => by omega, fun _ h => by cases h⟩
    · rw [if_neg hn]
      by_cases hm : size / final.length < minSize
      · rw [if_pos hm]
        exact ⟨fun h => by omega, fun _ h => by cases h⟩
      · rw [if_neg hm]
        refine ⟨fun _ => ⟨ds, rfl⟩, ?_⟩
        intro ds' h
        cases h
        exact ⟨by omega, by omega, h2⟩

theorem mem_binsIndices (edges X : List α) (minSize : Nat) :
    ∀ cls ∈ (binsIndices edges X minSize).2, ∀ i ∈ cls, i < X.length := by
  intro cls hcls i hi
  have := List.mem_flatten.mpr ⟨cls, hcls, hi⟩
  rw [binsIndices_flatten] at this
  obtain ⟨l, hl, hi⟩ := List.mem_flatten.mp this
  unfold initBins at hl
  obtain ⟨c, -, rfl⟩ := List.mem_map.mp hl
  split at hi <;>
  · obtain ⟨x, hx, -⟩ := (mem_whereIdx _ _ _).mp hi
    exact (List.getElem?_eq_some_iff.mp hx).1

theorem Spec.Stratified.mem {f : Nat → Nat} {classes : List (List Nat)} {size : Nat} {rows : List Nat}
    (h : Spec.Stratified f classes size rows) : ∀ x ∈ rows, ∃ cls ∈ classes, ∃ i ∈ cls, x = f i := by
  obtain ⟨part, rfl, hp⟩ := h
  intro x hx
  obtain ⟨c, hc, hx⟩ := List.mem_flatMap.mp hx
  have hc := List.mem_range.mp hc
  exact ⟨_, List.getElem_mem hc, (hp c _ (List.getElem?_eq_getElem hc)).1 x hx⟩

/-- Minimum and maximum of an array that is not empty. -/
theorem arr_exists (l : List α) (h : l ≠ []) : ∃ mn mx, arrMin l = .ok mn ∧ arrMax l = .ok mx := by
  obtain ⟨x, xs, rfl⟩ := List.exists_cons_of_ne_nil h
  exact ⟨_, _, rfl, rfl⟩

theorem resampledSubset_ok {R : DeltaDraws} {eps : α} {X : List α} {y : Nat} {mode : DeltaMode}
    {edges : List α} {minSize : Nat} {r : List Nat}
    (h : resampledSubset R eps X y mode edges minSize = .ok r) :
    ∃ mn mx, arrMin X = .ok mn ∧ arrMax X = .ok mx ∧ mx ≠ mn ∧ X ≠ [] := by
  unfold resampledSubset at h
  by_cases hX : X = []
  · subst hX; cases h
  · obtain ⟨mn, mx, h1, h2⟩ := arr_exists X hX
    rw [h1, h2] at h
    refine ⟨mn, mx, h1, h2, ?_, hX⟩
    rintro rfl
    simp only [pyBind_ok, if_true] at h
    cases h

/-- **C52**, mode raw: as many row numbers as requested, all valid. -/
theorem C52_raw (R : DeltaDraws) (hR : Spec.ValidResample R) (eps : α) (X : List α) (y : Nat)
    (edges : List α) (minSize : Nat) (r : List Nat)
    (h : resampledSubset R eps X y .raw edges minSize = .ok r) :
    r.length = y ∧ ∀ i ∈ r, i < X.length := by
  obtain ⟨mn, mx, h1, h2, hne, hX⟩ := resampledSubset_ok h
  unfold resampledSubset at h
  rw [h1, h2] at h
  simp only [pyBind_ok, if_neg hne] at h
  cases h
  exact hR.ints _ _ (List.length_pos_iff.mpr hX)

/-- **C52**, mode balanced: the rows are one part per class, each drawn from its class, the sizes as equal as
possible; all row numbers are valid, and when no class is empty there are exactly as many as requested. -/
theorem C52_balanced (R : DeltaDraws) (hR : Spec.ValidResample R) (eps : α) (X : List α) (y : Nat)
    (edges : List α) (minSize : Nat) (r : List Nat)
    (h : resampledSubset R eps X y .balanced edges minSize = .ok r) :
    Spec.Stratified id (binsIndices edges X minSize).2 y r ∧ (∀ i ∈ r, i < X.length) ∧
    ((∀ cls ∈ (binsIndices edges X minSize).2, cls ≠ []) → r.length = y) := by
  obtain ⟨mn, mx, h1, h2, hne, hX⟩ := resampledSubset_ok h
  unfold resampledSubset at h
  rw [h1, h2] at h
  simp only [pyBind_ok, if_neg hne] at h
  cases hd : drawClasses R id edges X minSize y with
  | error e => rw [hd] at h; cases h
  | ok ds =>
    rw [hd] at h
    cases h
    obtain ⟨g1, -, g2⟩ := (drawClasses_ok R hR id edges X minSize y).2 ds hd
    refine ⟨g2, ?_, fun he => g2.length ?_ he⟩
    · intro i hi
      obtain ⟨cls, hc, k, hk, hik⟩ := g2.mem i hi
      rw [hik]
      exact mem_binsIndices edges X minSize cls hc _ hk
    · intro h0; rw [h0] at g1; simp at g1

/-- The draw succeeds exactly when the input varies, two classes remain, and every class gets its minimum. -/
theorem C52_balanced_ok (R : DeltaDraws) (hR : Spec.ValidResample R) (eps : α) (X : List α) (y : Nat)
    (edges : List α) (minSize : Nat) (hvar : ∃ a ∈ X, ∃ b ∈ X, a ≠ b)
    (hn : 2 ≤ (binsIndices edges X minSize).2.length)
    (hm : minSize ≤ y / (binsIndices edges X minSize).2.length) :
    ∃ r, resampledSubset R eps X y .balanced edges minSize = .ok r := by
  obtain ⟨a, ha, b, hb, hab⟩ := hvar
  obtain ⟨mn, mx, h1, h2⟩ := arr_exists X (List.ne_nil_of_mem ha)
  have hne : mx ≠ mn := by
    rintro rfl
    have e1 := (arrMin_spec X _ h1).2
    have e2 := (arrMax_spec X _ h2).2
    exact hab (le_antisymm ((e2 a ha).trans (e1 b hb)) ((e2 b hb).trans (e1 a ha)))
  obtain ⟨ds, hd⟩ := (drawClasses_ok R hR id edges X minSize y).1 ⟨hn, hm⟩
  refine ⟨ds.flatten, ?_⟩
  unfold resampledSubset
  rw [h1, h2]
  simp only [pyBind_ok, if_neg hne, hd]
  rfl

/-! ### No class is empty -/

/-- When the last inner edge is below the largest value, no class is empty. -/
theorem binsIndices_nonempty (edges X : List α) (minSize : Nat) (hmin : 1 ≤ minSize) (xmax : α)
    (hx : xmax ∈ X) (h2 : 2 ≤ edges.length) (hlt : edges.getD (edges.length - 2) 0 < xmax)
    (hle : xmax ≤ edges.getD (edges.length - 1) 0) :
    ∀ cls ∈ (binsIndices edges X minSize).2, cls ≠ [] := by
  have hlast : ∃ l, (initBins edges X).getLast? = some l ∧ l ≠ [] := by
    obtain ⟨i, hi, rfl⟩ := List.mem_iff_getElem.mp hx
    refine ⟨_, (List.getLast?_eq_getElem?).trans
      (initBins_getElem edges X _ (by simp [initBins]; omega)), ?_⟩
    · apply List.ne_nil_of_mem (a := i)
      rw [mem_whereIdx]
      refine ⟨X[i], List.getElem?_eq_getElem hi, ?_⟩
      have hl : (initBins edges X).length - 1 = edges.length - 2 := by simp [initBins]; omega
      rw [hl, show edges.length - 2 + 1 = edges.length - 1 by omega]
      simp only [Bool.and_eq_true, decide_eq_true_eq]
      refine ⟨?_, hle⟩
      split
      · simpa using hlt.le
      · simpa using hlt
  obtain ⟨l, hl, hl0⟩ := hlast
  unfold binsIndices
  simp only []
  cases hb : initBins edges X with
  | nil => simp
  | cons b rest =>
    rw [hb] at hl
    simp only []
    intro cls hcls
    obtain ⟨c, hc, hcl⟩ := mergeFrom_last minSize b rest l hl
    have hne := mergeFrom_ne_nil minSize b rest
    rw [← List.dropLast_append_getLast hne, List.mem_append, List.mem_singleton] at hcls
    rcases hcls with h | h
    · have := mergeFrom_size minSize b rest cls h
      intro h0; rw [h0] at this; simp at this; omega
    · rw [List.getLast?_eq_some_getLast hne, Option.some.injEq] at hc
      rw [h, hc]
      obtain ⟨i, hi⟩ := List.exists_mem_of_ne_nil l hl0
      exact List.ne_nil_of_mem (hcl i hi)

theorem linspace_last_two (lo hi : α) (n : Nat) (hn : 2 ≤ n) (h : lo < hi) :
    (linspace lo hi n).getD ((linspace lo hi n).length - 2) 0 < hi ∧
    hi ≤ (linspace lo hi n).getD ((linspace lo hi n).length - 1) 0 := by
  rw [length_linspace, List.getD, List.getD, linspace_getElem _ _ _ _ hn (by omega),
    linspace_getElem _ _ _ _ hn (by omega)]
  simp only [Option.getD_some]
  have h1 : (0 : α) < (n : α) - 1 := by
    have : (1 : α) < n := by exact_mod_cast (show 1 < n by omega)
    linarith
  rw [Nat.cast_sub hn, Nat.cast_sub (by omega)]
  push_cast
  have e : ((n : α) - 1) * ((hi - lo) / ((n : α) - 1)) = hi - lo := by field_simp
  have hp : 0 < (hi - lo) / ((n : α) - 1) := div_pos (by linarith) h1
  constructor
  · have : ((n : α) - 2) * ((hi - lo) / ((n : α) - 1)) = hi - lo - (hi - lo) / ((n : α) - 1) := by
      rw [show (n : α) - 2 = ((n : α) - 1) - 1 by ring, sub_mul, e, one_mul]
    linarith
  · rw [e]; linarith

/-- **C52**, mode balanced with the edges the analysis really uses: unless the last edge given by the user is
the largest value itself, exactly as many rows as requested are drawn. -/
theorem C52_balanced_size (R : DeltaDraws) (hR : Spec.ValidResample R) (eps : α) (heps : 0 < eps) (X : List α)
    (y : Nat) (info : BinInfo α) (hc : ∀ n, info = .count n → 1 ≤ n) (xmin xmax : α)
    (hmn : arrMin X = .ok xmin) (hmx : arrMax X = .ok xmax)
    (hlast : ∀ l e, info = .edges l → l.getLast? = some e → e ≠ xmax) (minSize : Nat) (hm : 1 ≤ minSize)
    (r : List Nat)
    (h : resampledSubset R eps X y .balanced (checkBinInfo eps info xmin xmax) minSize = .ok r) :
    r.length = y := by
  refine (C52_balanced R hR eps X y _ minSize r h).2.2 ?_
  obtain ⟨mn, mx, h1, h2, hne, hX⟩ := resampledSubset_ok h
  rw [hmn, Except.ok.injEq] at h1
  rw [hmx, Except.ok.injEq] at h2
  subst h1; subst h2
  have hM := arrMax_spec X _ hmx
  have hlt : xmin < xmax := lt_of_le_of_ne ((arrMin_spec X _ hmn).2 _ hM.1) (Ne.symm hne)
  have hlin : ∀ n, 2 ≤ n → ∀ cls ∈ (binsIndices (linspace xmin xmax n) X minSize).2, cls ≠ [] := by
    intro n hn
    exact binsIndices_nonempty _ X minSize hm xmax hM.1 (by rw [length_linspace]; exact hn)
      (linspace_last_two _ _ n hn hlt).1 (linspace_last_two _ _ n hn hlt).2
  unfold checkBinInfo
  cases info with
  | absent => exact hlin 11 (by omega)
  | junk => exact hlin 11 (by omega)
  | other => exact hlin 11 (by omega)
  | count n => exact hlin (n + 1) (by have := hc n rfl; omega)
  | edges l =>
    simp only
    split
    · exact hlin 11 (by omega)
    · rename_i hrange
      split
      · exact hlin 11 (by omega)
      · simp only [Bool.or_eq_true, List.any_eq_true, decide_eq_true_eq, not_or, not_exists, not_and,
          not_lt] at hrange
        refine binsIndices_nonempty _ X minSize hm xmax hM.1 (by simp) ?_ ?_
        · rcases List.eq_nil_or_concat l with rfl | ⟨l', e, rfl⟩
          · simp; linarith
          · have he : e ≠ xmax := hlast _ e rfl (by simp)
            have := hrange.2 e (by simp)
            simp [List.getD]
            exact lt_of_le_of_ne this he
        · have h' : ([xmin - eps] ++ l ++ [xmax + eps])[([xmin - eps] ++ l ++ [xmax + eps]).length - 1]? =
              some (xmax + eps) := by
            rw [← List.getLast?_eq_getElem?, List.getLast?_concat]
          rw [List.getD, h']
          simp; exact heps.le

/-! ### Step mode -/

theorem whereIdx_getD (X : List α) (p : α → Bool) (k : Nat) (hk : k < (whereIdx X p).length) :
    ∃ x, X[(whereIdx X p).getD k 0]? = some x ∧ p x = true := by
  rw [List.getD, List.getElem?_eq_getElem hk]
  exact (mem_whereIdx X p _).mp (List.getElem_mem hk)

/-- The positive values of a column. -/
def Spec.positives (X : List α) : List α := X.filter fun x => decide (0 < x)

theorem whereIdx_values (X : List α) (p : α → Bool) :
    (whereIdx X p).map (fun i => X.getD i 0) = X.filter p := by
  unfold whereIdx
  induction X using List.reverseRecOn with
  | nil => rfl
  | append_singleton X a ih =>
    rw [List.length_append, List.length_singleton, List.range_succ, List.filter_append, List.map_append,
      List.filter_append, ← ih]
    congr 1
    · have e : (List.range X.length).filter (fun i => p ((X ++ [a]).getD i 0)) =
          (List.range X.length).filter fun i => p (X.getD i 0) := by
        apply List.filter_congr
        intro i hi
        rw [List.getD, List.getElem?_append_left (List.mem_range.mp hi), List.getD]
      rw [e]
      apply List.map_congr_left
      intro i hi
      rw [List.getD, List.getElem?_append_left (List.mem_range.mp (List.mem_filter.mp hi).1), List.getD]
    · have e : (X ++ [a]).getD X.length 0 = a := by simp [List.getD]
      by_cases h : p a <;> simp [List.filter_cons, h]

/-- What a successful draw in step mode consists of. -/
theorem step_unfold {R : DeltaDraws} {eps : α} {X : List α} {y : Nat} {edges : List α} {minSize : Nat}
    {r : List Nat} (h : resampledSubset R eps X y .step edges minSize = .ok r) :
    ∃ chosen lo hi ds,
      npChoice R 0 (whereIdx X fun x => decide (x ≤ 0)) (y / 2) = .ok chosen ∧
      arrMin (Spec.positives X) = .ok lo ∧ arrMax (Spec.positives X) = .ok hi ∧
      drawClasses R (fun i => (whereIdx X fun x => decide (0 < x)).getD i 0)
        (linspace lo hi 6) (Spec.positives X) (minSize / 2) (y - y / 2) = .ok ds ∧
      r = chosen ++ ds.flatten := by
  obtain ⟨mn, mx, h1, h2, hne, hX⟩ := resampledSubset_ok h
  unfold resampledSubset at h
  rw [h1, h2] at h
  simp only [pyBind_ok, if_neg hne, whereIdx_values] at h
  change (do
    let chosen ← npChoice R 0 (whereIdx X fun x => decide (x ≤ 0)) (y / 2)
    let lo ← arrMin (Spec.positives X)
    let hi ← arrMax (Spec.positives X)
    let ds ← drawClasses R (fun i => (whereIdx X fun x => decide (0 < x)).getD i 0)
      (linspace lo hi 6) (Spec.positives X) (minSize / 2) (y - y / 2)
    return (chosen :: ds).flatten : Py (List Nat)) = .ok r at h
  cases hc : npChoice R 0 (whereIdx X fun x => decide (x ≤ 0)) (y / 2) with
  | error e => rw [hc] at h; cases h
  | ok chosen =>
    rw [hc] at h
    by_cases hp : Spec.positives X = []
    · rw [hp] at h; cases h
    · obtain ⟨lo, hi, h3, h4⟩ := arr_exists _ hp
      rw [h3, h4] at h
      simp only [pyBind_ok] at h
      cases hd : drawClasses R (fun i => (whereIdx X fun x => decide (0 < x)).getD i 0)
        (linspace lo hi 6) (Spec.positives X) (minSize / 2) (y - y / 2) with
      | error e => rw [hd] at h; cases h
      | ok ds =>
        rw [hd] at h
        cases h
        exact ⟨chosen, lo, hi, ds, rfl, h3, h4, hd, by simp⟩

/-- **C52**, mode step: half of the rows (rounded down) have a value of at most 0, the others a positive one;
when the positive values are not all equal there are exactly as many rows as requested. -/
theorem C52_step (R : DeltaDraws) (hR : Spec.ValidResample R) (eps : α) (X : List α) (y : Nat)
    (edges : List α) (minSize : Nat) (hm : 2 ≤ minSize) (r : List Nat)
    (h : resampledSubset R eps X y .step edges minSize = .ok r) :
    (∃ a b, r = a ++ b ∧ a.length = y / 2 ∧ (∀ i ∈ a, ∃ x, X[i]? = some x ∧ x ≤ 0) ∧
      ∀ i ∈ b, ∃ x, X[i]? = some x ∧ 0 < x) ∧
    ((∃ u ∈ X, ∃ v ∈ X, 0 < u ∧ u < v) → r.length = y) := by
  obtain ⟨chosen, lo, hi, ds, h1, h2, h3, h4, rfl⟩ := step_unfold h
  have hch : chosen.length = y / 2 ∧ ∀ i ∈ chosen, ∃ x, X[i]? = some x ∧ x ≤ 0 := by
    unfold npChoice at h1
    split at h1
    · cases h1
    · rename_i hh
      cases h1
      obtain ⟨e1, e2⟩ := hR.choice 0 (whereIdx X fun x => decide (x ≤ 0)) (y / 2)
        (by rcases not_and_or.mp hh with hh | hh
            · exact .inl hh
            · exact .inr (not_not.mp hh))
      refine ⟨e1, fun i hi => ?_⟩
      obtain ⟨x, hx, hp⟩ := (mem_whereIdx _ _ _).mp (e2 i hi)
      exact ⟨x, hx, by simpa using hp⟩
  obtain ⟨g1, -, g2⟩ := (drawClasses_ok R hR _ _ _ _ _).2 ds h4
  refine ⟨⟨chosen, ds.flatten, rfl, hch.1, hch.2, ?_⟩, ?_⟩
  · intro i hi
    obtain ⟨cls, hc, k, hk, rfl⟩ := g2.mem i hi
    have hk' := mem_binsIndices _ _ _ cls hc k hk
    have hl : (Spec.positives X).length = (whereIdx X fun x => decide (0 < x)).length := by
      unfold Spec.positives
      rw [← whereIdx_values, List.length_map]
    rw [hl] at hk'
    obtain ⟨x, hx, hp⟩ := whereIdx_getD X _ k hk'
    exact ⟨x, hx, by simpa using hp⟩
  · rintro ⟨u, hu, v, hv, hu0, huv⟩
    have hu' : u ∈ Spec.positives X := by simp [Spec.positives, hu, hu0]
    have hv' : v ∈ Spec.positives X := by simp [Spec.positives, hv, hu0.trans huv]
    have hM := arrMax_spec _ _ h3
    have hlt : lo < hi := lt_of_le_of_lt ((arrMin_spec _ _ h2).2 u hu') (lt_of_lt_of_le huv (hM.2 v hv'))
    have := g2.length (by intro h0; rw [h0] at g1; simp at g1)
      (binsIndices_nonempty _ _ (minSize / 2) (by omega) hi hM.1 (by rw [length_linspace]; omega)
        (linspace_last_two _ _ 6 (by omega) hlt).1 (linspace_last_two _ _ 6 (by omega) hlt).2)
    rw [List.length_append, hch.1, this]
    omega

/-- **C52**, what goes wrong: when all positive values are equal (an on/off switch), the draw of step mode has
only about three quarters of the requested rows. -/
theorem C52_step_short (R : DeltaDraws) (hR : Spec.ValidResample R) (eps : α) (X : List α) (y : Nat)
    (edges : List α) (minSize : Nat) (hm : 2 ≤ minSize) (v : α) (hv : ∀ x ∈ X, 0 < x → x = v)
    (r : List Nat) (h : resampledSubset R eps X y .step edges minSize = .ok r) :
    r.length = y / 2 + (y - y / 2 + 1) / 2 := by
  obtain ⟨chosen, lo, hi, ds, h1, h2, h3, h4, rfl⟩ := step_unfold h
  have hch : chosen.length = y / 2 := by
    unfold npChoice at h1
    split at h1
    · cases h1
    · rename_i hh
      cases h1
      exact (hR.choice 0 _ (y / 2) (by
        rcases not_and_or.mp hh with hh | hh
        · exact .inl hh
        · exact .inr (not_not.mp hh))).1
  have hP : ∀ x ∈ Spec.positives X, x = v := by
    intro x hx
    simp [Spec.positives] at hx
    exact hv x hx.1 hx.2
  have hlo := hP _ (arrMin_spec _ _ h2).1
  have hhi := hP _ (arrMax_spec _ _ h3).1
  subst hlo
  have hhi := hP _ (arrMax_spec _ _ h3).1
  subst hhi
  obtain ⟨g1, -, g2⟩ := (drawClasses_ok R hR _ _ _ _ _).2 ds h4
  have hget : ∀ k, k < 6 → (linspace hi hi 6).getD k 0 = hi := by
    intro k hk
    rw [List.getD, linspace_getElem _ _ _ _ (by omega) hk]
    simp
  have hinit : initBins (linspace hi hi 6) (Spec.positives X) =
      [List.range (Spec.positives X).length, [], [], [], []] := by
    apply List.ext_getElem?
    intro c
    by_cases hc : c < 5
    · rw [initBins_getElem _ _ _ (by rw [length_linspace]; omega), hget c (by omega), hget (c + 1) (by omega)]
      by_cases hc0 : c = 0
      · subst hc0
        simp only [if_true, List.getElem?_cons_zero, Option.some.injEq]
        unfold whereIdx
        apply List.filter_eq_self.mpr
        intro i hi'
        have hi' := List.mem_range.mp hi'
        rw [List.getD, List.getElem?_eq_getElem hi', hP _ (List.getElem_mem hi')]
        simp
      · have : [List.range (Spec.positives X).length, [], [], [], []][c]? = some [] := by
          have : c = 1 ∨ c = 2 ∨ c = 3 ∨ c = 4 := by omega
          rcases this with rfl | rfl | rfl | rfl <;> rfl
        rw [this, Option.some.injEq]
        simp only [if_neg hc0]
        unfold whereIdx
        apply List.filter_eq_nil_iff.mpr
        intro i hi'
        simp only [Bool.and_eq_true, decide_eq_true_eq, not_and, not_le]
        exact id
    · rw [List.getElem?_eq_none (by simp [initBins, length_linspace]; omega),
        List.getElem?_eq_none (by simp; omega)]
  have hfin : (binsIndices (linspace hi hi 6) (Spec.positives X) (minSize / 2)).2 =
      [List.range (Spec.positives X).length, []] ∨
      (binsIndices (linspace hi hi 6) (Spec.positives X) (minSize / 2)).2 =
      [List.range (Spec.positives X).length] := by
    unfold binsIndices
    simp only [hinit]
    unfold mergeFrom
    split
    · right
      rename_i hlt
      rw [List.length_range] at hlt
      simp [mergeFrom, hlt]
    · left
      have : 0 < minSize / 2 := by omega
      simp [mergeFrom, this]
  rcases hfin with hfin | hfin
  · rw [hfin] at g2
    obtain ⟨part, hp, hs⟩ := g2
    have e0 := (hs 0 _ rfl).2 (by
      have := (arrMin_spec _ _ h2).1
      intro h0
      have h0 := congrArg List.length h0
      rw [List.length_range] at h0
      rw [List.eq_nil_of_length_eq_zero h0] at this
      cases this)
    have e1 : part 1 = [] := by
      apply List.eq_nil_iff_forall_not_mem.mpr
      intro x hx
      obtain ⟨i, hi', -⟩ := (hs 1 _ rfl).1 x hx
      cases hi'
    rw [List.length_append, hch, hp]
    simp [List.range_succ, e1, e0]
    split <;> omega
  · rw [hfin] at g1
    simp at g1

/-! ### The hypotheses are met -/

/-- Draws that always take the first entry. -/
def exDraws : DeltaDraws := ⟨fun _ l n => List.replicate n (l.headD 0), fun _ n => List.replicate n 0⟩

theorem exDraws_valid : Spec.ValidResample exDraws := by
  constructor
  · intro t l n h
    refine ⟨by simp [exDraws], ?_⟩
    intro x hx
    simp only [exDraws, List.mem_replicate] at hx
    rcases h with h | h
    · obtain ⟨a, l, rfl⟩ := List.exists_cons_of_ne_nil h
      rw [hx.2]; simp
    · exact absurd h hx.1
  · intro N n h
    refine ⟨by simp [exDraws], ?_⟩
    intro x hx
    simp only [exDraws, List.mem_replicate] at hx
    omega

/-- Five rows from two classes (sizes 3 and 2), five rows raw, and a step draw. -/
example : resampledSubset exDraws (1 / 1000) [(0 : ℚ), 1, 2, 3] 5 .balanced
      (checkBinInfo (1 / 1000) (.count 2) 0 3) 2 = .ok [0, 0, 0, 2, 2] ∧
    resampledSubset exDraws (1 / 1000) [(0 : ℚ), 1, 2, 3] 5 .raw [] 2 = .ok [0, 0, 0, 0, 0] ∧
    resampledSubset exDraws (1 / 1000) [(0 : ℚ), 1, -1, 3, 2, 4] 10 .step [] 2 =
      .ok [0, 0, 0, 0, 0, 1, 1, 4, 3, 5] := by
  refine ⟨?_, ?_, ?_⟩ <;> decide +kernel

/-- An on/off input: 8 of the 10 requested rows. -/
example : resampledSubset exDraws (1 / 1000) [(0 : ℚ), 1, 0, 1, 0, 1, 1, 0] 10 .step [] 2 =
    .ok [0, 0, 0, 0, 0, 1, 1, 1] := by
  decide +kernel

end SALib
