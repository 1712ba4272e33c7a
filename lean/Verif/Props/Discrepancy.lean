import Verif.Lemmas.Discrepancy
import Verif.Lemmas.WrapDisc

/-! # C87: the discrepancy indices

`C87_accept`: the analysis succeeds exactly on legal inputs (everything else is a `ValueError`).  `C87_shares`: every
value is the parameter's discrepancy divided by the total, so the values sum to one.  `C87_wd`: for the default method
they are always positive.  `C87_units`, `C87_reflect`, `C87_order`: the values do not depend on the units of inputs and
output, on the sign of the output, or on the order of the samples.  `C87_groups`: a group gets the mean of its members'
shares. -/

namespace SALib

open Spec

section

variable {α : Type} [Field α] [LinearOrder α] [IsStrictOrderedRing α]

theorem exists_extremes (Y : List α) (h : Y ≠ []) :
    ∃ mn mx, (mn ∈ Y ∧ ∀ y ∈ Y, mn ≤ y) ∧ mx ∈ Y ∧ ∀ y ∈ Y, y ≤ mx := by
  cases Y with
  | nil => exact absurd rfl h
  | cons y ys => exact ⟨_, _, foldl_min_spec y ys, foldl_max_spec y ys⟩

theorem checkGroups_length (pb : Problem α) (n : Nat) (h : ∀ gs, pb.groups = some gs → gs.length = n)
    (gs : List String) (hg : checkGroups pb = some gs) : gs.length = n := by
  apply h
  unfold checkGroups at hg
  split at hg
  · cases hg
  · cases hg
  · rename_i gs' _ e
    split at hg
    · cases hg
    · split at hg
      · cases hg
      · rw [e, Option.some.inj hg]

theorem discParams_nil (disc : List (α × α) → α) (pb : Problem α) (X : Mat α) (P : List (α × α))
    (hs : DiscShape pb P X []) : discParams disc pb X [] = .error .valueError := by
  have b0 : (pb.bounds.mapM fun b => pyGet b 0) = .ok (P.map (·.1)) := by
    rw [hs.bounds, mapM_ok_of _ (fun b => b.getD 0 0)]
    · rw [List.map_map]; rfl
    · intro b hb
      obtain ⟨p, -, rfl⟩ := List.mem_map.mp hb
      rfl
  have b1 : (pb.bounds.mapM fun b => pyGet b 1) = .ok (P.map (·.2)) := by
    rw [hs.bounds, mapM_ok_of _ (fun b => b.getD 1 0)]
    · rw [List.map_map]; rfl
    · intro b hb
      obtain ⟨p, -, rfl⟩ := List.mem_map.mp hb
      rfl
  unfold discParams
  rw [b0, pyBind_ok, b1, pyBind_ok, qmcUnscale_eq X P hs.rows]
  split <;> rfl

/-- The analysis once the shares are known. -/
theorem discAnalyze_of_params (disc : List (α × α) → α) (pb : Problem α) (X : Mat α) (Y : List α)
    (P : List (α × α)) (hs : DiscShape pb P X Y) (s : List (Num α)) (hl : s.length = P.length)
    (h : discParams disc pb X Y = .ok s) :
    discAnalyze disc pb X Y = .ok (match checkGroups pb with
      | none => s
      | some grps => (pdUnique grps).map fun g => npMeanN (((s.zip grps).filter fun p => p.2 = g).map (·.1)),
      pb.names) := by
  unfold discAnalyze
  rw [h, pyBind_ok]
  cases hg : checkGroups pb with
  | none => rfl
  | some grps =>
    have := checkGroups_length pb _ hs.groups grps hg
    simp only []
    rw [if_neg (by rw [this, hl]; simp)]
    rfl

theorem discAnalyze_error (disc : List (α × α) → α) (pb : Problem α) (X : Mat α) (Y : List α) (e : PyErr)
    (h : discParams disc pb X Y = .error e) : discAnalyze disc pb X Y = .error e := by
  unfold discAnalyze
  rw [h]; rfl

/-- **C87**: with arrays that fit the problem, the analysis succeeds exactly when every range is non-degenerate, every
sample lies within the ranges and the output is not constant; otherwise it is a `ValueError`. -/
theorem C87_accept (disc : List (α × α) → α) (pb : Problem α) (X : Mat α) (Y : List α) (P : List (α × α))
    (hs : DiscShape pb P X Y) :
    ((∃ r, discAnalyze disc pb X Y = .ok r) ↔ DiscInputs P X Y) ∧
    (¬DiscInputs P X Y → discAnalyze disc pb X Y = .error .valueError) := by
  by_cases hY : Y = []
  · subst hY
    have hn : ¬DiscInputs P X [] := by rintro ⟨-, -, y, hy, -⟩; simp at hy
    have he := discAnalyze_error disc pb X [] _ (discParams_nil disc pb X P hs)
    exact ⟨⟨fun ⟨r, hr⟩ => absurd (he.symm.trans hr) (by simp), fun h => absurd h hn⟩, fun _ => he⟩
  · obtain ⟨mn, mx, h1, h2⟩ := exists_extremes Y hY
    have e := discParams_eq disc pb X Y P mn mx hs.bounds hs.count hs.rows hs.length h1 h2
    by_cases h : DiscInputs P X Y
    · rw [if_pos h] at e
      have := discAnalyze_of_params disc pb X Y P hs _ (by simp) e
      exact ⟨⟨fun _ => h, fun _ => ⟨_, this⟩⟩, fun hn => absurd h hn⟩
    · rw [if_neg h] at e
      have he := discAnalyze_error disc pb X Y _ e
      exact ⟨⟨fun ⟨r, hr⟩ => absurd (he.symm.trans hr) (by simp), fun h' => absurd h' h⟩, fun _ => he⟩

/-- **C87**: without groups there is one value per parameter, reported with the problem's names; the value of a
parameter is the discrepancy of its scatter plot divided by the total over the parameters; the values sum to one, and
if no discrepancy is negative they lie between 0 and 1. -/
theorem C87_shares (disc : List (α × α) → α) (pb : Problem α) (X : Mat α) (Y : List α) (P : List (α × α))
    (hs : DiscShape pb P X Y) (hg : pb.groups = none) (h : DiscInputs P X Y) (mn mx : α)
    (h1 : mn ∈ Y ∧ ∀ y ∈ Y, mn ≤ y) (h2 : mx ∈ Y ∧ ∀ y ∈ Y, y ≤ mx) (d : Nat → α)
    (hd : ∀ (i : Nat) p, P[i]? = some p → d i = disc (scatter X Y i p.1 p.2 mn mx))
    (htot : ((List.range P.length).map d).sum ≠ 0) :
    ∃ v : List α, discAnalyze disc pb X Y = .ok (v.map some, pb.names) ∧ v.length = P.length ∧
      (∀ i < P.length, v[i]? = some (d i / ((List.range P.length).map d).sum)) ∧ v.sum = 1 ∧
      ((∀ i < P.length, 0 ≤ d i) → ∀ x ∈ v, 0 ≤ x ∧ x ≤ 1) := by
  have e := discParams_eq disc pb X Y P mn mx hs.bounds hs.count hs.rows hs.length h1 h2
  rw [if_pos h] at e
  have hl : (P.zipIdx.map fun q => disc (scatter X Y q.2 q.1.1 q.1.2 mn mx)) = (List.range P.length).map d := by
    apply List.ext_getElem?
    intro i
    rw [List.getElem?_map, List.getElem?_map, List.getElem?_zipIdx]
    by_cases hi : i < P.length
    · rw [List.getElem?_range hi, List.getElem?_eq_getElem hi]
      simp [hd i _ (List.getElem?_eq_getElem hi)]
    · rw [List.getElem?_eq_none (by simpa using hi), List.getElem?_eq_none (by simpa using hi)]
      rfl
  rw [hl] at e
  set T := ((List.range P.length).map d).sum with hT
  have e' := discAnalyze_of_params disc pb X Y P hs _ (by simp) e
  have hc : checkGroups pb = none := by unfold checkGroups; rw [hg]
  rw [hc] at e'
  refine ⟨((List.range P.length).map d).map (· / T), ?_, by simp, ?_, ?_, ?_⟩
  · rw [e', List.map_map]
    simp [npDiv, htot]
  · intro i hi
    simp [hi]
  · have := List.sum_map_mul_right (l := (List.range P.length).map d) (f := id) (r := T⁻¹)
    simp only [id, List.map_id'] at this
    simp only [div_eq_mul_inv]
    rw [this, List.map_id, ← hT, mul_inv_cancel₀ htot]
  · intro hnn x hx
    have hpos : ∀ a ∈ (List.range P.length).map d, 0 ≤ a := by
      intro a ha
      obtain ⟨i, hi, rfl⟩ := List.mem_map.mp ha
      exact hnn i (List.mem_range.mp hi)
    have hT0 : 0 < T := lt_of_le_of_ne (List.sum_nonneg hpos) (Ne.symm htot)
    obtain ⟨a, ha, rfl⟩ := List.mem_map.mp hx
    refine ⟨div_nonneg (hpos a ha) hT0.le, (div_le_one hT0).mpr ?_⟩
    exact List.single_le_sum hpos a ha

/-- **C87**: with groups, a group's value is the mean of the values its members get without grouping, one per group in
order of first appearance. -/
theorem C87_groups (disc : List (α × α) → α) (pb : Problem α) (X : Mat α) (Y : List α) (P : List (α × α))
    (hs : DiscShape pb P X Y) (gs us : List String) (hgs : pb.groups = some gs) (hd : DistinctInOrder gs us)
    (h2 : 2 ≤ us.length) (hne : gs ≠ pb.names) (v : List α)
    (hv : discAnalyze disc { pb with groups := none } X Y = .ok (v.map some, pb.names)) :
    ∃ w : List α, discAnalyze disc pb X Y = .ok (w.map some, pb.names) ∧ w.length = us.length ∧
      ∀ (k : Nat) g, us[k]? = some g →
        w[k]? = some ((((v.zip gs).filter fun p => p.2 = g).map (·.1)).sum / gs.count g) := by
  have hus : pdUnique gs = us := by
    have hp := pdUnique_distinct gs
    have hperm : (pdUnique gs).Perm us :=
      (List.perm_ext_iff_of_nodup hp.nodup hd.nodup).mpr fun g => by rw [hp.mem_iff, hd.mem_iff]
    exact hperm.eq_of_pairwise (fun a b _ _ h h' => absurd h (by omega)) hp.first_mention hd.first_mention
  have hc : checkGroups pb = some gs := by
    unfold checkGroups
    rw [hgs]
    cases gs with
    | nil => rw [← hus] at h2; simp [pdUnique] at h2
    | cons g gs =>
      simp only []
      rw [if_neg hne, if_neg (by rw [hus]; omega)]
  have hpar : discParams disc pb X Y = .ok (v.map some) := by
    have : discParams disc pb X Y = discParams disc { pb with groups := none } X Y := rfl
    rw [this]
    unfold discAnalyze at hv
    cases hq : discParams disc { pb with groups := none } X Y with
    | error e => rw [hq] at hv; cases hv
    | ok s =>
      rw [hq] at hv
      have : s = v.map some := congrArg Prod.fst (Except.ok.inj hv)
      rw [this]
  have hYne : Y ≠ [] := by
    rintro rfl
    rw [discParams_nil disc pb X P hs] at hpar
    cases hpar
  have hlen : (v.map some).length = P.length := by
    obtain ⟨mn, mx, h1, h2⟩ := exists_extremes Y hYne
    have e := discParams_eq disc pb X Y P mn mx hs.bounds hs.count hs.rows hs.length h1 h2
    rw [hpar] at e
    split at e
    · rw [Except.ok.inj e]; simp
    · cases e
  have hvl : v.length = gs.length := by
    rw [hs.groups gs hgs, ← hlen, List.length_map]
  have key := discAnalyze_of_params disc pb X Y P hs _ hlen hpar
  rw [hc] at key
  simp only [] at key
  have hmean : ∀ g ∈ us, npMeanN ((((v.map some).zip gs).filter fun p => p.2 = g).map (·.1)) =
      some ((((v.zip gs).filter fun p => p.2 = g).map (·.1)).sum / gs.count g) := by
    intro g hg
    have e1 : ∀ (l : List α) (m : List String), ((((l.map some).zip m).filter fun p => p.2 = g).map (·.1)) =
        (((l.zip m).filter fun p => p.2 = g).map (·.1)).map some := by
      intro l
      induction l with
      | nil => intro m; rfl
      | cons a l ih =>
        intro m
        cases m with
        | nil => rfl
        | cons b m =>
          simp only [List.map_cons, List.zip_cons_cons, List.filter_cons]
          split <;> simp [ih]
    have e2 : ∀ (l : List α) (m : List String), l.length = m.length →
        (((l.zip m).filter fun p => p.2 = g).map (·.1)).length = m.count g := by
      intro l
      induction l with
      | nil => intro m hm; cases m with
        | nil => rfl
        | cons b m => cases hm
      | cons a l ih =>
        intro m hm
        cases m with
        | nil => cases hm
        | cons b m =>
          have := ih m (by simpa using hm)
          by_cases hb : b = g
          · subst hb; simpa using this
          · simp only [List.zip_cons_cons, List.filter_cons, List.count_cons, hb, decide_false]
            simpa [hb] using this
    have hpos : 0 < gs.count g := List.count_pos_iff.mpr ((hd.mem_iff g).mp hg)
    rw [e1, npMeanN_some, e2 v gs hvl]
    intro h0
    have := e2 v gs hvl
    rw [h0] at this
    simp at this
    omega
  refine ⟨us.map fun g => (((v.zip gs).filter fun p => p.2 = g).map (·.1)).sum / gs.count g, ?_, by simp, ?_⟩
  · rw [key, hus, List.map_map]
    congr 2
    exact List.map_congr_left hmean
  · intro k g hk
    rw [List.getElem?_map, hk]
    rfl

/-- The same problem in other units: input `i` is `c i` times the old value plus `e i`. -/
def rescalePairs (P : List (α × α)) (cs : List (α × α)) : List (α × α) :=
  List.zipWith (fun p c => (c.1 * p.1 + c.2, c.1 * p.2 + c.2)) P cs

def rescaleRows (X : Mat α) (cs : List (α × α)) : Mat α :=
  X.map fun row => List.zipWith (fun x c => c.1 * x + c.2) row cs

theorem getElem?_rescale (row : List α) (P cs : List (α × α)) (hr : row.length = P.length)
    (hc : cs.length = P.length) (i : Nat) (hi : i < P.length) :
    ∃ x p c, row[i]? = some x ∧ P[i]? = some p ∧ cs[i]? = some c ∧ c ∈ cs ∧
      (List.zipWith (fun x (c : α × α) => c.1 * x + c.2) row cs)[i]? = some (c.1 * x + c.2) ∧
      (rescalePairs P cs)[i]? = some (c.1 * p.1 + c.2, c.1 * p.2 + c.2) := by
  refine ⟨row[i], P[i], cs[i], by simp, by simp, by simp, by simp, ?_, ?_⟩
  · simp [List.getElem?_zipWith, List.getElem?_eq_getElem (show i < row.length by omega),
      List.getElem?_eq_getElem (show i < cs.length by omega)]
  · simp [rescalePairs, List.getElem?_zipWith, List.getElem?_eq_getElem hi,
      List.getElem?_eq_getElem (show i < cs.length by omega)]

theorem discInputs_rescale (P cs : List (α × α)) (X : Mat α) (Y : List α) (a b : α) (ha : a ≠ 0)
    (hcl : cs.length = P.length) (hc : ∀ c ∈ cs, 0 < c.1) (hrow : ∀ row ∈ X, row.length = P.length) :
    DiscInputs (rescalePairs P cs) (rescaleRows X cs) (Y.map fun y => a * y + b) ↔ DiscInputs P X Y := by
  have hmono : ∀ c : α × α, 0 < c.1 → ∀ x y : α, c.1 * x + c.2 ≤ c.1 * y + c.2 ↔ x ≤ y := by
    intro c h x y
    rw [add_le_add_iff_right, mul_le_mul_iff_right₀ h]
  have hmono' : ∀ c : α × α, 0 < c.1 → ∀ x y : α, c.1 * x + c.2 < c.1 * y + c.2 ↔ x < y := by
    intro c h x y
    rw [add_lt_add_iff_right, mul_lt_mul_iff_right₀ h]
  have hl : (rescalePairs P cs).length = P.length := by simp [rescalePairs, hcl]
  refine and_congr ?_ (and_congr ?_ ?_)
  · constructor
    · intro h p hp
      obtain ⟨i, hi, rfl⟩ := List.mem_iff_getElem.mp hp
      have hq : (rescalePairs P cs)[i]? = some (cs[i].1 * P[i].1 + cs[i].2, cs[i].1 * P[i].2 + cs[i].2) := by
        simp [rescalePairs, List.getElem?_zipWith, List.getElem?_eq_getElem hi,
          List.getElem?_eq_getElem (show i < cs.length by omega)]
      exact (hmono' _ (hc _ (by simp)) _ _).mp (h _ (List.mem_of_getElem? hq))
    · intro h p hp
      obtain ⟨i, hi, rfl⟩ := List.mem_iff_getElem.mp hp
      have hi' : i < P.length := by omega
      simp only [rescalePairs, List.getElem_zipWith]
      exact (hmono' _ (hc _ (by simp)) _ _).mpr (h _ (by simp))
  · constructor
    · intro h row hr i x p hx hp
      have hi : i < P.length := (List.getElem?_eq_some_iff.mp hp).1
      obtain ⟨x', p', c, e1, e2, e3, hm, e4, e5⟩ := getElem?_rescale row P cs (hrow row hr) hcl i hi
      rw [hx] at e1; rw [hp] at e2
      obtain rfl := Option.some.inj e1
      obtain rfl := Option.some.inj e2
      have := h _ (List.mem_map_of_mem hr) i _ _ e4 e5
      rw [hmono c (hc c hm), hmono c (hc c hm)] at this
      exact this
    · intro h row' hr' i x p hx hp
      obtain ⟨row, hr, rfl⟩ := List.mem_map.mp hr'
      have hi : i < P.length := by rw [← hl]; exact (List.getElem?_eq_some_iff.mp hp).1
      obtain ⟨x', p', c, e1, e2, e3, hm, e4, e5⟩ := getElem?_rescale row P cs (hrow row hr) hcl i hi
      rw [hx] at e4; rw [hp] at e5
      obtain rfl := Option.some.inj e4
      obtain rfl := Option.some.inj e5
      rw [hmono c (hc c hm), hmono c (hc c hm)]
      exact h row hr i _ _ e1 e2
  · constructor
    · rintro ⟨y, hy, y', hy', hne⟩
      obtain ⟨z, hz, rfl⟩ := List.mem_map.mp hy
      obtain ⟨z', hz', rfl⟩ := List.mem_map.mp hy'
      exact ⟨z, hz, z', hz', fun h => hne (by rw [h])⟩
    · rintro ⟨y, hy, y', hy', hne⟩
      exact ⟨_, List.mem_map_of_mem hy, _, List.mem_map_of_mem hy', fun h => hne (by
        have : a * y = a * y' := by linarith
        exact mul_left_cancel₀ ha this)⟩

/-- Rescaled inputs give the same scatter plots, up to the scaling `g` of the output. -/
theorem scatter_rescale (P cs : List (α × α)) (X : Mat α) (Y : List α) (f g : α → α)
    (hcl : cs.length = P.length) (hc : ∀ c ∈ cs, 0 < c.1) (hrow : ∀ row ∈ X, row.length = P.length)
    (mn mx mn' mx' : α) (hfg : ∀ y ∈ Y, (f y - mn') / (mx' - mn') = g ((y - mn) / (mx - mn))) (i : Nat)
    (p q : α × α) (hp : P[i]? = some p) (hq : (rescalePairs P cs)[i]? = some q) :
    scatter (rescaleRows X cs) (Y.map f) i q.1 q.2 mn' mx' =
      (scatter X Y i p.1 p.2 mn mx).map fun r => (r.1, g r.2) := by
  unfold scatter rescaleRows
  rw [List.zip_map, List.map_map, List.map_map]
  refine List.map_congr_left fun r hr => ?_
  have hr1 := List.of_mem_zip hr
  have hi : i < P.length := (List.getElem?_eq_some_iff.mp hp).1
  obtain ⟨x, p', c, e1, e2, e3, hm, e4, e5⟩ := getElem?_rescale r.1 P cs (hrow _ hr1.1) hcl i hi
  rw [hp] at e2; rw [hq] at e5
  obtain rfl := Option.some.inj e2
  obtain rfl := Option.some.inj e5
  have hcpos := hc c hm
  simp only [Function.comp, Prod.map, List.getD_eq_getElem?_getD, e4, e1, Option.getD_some, Prod.mk.injEq]
  refine ⟨?_, hfg _ hr1.2⟩
  have : c.1 * x + c.2 - (c.1 * p.1 + c.2) = c.1 * (x - p.1) := by ring
  rw [this, show c.1 * p.2 + c.2 - (c.1 * p.1 + c.2) = c.1 * (p.2 - p.1) by ring, mul_div_mul_left _ _ hcpos.ne']

/-- The problem with its bounds in other units. -/
def rescaleProblem (pb : Problem α) (P cs : List (α × α)) : Problem α :=
  { pb with bounds := (rescalePairs P cs).map fun p => [p.1, p.2] }

theorem rescale_shape (pb : Problem α) (P cs : List (α × α)) (X : Mat α) (Y : List α) (f : α → α)
    (hs : DiscShape pb P X Y) (hcl : cs.length = P.length) :
    DiscShape (rescaleProblem pb P cs) (rescalePairs P cs) (rescaleRows X cs) (Y.map f) := by
  have hl : (rescalePairs P cs).length = P.length := by simp [rescalePairs, hcl]
  refine ⟨rfl, by rw [hl]; exact hs.count, ?_, ?_, by rw [hl]; exact hs.groups⟩
  · intro row hr
    obtain ⟨row', hr', rfl⟩ := List.mem_map.mp hr
    simp [hl, hcl, hs.rows row' hr']
  · simp [rescaleRows, hs.length]

/-- Common core of the invariance theorems. -/
theorem discAnalyze_rescale (disc : List (α × α) → α) (pb : Problem α) (P cs : List (α × α)) (X : Mat α) (Y : List α)
    (hs : DiscShape pb P X Y) (hcl : cs.length = P.length) (hc : ∀ c ∈ cs, 0 < c.1) (a b : α) (ha : a ≠ 0)
    (hdisc : a < 0 → ∀ pts, disc (pts.map fun r => (r.1, 1 - r.2)) = disc pts) :
    discAnalyze disc (rescaleProblem pb P cs) (rescaleRows X cs) (Y.map fun y => a * y + b) =
      discAnalyze disc pb X Y := by
  have hs' := rescale_shape pb P cs X Y (fun y => a * y + b) hs hcl
  have hl : (rescalePairs P cs).length = P.length := by simp [rescalePairs, hcl]
  have hin := discInputs_rescale P cs X Y a b ha hcl hc hs.rows
  have main : discParams disc (rescaleProblem pb P cs) (rescaleRows X cs) (Y.map fun y => a * y + b) =
      discParams disc pb X Y := by
    by_cases hY : Y = []
    · subst hY
      rw [discParams_nil disc pb X P hs]
      exact discParams_nil disc _ _ _ hs'
    · obtain ⟨mn, mx, h1, h2⟩ := exists_extremes Y hY
      rw [discParams_eq disc pb X Y P mn mx hs.bounds hs.count hs.rows hs.length h1 h2]
      by_cases hI : DiscInputs P X Y
      · have hlt : mn ≠ mx := by
          intro e
          obtain ⟨-, -, y, hy, y', hy', hne⟩ := hI
          apply hne
          have := h1.2 y hy; have := h2.2 y hy; have := h1.2 y' hy'; have := h2.2 y' hy'
          linarith
        obtain ⟨mn', mx', h1', h2', g, hfg, hg⟩ : ∃ mn' mx', (mn' ∈ Y.map (fun y => a * y + b) ∧
            ∀ y ∈ Y.map (fun y => a * y + b), mn' ≤ y) ∧ (mx' ∈ Y.map (fun y => a * y + b) ∧
            ∀ y ∈ Y.map (fun y => a * y + b), y ≤ mx') ∧ ∃ g : α → α,
            (∀ y ∈ Y, (a * y + b - mn') / (mx' - mn') = g ((y - mn) / (mx - mn))) ∧
            ∀ pts, disc (pts.map fun r => (r.1, g r.2)) = disc pts := by
          have hd : mx - mn ≠ 0 := fun e => hlt (by linarith)
          rcases lt_or_gt_of_ne ha with hneg | hpos
          · refine ⟨a * mx + b, a * mn + b, ⟨List.mem_map_of_mem h2.1, ?_⟩, ⟨List.mem_map_of_mem h1.1, ?_⟩,
              fun t => 1 - t, ?_, hdisc hneg⟩
            · intro y hy
              obtain ⟨z, hz, rfl⟩ := List.mem_map.mp hy
              have := mul_le_mul_of_nonpos_left (h2.2 z hz) hneg.le
              linarith
            · intro y hy
              obtain ⟨z, hz, rfl⟩ := List.mem_map.mp hy
              have := mul_le_mul_of_nonpos_left (h1.2 z hz) hneg.le
              linarith
            · intro y _
              have : a * mn + b - (a * mx + b) ≠ 0 := by
                rw [show a * mn + b - (a * mx + b) = -(a * (mx - mn)) by ring]
                exact neg_ne_zero.mpr (mul_ne_zero ha hd)
              rw [div_eq_iff this]
              field_simp
              ring
          · refine ⟨a * mn + b, a * mx + b, ⟨List.mem_map_of_mem h1.1, ?_⟩, ⟨List.mem_map_of_mem h2.1, ?_⟩,
              fun t => t, ?_, fun pts => by simp⟩
            · intro y hy
              obtain ⟨z, hz, rfl⟩ := List.mem_map.mp hy
              have := mul_le_mul_of_nonneg_left (h1.2 z hz) hpos.le
              linarith
            · intro y hy
              obtain ⟨z, hz, rfl⟩ := List.mem_map.mp hy
              have := mul_le_mul_of_nonneg_left (h2.2 z hz) hpos.le
              linarith
            · intro y _
              rw [show a * y + b - (a * mn + b) = a * (y - mn) by ring,
                show a * mx + b - (a * mn + b) = a * (mx - mn) by ring, mul_div_mul_left _ _ ha]
        rw [discParams_eq disc _ _ _ (rescalePairs P cs) mn' mx' hs'.bounds hs'.count hs'.rows hs'.length h1' h2',
          if_pos (hin.mpr hI), if_pos hI]
        have hlist : ((rescalePairs P cs).zipIdx.map fun q => disc (scatter (rescaleRows X cs)
            (Y.map fun y => a * y + b) q.2 q.1.1 q.1.2 mn' mx')) =
            P.zipIdx.map fun q => disc (scatter X Y q.2 q.1.1 q.1.2 mn mx) := by
          apply List.ext_getElem?
          intro i
          rw [List.getElem?_map, List.getElem?_map, List.getElem?_zipIdx, List.getElem?_zipIdx]
          by_cases hi : i < P.length
          · have hq := List.getElem?_eq_getElem (show i < (rescalePairs P cs).length by omega)
            have hp := List.getElem?_eq_getElem hi
            rw [hq, hp]
            simp only [Option.map_some, Nat.zero_add]
            rw [scatter_rescale P cs X Y _ g hcl hc hs.rows mn mx mn' mx' hfg i _ _ hp hq, hg]
          · rw [List.getElem?_eq_none (by omega), List.getElem?_eq_none (by omega)]
            rfl
        rw [hlist]
      · obtain ⟨mn', mx', h1', h2'⟩ := exists_extremes (Y.map fun y => a * y + b) (by simpa using hY)
        rw [discParams_eq disc _ _ _ (rescalePairs P cs) mn' mx' hs'.bounds hs'.count hs'.rows hs'.length h1' h2',
          if_neg (fun h => hI (hin.mp h)), if_neg hI]
  unfold discAnalyze
  rw [main]
  rfl

/-- **C87**: measuring an input in other units (with its bounds), or the output in other units, changes nothing: the
values, the names and the errors are the same, for any discrepancy. -/
theorem C87_units (disc : List (α × α) → α) (pb : Problem α) (P cs : List (α × α)) (X : Mat α) (Y : List α)
    (hs : DiscShape pb P X Y) (hcl : cs.length = P.length) (hc : ∀ c ∈ cs, 0 < c.1) (a b : α) (ha : 0 < a) :
    discAnalyze disc (rescaleProblem pb P cs) (rescaleRows X cs) (Y.map fun y => a * y + b) =
      discAnalyze disc pb X Y :=
  discAnalyze_rescale disc pb P cs X Y hs hcl hc a b ha.ne' fun h => absurd h (by linarith [not_lt.mpr ha.le])

theorem discWD_reflect (pts : List (α × α)) : discWD (pts.map fun r => (r.1, 1 - r.2)) = discWD pts := by
  have : ∀ x y : α, |1 - x - (1 - y)| = |x - y| := by
    intro x y; rw [show 1 - x - (1 - y) = y - x by ring, abs_sub_comm]
  simp only [discWD, List.map_map, Function.comp_def, List.length_map, this]

theorem discCD_reflect (pts : List (α × α)) : discCD (pts.map fun r => (r.1, 1 - r.2)) = discCD pts := by
  have h1 : ∀ x y : α, |1 - x - (1 - y)| = |x - y| := by
    intro x y; rw [show 1 - x - (1 - y) = y - x by ring, abs_sub_comm]
  have h2 : ∀ x : α, |1 - x - 1 / 2| = |x - 1 / 2| := by
    intro x; rw [show 1 - x - 1 / 2 = 1 / 2 - x by ring, abs_sub_comm]
  simp only [discCD, List.map_map, Function.comp_def, List.length_map, h1, h2]

theorem discMD_reflect (pts : List (α × α)) : discMD (pts.map fun r => (r.1, 1 - r.2)) = discMD pts := by
  have h1 : ∀ x y : α, |1 - x - (1 - y)| = |x - y| := by
    intro x y; rw [show 1 - x - (1 - y) = y - x by ring, abs_sub_comm]
  have h2 : ∀ x : α, |1 - x - 1 / 2| = |x - 1 / 2| := by
    intro x; rw [show 1 - x - 1 / 2 = 1 / 2 - x by ring, abs_sub_comm]
  simp only [discMD, List.map_map, Function.comp_def, List.length_map, h1, h2]

/-- **C87**: for the methods "WD", "CD" and "MD" the values do not change when the output is replaced by any
non-constant affine function of it, decreasing ones included. -/
theorem C87_reflect (disc : List (α × α) → α) (hd : disc = discWD ∨ disc = discCD ∨ disc = discMD) (pb : Problem α)
    (P cs : List (α × α)) (X : Mat α) (Y : List α) (hs : DiscShape pb P X Y) (hcl : cs.length = P.length)
    (hc : ∀ c ∈ cs, 0 < c.1) (a b : α) (ha : a ≠ 0) :
    discAnalyze disc (rescaleProblem pb P cs) (rescaleRows X cs) (Y.map fun y => a * y + b) =
      discAnalyze disc pb X Y := by
  refine discAnalyze_rescale disc pb P cs X Y hs hcl hc a b ha fun _ pts => ?_
  rcases hd with rfl | rfl | rfl
  · exact discWD_reflect pts
  · exact discCD_reflect pts
  · exact discMD_reflect pts

theorem sum_map_perm {β : Type} (f : β → α) {l l' : List β} (h : l.Perm l') : (l.map f).sum = (l'.map f).sum :=
  (h.map f).sum_eq

theorem sum_map2_perm {β : Type} (f : β → β → α) {l l' : List β} (h : l.Perm l') :
    (l.map fun p => (l.map (f p)).sum).sum = (l'.map fun p => (l'.map (f p)).sum).sum := by
  rw [sum_map_perm _ h]
  exact congrArg List.sum (List.map_congr_left fun p _ => sum_map_perm _ h)

theorem discMethod_perm (sqrt : α → α) (method : String) (disc : List (α × α) → α)
    (hm : discMethod sqrt method = .ok disc) (l l' : List (α × α)) (h : l.Perm l') : disc l = disc l' := by
  unfold discMethod at hm
  split at hm
  · cases hm; simp only [discCD]; rw [h.length_eq, sum_map_perm _ h, sum_map2_perm _ h]
  · split at hm
    · cases hm; simp only [discWD]; rw [h.length_eq, sum_map2_perm _ h]
    · split at hm
      · cases hm; simp only [discMD]; rw [h.length_eq, sum_map_perm _ h, sum_map2_perm _ h]
      · split at hm
        · cases hm; simp only [discL2]; rw [h.length_eq, sum_map_perm _ h, sum_map2_perm _ h]
        · cases hm

/-- **C87**: whatever the method, listing the samples in another order (inputs and outputs together) changes
nothing. -/
theorem C87_order (sqrt : α → α) (method : String) (disc : List (α × α) → α)
    (hm : discMethod sqrt method = .ok disc) (pb : Problem α) (P : List (α × α)) (X X' : Mat α) (Y Y' : List α)
    (hs : DiscShape pb P X Y) (hl : X'.length = Y'.length) (hperm : (X.zip Y).Perm (X'.zip Y')) :
    discAnalyze disc pb X' Y' = discAnalyze disc pb X Y := by
  have hX : X.Perm X' := by
    have := hperm.map Prod.fst
    rwa [List.map_fst_zip (by rw [hs.length]), List.map_fst_zip (by rw [hl])] at this
  have hY : Y.Perm Y' := by
    have := hperm.map Prod.snd
    rwa [List.map_snd_zip (by rw [hs.length]), List.map_snd_zip (by rw [hl])] at this
  have hs' : DiscShape pb P X' Y' :=
    ⟨hs.bounds, hs.count, fun row hr => hs.rows row (hX.mem_iff.mpr hr), hl, hs.groups⟩
  have main : discParams disc pb X' Y' = discParams disc pb X Y := by
    by_cases hY0 : Y = []
    · subst hY0
      obtain rfl : Y' = [] := hY.symm.eq_nil
      rw [discParams_nil disc pb X P hs]
      exact discParams_nil disc _ _ _ hs'
    · obtain ⟨mn, mx, h1, h2⟩ := exists_extremes Y hY0
      rw [discParams_eq disc pb X Y P mn mx hs.bounds hs.count hs.rows hs.length h1 h2,
        discParams_eq disc pb X' Y' P mn mx hs'.bounds hs'.count hs'.rows hs'.length
          ⟨hY.mem_iff.mp h1.1, fun y hy => h1.2 y (hY.mem_iff.mpr hy)⟩
          ⟨hY.mem_iff.mp h2.1, fun y hy => h2.2 y (hY.mem_iff.mpr hy)⟩]
      have hI : DiscInputs P X' Y' = DiscInputs P X Y := by
        simp only [DiscInputs, hX.mem_iff, hY.mem_iff]
      have hd : ∀ q : (α × α) × Nat, disc (scatter X' Y' q.2 q.1.1 q.1.2 mn mx) =
          disc (scatter X Y q.2 q.1.1 q.1.2 mn mx) := fun q =>
        (discMethod_perm sqrt method disc hm _ _ (hperm.map _)).symm
      simp only [hd]
      by_cases hi : DiscInputs P X Y
      · rw [if_pos (hI ▸ hi), if_pos hi]
      · rw [if_neg (hI ▸ hi), if_neg hi]
  unfold discAnalyze
  rw [main]

theorem scatter_unit (P : List (α × α)) (X : Mat α) (Y : List α) (h : DiscInputs P X Y)
    (hrow : ∀ row ∈ X, row.length = P.length) (mn mx : α) (h1 : mn ∈ Y ∧ ∀ y ∈ Y, mn ≤ y)
    (h2 : mx ∈ Y ∧ ∀ y ∈ Y, y ≤ mx) (i : Nat) (p : α × α) (hp : P[i]? = some p) :
    ∀ r ∈ scatter X Y i p.1 p.2 mn mx, (0 ≤ r.1 ∧ r.1 ≤ 1) ∧ 0 ≤ r.2 ∧ r.2 ≤ 1 := by
  have unit : ∀ lo hi x : α, lo < hi → lo ≤ x → x ≤ hi → 0 ≤ (x - lo) / (hi - lo) ∧ (x - lo) / (hi - lo) ≤ 1 := by
    intro lo hi x h a b
    have : 0 < hi - lo := by linarith
    exact ⟨div_nonneg (by linarith) this.le, (div_le_one this).mpr (by linarith)⟩
  have hlt : mn < mx := by
    obtain ⟨-, -, y, hy, y', hy', hne⟩ := h
    rcases lt_or_gt_of_ne hne with h | h
    · exact lt_of_le_of_lt (h1.2 y hy) (lt_of_lt_of_le h (h2.2 y' hy'))
    · exact lt_of_le_of_lt (h1.2 y' hy') (lt_of_lt_of_le h (h2.2 y hy))
  intro r hr
  obtain ⟨q, hq, rfl⟩ := List.mem_map.mp hr
  have hm := List.of_mem_zip hq
  have hi : i < P.length := (List.getElem?_eq_some_iff.mp hp).1
  have hi' : i < q.1.length := by rw [hrow _ hm.1]; exact hi
  have hx : q.1[i]? = some (q.1.getD i 0) := by
    rw [List.getD_eq_getElem?_getD, List.getElem?_eq_getElem hi']; rfl
  have hb := h.2.1 q.1 hm.1 i _ p hx hp
  exact ⟨unit _ _ _ (h.1 p (List.mem_of_getElem? hp)) hb.1 hb.2, unit _ _ _ hlt (h1.2 _ hm.2) (h2.2 _ hm.2)⟩

end

/-- **C87**, the default method: on every legal sample the values are positive and sum to one; there is no
cancellation or division by zero to worry about. -/
theorem C87_wd (sqrt : ℝ → ℝ) (disc : List (ℝ × ℝ) → ℝ) (hm : discMethod sqrt "WD" = .ok disc) (pb : Problem ℝ)
    (P : List (ℝ × ℝ)) (X : Mat ℝ) (Y : List ℝ) (hs : DiscShape pb P X Y) (hg : pb.groups = none)
    (h : DiscInputs P X Y) (hP : P ≠ []) :
    ∃ v : List ℝ, discAnalyze disc pb X Y = .ok (v.map some, pb.names) ∧ v.length = P.length ∧
      (∀ x ∈ v, 0 < x ∧ x ≤ 1) ∧ v.sum = 1 := by
  obtain rfl : discWD = disc := by
    unfold discMethod at hm
    rw [if_neg (by decide), if_pos rfl] at hm
    exact Except.ok.inj hm
  have hY : Y ≠ [] := by
    rintro rfl
    obtain ⟨-, -, y, hy, -⟩ := h
    simp at hy
  obtain ⟨mn, mx, h1, h2⟩ := exists_extremes Y hY
  let d : Nat → ℝ := fun i => discWD (scatter X Y i (P.getD i (0, 0)).1 (P.getD i (0, 0)).2 mn mx)
  have hd : ∀ (i : Nat) p, P[i]? = some p → d i = discWD (scatter X Y i p.1 p.2 mn mx) := by
    intro i p hp
    simp only [d, List.getD_eq_getElem?_getD, hp, Option.getD_some]
  have hpos : ∀ i < P.length, 0 < d i := by
    intro i hi
    rw [hd i _ (List.getElem?_eq_getElem hi)]
    refine discWD_pos _ ?_ (scatter_unit P X Y h hs.rows mn mx h1 h2 i _ (List.getElem?_eq_getElem hi))
    intro h0
    have := congrArg List.length h0
    simp [scatter, hs.length] at this
    exact hY this
  have htot : 0 < ((List.range P.length).map d).sum := by
    refine List.sum_pos _ ?_ ?_
    · intro x hx
      obtain ⟨i, hi, rfl⟩ := List.mem_map.mp hx
      exact hpos i (List.mem_range.mp hi)
    · simpa using hP
  obtain ⟨v, e1, e2, e3, e4, e5⟩ := C87_shares discWD pb X Y P hs hg h mn mx h1 h2 d hd htot.ne'
  refine ⟨v, e1, e2, fun x hx => ⟨?_, (e5 (fun i hi => (hpos i hi).le) x hx).2⟩, e4⟩
  obtain ⟨i, hi, rfl⟩ := List.mem_iff_getElem.mp hx
  have := e3 i (by omega)
  rw [List.getElem?_eq_getElem hi] at this
  rw [Option.some.inj this]
  exact div_pos (hpos i (by omega)) htot

/-! Witnesses: two parameters in different ranges, three samples; the same with groups. -/

def discEx : Problem ℚ := { names := ["a", "b"], bounds := [[0, 1], [10, 20]] }

def discExG : Problem ℚ :=
  { names := ["a", "b", "c"], bounds := [[0, 1], [10, 20], [0, 1]], groups := some ["g", "h", "g"] }

example : DiscShape discEx [(0, 1), (10, 20)] [[0, 10], [1 / 2, 20], [1, 15]] [3, 5, 7] ∧
    DiscInputs [(0, 1), (10, 20)] [[0, 10], [1 / 2, 20], [1, 15]] ([3, 5, 7] : List ℚ) := by
  refine ⟨⟨rfl, rfl, ?_, rfl, by simp [discEx]⟩, ?_, ?_, 3, by simp, 5, by simp, by norm_num⟩
  · decide
  · intro p hp; fin_cases hp <;> norm_num
  · intro row hr i x p hx hp
    fin_cases hr <;> (match i, hx, hp with
      | 0, hx, hp => simp at hx hp; subst hx hp; norm_num
      | 1, hx, hp => simp at hx hp; subst hx hp; norm_num
      | n + 2, hx, hp => simp at hx)

example : discAnalyze discWD discEx [[0, 10], [1 / 2, 20], [1, 15]] [3, 5, 7] =
    .ok ([some (12 / 23), some (11 / 23)], ["a", "b"]) := by decide +kernel

example : discAnalyze discWD { discExG with groups := none } [[0, 10, 1], [1 / 2, 20, 0], [1, 15, 0]] [3, 5, 7] =
      .ok ([4 / 15, 11 / 45, 22 / 45].map some, ["a", "b", "c"]) ∧
    discAnalyze discWD discExG [[0, 10, 1], [1 / 2, 20, 0], [1, 15, 0]] [3, 5, 7] =
      .ok ([17 / 45, 11 / 45].map some, ["a", "b", "c"]) := by decide +kernel

example : DistinctInOrder ["g", "h", "g"] ["g", "h"] := pdUnique_distinct ["g", "h", "g"]

example : discAnalyze discWD discEx [[0, 10], [1 / 2, 20], [1, 15]] [3, 3, 3] = .error .valueError ∧
    discAnalyze discWD discEx [[0, 10], [1 / 2, 21], [1, 15]] [3, 5, 7] = .error .valueError := by decide +kernel

end SALib
