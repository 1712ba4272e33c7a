import Verif.Lemmas.MorrisAnalyze
import Verif.Props.MorrisOpt
import Verif.Props.Saltelli
import Verif.Props.Scale

/-! # C28 (scaled), C29-C32: the Morris analyser on Morris samples -/

set_option linter.unusedSectionVars false

namespace SALib
open Spec

variable {α : Type} [Field α] [LinearOrder α] [IsStrictOrderedRing α]

/-! ## Running the analyser -/

theorem defineProblem_eq (pb : Problem α) (q : Problem α) (h : defineProblemWithGroups pb = .ok q) :
    q.groups.getD [] = effectiveLabels pb ∧ q.numVars = pb.numVars := by
  unfold defineProblemWithGroups at h
  unfold effectiveLabels
  cases hg : pb.groups with
  | none => rw [hg] at h; cases h; simp
  | some gs =>
    cases gs with
    | nil => rw [hg] at h; cases h; simp
    | cons g gs =>
      rw [hg] at h
      simp only at h
      split at h
      · cases h
      · cases h; simp [hg]

theorem defineProblem_ok (pb : Problem α) (h : (effectiveLabels pb).length = pb.numVars) :
    defineProblemWithGroups pb = .ok { pb with groups := some (effectiveLabels pb) } := by
  unfold defineProblemWithGroups
  unfold effectiveLabels at h ⊢
  cases hg : pb.groups with
  | none => rfl
  | some gs =>
    cases gs with
    | nil => rfl
    | cons g gs =>
      rw [hg] at h
      simp only at h ⊢
      rw [if_neg (by simpa using h)]
      congr 1
      cases pb
      simp_all

/-- What an accepted call of the analyser computed. -/
theorem morrisAnalyze_inv (sqrt : α → α) (z conf : α) (resample : Nat → List (List Nat)) (pb : Problem α)
    (X : Mat α) (D : Nat) (Y : List α) (scaled : Bool) (p : Nat) (res : MorrisResult α)
    (h : morrisAnalyze sqrt z conf resample pb X D Y scaled p = .ok res) :
    ∃ delta G names EE, computeDelta p = .ok delta ∧
      computeGroupsMatrix (effectiveLabels pb) = .ok (G, names) ∧
      elementaryEffects sqrt X D Y (Y.length / (Y.length / (names.length + 1))) delta scaled = .ok EE ∧
      statisticalOutputs sqrt z conf resample EE pb.numVars G names = .ok res := by
  unfold morrisAnalyze at h
  cases h1 : defineProblemWithGroups pb with
  | error e => simp only [h1, pyBind_error] at h; cases h
  | ok q =>
    obtain ⟨e1, e2⟩ := defineProblem_eq pb q h1
    simp only [h1, pyBind_ok, e1, e2] at h
    cases h2 : (computeDelta p : Py α) with
    | error e => simp only [h2, pyBind_error] at h; cases h
    | ok delta =>
      simp only [h2, pyBind_ok] at h
      cases h3 : computeGroupsMatrix (effectiveLabels pb) with
      | error e => simp only [h3, pyBind_error] at h; cases h
      | ok Gn =>
        obtain ⟨G, names⟩ := Gn
        simp only [h3, pyBind_ok] at h
        split at h
        · cases h
        · cases h4 : elementaryEffects sqrt X D Y (Y.length / (Y.length / (names.length + 1))) delta scaled with
          | error e => simp only [h4, pyBind_error] at h; cases h
          | ok EE =>
            simp only [h4, pyBind_ok] at h
            exact ⟨delta, G, names, EE, rfl, rfl, h4, h⟩

/-! ## C30 -/

/-- **C30.** For every input the analyser accepts (with or without scaling of the effects): `mu_star`
is at least `|mu|` and at least 0, `sigma` is at least 0, and a `mu_star` of 0 means that every elementary
effect of every parameter of the group is 0. -/
theorem C30_mu_star_dominates (sqrt : α → α) (hs : ∀ x, 0 ≤ sqrt x) (z conf : α)
    (resample : Nat → List (List Nat)) (pb : Problem α)
    (X : Mat α) (D : Nat) (Y : List α) (scaled : Bool) (p : Nat) (res : MorrisResult α)
    (h : morrisAnalyze sqrt z conf resample pb X D Y scaled p = .ok res) (c : Nat) :
    (∀ m, res.mu[c]? = some (some m) → ∃ s, res.muStar[c]? = some (some s) ∧ |m| ≤ s) ∧
    (∀ s, res.muStar[c]? = some (some s) → 0 ≤ s) ∧
    (∀ s, res.sigma[c]? = some (some s) → 0 ≤ s) ∧
    (res.muStar[c]? = some (some 0) → ∀ delta EE, computeDelta p = .ok delta →
      elementaryEffects sqrt X D Y (Y.length / (Y.length / (res.names.length + 1))) delta scaled = .ok EE →
      ∀ (j : Nat) l ee, (effectiveLabels pb)[j]? = some l → res.names[c]? = some l → EE[j]? = some ee →
        ∀ e ∈ ee, e = some 0) := by
  obtain ⟨delta, G, names, EE, hdel, hG, hEE, hst⟩ := morrisAnalyze_inv sqrt z conf resample pb X D Y scaled p res h
  obtain ⟨hl, hn, hmu, hms, hsg⟩ := statisticalOutputs_eq sqrt z conf resample EE pb.numVars G names res hst
  have key : ∀ (L : List (List (Num α))) (m : α), npMeanN (L.map npMeanN) = some m →
      ∃ s, npMeanN (L.map fun ee => npMeanN (ee.map (Option.map abs))) = some s ∧ |m| ≤ s := by
    intro L m hm
    obtain ⟨l, hl, hne, rfl⟩ := npMeanN_eq_some _ _ hm
    have hex : ∃ l' : List α, (L.map fun ee => npMeanN (ee.map (Option.map abs))) = l'.map some ∧
        l'.length = l.length ∧ |l.sum| ≤ l'.sum := by
      clear hm hne
      induction L generalizing l with
      | nil => exact ⟨[], by simp, by simpa using (congrArg List.length hl), by
          have : l = [] := by simpa using hl.symm
          simp [this]⟩
      | cons ee L ih =>
        cases l with
        | nil => simp at hl
        | cons x l =>
          simp only [List.map_cons, List.cons.injEq] at hl
          obtain ⟨l', h1, h2, h3⟩ := ih l hl.2
          obtain ⟨s, h4, h5⟩ := meanAbs ee x hl.1
          refine ⟨s :: l', by simp [h1, h4], by simp [h2], ?_⟩
          simp only [List.sum_cons]
          exact (abs_add_le _ _).trans (by linarith)
    obtain ⟨l', h1, h2, h3⟩ := hex
    have hpos := length_pos_cast l hne
    refine ⟨l'.sum / l'.length, ?_, ?_⟩
    · rw [h1]; exact npMeanN_some l' (by rw [← List.length_pos_iff, h2]; exact List.length_pos_of_ne_nil hne)
    · rw [abs_div, abs_of_pos hpos, h2]; exact div_le_div_of_nonneg_right h3 hpos.le
  have key2 : ∀ (L : List (List (Num α))) (s : α),
      npMeanN (L.map fun ee => npMeanN (ee.map (Option.map abs))) = some s →
      0 ≤ s ∧ (s = 0 → ∀ ee ∈ L, ∀ e ∈ ee, e = some 0) := by
    intro L s hs
    obtain ⟨l, hl, hne, rfl⟩ := npMeanN_eq_some _ _ hs
    have hpos := length_pos_cast l hne
    have hnn : ∀ x ∈ l, 0 ≤ x := by
      intro x hx
      have : some x ∈ L.map fun ee => npMeanN (ee.map (Option.map abs)) := by
        rw [hl]; exact List.mem_map_of_mem hx
      obtain ⟨ee, -, he⟩ := List.mem_map.mp this
      exact (meanAbs_nonneg ee x he).1
    refine ⟨div_nonneg (List.sum_nonneg hnn) hpos.le, ?_⟩
    intro h0 ee hee
    have hs0 : l.sum = 0 := by
      rcases div_eq_zero_iff.mp h0 with h | h
      · exact h
      · exact absurd h hpos.ne'
    have : npMeanN (ee.map (Option.map abs)) ∈ l.map some := by
      rw [← hl]; exact List.mem_map_of_mem (f := fun ee => npMeanN (ee.map (Option.map abs))) hee
    obtain ⟨x, hx, he⟩ := List.mem_map.mp this
    rw [sum_nonneg_eq_zero l hnn hs0 x hx] at he
    exact (meanAbs_nonneg ee 0 he.symm).2 rfl
  have hc : ∀ {β : Type} (f : Nat → β) (b : β), ((List.range names.length).map f)[c]? = some b →
      c < names.length ∧ f c = b := by
    intro β f b hb
    by_cases hlt : c < names.length
    · simp [hlt] at hb; exact ⟨hlt, hb⟩
    · simp [hlt] at hb
  refine ⟨?_, ?_, ?_, ?_⟩
  · intro m hm
    rw [hmu] at hm
    obtain ⟨hlt, hm⟩ := hc _ _ hm
    obtain ⟨s, h1, h2⟩ := key _ m hm
    exact ⟨s, by rw [hms]; simp [hlt, h1], h2⟩
  · intro s hs
    rw [hms] at hs
    exact (key2 _ s (hc _ _ hs).2).1
  · intro s hs'
    rw [hsg] at hs'
    have h1 := (hc _ _ hs').2
    beta_reduce at h1
    split at h1
    · obtain ⟨l, hl, hne, rfl⟩ := npMeanN_eq_some _ _ h1
      refine div_nonneg (List.sum_nonneg ?_) (length_pos_cast l hne).le
      intro x hx
      have : some x ∈ (groupRows EE G c).map (npStd1N sqrt) := by rw [hl]; exact List.mem_map_of_mem hx
      obtain ⟨ee, -, he⟩ := List.mem_map.mp this
      exact npStd1N_nonneg sqrt hs ee x he
    · cases h1
  · intro h0 delta' EE' hd' hE' j l ee hj hcl hee
    rw [hdel] at hd'
    cases hd'
    rw [hn, hEE] at hE'
    cases hE'
    rw [hms] at h0
    refine (key2 _ 0 (hc _ _ h0).2).2 rfl ee (mem_groupRows EE G c j ee hee ?_)
    obtain ⟨M, names', hM, -, -, -, hent⟩ := C07_groups_matrix (effectiveLabels pb)
    rw [hG] at hM
    cases hM
    rw [hn] at hcl
    rw [hent j c l l hj hcl, if_pos rfl]

/-! ## Closed form on whole trajectories -/

theorem reshapeBlocks_flatten {β : Type} (bs : List (List β)) (m : Nat) (h : ∀ b ∈ bs, b.length = m) :
    reshapeBlocks bs.flatten bs.length m = .ok bs := by
  unfold reshapeBlocks
  rw [if_pos (length_flatten_blocks bs m h)]
  congr 1
  induction bs with
  | nil => rfl
  | cons b bs ih =>
    have hb := h b (by simp)
    rw [List.length_cons, List.range_succ_eq_map, List.map_cons, List.map_map]
    congr 1
    · simp [← hb]
    · refine Eq.trans ?_ (ih (fun b hb => h b (by simp [hb])))
      apply List.map_congr_left
      intro i _
      simp only [Function.comp, List.flatten_cons]
      have e : (i + 1) * m = b.length + i * m := by rw [hb]; ring
      rw [Nat.succ_eq_add_one, e, List.drop_append, List.drop_eq_nil_of_le (by omega), List.nil_append,
        Nat.add_sub_cancel_left]

/-- One elementary effect. -/
def effect (sqrt : α → α) (delta : α) (scaled : Bool) (j : Nat) (z : Mat α × List α) : Num α :=
  if scaled then scaledEffect sqrt z.1 z.2 j else npDiv (effectDifference z.1 z.2 j) delta

theorem elementaryEffects_blocks (sqrt : α → α) (zs : List (Mat α × List α)) (D m : Nat) (delta : α)
    (scaled : Bool) (hm : 0 < m) (hx : ∀ z ∈ zs, z.1.length = m ∧ z.2.length = m) :
    elementaryEffects sqrt (zs.map Prod.fst).flatten D (zs.map Prod.snd).flatten m delta scaled =
      .ok ((List.range D).map fun j => zs.map (effect sqrt delta scaled j)) := by
  unfold elementaryEffects
  have h1 : ∀ b ∈ zs.map Prod.fst, b.length = m := by
    intro b hb; obtain ⟨z, hz, rfl⟩ := List.mem_map.mp hb; exact (hx z hz).1
  have h2 : ∀ b ∈ zs.map Prod.snd, b.length = m := by
    intro b hb; obtain ⟨z, hz, rfl⟩ := List.mem_map.mp hb; exact (hx z hz).2
  have e1 := reshapeBlocks_flatten _ m h1
  have e2 := reshapeBlocks_flatten _ m h2
  have hlen : (zs.map Prod.fst).flatten.length / m = zs.length := by
    rw [length_flatten_blocks _ m h1, List.length_map, Nat.mul_div_cancel _ hm]
  rw [List.length_map] at e1 e2
  rw [if_neg (by omega)]
  simp only [hlen, e1, e2, pyBind_ok, pyPure]
  congr 1
  have hz : (zs.map Prod.fst).zip (zs.map Prod.snd) = zs := by
    rw [List.zip_map']; simp
  rw [hz]
  rfl

theorem muStarConf_ok (sqrt : α → α) (z conf : α) (resample : Nat → List (List Nat)) (EE : Mat (Num α))
    (numVars : Nat) (hl : EE.length = numVars) (hc : 0 < conf ∧ conf < 1) :
    ∃ mc, muStarConf sqrt z conf resample EE numVars = .ok mc ∧ mc.length = numVars := by
  unfold muStarConf
  rw [if_neg (not_not.mpr hc)]
  simp only [pyBind_ok]
  obtain ⟨r, hr, hl'⟩ := mapM_exists_ok (confAt sqrt z resample EE) (List.range numVars) (by
    intro j hj
    rw [List.mem_range] at hj
    unfold confAt
    rw [List.getElem?_eq_getElem (by omega)]
    exact ⟨_, rfl⟩)
  exact ⟨r, hr, by simpa using hl'⟩

theorem statisticalOutputs_ok (sqrt : α → α) (z conf : α) (resample : Nat → List (List Nat))
    (EE : Mat (Num α)) (numVars : Nat) (G : Mat Nat) (names : List String) (hl : EE.length = numVars)
    (hG : G.length = numVars) (hc : 0 < conf ∧ conf < 1) :
    ∃ res, statisticalOutputs sqrt z conf resample EE numVars G names = .ok res := by
  obtain ⟨mc, h1, h2⟩ := muStarConf_ok sqrt z conf resample EE numVars hl hc
  have hgm : ∀ metric : List (Num α), metric.length = numVars →
      ∃ r, groupedMetric metric G names.length = .ok r := by
    intro metric hm
    unfold groupedMetric
    rw [if_neg (by omega)]
    exact ⟨_, rfl⟩
  unfold statisticalOutputs groupedSigma
  obtain ⟨r1, e1⟩ := hgm (EE.map npMeanN) (by simpa using hl)
  obtain ⟨r2, e2⟩ := hgm (EE.map fun ee => npMeanN (ee.map (Option.map abs))) (by simpa using hl)
  obtain ⟨r3, e3⟩ := hgm (EE.map (npStd1N sqrt)) (by simpa using hl)
  obtain ⟨r4, e4⟩ := hgm mc h2
  simp only [h1, pyBind_ok, e1, e2, e3, e4, pyPure]
  exact ⟨_, rfl⟩

/-- The analyser on whole trajectories: it succeeds, and its tables are grouped means of the effects. -/
theorem morrisAnalyze_blocks (sqrt : α → α) (z conf : α) (resample : Nat → List (List Nat)) (pb : Problem α)
    (zs : List (Mat α × List α)) (scaled : Bool) (p : Nat) (hp : 2 ≤ p) (hc : 0 < conf ∧ conf < 1)
    (hlab : (effectiveLabels pb).length = pb.numVars) (names : List String)
    (hnames : DistinctInOrder (effectiveLabels pb) names) (hne : zs ≠ [])
    (hz : ∀ z ∈ zs, z.1.length = names.length + 1 ∧ z.2.length = names.length + 1) :
    ∃ res G, morrisAnalyze sqrt z conf resample pb (zs.map Prod.fst).flatten pb.numVars
        (zs.map Prod.snd).flatten scaled p = .ok res ∧
      computeGroupsMatrix (effectiveLabels pb) = .ok (G, names) ∧
      statisticalOutputs sqrt z conf resample
        ((List.range pb.numVars).map fun j => zs.map (effect sqrt (morrisDelta p) scaled j))
        pb.numVars G names = .ok res := by
  obtain ⟨G, names', hG, hdist, hGl, -, -⟩ := C07_groups_matrix (effectiveLabels pb)
  have hnn : names' = names := by
    have hperm : names'.Perm names := (List.perm_ext_iff_of_nodup hdist.nodup hnames.nodup).mpr fun x => by
      rw [hdist.mem_iff, hnames.mem_iff]
    exact hperm.eq_of_pairwise (fun a b _ _ h1 h2 => absurd h2 (by omega)) hdist.first_mention
      hnames.first_mention
  subst hnn
  obtain ⟨res, hres⟩ := statisticalOutputs_ok sqrt z conf resample
    ((List.range pb.numVars).map fun j => zs.map (effect sqrt (morrisDelta p) scaled j)) pb.numVars G names'
    (by simp) (by rw [hGl, hlab]) hc
  refine ⟨res, G, ?_, hG, hres⟩
  unfold morrisAnalyze
  have hdel : (computeDelta p : Py α) = .ok (morrisDelta p) := by
    unfold computeDelta; rw [if_neg (by omega)]; rfl
  have h2 : ∀ b ∈ zs.map Prod.snd, b.length = names'.length + 1 := by
    intro b hb; obtain ⟨z, hz', rfl⟩ := List.mem_map.mp hb; exact (hz z hz').2
  have hYl : (zs.map Prod.snd).flatten.length = zs.length * (names'.length + 1) := by
    rw [length_flatten_blocks _ _ h2, List.length_map]
  have hpos := List.length_pos_of_ne_nil hne
  have hn : (zs.map Prod.snd).flatten.length / (names'.length + 1) = zs.length := by
    rw [hYl, Nat.mul_div_cancel _ (by omega)]
  have hsz : (zs.map Prod.snd).flatten.length / zs.length = names'.length + 1 := by
    rw [hYl, Nat.mul_div_cancel_left _ hpos]
  simp only [defineProblem_ok pb hlab, pyBind_ok, hdel, Option.getD_some, hG, hn, hsz]
  rw [if_neg (by omega)]
  simp only [elementaryEffects_blocks sqrt zs pb.numVars _ _ scaled (Nat.succ_pos _) hz, pyBind_ok]
  exact hres

/-! ## One elementary effect -/

/-- Column `j` changes at most at step `t` of the trajectory. -/
def Spec.ChangesOnlyAt (T : Mat α) (j t : Nat) : Prop :=
  ∀ s, s ≠ t → s + 1 < T.length → entry T s j = entry T (s + 1) j

theorem getD_getD_entry (T : Mat α) (s j : Nat) : (T.getD s []).getD j 0 = (entry T s j).getD 0 := by
  unfold entry
  rw [List.getD_eq_getElem?_getD, List.getD_eq_getElem?_getD]
  cases T[s]? <;> simp

theorem length_deltaColumn (T : Mat α) (j : Nat) : (deltaColumn T j).length = T.length - 1 := by
  unfold deltaColumn
  rw [List.length_zipWith, List.length_tail]
  omega

theorem deltaColumn_getElem (T : Mat α) (j s : Nat) (hs : s < (deltaColumn T j).length) :
    (deltaColumn T j)[s] = (entry T (s + 1) j).getD 0 - (entry T s j).getD 0 := by
  have hl : s + 1 < T.length := by rw [length_deltaColumn] at hs; omega
  rw [← getD_getD_entry, ← getD_getD_entry]
  simp only [deltaColumn, List.getElem_zipWith, List.getElem_tail]
  simp [List.getD_eq_getElem?_getD, hl, Nat.lt_of_succ_lt hl]

theorem reorganize_spike (y1 y2 : List α) (a b : α) (i e : Bool) (increase : Bool) :
    reorganize (y1 ++ a :: b :: y2)
      (List.replicate y1.length false ++ i :: List.replicate y2.length false)
      (List.replicate y1.length false ++ e :: List.replicate y2.length false) increase =
    if increase then (if e then a else 0) + (if i then b else 0)
    else (if i then a else 0) + (if e then b else 0) := by
  have hz : ∀ (l : List α) (n : Nat), (List.zipWith (fun v m => if m then v else 0) l
      (List.replicate n false)).sum = 0 := by
    intro l
    induction l with
    | nil => simp
    | cons x l ih =>
      intro n
      cases n with
      | zero => simp
      | succ n => simp [List.replicate_succ, ih n]
  have hor : ∀ n : Nat, List.zipWith (· || ·) (List.replicate n false) (List.replicate n false) =
      List.replicate n false := by
    intro n; induction n with
    | zero => rfl
    | succ n ih => simp [List.replicate_succ, ih]
  have s1 : ∀ (n : Nat) (x : Bool) (l : List Bool),
      false :: (List.replicate n false ++ x :: l) = List.replicate n false ++ false :: x :: l := by
    intro n x l
    induction n with
    | zero => rfl
    | succ n ih => simp [List.replicate_succ, ih]
  have s2 : ∀ (n m : Nat) (x : Bool),
      (List.replicate n false ++ x :: List.replicate m false) ++ [false] =
      List.replicate n false ++ x :: false :: List.replicate m false := by
    intro n m x
    rw [List.append_assoc, List.cons_append, ← List.replicate_succ', List.replicate_succ]
  have main : ∀ u v w x : Bool,
      (List.zipWith (fun v m => if m then v else 0) (y1 ++ a :: b :: y2)
        (List.zipWith (· || ·) (List.replicate y1.length false ++ u :: v :: List.replicate y2.length false)
          (List.replicate y1.length false ++ w :: x :: List.replicate y2.length false))).sum =
      (if u || w then a else 0) + (if v || x then b else 0) := by
    intro u v w x
    rw [List.zipWith_append (by simp), List.zipWith_cons_cons, List.zipWith_cons_cons, hor, hor,
      List.zipWith_append (by simp), List.sum_append, hz, List.zipWith_cons_cons, List.zipWith_cons_cons,
      List.sum_cons, List.sum_cons, hz]
    ring
  unfold reorganize
  cases increase with
  | true =>
    simp only [if_true]
    rw [s1, s2, main]
    simp
  | false =>
    simp only [Bool.false_eq_true, if_false]
    rw [s1, s2, main]
    simp

/-- The output difference of a parameter that moves only at step `t`. -/
theorem effectDifference_eq (T : Mat α) (y : List α) (j t : Nat) (hl : y.length = T.length)
    (ht : t + 1 < T.length) (hch : ChangesOnlyAt T j t) :
    effectDifference T y j =
      (if 0 < (entry T (t + 1) j).getD 0 - (entry T t j).getD 0 then y.getD (t + 1) 0 - y.getD t 0
       else if (entry T (t + 1) j).getD 0 - (entry T t j).getD 0 < 0 then y.getD t 0 - y.getD (t + 1) 0
       else 0) := by
  have hy : y = y.take t ++ y.getD t 0 :: y.getD (t + 1) 0 :: y.drop (t + 2) := by
    conv_lhs => rw [← List.take_append_drop t y]
    rw [List.drop_eq_getElem_cons (by omega), List.drop_eq_getElem_cons (by omega)]
    simp [List.getD_eq_getElem?_getD, List.getElem?_eq_getElem (show t < y.length by omega),
      List.getElem?_eq_getElem (show t + 1 < y.length by omega)]
  have hl1 : (y.take t).length = t := by rw [List.length_take]; omega
  have hl2 : (y.drop (t + 2)).length = T.length - 2 - t := by rw [List.length_drop]; omega
  have hmask : ∀ f : α → Bool, f 0 = false → (deltaColumn T j).map f =
      List.replicate (y.take t).length false ++
        f ((entry T (t + 1) j).getD 0 - (entry T t j).getD 0) ::
          List.replicate (y.drop (t + 2)).length false := by
    intro f hf
    apply List.ext_getElem
    · simp [length_deltaColumn, hl1, hl2]; omega
    · intro s h1 h2
      have hs : s < (deltaColumn T j).length := by simpa using h1
      rw [List.getElem_map, deltaColumn_getElem T j s hs, List.getElem_append]
      rw [length_deltaColumn] at hs
      split
      · rename_i h3
        rw [List.length_replicate, hl1] at h3
        rw [hch s (by omega) (by omega), sub_self, hf]
        simp
      · rename_i h3
        rw [List.length_replicate, hl1] at h3
        rw [List.getElem_cons]
        split
        · rename_i h4
          rw [List.length_replicate, hl1] at h4
          rw [show s = t by omega]
        · rename_i h4
          rw [List.length_replicate, hl1] at h4
          rw [hch s (by omega) (by omega), sub_self, hf]
          simp
  unfold effectDifference
  simp only
  rw [hmask (fun x => decide (0 < x)) (by simp), hmask (fun x => decide (x < 0)) (by simp)]
  have hsp := fun i e inc => reorganize_spike (y.take t) (y.drop (t + 2)) (y.getD t 0) (y.getD (t + 1) 0) i e inc
  rw [← hy] at hsp
  rw [hsp, hsp]
  generalize (entry T (t + 1) j).getD 0 - (entry T t j).getD 0 = d
  by_cases h1 : 0 < d
  · simp [h1, not_lt.mpr h1.le]
  · by_cases h2 : d < 0
    · simp [h1, h2]
    · simp [h1, h2]

/-! ## C32 -/

theorem optMapM_map (f : α → α) (l : List (Num α)) :
    (l.map (Option.map f)).mapM id = (l.mapM id).map (·.map f) := by
  cases h : l.mapM id with
  | some l' =>
    rw [(optMapM_id _ _).mp h]
    rw [(optMapM_id _ (l'.map f)).mpr (by simp [List.map_map, Function.comp_def])]
    rfl
  | none =>
    cases h2 : (l.map (Option.map f)).mapM id with
    | none => rfl
    | some k =>
      exfalso
      have hk := (optMapM_id _ _).mp h2
      have : ∃ l' : List α, l = l'.map some := by
        clear h h2
        induction l generalizing k with
        | nil => exact ⟨[], rfl⟩
        | cons e l ih =>
          cases k with
          | nil => simp at hk
          | cons x k =>
            simp only [List.map_cons, List.cons.injEq] at hk
            obtain ⟨l', rfl⟩ := ih k hk.2
            cases e with
            | none => simp at hk
            | some e => exact ⟨e :: l', rfl⟩
      obtain ⟨l', rfl⟩ := this
      rw [(optMapM_id _ l').mpr rfl] at h
      cases h

theorem npMeanN_smul (a : α) (l : List (Num α)) :
    npMeanN (l.map (Option.map (a * ·))) = (npMeanN l).map (a * ·) := by
  unfold npMeanN
  rw [optMapM_map]
  cases h : l.mapM id with
  | none => rfl
  | some l' => exact npMean_smul l' a

theorem npStd1_smul (sqrt : α → α) (hs : ∀ a v, 0 ≤ v → sqrt (a ^ 2 * v) = |a| * sqrt v) (a : α) (l : List α) :
    npStd1 sqrt (l.map (a * ·)) = (npStd1 sqrt l).map (|a| * ·) := by
  unfold npStd1
  rw [npMean_smul]
  cases hm : npMean l with
  | none => rfl
  | some m =>
    simp only [Option.map_some, Option.bind_eq_bind, Option.bind_some, List.map_map, Function.comp_def,
      List.length_map]
    have e : (l.map fun x => (a * x - a * m) ^ 2) = (l.map fun x => (x - m) ^ 2).map (a ^ 2 * ·) := by
      rw [List.map_map]
      apply List.map_congr_left
      intro x _
      simp only [Function.comp]
      ring
    rw [e, sum_map_mul]
    unfold npDiv
    by_cases h0 : (l.length : α) - 1 = 0
    · rw [if_pos h0, if_pos h0]; rfl
    · rw [if_neg h0, if_neg h0]
      simp only [Option.bind_some, Option.pure_def, Option.map_some]
      rw [mul_div_assoc, hs]
      have hnn := sum_sq_nonneg l m
      have hlen : l ≠ [] := by rintro rfl; rw [npMean_nil] at hm; cases hm
      have h1 : (1 : α) ≤ l.length := by exact_mod_cast List.length_pos_of_ne_nil hlen
      exact div_nonneg hnn (by linarith)

theorem npStd1N_smul (sqrt : α → α) (hs : ∀ a v, 0 ≤ v → sqrt (a ^ 2 * v) = |a| * sqrt v) (a : α)
    (l : List (Num α)) :
    npStd1N sqrt (l.map (Option.map (a * ·))) = (npStd1N sqrt l).map (|a| * ·) := by
  unfold npStd1N
  rw [optMapM_map]
  cases h : l.mapM id with
  | none => rfl
  | some l' => exact npStd1_smul sqrt hs a l'

theorem npStd1N_perm (sqrt : α → α) (l l' : List (Num α)) (h : l.Perm l') : npStd1N sqrt l = npStd1N sqrt l' := by
  have key : ∀ l l' : List (Num α), l.Perm l' → ∀ k, l.mapM id = some k → npStd1N sqrt l = npStd1N sqrt l' := by
    intro l l' h k hk
    have hl := (optMapM_id _ _).mp hk
    subst hl
    obtain ⟨k', h1, rfl⟩ := perm_map_exists some k l' h.symm
    unfold npStd1N
    rw [(optMapM_id _ k).mpr rfl, (optMapM_id _ k').mpr rfl]
    simp only [Option.bind_eq_bind, Option.bind_some]
    have hm : npMean k = npMean k' := by unfold npMean; rw [h1.sum_eq, h1.length_eq]
    unfold npStd1
    rw [hm]
    congr 1
    funext m
    rw [(h1.map fun x => (x - m) ^ 2).sum_eq, h1.length_eq]
  cases h1 : l.mapM id with
  | some k => exact key l l' h k h1
  | none =>
    cases h2 : l'.mapM id with
    | some k => exact (key l' l h.symm k h2).symm
    | none => unfold npStd1N; rw [h1, h2]

/-- **C32**, order: reordering whole trajectories, inputs and outputs together, leaves `mu`, `mu_star` and
`sigma` unchanged. -/
theorem C32_order (sqrt : α → α) (z conf : α) (resample resample' : Nat → List (List Nat)) (pb : Problem α)
    (zs zs' : List (Mat α × List α)) (scaled : Bool) (p : Nat) (hp : 2 ≤ p) (hc : 0 < conf ∧ conf < 1)
    (hlab : (effectiveLabels pb).length = pb.numVars) (names : List String)
    (hnames : DistinctInOrder (effectiveLabels pb) names) (hne : zs ≠ [])
    (hz : ∀ z ∈ zs, z.1.length = names.length + 1 ∧ z.2.length = names.length + 1)
    (hperm : zs'.Perm zs) :
    ∃ res res', morrisAnalyze sqrt z conf resample pb (zs.map Prod.fst).flatten pb.numVars
        (zs.map Prod.snd).flatten scaled p = .ok res ∧
      morrisAnalyze sqrt z conf resample' pb (zs'.map Prod.fst).flatten pb.numVars
        (zs'.map Prod.snd).flatten scaled p = .ok res' ∧
      res'.names = res.names ∧ res'.mu = res.mu ∧ res'.muStar = res.muStar ∧ res'.sigma = res.sigma := by
  obtain ⟨res, G, h1, hG, h2⟩ := morrisAnalyze_blocks sqrt z conf resample pb zs scaled p hp hc hlab names hnames hne hz
  obtain ⟨res', G', h1', hG', h2'⟩ := morrisAnalyze_blocks sqrt z conf resample' pb zs' scaled p hp hc hlab names
    hnames (fun h => hne (by rw [h] at hperm; exact hperm.nil_eq.symm)) (fun z h => hz z (hperm.mem_iff.mp h))
  rw [hG] at hG'
  cases hG'
  obtain ⟨-, a1, a2, a3, a4⟩ := statisticalOutputs_eq _ _ _ _ _ _ _ _ _ h2
  obtain ⟨-, b1, b2, b3, b4⟩ := statisticalOutputs_eq _ _ _ _ _ _ _ _ _ h2'
  refine ⟨res, res', h1, h1', by rw [a1, b1], ?_, ?_, ?_⟩
  · rw [a2, b2]
    apply List.map_congr_left
    intro c _
    rw [← groupRows_map, ← groupRows_map, List.map_map, List.map_map]
    congr 2
    apply List.map_congr_left
    intro j _
    exact npMeanN_perm _ _ (hperm.map _)
  · rw [a3, b3]
    apply List.map_congr_left
    intro c _
    rw [← groupRows_map, ← groupRows_map, List.map_map, List.map_map]
    congr 2
    apply List.map_congr_left
    intro j _
    exact npMeanN_perm _ _ ((hperm.map _).map _)
  · rw [a4, b4]
    apply List.map_congr_left
    intro c _
    rw [← groupRows_map, ← groupRows_map, List.map_map, List.map_map]
    congr 3
    apply List.map_congr_left
    intro j _
    exact npStd1N_perm _ _ _ (hperm.map _)

theorem reorganize_smul (a : α) (y : List α) (inc dec : List Bool) (b : Bool) :
    reorganize (y.map (a * ·)) inc dec b = a * reorganize y inc dec b := by
  have key : ∀ (l : List α) (m : List Bool),
      (List.zipWith (fun v m => if m then v else 0) (l.map (a * ·)) m).sum =
      a * (List.zipWith (fun v m => if m then v else 0) l m).sum := by
    intro l
    induction l with
    | nil => simp
    | cons x l ih =>
      intro m
      cases m with
      | nil => simp
      | cons b m => cases b <;> simp [ih m, mul_add]
  unfold reorganize
  exact key _ _

theorem effectDifference_affine (T : Mat α) (y : List α) (j : Nat) (a b : α) (hl : y.length = T.length)
    (hT : 2 ≤ T.length) (h : b = 0 ∨ ∃ t, ChangesOnlyAt T j t) :
    effectDifference T (y.map fun v => a * v + b) j = a * effectDifference T y j := by
  rcases h with rfl | ⟨t, ht⟩
  · have e : (y.map fun v => a * v + 0) = y.map (a * ·) := by
      apply List.map_congr_left; intro v _; ring
    rw [e]
    unfold effectDifference
    simp only [reorganize_smul]
    ring
  · have ht' : ∃ t, t + 1 < T.length ∧ ChangesOnlyAt T j t := by
      by_cases hlt : t + 1 < T.length
      · exact ⟨t, hlt, ht⟩
      · exact ⟨0, by omega, fun s _ hs => ht s (by omega) hs⟩
    obtain ⟨t, hlt, ht⟩ := ht'
    rw [effectDifference_eq T _ j t (by simpa using hl) hlt ht, effectDifference_eq T y j t hl hlt ht]
    have e : ∀ s < T.length, (y.map fun v => a * v + b).getD s 0 = a * y.getD s 0 + b := by
      intro s hs
      simp [List.getD_eq_getElem?_getD, List.getElem?_eq_getElem (show s < y.length by omega)]
    rw [e t (by omega), e (t + 1) hlt]
    split
    · ring
    · split <;> ring

/-- **C32**, scale: replacing the outputs `y` by `a*y+b` multiplies `mu` by `a`, `mu_star` and `sigma` by `|a|`
(effects not scaled).  For `b ≠ 0` every parameter may move in at most one step of each trajectory, which
is so for every Morris sample; see `C32_shift_fails` for other samples. -/
theorem C32_scale (sqrt : α → α) (hs : ∀ a v, 0 ≤ v → sqrt (a ^ 2 * v) = |a| * sqrt v) (z conf : α)
    (resample resample' : Nat → List (List Nat)) (pb : Problem α)
    (zs : List (Mat α × List α)) (p : Nat) (hp : 2 ≤ p) (hc : 0 < conf ∧ conf < 1)
    (hlab : (effectiveLabels pb).length = pb.numVars) (names : List String)
    (hnames : DistinctInOrder (effectiveLabels pb) names) (hne : zs ≠ [])
    (hz : ∀ z ∈ zs, z.1.length = names.length + 1 ∧ z.2.length = names.length + 1)
    (a b : α) (hb : b = 0 ∨ ∀ z ∈ zs, ∀ j < pb.numVars, ∃ t, ChangesOnlyAt z.1 j t) :
    ∃ res res', morrisAnalyze sqrt z conf resample pb (zs.map Prod.fst).flatten pb.numVars
        (zs.map Prod.snd).flatten false p = .ok res ∧
      morrisAnalyze sqrt z conf resample' pb (zs.map Prod.fst).flatten pb.numVars
        ((zs.map Prod.snd).flatten.map fun y => a * y + b) false p = .ok res' ∧
      res'.mu = res.mu.map (Option.map (a * ·)) ∧
      res'.muStar = res.muStar.map (Option.map (|a| * ·)) ∧
      res'.sigma = res.sigma.map (Option.map (|a| * ·)) := by
  let f : Mat α × List α → Mat α × List α := fun z => (z.1, z.2.map fun y => a * y + b)
  obtain ⟨res, G, h1, hG, h2⟩ := morrisAnalyze_blocks sqrt z conf resample pb zs false p hp hc hlab names hnames hne hz
  obtain ⟨res', G', h1', hG', h2'⟩ := morrisAnalyze_blocks sqrt z conf resample' pb (zs.map f) false p hp hc hlab
    names hnames (by simpa using hne) (by
      intro z hz'
      obtain ⟨w, hw, rfl⟩ := List.mem_map.mp hz'
      simpa [f] using hz w hw)
  have e1 : ((zs.map f).map Prod.fst) = zs.map Prod.fst := by simp [f, List.map_map, Function.comp_def]
  have e2 : ((zs.map f).map Prod.snd).flatten = (zs.map Prod.snd).flatten.map fun y => a * y + b := by
    rw [List.map_flatten]; simp [f, List.map_map, Function.comp_def]
  rw [e1, e2] at h1'
  rw [hG] at hG'
  cases hG'
  obtain ⟨-, -, a2, a3, a4⟩ := statisticalOutputs_eq _ _ _ _ _ _ _ _ _ h2
  obtain ⟨-, -, b2, b3, b4⟩ := statisticalOutputs_eq _ _ _ _ _ _ _ _ _ h2'
  have hEE : ((List.range pb.numVars).map fun j => (zs.map f).map (effect sqrt (morrisDelta p) false j)) =
      ((List.range pb.numVars).map fun j => zs.map (effect sqrt (morrisDelta p) false j)).map
        (List.map (Option.map (a * ·))) := by
    rw [List.map_map]
    apply List.map_congr_left
    intro j hj
    simp only [Function.comp, List.map_map]
    apply List.map_congr_left
    intro w hw
    have hg : 1 ≤ names.length := by
      have hj' : j < (effectiveLabels pb).length := by rw [hlab]; exact List.mem_range.mp hj
      exact List.length_pos_of_mem ((hnames.mem_iff _).mpr (List.getElem_mem hj'))
    have := effectDifference_affine w.1 w.2 j a b (by rw [(hz w hw).1, (hz w hw).2])
      (by rw [(hz w hw).1]; omega) (hb.imp id fun h => h w hw j (List.mem_range.mp hj))
    simp only [Function.comp, effect, f, Bool.false_eq_true, if_false, this]
    unfold npDiv
    split
    · rfl
    · simp [mul_div_assoc]
  rw [hEE] at b2 b3 b4
  generalize ((List.range pb.numVars).map fun j => zs.map (effect sqrt (morrisDelta p) false j)) = EE
    at a2 a3 a4 b2 b3 b4
  refine ⟨res, res', h1, h1', ?_, ?_, ?_⟩
  · rw [a2, b2, List.map_map]
    apply List.map_congr_left
    intro c _
    simp only [Function.comp]
    rw [groupRows_map, List.map_map, ← npMeanN_smul, List.map_map]
    congr 2
    funext ee
    exact npMeanN_smul a ee
  · rw [a3, b3, List.map_map]
    apply List.map_congr_left
    intro c _
    simp only [Function.comp]
    rw [groupRows_map, List.map_map, ← npMeanN_smul, List.map_map]
    congr 2
    funext ee
    simp only [Function.comp, ← npMeanN_smul, List.map_map]
    congr 2
    funext e
    cases e with
    | none => rfl
    | some e => simp [abs_mul]
  · rw [a4, b4, List.map_map]
    apply List.map_congr_left
    intro c _
    simp only [Function.comp]
    split
    · rw [groupRows_map, List.map_map, ← npMeanN_smul, List.map_map]
      congr 2
      funext ee
      exact npStd1N_smul sqrt hs a ee
    · rfl

end SALib
