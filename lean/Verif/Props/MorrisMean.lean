import Verif.Props.MorrisEndToEnd
import Verif.Lemmas.MorrisMean
import Mathlib.Data.List.OfFn
import Mathlib.Probability.Independence.InfinitePi
import Mathlib.Probability.UniformOn

/-! # C97: what the Morris statistics estimate -/

namespace SALib

open MeasureTheory ProbabilityTheory Spec

variable {D g q : Nat}

/-- The random choices as NumPy makes them. -/
def Spec.MorrisDraw.toTraj (d : MorrisDraw D g q) : TrajDraws ℝ where
  shuffle M := if M.length = g then List.ofFn fun i : Fin g => M.getD (d.order i) [] else M
  up j := if h : j < D then d.up ⟨j, h⟩ else true
  pick j := if h : j < D then d.pick ⟨j, h⟩ else 0

theorem toTraj_valid (hq : 0 < q) (d : MorrisDraw D g q) : ValidTrajDraws (2 * q) d.toTraj := by
  refine ⟨fun M => ?_, fun j => ?_⟩
  · show (if M.length = g then _ else M).Perm M
    split
    · rename_i h
      have e : M = List.ofFn fun i : Fin g => M.getD i [] := by
        apply List.ext_getElem
        · simp [h]
        · intro i h1 h2
          simp [List.getD_eq_getElem?_getD, h1]
      conv_rhs => rw [e]
      exact Equiv.Perm.ofFn_comp_perm d.order fun i : Fin g => M.getD i []
    · exact List.Perm.refl _
  · show (if h : j < D then (d.pick ⟨j, h⟩ : Nat) else 0) < 2 * q / 2
    rw [Nat.mul_div_cancel_left _ (by omega)]
    split
    · exact Fin.is_lt _
    · exact hq

theorem toTraj_pStar (d : MorrisDraw D g q) : generatePStar d.toTraj g =
    (List.ofFn fun i => (d.order i : Nat)).map fun i => (List.range g).map fun j => if i = j then (1 : ℝ) else 0 := by
  unfold generatePStar
  show (if (table g g fun i j => if i = j then (1 : ℝ) else 0).length = g then _ else _) = _
  rw [if_pos (table_length _ _ _)]
  apply List.ext_getElem
  · simp
  · intro i h1 h2
    simp [table, List.getD_eq_getElem?_getD]

theorem turns_perm (d : MorrisDraw D g q) : (List.ofFn fun i => (d.order i : Nat)).Perm (List.range g) := by
  have := Equiv.Perm.ofFn_comp_perm d.order fun i : Fin g => (i : Nat)
  refine this.trans ?_
  have e : (List.ofFn fun i : Fin g => (i : Nat)) = List.range g := by
    apply List.ext_getElem
    · simp
    · intro i h1 h2; simp
  rw [e]

/-- The point of the unit cube at given levels. -/
noncomputable def unitRow (x : Fin D → Fin (2 * q)) : List ℝ := List.ofFn fun j => ((x j : Nat) : ℝ) / (2 * (q : ℝ) - 1)

theorem toTraj_trajectory (hq : 0 < q) (groupOf : Nat → Nat) (hgo : ∀ j < D, groupOf j < g) (G : Mat Nat)
    (hGl : G.length = D) (hG : ∀ j < D, ∀ c < g, entry G j c = some (if groupOf j = c then 1 else 0))
    (d : MorrisDraw D g q) :
    generateTrajectory d.toTraj G g (2 * q) = .ok ((List.range (g + 1)).map fun t => unitRow (levelAt groupOf d t)) := by
  rw [generateTrajectory_turns d.toTraj (2 * q) (by omega) D g groupOf hgo G hGl hG _ (turns_perm d) (toTraj_pStar d)]
  congr 1
  unfold table
  apply List.map_congr_left
  intro t _
  apply List.ext_getElem
  · simp [unitRow]
  · intro j h1 h2
    have hj : j < D := by simpa using h1
    simp only [unitRow, List.getElem_map, List.getElem_range, List.getElem_ofFn, levelAt_val]
    have hup : d.toTraj.up j = d.up ⟨j, hj⟩ := dif_pos hj
    have hpk : d.toTraj.pick j = d.pick ⟨j, hj⟩ := dif_pos hj
    rw [hup, hpk, Nat.mul_div_cancel_left _ (by omega)]
    have := linspace0_grid (α := ℝ) q (d.pick ⟨j, hj⟩) (Fin.is_lt _)
    unfold morrisDelta at this
    rw [this]
    have hq1 : (1 : ℝ) ≤ q := by exact_mod_cast hq
    have h2 : 2 * (q : ℝ) - 1 ≠ 0 := by intro h; linarith
    by_cases hc : ((List.ofFn fun i => (d.order i : Nat)).getD (groupOf j) 0 < t ↔ d.up ⟨j, hj⟩ = true)
    · rw [if_pos hc, if_pos (c := turnOf d (groupOf j) < t ↔ d.up ⟨j, hj⟩ = true) hc]
      push_cast
      field_simp
    · rw [if_neg hc, if_neg (c := turnOf d (groupOf j) < t ↔ d.up ⟨j, hj⟩ = true) hc]
      push_cast
      simp

/-- The trajectory of a draw, in the units of the model. -/
noncomputable def trajRows (lo hi : Fin D → ℝ) (groupOf : Nat → Nat) (d : MorrisDraw D g q) : Mat ℝ :=
  (List.range (g + 1)).map fun t => gridRow lo hi (levelAt groupOf d t)

/-- The sampler returns the trajectories of the draws. -/
theorem morrisSample_draws (F : Ppf ℝ) (sqrt : ℝ → ℝ) (argsort : List ℝ → List Nat) (hq : 0 < q) (groupOf : Nat → Nat)
    (pb : Problem ℝ) (lo hi : Fin D → ℝ) (hD : 0 < D) (hn : pb.numVars = D)
    (hlab : (effectiveLabels pb).length = pb.numVars)
    (hgr : GroupNumbering D (some (effectiveLabels pb)) g groupOf)
    (hb : pb.bounds = boundsTable (List.ofFn fun j => (lo j, hi j))) (hd : pb.dists = none) (hlegal : ∀ j, lo j < hi j)
    (N : Nat) (d : Nat → MorrisDraw D g q) (localOpt : Bool) :
    ∃ pb', morrisSample F sqrt argsort (fun i => (d i).toTraj) pb N (2 * q) .none localOpt =
      .ok ((((List.range N).map fun i => trajRows lo hi groupOf (d i)).flatten).map (·.map some), pb') := by
  obtain ⟨G, names, groupOf', hG, hGl, hnum, hent⟩ := groupsMatrix_numbering (effectiveLabels pb)
  have hgo := groupNumbering_lt _ _ (effectiveLabels pb) groupOf (by rw [hlab, hn]) hgr
  obtain ⟨names', hdist', rfl, hnm'⟩ := hgr
  obtain ⟨names0, hdist, hl0, hnm⟩ := hnum
  have hperm : names'.Perm names0 := (List.perm_ext_iff_of_nodup hdist'.nodup hdist.nodup).mpr fun x => by
    rw [hdist'.mem_iff, hdist.mem_iff]
  obtain rfl : names' = names0 :=
    hperm.eq_of_pairwise (fun a b _ _ h1 h2 => absurd h2 (by omega)) hdist'.first_mention hdist.first_mention
  have hsame : ∀ j < D, groupOf j = groupOf' j := by
    intro j hj
    have hj' : j < (effectiveLabels pb).length := by rw [hlab, hn]; exact hj
    have a := hnm' j _ (List.getElem?_eq_getElem hj')
    have b := hnm j _ (List.getElem?_eq_getElem hj')
    obtain ⟨a1, a2⟩ := List.getElem?_eq_some_iff.mp a
    obtain ⟨b1, b2⟩ := List.getElem?_eq_some_iff.mp b
    exact (List.Nodup.getElem_inj_iff hdist'.nodup).mp (a2.trans b2.symm)
  have hGl' : G.length = D := by rw [hGl, hlab, hn]
  have hent' : ∀ j < D, ∀ c < names'.length, entry G j c = some (if groupOf j = c then 1 else 0) := by
    intro j hj c hc
    rw [hent j (by rw [hlab, hn]; exact hj) c (by rw [hl0]; exact hc), hsame j hj]
  have hunit : sampleMorrisUnit (fun i => (d i).toTraj) (effectiveLabels pb) N (2 * q) =
      .ok ((List.range N).map fun i => (List.range (names'.length + 1)).map fun t => unitRow (levelAt groupOf (d i) t)).flatten := by
    unfold sampleMorrisUnit
    rw [hG, pyBind_ok]
    simp only
    rw [hl0, mapM_ok_of _ _ _ (fun i _ => toTraj_trajectory hq groupOf hgo G hGl' hent' (d i)), pyBind_ok]
    rfl
  have hbl : (List.ofFn fun j => (lo j, hi j)).length = D := by simp
  unfold morrisSample
  simp only [defineProblem_ok pb hlab, pyBind_ok, Option.getD_some, hunit, optimiseStep]
  have hs := scaleSamples_legal F { pb with groups := some (effectiveLabels pb) } (List.ofFn fun j => (lo j, hi j))
    ((List.range N).map fun i => (List.range (names'.length + 1)).map fun t => unitRow (levelAt groupOf (d i) t)).flatten hb hd
    (by intro h; rw [h] at hbl; simp at hbl; omega)
    (by intro p hp; obtain ⟨j, rfl⟩ := (List.mem_ofFn' _ _).mp hp; exact hlegal j)
  rw [hbl.trans hn.symm] at hs
  refine ⟨{ pb with groups := some (effectiveLabels pb), sampleScaled := true }, ?_⟩
  rw [hs]
  congr 3
  rw [List.map_flatten, List.map_map]
  congr 1
  apply List.map_congr_left
  intro i _
  unfold trajRows
  simp only [Function.comp_def, List.map_map]
  apply List.map_congr_left
  intro t _
  unfold unitRow gridRow applyCols
  apply List.ext_getElem
  · simp
  · intro j h1 h2
    simp
    ring

/-! ## The statistics of a list of draws -/

theorem entry_trajRows (lo hi : Fin D → ℝ) (groupOf : Nat → Nat) (d : MorrisDraw D g q) (t : Nat) (ht : t < g + 1) (j : Fin D) :
    entry (trajRows lo hi groupOf d) t j =
      some (lo j + ((levelAt groupOf d t j : Nat) : ℝ) / (2 * (q : ℝ) - 1) * (hi j - lo j)) := by
  simp [entry, trajRows, gridRow, ht]

theorem trajRows_length (lo hi : Fin D → ℝ) (groupOf : Nat → Nat) (d : MorrisDraw D g q) :
    (trajRows lo hi groupOf d).length = g + 1 := by simp [trajRows]

theorem trajRows_map_getD (f : List ℝ → ℝ) (lo hi : Fin D → ℝ) (groupOf : Nat → Nat) (d : MorrisDraw D g q) (t : Nat)
    (ht : t < g + 1) : ((trajRows lo hi groupOf d).map f).getD t 0 = f (gridRow lo hi (levelAt groupOf d t)) := by
  simp [trajRows, List.getD_eq_getElem?_getD, ht]

/-- The analyser computes the elementary effect from the starting point of the input. -/
theorem effect_draw (sqrt : ℝ → ℝ) (f : List ℝ → ℝ) (hq : 0 < q) (lo hi : Fin D → ℝ) (hlegal : ∀ j, lo j < hi j)
    (groupOf : Nat → Nat) (hgo : ∀ j < D, groupOf j < g) (d : MorrisDraw D g q) (j : Fin D) :
    effect sqrt (morrisDelta (2 * q)) false j (trajRows lo hi groupOf d, (trajRows lo hi groupOf d).map f) =
      some (gridEffect f lo hi groupOf j (lowPoint groupOf j d)) := by
  have hk := hgo j j.is_lt
  have ht := turnOf_lt d _ hk
  have hq1 : (1 : ℝ) ≤ q := by exact_mod_cast hq
  have hpos : 0 < 2 * (q : ℝ) - 1 := by linarith
  have hstep := levelAt_step groupOf hgo d _ hk
  have hch : ChangesOnlyAt (trajRows lo hi groupOf d) j (turnOf d (groupOf j)) := by
    intro s hs hl
    rw [trajRows_length] at hl
    rw [entry_trajRows _ _ _ _ _ (by omega), entry_trajRows _ _ _ _ _ hl, levelAt_val, levelAt_val]
    have : (turnOf d (groupOf j) < s + 1) ↔ (turnOf d (groupOf j) < s) := by omega
    simp only [this]
  have hdel : (morrisDelta (2 * q) : ℝ) = (q : ℝ) / (2 * q - 1) := by
    unfold morrisDelta
    push_cast
    field_simp
  have hd0 : (q : ℝ) / (2 * q - 1) ≠ 0 := by positivity
  unfold effect
  rw [if_neg (by simp)]
  simp only
  rw [effectDifference_eq _ _ _ (turnOf d (groupOf j)) (by simp) (by rw [trajRows_length]; omega) hch,
    entry_trajRows _ _ _ _ _ (by omega), entry_trajRows _ _ _ _ _ (by omega),
    trajRows_map_getD _ _ _ _ _ _ (by omega), trajRows_map_getD _ _ _ _ _ _ (by omega), hdel, npDiv_some _ _ hd0]
  congr 1
  unfold gridEffect lowPoint
  congr 1
  simp only [Option.getD_some, levelAt_val, Nat.lt_succ_self, lt_irrefl, true_iff, false_iff]
  have hw : 0 < hi j - lo j := sub_pos.mpr (hlegal j)
  cases hu : d.up j
  · simp only [Bool.false_eq_true, if_false, not_false_eq_true, if_true]
    rw [if_neg, if_pos, hstep, groupStep_groupStep]
    · push_cast
      have : 0 < (q : ℝ) / (2 * q - 1) * (hi j - lo j) := by positivity
      have e : ((d.pick j : Nat) + (q : ℝ)) / (2 * q - 1) * (hi j - lo j) =
        (d.pick j : Nat) / (2 * (q : ℝ) - 1) * (hi j - lo j) + (q : ℝ) / (2 * q - 1) * (hi j - lo j) := by ring
      simp only [add_zero]
      rw [e]; linarith
    · push_cast
      have : 0 < (q : ℝ) / (2 * q - 1) * (hi j - lo j) := by positivity
      have e : ((d.pick j : Nat) + (q : ℝ)) / (2 * q - 1) * (hi j - lo j) =
        (d.pick j : Nat) / (2 * (q : ℝ) - 1) * (hi j - lo j) + (q : ℝ) / (2 * q - 1) * (hi j - lo j) := by ring
      simp only [add_zero]
      rw [e]; linarith
  · simp only [if_true, not_true, if_false, add_zero]
    rw [if_pos, hstep]
    push_cast
    have : 0 < (q : ℝ) / (2 * q - 1) * (hi j - lo j) := by positivity
    have e : ((d.pick j : Nat) + (q : ℝ)) / (2 * q - 1) * (hi j - lo j) =
      (d.pick j : Nat) / (2 * (q : ℝ) - 1) * (hi j - lo j) + (q : ℝ) / (2 * q - 1) * (hi j - lo j) := by ring
    rw [e]; linarith

theorem groupRows_finRange {β : Type} (F : Fin D → β) (groupOf : Nat → Nat) (G : Mat Nat) (hGl : G.length = D) (c : Nat)
    (hG : ∀ j < D, entry G j c = some (if groupOf j = c then 1 else 0)) :
    groupRows ((List.finRange D).map F) G c = ((List.finRange D).filter fun j : Fin D => groupOf j = c).map F := by
  have hz : ((List.finRange D).map F).zip G = (List.finRange D).map fun j => (F j, G.getD j []) := by
    apply List.ext_getElem
    · simp [hGl]
    · intro i h1 h2
      have : i < G.length := by rw [hGl]; simpa using h2
      simp [List.getD_eq_getElem?_getD, this]
  unfold groupRows
  rw [hz, List.filter_map, List.map_map]
  have e : (List.finRange D).filter ((fun mr : β × List Nat => mr.2.getD c 0 != 0) ∘ fun j => (F j, G.getD j [])) =
      (List.finRange D).filter fun j : Fin D => groupOf j = c := by
    apply List.filter_congr
    intro j _
    have := hG j j.is_lt
    unfold entry at this
    have hj : (j : Nat) < G.length := by rw [hGl]; exact j.is_lt
    rw [List.getElem?_eq_getElem hj, Option.bind_some] at this
    simp only [Function.comp_def, List.getD_eq_getElem?_getD, List.getElem?_eq_getElem hj, Option.getD_some, this]
    by_cases h : groupOf j = c <;> simp [h]
  rw [e]
  rfl

theorem npMeanN_members (groupOf : Nat → Nat) (c : Nat) (m : Fin D → ℝ) (hne : ∃ j : Fin D, groupOf j = c) :
    npMeanN ((((List.finRange D).filter fun j : Fin D => groupOf j = c).map m).map some) = some (memberMean groupOf c m) := by
  have hnd : ((List.finRange D).filter fun j : Fin D => groupOf j = c).Nodup := (List.nodup_finRange D).filter _
  have hf : ((List.finRange D).filter fun j : Fin D => groupOf j = c).toFinset =
      Finset.univ.filter fun j : Fin D => groupOf j = c := by
    ext j; simp
  rw [npMeanN_some]
  · unfold memberMean
    rw [← hf, List.sum_toFinset m hnd, List.toFinset_card_of_nodup hnd, List.length_map]
  · obtain ⟨j, hj⟩ := hne
    intro h
    have : j ∈ (List.finRange D).filter fun j : Fin D => groupOf j = c := by simp [hj]
    rw [List.map_eq_nil_iff] at h
    rw [h] at this
    cases this

/-- The sum of the squared deviations from the mean, over the number of rows less one. -/
noncomputable def Spec.rowSpread {β : Type} (rows : List β) (h : β → ℝ) : ℝ :=
  (rows.map fun d => (h d - rowMean rows h) ^ 2).sum / ((rows.length : ℝ) - 1)

theorem npStd1N_rows {β : Type} (sqrt : ℝ → ℝ) (rows : List β) (h : β → ℝ) (hl : 2 ≤ rows.length) :
    npStd1N sqrt (rows.map fun d => some (h d)) = some (sqrt (rowSpread rows h)) := by
  have e : (rows.map fun d => some (h d)) = (rows.map h).map some := by rw [List.map_map]; rfl
  unfold npStd1N npStd1
  rw [e, (optMapM_id _ (rows.map h)).mpr rfl]
  have hm : npMean (rows.map h) = some (rowMean rows h) := by
    rw [npMean_some _ (by intro hh; rw [List.map_eq_nil_iff] at hh; rw [hh] at hl; simp at hl)]
    simp [rowMean]
  simp only [Option.bind_eq_bind, Option.bind_some, hm]
  have h2 : (2 : ℝ) ≤ rows.length := by exact_mod_cast hl
  rw [npDiv_some _ _ (by rw [List.length_map]; intro e; linarith)]
  simp [rowSpread, List.map_map, Function.comp_def]

/-- The sample, the model and the analysis on a list of draws: everything succeeds, and the effects are those of the level
grid. -/
theorem morris_run (F : Ppf ℝ) (sqrt : ℝ → ℝ) (argsort : List ℝ → List Nat) (f : List ℝ → ℝ) (hq : 0 < q) (groupOf : Nat → Nat)
    (pb pbA : Problem ℝ) (lo hi : Fin D → ℝ) (hD : 0 < D) (hn : pb.numVars = D)
    (hlab : (effectiveLabels pb).length = pb.numVars)
    (hgr : GroupNumbering D (some (effectiveLabels pb)) g groupOf)
    (hb : pb.bounds = boundsTable (List.ofFn fun j => (lo j, hi j))) (hd : pb.dists = none) (hlegal : ∀ j, lo j < hi j)
    (hA : effectiveLabels pbA = effectiveLabels pb) (hAn : pbA.numVars = pb.numVars)
    (z conf : ℝ) (hc : 0 < conf ∧ conf < 1) (resample : Nat → List (List Nat))
    (N : Nat) (hN : 0 < N) (d : Nat → MorrisDraw D g q) (localOpt : Bool) :
    ∃ X pb' res G names, morrisSample F sqrt argsort (fun i => (d i).toTraj) pb N (2 * q) .none localOpt = .ok (X.map (·.map some), pb') ∧
      morrisAnalyze sqrt z conf resample pbA X D (X.map f) false (2 * q) = .ok res ∧
      statisticalOutputs sqrt z conf resample ((List.finRange D).map fun j => ((List.range N).map d).map fun e =>
        some (gridEffect f lo hi groupOf j (lowPoint groupOf j e))) D G names = .ok res ∧
      names.length = g ∧ G.length = D ∧
      (∀ c < g, ∀ j < D, entry G j c = some (if groupOf j = c then 1 else 0)) ∧ ∀ c < g, ∃ j : Fin D, groupOf j = c := by
  obtain ⟨pb', hs⟩ := morrisSample_draws F sqrt argsort hq groupOf pb lo hi hD hn hlab hgr hb hd hlegal N d localOpt
  have hgo := groupNumbering_lt _ _ (effectiveLabels pb) groupOf (by rw [hlab, hn]) hgr
  obtain ⟨names, hdist, rfl, hnm⟩ := hgr
  obtain ⟨res, G, hrun, hG, hstat⟩ := morrisAnalyze_blocks sqrt z conf resample pbA
    ((List.range N).map fun i => (trajRows lo hi groupOf (d i), (trajRows lo hi groupOf (d i)).map f)) false (2 * q) (by omega) hc
    (by rw [hA, hlab, hAn]) names (by rw [hA]; exact hdist) (by simp; omega)
    (by intro z hz; obtain ⟨i, -, rfl⟩ := List.mem_map.mp hz; simp [trajRows_length])
  rw [hA] at hG
  have hX : (List.map Prod.fst ((List.range N).map fun i =>
      (trajRows lo hi groupOf (d i), (trajRows lo hi groupOf (d i)).map f))).flatten =
      ((List.range N).map fun i => trajRows lo hi groupOf (d i)).flatten := by
    rw [List.map_map]; rfl
  have hY : (List.map Prod.snd ((List.range N).map fun i =>
      (trajRows lo hi groupOf (d i), (trajRows lo hi groupOf (d i)).map f))).flatten =
      ((List.range N).map fun i => trajRows lo hi groupOf (d i)).flatten.map f := by
    rw [List.map_map, List.map_flatten, List.map_map]; rfl
  rw [hX, hY, hAn, hn] at hrun
  have hEE : ((List.range pbA.numVars).map fun j => ((List.range N).map fun i =>
      (trajRows lo hi groupOf (d i), (trajRows lo hi groupOf (d i)).map f)).map (effect sqrt (morrisDelta (2 * q)) false j)) =
      (List.finRange D).map fun j => ((List.range N).map d).map fun e => some (gridEffect f lo hi groupOf j (lowPoint groupOf j e)) := by
    rw [hAn, hn]
    apply List.ext_getElem
    · simp
    · intro j h1 h2
      have hj : j < D := by simpa using h1
      simp only [List.getElem_map, List.getElem_range, List.getElem_finRange, List.map_map, Function.comp_def]
      apply List.map_congr_left
      intro i _
      exact effect_draw sqrt f hq lo hi hlegal groupOf hgo (d i) ⟨j, hj⟩
  rw [hEE] at hstat
  obtain ⟨G', names', hG', -, hGl', hcols, hent⟩ := C07_groups_matrix (effectiveLabels pb)
  rw [hG] at hG'
  cases hG'
  have hGl : G.length = D := by rw [hGl', hlab, hn]
  have hentry : ∀ c < names.length, ∀ j < D, entry G j c = some (if groupOf j = c then 1 else 0) := by
    intro c hc j hj
    have hj' : j < (effectiveLabels pb).length := by rw [hlab, hn]; exact hj
    have h1 := hnm j _ (List.getElem?_eq_getElem hj')
    rw [hent j c _ _ (List.getElem?_eq_getElem hj') (List.getElem?_eq_getElem hc)]
    obtain ⟨a1, a2⟩ := List.getElem?_eq_some_iff.mp h1
    congr 1
    refine if_congr ?_ rfl rfl
    rw [← a2, List.Nodup.getElem_inj_iff hdist.nodup]
  have hmem : ∀ c < names.length, ∃ j : Fin D, groupOf j = c := by
    intro c hc
    have := (hdist.mem_iff _).mp (List.getElem_mem hc)
    obtain ⟨j, hj, e⟩ := List.mem_iff_getElem.mp this
    refine ⟨⟨j, by rw [← hn, ← hlab]; exact hj⟩, ?_⟩
    have h1 := hnm j _ (List.getElem?_eq_getElem hj)
    obtain ⟨a1, a2⟩ := List.getElem?_eq_some_iff.mp h1
    exact (List.Nodup.getElem_inj_iff hdist.nodup).mp (a2.trans e)
  rw [hAn, hn] at hstat
  exact ⟨_, pb', res, G, names, hs, hrun, hstat, rfl, hGl, hentry, hmem⟩

/-- The sample, the model and the analysis on a list of draws, in closed form. -/
theorem morris_formula (F : Ppf ℝ) (sqrt : ℝ → ℝ) (argsort : List ℝ → List Nat) (f : List ℝ → ℝ) (hq : 0 < q) (groupOf : Nat → Nat)
    (pb pbA : Problem ℝ) (lo hi : Fin D → ℝ) (hD : 0 < D) (hn : pb.numVars = D)
    (hlab : (effectiveLabels pb).length = pb.numVars)
    (hgr : GroupNumbering D (some (effectiveLabels pb)) g groupOf)
    (hb : pb.bounds = boundsTable (List.ofFn fun j => (lo j, hi j))) (hd : pb.dists = none) (hlegal : ∀ j, lo j < hi j)
    (hA : effectiveLabels pbA = effectiveLabels pb) (hAn : pbA.numVars = pb.numVars)
    (z conf : ℝ) (hc : 0 < conf ∧ conf < 1) (resample : Nat → List (List Nat))
    (N : Nat) (hN : 0 < N) (d : Nat → MorrisDraw D g q) (localOpt : Bool) :
    ∃ X pb' res, morrisSample F sqrt argsort (fun i => (d i).toTraj) pb N (2 * q) .none localOpt = .ok (X.map (·.map some), pb') ∧
      morrisAnalyze sqrt z conf resample pbA X D (X.map f) false (2 * q) = .ok res ∧
      ∀ c < g, res.mu[c]? = some (some (memberMean groupOf c fun j =>
          rowMean ((List.range N).map d) fun e => gridEffect f lo hi groupOf j (lowPoint groupOf j e))) ∧
        res.muStar[c]? = some (some (memberMean groupOf c fun j =>
          rowMean ((List.range N).map d) fun e => |gridEffect f lo hi groupOf j (lowPoint groupOf j e)|)) ∧
        (2 ≤ N → ∀ j : Fin D, (∀ i : Fin D, groupOf i = c ↔ i = j) → res.sigma[c]? = some (some (sqrt
          (rowSpread ((List.range N).map d) fun e => gridEffect f lo hi groupOf j (lowPoint groupOf j e))))) := by
  obtain ⟨X, pb', res, G, names, hs, hrun, hstat, rfl, hGl, hentry, hmem⟩ := morris_run F sqrt argsort f hq groupOf pb pbA lo hi
    hD hn hlab hgr hb hd hlegal hA hAn z conf hc resample N hN d localOpt
  obtain ⟨hl, -, hmu, hms, hsg⟩ := statisticalOutputs_eq _ _ _ _ _ _ _ _ _ hstat
  refine ⟨X, pb', res, hs, hrun, ?_⟩
  have hrow : ((List.range N).map d) ≠ [] := by simp; omega
  intro c hc
  have hmem := hmem c hc
  have hgr := groupRows_finRange (fun j => ((List.range N).map d).map fun e => some (gridEffect f lo hi groupOf j (lowPoint groupOf j e)))
    groupOf G hGl c (hentry c hc)
  refine ⟨?_, ?_, ?_⟩
  · rw [hmu, List.getElem?_map, List.getElem?_range hc, Option.map_some, hgr, List.map_map, ← npMeanN_members groupOf c _ hmem,
      List.map_map]
    congr 2
    apply List.map_congr_left
    intro j _
    simp only [Function.comp_def]
    have e : (((List.range N).map d).map fun e => some (gridEffect f lo hi groupOf j (lowPoint groupOf j e))) =
      (((List.range N).map d).map fun e => gridEffect f lo hi groupOf j (lowPoint groupOf j e)).map some := by
      rw [List.map_map (f := fun e => gridEffect f lo hi groupOf j (lowPoint groupOf j e))]; rfl
    rw [e, npMeanN_some _ (by simpa using hrow)]
    simp [rowMean]
  · rw [hms, List.getElem?_map, List.getElem?_range hc, Option.map_some, hgr, List.map_map, ← npMeanN_members groupOf c _ hmem,
      List.map_map]
    congr 2
    apply List.map_congr_left
    intro j _
    simp only [Function.comp_def]
    have e : (((List.range N).map d).map fun e => some (gridEffect f lo hi groupOf j (lowPoint groupOf j e))).map (Option.map abs) =
      (((List.range N).map d).map fun e => |gridEffect f lo hi groupOf j (lowPoint groupOf j e)|).map some := by
      rw [List.map_map, List.map_map (f := fun e => |gridEffect f lo hi groupOf j (lowPoint groupOf j e)|)]; rfl
    rw [e, npMeanN_some _ (by simpa using hrow)]
    simp [rowMean]
  · intro h2 j hj
    have hone : ((List.finRange D).filter fun i : Fin D => groupOf i = c) = [j] := by
      have : ((List.finRange D).filter fun i : Fin D => groupOf i = c) = (List.finRange D).filter fun i => i = j := by
        apply List.filter_congr
        intro i _
        simp [hj i]
      rw [this]
      rw [show (List.filter (fun i => decide (i = j)) (List.finRange D)) = List.filter (fun i => i == j) (List.finRange D) by
        apply List.filter_congr; intro i _; rfl, List.filter_beq, List.count_eq_one_of_mem (List.nodup_finRange D) (List.mem_finRange j)]
      rfl
    have hsum : (G.map (·.getD c 0)).sum = 1 := by
      have e : G.map (·.getD c 0) = (List.finRange D).map fun i => if i = j then 1 else 0 := by
        apply List.ext_getElem
        · simp [hGl]
        · intro i h1 h2
          have hi : i < D := by simpa using h2
          have := hentry c hc i hi
          unfold entry at this
          have hiG : i < G.length := by simpa using h1
          rw [List.getElem?_eq_getElem hiG, Option.bind_some] at this
          simp only [List.getElem_map, List.getElem_finRange, List.getD_eq_getElem?_getD, this, Option.getD_some]
          refine if_congr ?_ rfl rfl
          have := hj ⟨i, hi⟩
          simpa using this
      rw [e, ← List.sum_toFinset _ (List.nodup_finRange D)]
      simp
    rw [hsg, List.getElem?_map, List.getElem?_range hc, Option.map_some, if_pos hsum, hgr, hone]
    simp only [List.map_cons, List.map_nil]
    rw [npStd1N_rows sqrt _ _ (by simpa using h2)]
    rw [show ([some (sqrt (rowSpread ((List.range N).map d) fun e => gridEffect f lo hi groupOf j (lowPoint groupOf j e)))] : List (Num ℝ)) =
      [sqrt (rowSpread ((List.range N).map d) fun e => gridEffect f lo hi groupOf j (lowPoint groupOf j e))].map some from rfl,
      npMeanN_some _ (by simp)]
    simp

theorem rowSpread_eq {β : Type} (rows : List β) (h : β → ℝ) :
    rowSpread rows h = (rowMean rows (fun d => h d * h d) - rowMean rows h * rowMean rows h) *
      ((rows.length : ℝ) / ((rows.length : ℝ) - 1)) := by
  have key : ∀ (l : List β) (m : ℝ), (l.map fun d => (h d - m) ^ 2).sum =
      (l.map fun d => h d * h d).sum - 2 * m * (l.map h).sum + l.length * m ^ 2 := by
    intro l m
    induction l with
    | nil => simp
    | cons a l ih =>
      simp only [List.map_cons, List.sum_cons, ih, List.length_cons]
      push_cast
      ring
  unfold rowSpread
  rw [key]
  by_cases h0 : rows.length = 0
  · obtain rfl := List.length_eq_zero_iff.mp h0
    simp
  · have h1 : (rows.length : ℝ) ≠ 0 := by exact_mod_cast h0
    unfold rowMean
    field_simp
    ring

section fair

variable {Ω : Type} [MeasurableSpace Ω] {P : Measure Ω} [IsProbabilityMeasure P] {Z : ℕ → Ω → MorrisDraw D g q}

theorem fair_rowMean (hZ : FairDraws P Z) (groupOf : Nat → Nat) (j : Fin D) (h : (Fin D → Fin (2 * q)) → ℝ) (N : Nat) (hN : 0 < N) :
    ∫ ω, rowMean (firstRows Z N ω) (fun d => h (lowPoint groupOf j d)) ∂P = gridMean j h := by
  have : IsProbabilityMeasure (Measure.map (Z 0) P) := Measure.isProbabilityMeasure_map (hZ.meas 0).aemeasurable
  rw [integral_rowMean hZ.meas hZ.law _ Integrable.of_finite N hN, hZ.integral, mean_lowPoint]

theorem fair_tendsto (hZ : FairDraws P Z) (groupOf : Nat → Nat) (j : Fin D) (h : (Fin D → Fin (2 * q)) → ℝ) :
    ∀ᵐ ω ∂P, Filter.Tendsto (fun N => rowMean (firstRows Z N ω) fun d => h (lowPoint groupOf j d)) Filter.atTop
      (nhds (gridMean j h)) := by
  have : IsProbabilityMeasure (Measure.map (Z 0) P) := Measure.isProbabilityMeasure_map (hZ.meas 0).aemeasurable
  have := tendsto_rowMean hZ.meas hZ.law hZ.indep (fun d => h (lowPoint groupOf j d)) (measurable_of_finite _) Integrable.of_finite
  rwa [hZ.integral, mean_lowPoint] at this

theorem fair_spread (hZ : FairDraws P Z) (groupOf : Nat → Nat) (j : Fin D) (h : (Fin D → Fin (2 * q)) → ℝ) (N : Nat) (hN : 2 ≤ N) :
    ∫ ω, rowSpread (firstRows Z N ω) (fun d => h (lowPoint groupOf j d)) ∂P =
      gridMean j (fun x => h x ^ 2) - gridMean j h ^ 2 := by
  have : IsProbabilityMeasure (Measure.map (Z 0) P) := Measure.isProbabilityMeasure_map (hZ.meas 0).aemeasurable
  have hN1 : (2 : ℝ) ≤ N := by exact_mod_cast hN
  have m2 : ∀ u : MorrisDraw D g q → ℝ, MemLp u 2 (Measure.map (Z 0) P) := fun u => MemLp.of_discrete
  have e1 := integral_rowMean hZ.meas hZ.law (fun d => h (lowPoint groupOf j d) * h (lowPoint groupOf j d)) Integrable.of_finite N (by omega)
  have e2 := integral_rowMean_mul hZ.meas hZ.law hZ.indep (fun d => h (lowPoint groupOf j d)) (fun d => h (lowPoint groupOf j d))
    (measurable_of_finite _) (measurable_of_finite _) (m2 _) (m2 _) N (by omega)
  have i1 := integrable_rowMean hZ.meas hZ.law (fun d => h (lowPoint groupOf j d) * h (lowPoint groupOf j d)) Integrable.of_finite N
  have i2 := integrable_rowMean_mul hZ.meas hZ.law hZ.indep (fun d => h (lowPoint groupOf j d)) (fun d => h (lowPoint groupOf j d))
    (m2 _) (m2 _) N
  rw [hZ.integral, mean_lowPoint groupOf j fun x => h x * h x] at e1
  rw [hZ.integral, hZ.integral, mean_lowPoint groupOf j fun x => h x * h x, mean_lowPoint groupOf j h] at e2
  simp only [rowSpread_eq]
  have hl : ∀ ω, (firstRows Z N ω).length = N := fun ω => by simp [firstRows]
  simp only [hl]
  rw [integral_mul_const, integral_sub i1 i2, e1, e2]
  have h3 : (N : ℝ) - 1 ≠ 0 := by intro h; linarith
  have h4 : (N : ℝ) ≠ 0 := by intro h; linarith
  have : (fun x => h x ^ 2) = fun x : Fin D → Fin (2 * q) => h x * h x := by funext x; ring
  rw [this]
  field_simp
  ring

end fair

/-- The hypotheses common to both claims: a problem with `D` inputs in `g` groups, uniform between `lo` and `hi`, analysed with
the same labels. -/
structure Spec.MorrisSetting (D g : Nat) (pb pbA : Problem ℝ) (groupOf : Nat → Nat) (lo hi : Fin D → ℝ) : Prop where
  inputs : 0 < D
  numVars : pb.numVars = D
  labels : (effectiveLabels pb).length = pb.numVars
  groups : GroupNumbering D (some (effectiveLabels pb)) g groupOf
  bounds : pb.bounds = boundsTable (List.ofFn fun j => (lo j, hi j))
  uniform : pb.dists = none
  legal : ∀ j, lo j < hi j
  sameLabels : effectiveLabels pbA = effectiveLabels pb
  sameVars : pbA.numVars = pb.numVars

/-- **C97**, mean.  Sample `N` trajectories on an even number of levels with fair independent draws, run any model, analyse.
On average `mu` and `mu_star` of a group are the mean elementary effect, and the mean absolute elementary effect, over all points
of the level grid and over the inputs of the group; on average the square of `sigma` is the variance of the elementary effect over
the grid. -/
theorem C97_unbiased {Ω : Type} [MeasurableSpace Ω] (P : Measure Ω) [IsProbabilityMeasure P] (Z : ℕ → Ω → MorrisDraw D g q)
    (hZ : FairDraws P Z) (F : Ppf ℝ) (argsort : List ℝ → List Nat) (f : List ℝ → ℝ) (hq : 0 < q) (groupOf : Nat → Nat)
    (pb pbA : Problem ℝ) (lo hi : Fin D → ℝ) (hS : MorrisSetting D g pb pbA groupOf lo hi)
    (z conf : ℝ) (hc : 0 < conf ∧ conf < 1) (resample : Nat → List (List Nat)) (N : Nat) (hN : 0 < N) (localOpt : Bool) :
    ∃ (X : Ω → Mat ℝ) (pb' : Ω → Problem ℝ) (res : Ω → MorrisResult ℝ) (mu muStar sigma : Nat → Ω → ℝ),
      (∀ ω, morrisSample F Real.sqrt argsort (fun i => (Z i ω).toTraj) pb N (2 * q) .none localOpt =
          .ok ((X ω).map (·.map some), pb' ω) ∧
        morrisAnalyze Real.sqrt z conf resample pbA (X ω) D ((X ω).map f) false (2 * q) = .ok (res ω)) ∧
      ∀ c < g, (∀ ω, (res ω).mu[c]? = some (some (mu c ω)) ∧ (res ω).muStar[c]? = some (some (muStar c ω))) ∧
        ∫ ω, mu c ω ∂P = memberMean groupOf c (fun j => gridMean j (gridEffect (q := q) f lo hi groupOf j)) ∧
        ∫ ω, muStar c ω ∂P = memberMean groupOf c (fun j => gridMean j fun x => |gridEffect (q := q) f lo hi groupOf j x|) ∧
        (2 ≤ N → ∀ j : Fin D, (∀ i : Fin D, groupOf i = c ↔ i = j) →
          (∀ ω, (res ω).sigma[c]? = some (some (sigma c ω))) ∧
          ∫ ω, sigma c ω ^ 2 ∂P = gridMean j (fun x => gridEffect (q := q) f lo hi groupOf j x ^ 2) -
            gridMean j (gridEffect (q := q) f lo hi groupOf j) ^ 2) := by
  have : IsProbabilityMeasure (Measure.map (Z 0) P) := Measure.isProbabilityMeasure_map (hZ.meas 0).aemeasurable
  choose X pb' res h1 h2 h3 using fun ω => morris_formula F Real.sqrt argsort f hq groupOf pb pbA lo hi hS.inputs hS.numVars
    hS.labels hS.groups hS.bounds hS.uniform hS.legal hS.sameLabels hS.sameVars z conf hc resample N hN (fun i => Z i ω) localOpt
  have hint : ∀ (c : Nat) (h : Fin D → (Fin D → Fin (2 * q)) → ℝ),
      ∫ ω, memberMean groupOf c (fun j => rowMean (firstRows Z N ω) fun e => h j (lowPoint groupOf j e)) ∂P =
        memberMean groupOf c fun j => gridMean j (h j) := by
    intro c h
    unfold memberMean
    rw [integral_div, integral_finsetSum _ fun j _ =>
      integrable_rowMean hZ.meas hZ.law (fun e => h j (lowPoint groupOf j e)) Integrable.of_finite N]
    congr 1
    exact Finset.sum_congr rfl fun j _ => fair_rowMean hZ groupOf j (h j) N hN
  refine ⟨X, pb', res,
    fun c ω => memberMean groupOf c fun j => rowMean (firstRows Z N ω) fun e => gridEffect f lo hi groupOf j (lowPoint groupOf j e),
    fun c ω => memberMean groupOf c fun j => rowMean (firstRows Z N ω) fun e => |gridEffect f lo hi groupOf j (lowPoint groupOf j e)|,
    fun c ω => (((res ω).sigma.getD c none).getD 0), fun ω => ⟨h1 ω, h2 ω⟩, fun c hcg => ⟨fun ω => ⟨(h3 ω c hcg).1, (h3 ω c hcg).2.1⟩,
      hint c fun j => gridEffect f lo hi groupOf j, hint c fun j x => |gridEffect f lo hi groupOf j x|, fun hN2 j hj => ?_⟩⟩
  have hs : ∀ ω, (res ω).sigma[c]? = some (some (Real.sqrt (rowSpread (firstRows Z N ω) fun e =>
      gridEffect f lo hi groupOf j (lowPoint groupOf j e)))) := fun ω => (h3 ω c hcg).2.2 hN2 j hj
  have hsv : ∀ ω, ((res ω).sigma.getD c none).getD 0 = Real.sqrt (rowSpread (firstRows Z N ω) fun e =>
      gridEffect f lo hi groupOf j (lowPoint groupOf j e)) := by
    intro ω
    rw [List.getD_eq_getElem?_getD, hs ω]
    rfl
  refine ⟨fun ω => by beta_reduce; rw [hsv ω]; exact hs ω, ?_⟩
  rw [← fair_spread hZ groupOf j (gridEffect f lo hi groupOf j) N hN2]
  congr 1
  funext ω
  beta_reduce
  rw [hsv ω, Real.sq_sqrt]
  unfold rowSpread
  have hl : ((firstRows Z N ω).length : ℝ) = N := by simp [firstRows]
  have hN1 : (2 : ℝ) ≤ N := by exact_mod_cast hN2
  refine div_nonneg (List.sum_nonneg ?_) (by rw [hl]; linarith)
  intro x hx
  obtain ⟨d, -, rfl⟩ := List.mem_map.mp hx
  positivity

/-- **C97**, limit.  With probability one, for every `ε` there is a number of trajectories from which on the sample and the analysis
succeed and `mu`, `mu_star` and `sigma` are within `ε` of the mean effect, the mean absolute effect and the standard deviation of
the effect over the level grid. -/
theorem C97_consistent {Ω : Type} [MeasurableSpace Ω] (P : Measure Ω) [IsProbabilityMeasure P] (Z : ℕ → Ω → MorrisDraw D g q)
    (hZ : FairDraws P Z) (F : Ppf ℝ) (argsort : List ℝ → List Nat) (f : List ℝ → ℝ) (hq : 0 < q) (groupOf : Nat → Nat)
    (pb pbA : Problem ℝ) (lo hi : Fin D → ℝ) (hS : MorrisSetting D g pb pbA groupOf lo hi)
    (z conf : ℝ) (hc : 0 < conf ∧ conf < 1) (localOpt : Bool) :
    ∀ᵐ ω ∂P, ∀ ε > 0, ∃ N0, ∀ N ≥ N0, ∀ resample : Nat → List (List Nat), ∃ X pb' res,
      morrisSample F Real.sqrt argsort (fun i => (Z i ω).toTraj) pb N (2 * q) .none localOpt = .ok (X.map (·.map some), pb') ∧
      morrisAnalyze Real.sqrt z conf resample pbA X D (X.map f) false (2 * q) = .ok res ∧
      ∀ c < g, (∃ v, res.mu[c]? = some (some v) ∧
          |v - memberMean groupOf c (fun j => gridMean j (gridEffect (q := q) f lo hi groupOf j))| < ε) ∧
        (∃ v, res.muStar[c]? = some (some v) ∧
          |v - memberMean groupOf c (fun j => gridMean j fun x => |gridEffect (q := q) f lo hi groupOf j x|)| < ε) ∧
        ∀ j : Fin D, (∀ i : Fin D, groupOf i = c ↔ i = j) → ∃ v, res.sigma[c]? = some (some v) ∧
          |v - Real.sqrt (gridMean j (fun x => gridEffect (q := q) f lo hi groupOf j x ^ 2) -
            gridMean j (gridEffect (q := q) f lo hi groupOf j) ^ 2)| < ε := by
  have t1 : ∀ᵐ ω ∂P, ∀ j : Fin D, Filter.Tendsto (fun N => rowMean (firstRows Z N ω) fun d =>
      gridEffect f lo hi groupOf j (lowPoint groupOf j d)) Filter.atTop (nhds (gridMean j (gridEffect f lo hi groupOf j))) :=
    ae_all_iff.mpr fun j => fair_tendsto hZ groupOf j _
  have t2 : ∀ᵐ ω ∂P, ∀ j : Fin D, Filter.Tendsto (fun N => rowMean (firstRows Z N ω) fun d =>
      |gridEffect f lo hi groupOf j (lowPoint groupOf j d)|) Filter.atTop
        (nhds (gridMean j fun x => |gridEffect f lo hi groupOf j x|)) :=
    ae_all_iff.mpr fun j => fair_tendsto hZ groupOf j fun x => |gridEffect f lo hi groupOf j x|
  have t3 : ∀ᵐ ω ∂P, ∀ j : Fin D, Filter.Tendsto (fun N => rowMean (firstRows Z N ω) fun d =>
      gridEffect f lo hi groupOf j (lowPoint groupOf j d) ^ 2) Filter.atTop
        (nhds (gridMean j fun x => gridEffect f lo hi groupOf j x ^ 2)) :=
    ae_all_iff.mpr fun j => fair_tendsto hZ groupOf j fun x => gridEffect f lo hi groupOf j x ^ 2
  filter_upwards [t1, t2, t3] with ω w1 w2 w3
  intro ε hε
  have near : ∀ (u : ℕ → ℝ) (l : ℝ), Filter.Tendsto u Filter.atTop (nhds l) →
      ∀ᶠ N in Filter.atTop, |u N - l| < ε := by
    intro u l h
    have := Metric.tendsto_nhds.mp h ε hε
    simpa only [Real.dist_eq] using this
  have members : ∀ (c : Nat) (u : Fin D → ℕ → ℝ) (l : Fin D → ℝ), (∀ j, Filter.Tendsto (u j) Filter.atTop (nhds (l j))) →
      Filter.Tendsto (fun N => memberMean groupOf c fun j => u j N) Filter.atTop (nhds (memberMean groupOf c l)) := by
    intro c u l h
    unfold memberMean
    exact (tendsto_finsetSum _ fun j _ => h j).div_const _
  have ratio : Filter.Tendsto (fun N : ℕ => (N : ℝ) / ((N : ℝ) - 1)) Filter.atTop (nhds 1) := by
    have h1 : Filter.Tendsto (fun N : ℕ => 1 + 1 / ((N : ℝ) - 1)) Filter.atTop (nhds (1 + 0)) := by
      refine tendsto_const_nhds.add ?_
      have : Filter.Tendsto (fun N : ℕ => (N : ℝ) - 1) Filter.atTop Filter.atTop :=
        Filter.tendsto_atTop_add_const_right _ _ tendsto_natCast_atTop_atTop
      exact (tendsto_const_nhds (x := (1 : ℝ))).div_atTop this
    rw [add_zero] at h1
    refine h1.congr' ?_
    filter_upwards [Filter.eventually_ge_atTop 2] with N hN
    have : (2 : ℝ) ≤ N := by exact_mod_cast hN
    have : (N : ℝ) - 1 ≠ 0 := by intro h; linarith
    field_simp
    ring
  have spread : ∀ j : Fin D, Filter.Tendsto (fun N => Real.sqrt (rowSpread (firstRows Z N ω) fun e =>
      gridEffect f lo hi groupOf j (lowPoint groupOf j e))) Filter.atTop
      (nhds (Real.sqrt (gridMean j (fun x => gridEffect (q := q) f lo hi groupOf j x ^ 2) -
        gridMean j (gridEffect (q := q) f lo hi groupOf j) ^ 2))) := by
    intro j
    refine (Real.continuous_sqrt.tendsto _).comp ?_
    have h := ((w3 j).sub ((w1 j).mul (w1 j))).mul ratio
    rw [mul_one, ← pow_two] at h
    refine h.congr fun N => ?_
    rw [rowSpread_eq]
    have hl : (firstRows Z N ω).length = N := by simp [firstRows]
    rw [hl]
    simp only [pow_two]
  have e1 := (Filter.eventually_all_finset (Finset.range g)).mpr fun c _ => near _ _ (members c _ _ w1)
  have e2 := (Filter.eventually_all_finset (Finset.range g)).mpr fun c _ => near _ _ (members c _ _ w2)
  have e3 := Filter.eventually_all.mpr fun j => near _ _ (spread j)
  obtain ⟨N0, hN0⟩ := Filter.eventually_atTop.mp (((e1.and e2).and e3).and (Filter.eventually_ge_atTop 2))
  refine ⟨N0, fun N hN resample => ?_⟩
  obtain ⟨⟨⟨n1, n2⟩, n3⟩, hN2⟩ := hN0 N hN
  obtain ⟨X, pb', res, h1, h2, h3⟩ := morris_formula F Real.sqrt argsort f hq groupOf pb pbA lo hi hS.inputs hS.numVars
    hS.labels hS.groups hS.bounds hS.uniform hS.legal hS.sameLabels hS.sameVars z conf hc resample N (by omega) (fun i => Z i ω) localOpt
  refine ⟨X, pb', res, h1, h2, fun c hcg => ⟨⟨_, (h3 c hcg).1, n1 c (Finset.mem_range.mpr hcg)⟩,
    ⟨_, (h3 c hcg).2.1, n2 c (Finset.mem_range.mpr hcg)⟩, fun j hj => ⟨_, (h3 c hcg).2.2 hN2 j hj, n3 j⟩⟩⟩

/-- Fair independent draws exist. -/
theorem fairDraws_exist (D g q : Nat) (hq : 0 < q) :
    ∃ P : Measure (ℕ → MorrisDraw D g q), IsProbabilityMeasure P ∧ FairDraws P fun i ω => ω i := by
  have : Nonempty (MorrisDraw D g q) := ⟨⟨1, fun _ => true, fun _ => ⟨0, hq⟩⟩⟩
  have hp : IsProbabilityMeasure (uniformOn (Set.univ : Set (MorrisDraw D g q))) :=
    uniformOn_isProbabilityMeasure Set.finite_univ Set.univ_nonempty
  refine ⟨Measure.infinitePi fun _ : ℕ => uniformOn Set.univ, inferInstance, ?_, ?_, ?_⟩
  · exact fun i => measurable_pi_apply i
  · exact iIndepFun_infinitePi (X := fun _ ω => ω) fun _ => measurable_id
  · intro i d
    rw [← Measure.map_apply (measurable_pi_apply i) (MeasurableSet.singleton d)]
    have : Measure.map (fun ω : ℕ → MorrisDraw D g q => ω i) (Measure.infinitePi fun _ : ℕ => uniformOn Set.univ) =
      uniformOn Set.univ := Measure.infinitePi_map_eval _ i
    rw [this, uniformOn_univ]
    simp

/-- The hypotheses of C97 are met: three inputs with different bounds, the first and the third in one group, four levels. -/
example : MorrisSetting 3 2 { names := ["x", "y", "w"], bounds := [[0, 2], [1, 4], [-1, 1]], groups := some ["a", "b", "a"] }
    { names := ["x", "y", "w"], bounds := [[0, 2], [1, 4], [-1, 1]], groups := some ["a", "b", "a"] } (fun j => j % 2)
    ![0, 1, -1] ![2, 4, 1] where
  inputs := by omega
  numVars := rfl
  labels := rfl
  groups := by
    refine ⟨["a", "b"], ⟨by decide, by intro l; simp [effectiveLabels]; tauto, by simp [effectiveLabels]⟩, rfl, ?_⟩
    intro j l h
    match j, h with
    | 0, h => simpa [effectiveLabels] using h
    | 1, h => simpa [effectiveLabels] using h
    | 2, h => simpa [effectiveLabels] using h
    | j + 3, h => simp [effectiveLabels] at h
  bounds := by simp [boundsTable]
  uniform := rfl
  legal := by intro j; fin_cases j <;> simp <;> norm_num
  sameLabels := rfl
  sameVars := rfl

/-- With an odd number of levels the claim is not even about the grid: the step is not a multiple of the level distance. -/
theorem morris_odd_levels : ¬ ∃ k : Nat, (morrisDelta 3 : ℚ) = k / (3 - 1) := by
  rintro ⟨k, hk⟩
  have : (3 : ℚ) = 2 * k := by unfold morrisDelta at hk; push_cast at hk; linarith
  have : (3 : ℕ) = 2 * k := by exact_mod_cast this
  omega

end SALib
