import Verif.Model.MorrisAnalyze
import Verif.Lemmas.Stats
import Verif.Lemmas.MorrisOpt

/-! # Means of arrays with nan, grouped means -/

set_option linter.unusedSectionVars false

namespace SALib
open Spec

variable {α : Type} [Field α] [LinearOrder α] [IsStrictOrderedRing α]

theorem optMapM_id (l : List (Num α)) (l' : List α) : l.mapM id = some l' ↔ l = l'.map some := by
  induction l generalizing l' with
  | nil => cases l' <;> simp
  | cons a l ih =>
    rw [List.mapM_cons]
    cases a with
    | none => cases l' <;> simp
    | some a =>
      cases hl : l.mapM id with
      | none =>
        cases l' with
        | nil => simp [hl]
        | cons b l' =>
          have := (ih l').not.mp (by rw [hl]; simp)
          simp [hl, this]
      | some r =>
        cases l' with
        | nil => simp [hl]
        | cons b l' =>
          have := ih l'
          rw [hl] at this
          simp only [Option.some.injEq] at this
          simp [hl, this]

theorem npMeanN_some (l : List α) (h : l ≠ []) : npMeanN (l.map some) = some (l.sum / l.length) := by
  unfold npMeanN
  rw [(optMapM_id (l.map some) l).mpr rfl]
  exact npMean_some l h

theorem npMeanN_eq_some (l : List (Num α)) (m : α) (h : npMeanN l = some m) :
    ∃ l' : List α, l = l'.map some ∧ l' ≠ [] ∧ m = l'.sum / l'.length := by
  unfold npMeanN at h
  cases hl : l.mapM id with
  | none => rw [hl] at h; cases h
  | some l' =>
    rw [hl] at h
    simp only [Option.bind_eq_bind, Option.bind_some] at h
    refine ⟨l', (optMapM_id _ _).mp hl, ?_, ?_⟩
    · rintro rfl; rw [npMean_nil] at h; cases h
    · have hne : l' ≠ [] := by rintro rfl; rw [npMean_nil] at h; cases h
      rw [npMean_some l' hne] at h
      exact (Option.some.inj h).symm

theorem npMeanN_perm (l l' : List (Num α)) (h : l.Perm l') : npMeanN l = npMeanN l' := by
  cases hm : npMeanN l with
  | some m =>
    obtain ⟨k, rfl, hne, rfl⟩ := npMeanN_eq_some l m hm
    obtain ⟨k', hk, rfl⟩ : ∃ k' : List α, k'.Perm k ∧ l' = k'.map some := by
      have h' : Relation.Comp (fun x1 x2 => x1 = List.map some x2) List.Perm l' k := by
        rw [List.eq_map_comp_perm]; exact h.symm
      obtain ⟨k', h1, h2⟩ := h'
      exact ⟨k', h2, h1⟩
    rw [npMeanN_some k' (fun e => hne (by rw [e] at hk; exact hk.nil_eq.symm)), hk.sum_eq, hk.length_eq]
  | none =>
    cases hm' : npMeanN l' with
    | none => rfl
    | some m =>
      obtain ⟨k, rfl, hne, rfl⟩ := npMeanN_eq_some l' m hm'
      obtain ⟨k', hk, rfl⟩ : ∃ k' : List α, k'.Perm k ∧ l = k'.map some := by
        have h' : Relation.Comp (fun x1 x2 => x1 = List.map some x2) List.Perm l k := by
          rw [List.eq_map_comp_perm]; exact h
        obtain ⟨k', h1, h2⟩ := h'
        exact ⟨k', h2, h1⟩
      rw [npMeanN_some k' (fun e => hne (by rw [e] at hk; exact hk.nil_eq.symm))] at hm
      cases hm

theorem abs_sum_le (l : List α) : |l.sum| ≤ (l.map abs).sum := by
  induction l with
  | nil => simp
  | cons a l ih =>
    simp only [List.sum_cons, List.map_cons]
    exact (abs_add_le _ _).trans (by linarith)

theorem sum_nonneg_eq_zero (l : List α) (h : ∀ x ∈ l, 0 ≤ x) (hs : l.sum = 0) : ∀ x ∈ l, x = 0 := by
  induction l with
  | nil => simp
  | cons a l ih =>
    rw [List.sum_cons] at hs
    have h1 := h a (by simp)
    have h2 : 0 ≤ l.sum := List.sum_nonneg fun x hx => h x (by simp [hx])
    intro x hx
    rcases List.mem_cons.mp hx with rfl | hx
    · linarith
    · exact ih (fun x hx => h x (by simp [hx])) (by linarith) x hx

theorem length_pos_cast (l : List α) (h : l ≠ []) : (0 : α) < l.length := by
  exact_mod_cast List.length_pos_of_ne_nil h

/-- The mean of the absolute values dominates the absolute value of the mean. -/
theorem meanAbs (ee : List (Num α)) (m : α) (h : npMeanN ee = some m) :
    ∃ s, npMeanN (ee.map (Option.map abs)) = some s ∧ |m| ≤ s := by
  obtain ⟨l, rfl, hne, rfl⟩ := npMeanN_eq_some ee m h
  have e : (l.map some).map (Option.map abs) = (l.map abs).map some := by
    simp [List.map_map, Function.comp_def]
  have hpos := length_pos_cast l hne
  refine ⟨_, by rw [e]; exact npMeanN_some _ (by simpa using hne), ?_⟩
  rw [abs_div, abs_of_pos hpos, List.length_map]
  exact div_le_div_of_nonneg_right (abs_sum_le l) hpos.le

theorem meanAbs_nonneg (ee : List (Num α)) (s : α) (h : npMeanN (ee.map (Option.map abs)) = some s) :
    0 ≤ s ∧ (s = 0 → ∀ e ∈ ee, e = some 0) := by
  obtain ⟨l, hl, hne, rfl⟩ := npMeanN_eq_some _ s h
  have hpos := length_pos_cast l hne
  have hnn : ∀ x ∈ l, 0 ≤ x := by
    intro x hx
    have : some x ∈ ee.map (Option.map abs) := by rw [hl]; exact List.mem_map_of_mem hx
    obtain ⟨e, -, he⟩ := List.mem_map.mp this
    cases e with
    | none => cases he
    | some e =>
      simp only [Option.map_some, Option.some.injEq] at he
      rw [← he]; exact abs_nonneg e
  refine ⟨div_nonneg (List.sum_nonneg hnn) hpos.le, ?_⟩
  intro h0 e he
  have hs : l.sum = 0 := by
    rcases div_eq_zero_iff.mp h0 with h | h
    · exact h
    · exact absurd h hpos.ne'
  have hz := sum_nonneg_eq_zero l hnn hs
  have : Option.map abs e ∈ l.map some := by rw [← hl]; exact List.mem_map_of_mem he
  obtain ⟨x, hx, hxe⟩ := List.mem_map.mp this
  cases e with
  | none => cases hxe
  | some e =>
    simp only [Option.map_some, Option.some.injEq] at hxe
    rw [hz x hx] at hxe
    rw [abs_eq_zero.mp hxe.symm]

/-- Rows belonging to group `c`. -/
def groupRows {β : Type} (rows : List β) (G : Mat Nat) (c : Nat) : List β :=
  ((rows.zip G).filter fun mr => mr.2.getD c 0 != 0).map Prod.fst

theorem groupRows_map {β γ : Type} (f : β → γ) (rows : List β) (G : Mat Nat) (c : Nat) :
    groupRows (rows.map f) G c = (groupRows rows G c).map f := by
  induction rows generalizing G with
  | nil => simp [groupRows]
  | cons r rows ih =>
    cases G with
    | nil => simp [groupRows]
    | cons row G =>
      have := ih G
      unfold groupRows at this ⊢
      simp only [List.map_cons, List.zip_cons_cons, List.filter_cons]
      split
      · simp only [List.map_cons, this]
      · exact this

theorem mem_groupRows {β : Type} (rows : List β) (G : Mat Nat) (c j : Nat) (r : β) (hr : rows[j]? = some r)
    (hG : entry G j c = some 1) : r ∈ groupRows rows G c := by
  unfold groupRows
  unfold entry at hG
  cases hg : G[j]? with
  | none => rw [hg] at hG; cases hG
  | some row =>
    rw [hg, Option.bind_some] at hG
    rw [List.mem_map]
    refine ⟨(r, row), ?_, rfl⟩
    rw [List.mem_filter]
    refine ⟨List.mem_iff_getElem?.mpr ⟨j, by rw [List.getElem?_zip_eq_some]; exact ⟨hr, hg⟩⟩, ?_⟩
    simp [List.getD_eq_getElem?_getD, hG]

theorem groupedMetric_ok (metric : List (Num α)) (G : Mat Nat) (g : Nat) (r : List (Num α))
    (h : groupedMetric metric G g = .ok r) :
    metric.length = G.length ∧ r = (List.range g).map fun c => npMeanN (groupRows metric G c) := by
  unfold groupedMetric at h
  split at h
  · cases h
  · rename_i hl
    cases h
    exact ⟨not_not.mp hl, rfl⟩

/-- The result of the statistics step, component by component. -/
theorem statisticalOutputs_eq (sqrt : α → α) (z conf : α) (resample : Nat → List (List Nat))
    (EE : Mat (Num α)) (numVars : Nat) (G : Mat Nat) (names : List String) (res : MorrisResult α)
    (h : statisticalOutputs sqrt z conf resample EE numVars G names = .ok res) :
    EE.length = G.length ∧ res.names = names ∧
    res.mu = (List.range names.length).map (fun c => npMeanN ((groupRows EE G c).map npMeanN)) ∧
    res.muStar = (List.range names.length).map (fun c =>
      npMeanN ((groupRows EE G c).map fun ee => npMeanN (ee.map (Option.map abs)))) ∧
    res.sigma = (List.range names.length).map (fun c =>
      if (G.map (·.getD c 0)).sum = 1 then npMeanN ((groupRows EE G c).map (npStd1N sqrt)) else none) := by
  unfold statisticalOutputs at h
  cases hmc : muStarConf sqrt z conf resample EE numVars with
  | error e => simp only [hmc, pyBind_error] at h; cases h
  | ok mc =>
    simp only [hmc, pyBind_ok] at h
    cases h1 : groupedMetric (EE.map npMeanN) G names.length with
    | error e => simp only [h1, pyBind_error] at h; cases h
    | ok mu =>
      simp only [h1, pyBind_ok] at h
      cases h2 : groupedMetric (EE.map fun ee => npMeanN (ee.map (Option.map abs))) G names.length with
      | error e => simp only [h2, pyBind_error] at h; cases h
      | ok ms =>
        simp only [h2, pyBind_ok] at h
        cases h3 : groupedSigma (EE.map (npStd1N sqrt)) G names.length with
        | error e => simp only [h3, pyBind_error] at h; cases h
        | ok sg =>
          simp only [h3, pyBind_ok] at h
          cases h4 : groupedMetric mc G names.length with
          | error e => simp only [h4, pyBind_error] at h; cases h
          | ok cf =>
            simp only [h4, pyBind_ok, pyPure] at h
            cases h
            obtain ⟨a1, a2⟩ := groupedMetric_ok _ _ _ _ h1
            obtain ⟨b1, b2⟩ := groupedMetric_ok _ _ _ _ h2
            refine ⟨by simpa using a1, rfl, ?_, ?_, ?_⟩
            · rw [a2]; simp only [groupRows_map]
            · rw [b2]; simp only [groupRows_map]
            · unfold groupedSigma at h3
              cases h5 : groupedMetric (EE.map (npStd1N sqrt)) G names.length with
              | error e => simp only [h5, pyBind_error] at h3; cases h3
              | ok agg =>
                simp only [h5, pyBind_ok, pyPure] at h3
                cases h3
                obtain ⟨c1, c2⟩ := groupedMetric_ok _ _ _ _ h5
                apply List.map_congr_left
                intro c hc
                rw [List.mem_range] at hc
                rw [c2]
                simp [List.getD_eq_getElem?_getD, hc, groupRows_map]

end SALib
