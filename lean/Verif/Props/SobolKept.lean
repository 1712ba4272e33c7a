import Verif.Props.SobolIndices
import Verif.Props.MorrisEndToEnd

/-! # C14: the kept resamples of the Sobol analysis and the confidence widths -/

set_option linter.unusedSectionVars false

namespace SALib

variable {α : Type} [Field α] [LinearOrder α] [IsStrictOrderedRing α]

theorem column_conf (sqrt : α → α) (h0 : sqrt 0 = 0) (Z : α) (A B : List (List α)) (e : Est α) (R : Nat) (hR : 2 ≤ R)
    (hz : ptpZero2 A B = true → e = .scalarZero) (hv : ptpZero2 A B = false → ∃ vs, e = .vec vs ∧ vs.length = R) :
    (e.column R).length = R ∧
      (if ptpZero2 A B then some 0 else scaleNum Z (e.std1 sqrt)) = scaleNum Z (npStd1N sqrt (e.column R)) := by
  cases hp : ptpZero2 A B with
  | true =>
    rw [hz hp]
    refine ⟨by simp [Est.column], ?_⟩
    rw [if_pos rfl]
    simp only [Est.column]
    rw [npStd1N_const sqrt _ 0 (by simpa using hR) fun x hx => (List.mem_replicate.mp hx).2, h0]
    simp [scaleNum]
  | false =>
    obtain ⟨vs, rfl, hl⟩ := hv hp
    exact ⟨hl, by rw [if_neg (by simp)]; rfl⟩

/-- **C14**, kept resamples.  A serial analysis that keeps its resamples reports, for every parameter, one value per
resample, and the confidence value is `Z` times the standard deviation (`ddof=1`) of these values; also when the
resampled outputs are all equal (all 0), and when the normalisation gave nan. -/
theorem C14_kept (sqrt normPpf : α → α) (h0 : sqrt 0 = 0) (pb : Problem α) (Y : List α) (second : Bool) (conf : α)
    (r : List (List Nat)) (hr : 2 ≤ r.length) (res : SobolResult α)
    (h : sobolAnalyze sqrt normPpf pb Y second conf r true .serial = .ok res) :
    ∃ c1 ct : List (List (Num α)), res.S1all = some c1 ∧ res.STall = some ct ∧
      c1.length = (extractGroupNames pb).2 ∧ ct.length = (extractGroupNames pb).2 ∧
      (∀ c ∈ c1 ++ ct, c.length = r.length) ∧
      res.S1conf = c1.map (fun c => scaleNum (normPpf (1 / 2 + conf / 2)) (npStd1N sqrt c)) ∧
      res.STconf = ct.map (fun c => scaleNum (normPpf (1 / 2 + conf / 2)) (npStd1N sqrt c)) := by
  unfold sobolAnalyze at h
  cases hc : sobolCheck pb Y.length second conf with
  | error e => rw [hc] at h; cases h
  | ok DN =>
    obtain ⟨D, N⟩ := DN
    have hD : D = (extractGroupNames pb).2 := by
      unfold sobolCheck at hc
      simp only [] at hc
      split at hc
      · cases hc
      · split at hc
        · cases hc; rfl
        · split at hc
          · cases hc; rfl
          · cases hc
    rw [hc] at h
    simp only [pyBind_ok] at h
    by_cases h0' : N = 0 ∨ r.length = 0
    · rw [if_pos h0'] at h; cases h
    · rw [if_neg h0'] at h
      cases hn : normalise sqrt Y with
      | none =>
        rw [hn] at h
        cases h
        have hnan : npStd1N sqrt (List.replicate r.length none) = none := by
          unfold npStd1N
          have : (List.replicate r.length (none : Num α)).mapM id = none := by
            obtain ⟨k, hk⟩ := Nat.exists_eq_succ_of_ne_zero (by omega : r.length ≠ 0)
            rw [hk, List.replicate_succ, List.mapM_cons]
            rfl
          rw [this]
          rfl
        refine ⟨_, _, rfl, rfl, by simp [hD], by simp [hD], ?_, ?_, ?_⟩
        · intro c hc
          rcases List.mem_append.mp hc with h | h <;> rw [(List.mem_replicate.mp h).2] <;> simp
        all_goals
          rw [List.map_replicate, hnan]
          rfl
      | some Y' =>
        rw [hn] at h
        simp only at h
        cases hs : separateOutputValues Y' D N second with
        | error e => rw [hs] at h; cases h
        | ok s =>
          rw [hs] at h
          cases h
          have hres : ∀ X : List α, (resample X r).length = r.length := fun X => by simp [resample]
          have key1 : ∀ j, _ := fun j => column_conf sqrt h0 (normPpf (1 / 2 + conf / 2)) (resample s.A r) (resample s.B r)
            (firstOrderR (resample s.A r) (resample (s.AB.getD j []) r) (resample s.B r)) r.length hr
            (fun hp => by unfold firstOrderR; rw [if_pos hp])
            (fun hp => by
              unfold firstOrderR
              rw [if_neg (by simp [hp])]
              exact ⟨_, rfl, by simp [hres]⟩)
          have keyT : ∀ j, _ := fun j => column_conf sqrt h0 (normPpf (1 / 2 + conf / 2)) (resample s.A r) (resample s.B r)
            (totalOrderR (resample s.A r) (resample (s.AB.getD j []) r) (resample s.B r)) r.length hr
            (fun hp => by unfold totalOrderR; rw [if_pos hp])
            (fun hp => by
              unfold totalOrderR
              rw [if_neg (by simp [hp])]
              exact ⟨_, rfl, by simp [hres]⟩)
          refine ⟨_, _, rfl, rfl, by simp [hD], by simp [hD], ?_, ?_, ?_⟩
          · intro c hc
            rcases List.mem_append.mp hc with h | h
            · obtain ⟨j, -, rfl⟩ := List.mem_map.mp h
              exact (key1 j).1
            · obtain ⟨j, -, rfl⟩ := List.mem_map.mp h
              exact (keyT j).1
          · rw [List.map_map]
            exact List.map_congr_left fun j _ => (key1 j).2
          · rw [List.map_map]
            exact List.map_congr_left fun j _ => (keyT j).2

/-- Two resamples that pick equal outputs of A and B: kept values 0. -/
example : (sobolAnalyze id id ({ names := ["x"], bounds := [[0, 1]] } : Problem ℚ) [1, 2, 1, 5, 7, 0] false (19 / 20)
    [[0, 0], [0, 0]] true .serial).map (fun res => (res.S1all, res.S1conf)) = .ok (some [[some 0, some 0]], [some 0]) := by
  decide +kernel

theorem resample_getElem (X : List α) (r : List (List Nat)) (t : Nat) (col : List Nat) (ht : r[t]? = some col) :
    (resample X r)[t]? = some (col.filterMap (X[·]?)) := by
  unfold resample
  rw [List.getElem?_map, ht]
  rfl

theorem zipWith_zip_at {β γ δ ε : Type} (f : β → γ × δ → ε) (a : List β) (b : List γ) (c : List δ) (t : Nat) (x : β) (y : γ)
    (z : δ) (ha : a[t]? = some x) (hb : b[t]? = some y) (hc : c[t]? = some z) :
    (List.zipWith f a (b.zip c))[t]? = some (f x (y, z)) := by
  have hbc : (b.zip c)[t]? = some (y, z) := by rw [List.getElem?_zip_eq_some]; exact ⟨hb, hc⟩
  rw [List.getElem?_zipWith, ha, hbc]

theorem ratio_const (l : List α) (hl : l ≠ []) (hc : ptpZero l = true) (m : Num α) (f : α → α) :
    (do let m ← m; let v ← npVar l; npDiv (f m) v) = none := by
  obtain ⟨c, hc⟩ := (ptpZero_iff l hl).mp hc
  cases m with
  | none => rfl
  | some m =>
    rw [npVar_const l hl c hc]
    simp [npDiv]

/-- **C14**, the resampled estimates.  When the resampled outputs of A and B are not all equal, entry `t` of the
resampled estimates is the estimate on the rows of resample `t`; it is nan when the outputs of A and B in this resample
are all equal, though the estimator by itself would give 0. -/
theorem C14_resampled (A AB AB' BA B : List α) (r : List (List Nat)) (t : Nat) (col : List Nat) (ht : r[t]? = some col)
    (hcol : ∃ i ∈ col, i < A.length) (hvary : ptpZero2 (resample A r) (resample B r) = false)
    (pick : List α → List α) (hpick : ∀ X, pick X = col.filterMap (X[·]?)) :
    ∃ v1 vt v2, firstOrderR (resample A r) (resample AB r) (resample B r) = .vec v1 ∧
      totalOrderR (resample A r) (resample AB r) (resample B r) = .vec vt ∧
      secondOrderR (resample A r) (resample AB r) (resample AB' r) (resample BA r) (resample B r) = .vec v2 ∧
      ((∃ x ∈ pick A ++ pick B, ∃ y ∈ pick A ++ pick B, x ≠ y) →
        v1[t]? = some (firstOrder (pick A) (pick AB) (pick B)) ∧ vt[t]? = some (totalOrder (pick A) (pick AB) (pick B)) ∧
        v2[t]? = some (secondOrder (pick A) (pick AB) (pick AB') (pick BA) (pick B))) ∧
      ((∀ x ∈ pick A ++ pick B, ∀ y ∈ pick A ++ pick B, x = y) → v1[t]? = some none ∧ vt[t]? = some none ∧ v2[t]? = some none) := by
  have hat : ∀ X, (resample X r)[t]? = some (pick X) := fun X => by rw [hpick]; exact resample_getElem X r t col ht
  have hne : pick A ++ pick B ≠ [] := by
    obtain ⟨i, hi, hlt⟩ := hcol
    have : A[i] ∈ pick A := by
      rw [hpick, List.mem_filterMap]
      exact ⟨i, hi, List.getElem?_eq_getElem hlt⟩
    intro h
    rw [(List.append_eq_nil_iff.mp h).1] at this
    cases this
  have e1 : ∀ C, firstOrderR (resample A r) (resample C r) (resample B r) = _ := fun C => by
    unfold firstOrderR; rw [if_neg (by simp [hvary])]
  have et : ∀ C, totalOrderR (resample A r) (resample C r) (resample B r) = _ := fun C => by
    unfold totalOrderR; rw [if_neg (by simp [hvary])]
  have e2 : ∀ C, secondOrderR (resample A r) (resample AB r) (resample AB' r) (resample C r) (resample B r) = _ := fun C => by
    unfold secondOrderR; rw [if_neg (by simp [hvary]), e1, e1]
  have z1 : ((resample BA r).zip (resample AB' r))[t]? = some (pick BA, pick AB') :=
    List.getElem?_zip_eq_some.mpr ⟨hat BA, hat AB'⟩
  have z2 : ((resample A r).zip (resample B r))[t]? = some (pick A, pick B) := List.getElem?_zip_eq_some.mpr ⟨hat A, hat B⟩
  refine ⟨_, _, _, e1 AB, et AB, e2 BA, ?_, ?_⟩
  · rintro ⟨x, hx, y, hy, hxy⟩
    have hp : ptpZero (pick A ++ pick B) = false := by
      by_contra hcon
      obtain ⟨c, hc⟩ := (ptpZero_iff _ hne).mp (by simpa using hcon)
      exact hxy ((hc x hx).trans (hc y hy).symm)
    have f1 : ∀ C, firstOrder (pick A) (pick C) (pick B) = _ := fun C => by
      unfold firstOrder; simp only []; rw [if_neg (by simp [hp])]
    refine ⟨?_, ?_, ?_⟩
    · rw [f1]; exact zipWith_zip_at _ _ _ _ t _ _ _ (hat A) (hat AB) (hat B)
    · unfold totalOrder
      simp only []
      rw [if_neg (by simp [hp])]
      exact zipWith_zip_at _ _ _ _ t _ _ _ (hat A) (hat AB) (hat B)
    · unfold secondOrder
      simp only []
      rw [if_neg (by simp [hp]), f1, f1, List.getElem?_zipWith, List.getElem?_zipWith, List.getElem?_zipWith,
        zipWith_zip_at _ _ _ _ t _ _ _ (hat A) (hat AB) (hat B), zipWith_zip_at _ _ _ _ t _ _ _ (hat A) (hat AB') (hat B), z1, z2]
      simp only [Option.bind_eq_bind, Option.bind_assoc, Option.pure_def, Option.bind_some]
  · intro hall
    have hp : ptpZero (pick A ++ pick B) = true := by
      obtain ⟨x, hx⟩ := List.exists_mem_of_ne_nil _ hne
      exact (ptpZero_iff _ hne).mpr ⟨x, fun y hy => hall y hy x hx⟩
    refine ⟨?_, ?_, ?_⟩
    · rw [zipWith_zip_at _ _ _ _ t _ _ _ (hat A) (hat AB) (hat B)]
      exact congrArg some (ratio_const _ hne hp _ id)
    · rw [zipWith_zip_at _ _ _ _ t _ _ _ (hat A) (hat AB) (hat B)]
      exact congrArg some (ratio_const _ hne hp _ fun m => 1 / 2 * m)
    · rw [List.getElem?_zipWith, List.getElem?_zipWith, List.getElem?_zipWith,
        zipWith_zip_at _ _ _ _ t _ _ _ (hat A) (hat AB) (hat B), zipWith_zip_at _ _ _ _ t _ _ _ (hat A) (hat AB') (hat B), z1, z2]
      have := ratio_const _ hne hp (npMean (List.zipWith (fun s t => s - t) (List.zipWith (· * ·) (pick BA) (pick AB'))
        (List.zipWith (· * ·) (pick A) (pick B)))) id
      simp only [id] at this
      simp only []
      rw [this]
      rfl

/-- Two resamples, the second one constant: kept values `1/2` of the total order and nan. -/
example : totalOrderR (resample [(1 : ℚ), 3] [[0, 1], [0, 0]]) (resample [1, 1] [[0, 1], [0, 0]]) (resample [1, 3] [[0, 1], [0, 0]]) =
    .vec [some 1, none] := by decide +kernel

end SALib
