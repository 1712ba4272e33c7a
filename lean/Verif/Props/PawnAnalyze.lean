import Verif.Props.Pawn
import Verif.Lemmas.Groups

/-! # PAWN: the whole analysis (C53, C75) -/

set_option linter.unusedSectionVars false

namespace SALib

variable {α : Type} [Field α] [LinearOrder α] [IsStrictOrderedRing α]

/-- **C53**, the reported table (one row per parameter, or per group): when no input column is constant, every
row has minimum ≤ mean ≤ maximum and minimum ≤ median ≤ maximum, all within [0,1]. -/
theorem C53_ordered (sqrt : α → α) (hsq : ∀ x, 0 ≤ sqrt x) (pb : Problem α) (X : Mat α) (Y : List α) (S : Nat)
    (hvar : ∀ d < pb.numVars, ∃ r ∈ X, ∃ r' ∈ X, ∃ a b, r[d]? = some a ∧ r'[d]? = some b ∧ a < b)
    (rows : List (PawnRow α)) (names : List String) (h : pawnAnalyze sqrt pb X Y S = .ok (rows, names)) :
    ∀ r ∈ rows, Spec.PawnOrdered r := by
  unfold pawnAnalyze at h
  by_cases hS : S = 0
  · rw [if_pos hS] at h; cases h
  rw [if_neg hS] at h
  cases hp : pawnParams sqrt pb X Y S with
  | error e => rw [hp] at h; cases h
  | ok res =>
    rw [hp] at h
    simp only [pyBind_ok] at h
    obtain ⟨hlen, hrow⟩ := C53_params sqrt hsq pb X Y S (by omega) res hp
    have hres : ∀ r ∈ res, Spec.PawnOrdered r := by
      intro r hr
      obtain ⟨d, hd, rfl⟩ := List.mem_iff_getElem.mp hr
      obtain ⟨col, hcol, ho, -⟩ := hrow d _ (List.getElem?_eq_getElem hd)
      apply ho
      obtain ⟨r1, h1, r2, h2, a, b, ha, hb, hab⟩ := hvar d (by rw [← hlen]; exact hd)
      have hin : ∀ r ∈ X, ∀ v, r[d]? = some v → v ∈ col := by
        clear h1 h2 ha hb ho hrow hp hvar h
        induction hcol with
        | nil => simp
        | cons hv _ ih =>
          intro r hr v hrv
          rcases List.mem_cons.mp hr with rfl | hr
          · rw [hv] at hrv; cases hrv; simp
          · exact List.mem_cons_of_mem _ (ih r hr v hrv)
      exact ⟨a, hin r1 h1 a ha, b, hin r2 h2 b hb, hab⟩
    cases hg : checkGroups pb with
    | none =>
      rw [hg] at h
      cases h
      exact hres
    | some grps =>
      rw [hg] at h
      simp only [] at h
      by_cases hl : grps.length ≠ res.length
      · rw [if_pos hl] at h; cases h
      · rw [if_neg hl] at h
        have hl : grps.length = res.length := not_not.mp hl
        cases h
        intro r hr
        obtain ⟨g, hgm, rfl⟩ := List.mem_map.mp hr
        have hgg : g ∈ grps := by
          have hgr : pb.groups = some grps := by
            unfold checkGroups at hg
            split at hg
            · cases hg
            · cases hg
            · rename_i gs hgs
              split at hg
              · cases hg
              · split at hg
                · cases hg
                · cases hg; assumption
          unfold extractGroupNames at hgm
          rw [hgr] at hgm
          cases grps with
          | nil =>
            unfold checkGroups at hg
            rw [hgr] at hg
            cases hg
          | cons a l =>
            exact (mem_pdUnique _ _).mp hgm
        apply pawnGroupRow_ordered
        · obtain ⟨i, hi, rfl⟩ := List.mem_iff_getElem.mp hgg
          apply List.ne_nil_of_mem (a := res[i]'(by rw [← hl]; exact hi))
          refine List.mem_map.mpr ⟨(res[i]'(by rw [← hl]; exact hi), grps[i]), ?_, rfl⟩
          rw [List.mem_filter]
          refine ⟨?_, by simp⟩
          rw [List.mem_iff_getElem]
          exact ⟨i, by simp [hl]; rw [← hl]; exact hi, by simp⟩
        · intro r hr
          obtain ⟨p, hp', rfl⟩ := List.mem_map.mp hr
          exact hres _ (List.of_mem_zip (List.mem_filter.mp hp').1).1

/-! ### C75: what PAWN does not depend on -/

theorem ecdf_mono (l : List α) (φ : α → α) (z : α) (h : ∀ x ∈ l, (φ x ≤ φ z ↔ x ≤ z)) :
    ecdf (l.map φ) (φ z) = ecdf l z := by
  unfold ecdf
  rw [List.length_map, List.filter_map, List.length_map]
  congr 3
  apply List.filter_congr
  intro x hx
  simp [h x hx]

/-- The statistic depends only on the order of the data. -/
theorem ksStat_mono (a b : List α) (φ : α → α)
    (h : ∀ x ∈ a ++ b, ∀ z ∈ a ++ b, x < z → φ x < φ z) : ksStat (a.map φ) (b.map φ) = ksStat a b := by
  have hle : ∀ x ∈ a ++ b, ∀ z ∈ a ++ b, (φ x ≤ φ z ↔ x ≤ z) := by
    intro x hx z hz
    constructor
    · intro h1
      by_contra hlt
      exact absurd h1 (not_le.mpr (h z hz x hx (not_le.mp hlt)))
    · intro h1
      rcases h1.lt_or_eq with h1 | h1
      · exact (h x hx z hz h1).le
      · rw [h1]
  unfold ksStat
  rw [← List.map_append, List.map_map]
  congr 1
  apply List.map_congr_left
  intro z hz
  simp only [Function.comp]
  rw [ecdf_mono a φ z fun x hx => hle x (List.mem_append_left _ hx) z hz,
    ecdf_mono b φ z fun x hx => hle x (List.mem_append_right _ hx) z hz]

theorem pawnColumn_output (X Y : List α) (S : Nat) (hlen : Y.length = X.length) (φ : α → α)
    (h : ∀ x ∈ Y, ∀ z ∈ Y, x < z → φ x < φ z) : pawnColumn X (Y.map φ) S = pawnColumn X Y S := by
  unfold pawnColumn
  apply List.map_congr_left
  intro s _
  simp only []
  have hsel : (pawnSlice (pawnEdges X S) X s).map (fun i => (Y.map φ).getD i 0) =
      ((pawnSlice (pawnEdges X S) X s).map fun i => Y.getD i 0).map φ ∧
      ∀ y ∈ (pawnSlice (pawnEdges X S) X s).map (fun i => Y.getD i 0), y ∈ Y := by
    have hi : ∀ i ∈ pawnSlice (pawnEdges X S) X s, i < Y.length := by
      intro i hi
      obtain ⟨x, hx, -⟩ := (mem_whereIdx _ _ _).mp hi
      rw [hlen]
      exact (List.getElem?_eq_some_iff.mp hx).1
    constructor
    · rw [List.map_map]
      apply List.map_congr_left
      intro i him
      have := hi i him
      simp [List.getD, this]
    · intro y hy
      obtain ⟨i, him, rfl⟩ := List.mem_map.mp hy
      rw [List.getD, List.getElem?_eq_getElem (hi i him)]
      exact List.getElem_mem _
  rw [hsel.1, List.length_map]
  rw [ksStat_mono]
  intro x hx z hz
  have hmem : ∀ x ∈ (pawnSlice (pawnEdges X S) X s).map (fun i => Y.getD i 0) ++ Y, x ∈ Y := by
    intro x hx
    rcases List.mem_append.mp hx with hx | hx
    · exact hsel.2 x hx
    · exact hx
  exact h x (hmem x hx) z (hmem z hz)

/-- **C75**, output: any transformation of the output that keeps the order leaves the PAWN table unchanged. -/
theorem C75_output (sqrt : α → α) (pb : Problem α) (X : Mat α) (Y : List α) (S : Nat) (φ : α → α)
    (h : ∀ x ∈ Y, ∀ z ∈ Y, x < z → φ x < φ z) :
    pawnAnalyze sqrt pb X (Y.map φ) S = pawnAnalyze sqrt pb X Y S := by
  have hp : pawnParams sqrt pb X (Y.map φ) S = pawnParams sqrt pb X Y S := by
    unfold pawnParams
    congr 1
    funext d
    cases hc : inputColumn X d with
    | error e => rfl
    | ok col =>
      have hcl : col.length = X.length := ((mapM_ok_iff _ _ _).mp hc).length_eq.symm
      simp only [pyBind_ok, List.length_map]
      by_cases hl : Y.length ≠ X.length
      · rw [if_pos hl, if_pos hl]
      · rw [if_neg hl, if_neg hl, pawnColumn_output col Y S (by rw [hcl]; exact not_not.mp hl) φ h]
  unfold pawnAnalyze
  rw [hp]

theorem npSort_affine (l : List α) (a b : α) (ha : 0 < a) :
    npSort (l.map fun x => a * x + b) = (npSort l).map fun x => a * x + b := by
  unfold npSort
  rw [List.map_insertionSort (r := (· ≤ ·)) (s := (· ≤ ·))]
  intro x _ y _
  simp [mul_le_mul_iff_right₀ ha]

theorem npQuantile_affine (l : List α) (hl : l ≠ []) (a b : α) (ha : 0 < a) (s S : Nat) (hs : s ≤ S) :
    npQuantile (l.map fun x => a * x + b) s S = a * npQuantile l s S + b := by
  have hpos := List.length_pos_iff.mpr hl
  have hsorted : ∀ k, sortedAt (l.map fun x => a * x + b) k = a * sortedAt l k + b := by
    intro k
    unfold sortedAt
    rw [npSort_affine l a b ha, List.length_map]
    have hk : min k (l.length - 1) < (npSort l).length := by rw [npSort_length]; omega
    simp only [List.getD, List.getElem?_map, List.getElem?_eq_getElem hk, Option.map_some, Option.getD_some]
  rw [npQuantile_eq _ (by simpa using hl) s S hs, npQuantile_eq l hl s S hs, List.length_map, hsorted, hsorted]
  ring

theorem pawnColumn_input (X Y : List α) (S : Nat) (a b : α) (ha : 0 < a) :
    pawnColumn (X.map fun x => a * x + b) Y S = pawnColumn X Y S := by
  by_cases hX : X = []
  · subst hX
    unfold pawnColumn
    apply List.map_congr_left
    intro s _
    simp [pawnSlice, whereIdx]
  unfold pawnColumn
  apply List.map_congr_left
  intro s hs
  have hs := List.mem_range.mp hs
  have hslice : pawnSlice (pawnEdges (X.map fun x => a * x + b) S) (X.map fun x => a * x + b) s =
      pawnSlice (pawnEdges X S) X s := by
    unfold pawnSlice whereIdx
    rw [List.length_map]
    apply List.filter_congr
    intro i hi
    have hi := List.mem_range.mp hi
    rw [pawnEdges_getD _ S s (by omega), pawnEdges_getD _ S (s + 1) (by omega), pawnEdges_getD _ S s (by omega),
      pawnEdges_getD _ S (s + 1) (by omega), npQuantile_affine X hX a b ha s S (by omega),
      npQuantile_affine X hX a b ha (s + 1) S (by omega)]
    have hx : (X.map fun x => a * x + b).getD i 0 = a * X.getD i 0 + b := by
      simp [List.getD, hi]
    rw [hx]
    simp [mul_le_mul_iff_right₀ ha, mul_lt_mul_iff_right₀ ha]
  rw [hslice]

/-- **C75**, inputs: changing the units of the inputs (`x ↦ a_d·x + b_d` with `a_d > 0` in column `d`) leaves the
PAWN table unchanged. -/
theorem C75_inputs (sqrt : α → α) (pb : Problem α) (X : Mat α) (Y : List α) (S : Nat) (a b : Nat → α)
    (ha : ∀ d, 0 < a d) :
    pawnAnalyze sqrt pb (X.map fun row => row.mapIdx fun d x => a d * x + b d) Y S = pawnAnalyze sqrt pb X Y S := by
  have hcol : ∀ d, inputColumn (X.map fun row => row.mapIdx fun d x => a d * x + b d) d =
      (inputColumn X d).map fun col => col.map fun x => a d * x + b d := by
    intro d
    unfold inputColumn
    induction X with
    | nil => rfl
    | cons row X ih =>
      rw [List.map_cons, List.mapM_cons, List.mapM_cons, ih]
      cases hr : row[d]? with
      | none => simp [pyGet, hr]; rfl
      | some v =>
        have h1 : pyGet (row.mapIdx fun d x => a d * x + b d) d = .ok (a d * v + b d) := by
          simp [pyGet, hr]
        have h2 : pyGet row d = .ok v := by simp [pyGet, hr]
        rw [h1, h2]
        simp only [pyBind_ok]
        cases X.mapM fun row => pyGet row d with
        | error e => rfl
        | ok l => rfl
  have hp : pawnParams sqrt pb (X.map fun row => row.mapIdx fun d x => a d * x + b d) Y S =
      pawnParams sqrt pb X Y S := by
    unfold pawnParams
    congr 1
    funext d
    rw [hcol]
    cases hc : inputColumn X d with
    | error e => rfl
    | ok col =>
      simp only [Except.map, pyBind_ok, List.length_map, pawnColumn_input col Y S (a d) (b d) (ha d)]
  unfold pawnAnalyze
  rw [hp]

/-! ### Order of the samples -/

theorem whereIdx_zip (X Y : List α) (hlen : Y.length = X.length) (p : α → Bool) :
    (whereIdx X p).map (fun i => Y.getD i 0) = ((X.zip Y).filter fun q => p q.1).map (·.2) := by
  unfold whereIdx
  induction X using List.reverseRecOn generalizing Y with
  | nil => simp
  | append_singleton X a ih =>
    rcases List.eq_nil_or_concat Y with rfl | ⟨Y', y, rfl⟩
    · simp at hlen
    · have hl : Y'.length = X.length := by simpa using hlen
      rw [List.concat_eq_append] at *
      rw [List.zip_append hl.symm, List.filter_append, List.map_append, ← ih Y' hl, List.length_append,
        List.length_singleton, List.range_succ, List.filter_append, List.map_append]
      congr 1
      · have e : (List.range X.length).filter (fun i => p ((X ++ [a]).getD i 0)) =
            (List.range X.length).filter fun i => p (X.getD i 0) := by
          apply List.filter_congr
          intro i hi
          rw [List.getD, List.getElem?_append_left (List.mem_range.mp hi), List.getD]
        rw [e]
        apply List.map_congr_left
        intro i hi
        have := List.mem_range.mp (List.mem_filter.mp hi).1
        rw [List.getD, List.getElem?_append_left (by omega), List.getD]
      · by_cases h : p a <;> simp [List.filter_cons, h, hl]

theorem ksStat_perm (a a' b b' : List α) (h1 : a.Perm a') (h2 : b.Perm b') : ksStat a b = ksStat a' b' := by
  unfold ksStat
  have he : ∀ z, ecdf a z = ecdf a' z ∧ ecdf b z = ecdf b' z := by
    intro z
    unfold ecdf
    rw [(h1.filter _).length_eq, h1.length_eq, (h2.filter _).length_eq, h2.length_eq]
    exact ⟨rfl, rfl⟩
  simp only [fun z => (he z).1, fun z => (he z).2]
  apply List.Perm.foldl_eq' ((h1.append h2).map _)
  intro x _ y _ z
  rw [max_assoc, max_comm x, ← max_assoc]

theorem npSort_of_perm (l l' : List α) (h : l.Perm l') : npSort l = npSort l' :=
  ((npSort_perm l).trans (h.trans (npSort_perm l').symm)).eq_of_pairwise
    (fun _ _ _ _ h1 h2 => le_antisymm h1 h2) (npSort_sorted l) (npSort_sorted l')

/-- **C75**, samples: shuffling the rows of inputs and outputs together leaves the statistics of a parameter
unchanged. -/
theorem C75_order (X Y X' Y' : List α) (hlen : Y.length = X.length) (hlen' : Y'.length = X'.length)
    (h : (X'.zip Y').Perm (X.zip Y)) (S : Nat) : pawnColumn X' Y' S = pawnColumn X Y S := by
  have hX : X'.Perm X := by
    have := h.map Prod.fst
    rwa [List.map_fst_zip hlen'.symm.le, List.map_fst_zip hlen.symm.le] at this
  have hY : Y'.Perm Y := by
    have := h.map Prod.snd
    rwa [List.map_snd_zip hlen'.le, List.map_snd_zip hlen.le] at this
  have hq : pawnEdges X' S = pawnEdges X S := by
    unfold pawnEdges npQuantile
    rw [npSort_of_perm X' X hX, hX.length_eq]
  unfold pawnColumn
  apply List.map_congr_left
  intro s _
  simp only []
  unfold pawnSlice
  rw [whereIdx_zip X' Y' hlen', whereIdx_zip X Y hlen, hq]
  have hp := (h.filter fun q => (decide ((pawnEdges X S).getD s 0 ≤ q.1) &&
    decide (q.1 < (pawnEdges X S).getD (s + 1) 0))).map (·.2)
  rw [hp.length_eq, ksStat_perm _ _ _ _ hp hY]

/-- Two parameters, two slices; then three parameters in two groups. -/
example : pawnAnalyze id (⟨["a", "b"], [], none, none, 2, false⟩ : Problem ℚ)
      [[0, 3], [1, 1], [2, 4], [3, 2]] [5, 6, 8, 7] 2 =
    .ok ([⟨some (1 / 2), some (5 / 8), some (5 / 8), some (3 / 4), some (1 / 40), some (1 / 64)⟩,
      ⟨some (1 / 4), some (1 / 2), some (1 / 2), some (3 / 4), some (1 / 8), some (1 / 16)⟩], ["a", "b"]) := by
  decide +kernel

example : pawnAnalyze id (⟨["a", "b", "c"], [], some ["g", "h", "g"], none, 3, false⟩ : Problem ℚ)
      [[0, 3, 1], [1, 1, 1], [2, 4, 2], [3, 2, 7]] [5, 6, 8, 7] 2 =
    .ok ([⟨some (1 / 2), some (5 / 8), some (5 / 8), some (3 / 4), some (1 / 40), some (1 / 64)⟩,
      ⟨some (1 / 4), some (1 / 2), some (1 / 2), some (3 / 4), some (1 / 8), some (1 / 16)⟩], ["g", "h"]) := by
  decide +kernel

/-- The hypotheses of `C53_ordered` on that design, and of `C75_output`, `C75_order`. -/
example : ∀ d < 2, ∃ r ∈ ([[0, 3], [1, 1], [2, 4], [3, 2]] : Mat ℚ), ∃ r' ∈ ([[0, 3], [1, 1], [2, 4], [3, 2]] : Mat ℚ),
    ∃ a b, r[d]? = some a ∧ r'[d]? = some b ∧ a < b := by
  intro d hd
  match d, hd with
  | 0, _ => exact ⟨[0, 3], by simp, [1, 1], by simp, 0, 1, rfl, rfl, by norm_num⟩
  | 1, _ => exact ⟨[1, 1], by simp, [0, 3], by simp, 1, 3, rfl, rfl, by norm_num⟩

example : pawnColumn [3, 0, 2, 1] [(7 : ℚ), 5, 8, 6] 2 = pawnColumn [0, 1, 2, 3] [5, 6, 8, 7] 2 :=
  C75_order [0, 1, 2, 3] [5, 6, 8, 7] [3, 0, 2, 1] [7, 5, 8, 6] rfl rfl (by decide +kernel) 2

example : pawnAnalyze id (⟨["a"], [], none, none, 1, false⟩ : Problem ℚ) [[0], [1], [2]] ([5, -6, 8].map (· ^ 3)) 2 =
    pawnAnalyze id ⟨["a"], [], none, none, 1, false⟩ [[0], [1], [2]] [5, -6, 8] 2 :=
  C75_output _ _ _ _ _ _ (by decide +kernel)

end SALib
