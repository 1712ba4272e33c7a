import Verif.Lemmas.Scale
import Verif.Spec.Dists

/-!
# C04-C05: scaling with declared distributions
-/

namespace SALib
open Spec

variable {α : Type} [Field α] [LinearOrder α]

theorem columnMap_unif (F : Ppf α) (lo hi : α) (rest : List α) :
    columnMap F "unif" (lo :: hi :: rest) =
      if hi ≤ lo then .error .valueError else .ok fun x => some (x * (hi - lo) + lo) := by
  simp [columnMap, rowPair]

/-- **C04.** Declaring every parameter 'unif' gives the same matrix, and the same rejections, as
declaring no distribution at all. -/
theorem C04_all_unif_is_default (F : Ppf α) (pb : Problem α) (bs : List (α × α)) (params : Mat α)
    (hb : pb.bounds = boundsTable bs) (hne : bs ≠ []) (hcols : HasCols bs.length params) :
    (scaleSamples F bs.length params
        { pb with dists := some (List.replicate bs.length "unif") }).map Prod.fst =
      (scaleSamples F bs.length params { pb with dists := none }).map Prod.fst := by
  have hget : ∀ i < bs.length, (do
      let b ← pyGet (boundsTable bs) i
      let d ← pyGet (List.replicate bs.length "unif") i
      columnMap F d b) = columnMap F "unif" ((boundsTable bs).getD i []) := by
    intro i hi
    have h1 : pyGet (boundsTable bs) i = .ok ((boundsTable bs).getD i []) := by
      unfold pyGet
      have : i < (boundsTable bs).length := by simpa [boundsTable] using hi
      simp [List.getD, List.getElem?_eq_getElem this]
    have h2 : pyGet (List.replicate bs.length "unif") i = .ok "unif" := by
      simp [pyGet, hi]
    rw [h1, h2]; rfl
  have hget2 : ∀ i, ∀ hi : i < bs.length, (do
      let b ← pyGet (boundsTable bs) i
      let d ← pyGet (List.replicate bs.length "unif") i
      columnMap F d b) =
      if bs[i].2 ≤ bs[i].1 then .error .valueError
      else .ok fun x => some (x * (bs[i].2 - bs[i].1) + bs[i].1) := by
    intro i hi
    rw [hget i hi]
    have : (boundsTable bs).getD i [] = [bs[i].1, bs[i].2] := by
      simp [boundsTable, List.getD, hi]
    rw [this, columnMap_unif]
  by_cases hbad : ∃ p ∈ bs, p.2 ≤ p.1
  · have hr : scaleUniform bs.length params (boundsTable bs) = .error .valueError := by
      unfold scaleUniform; rw [checkBounds_illegal bs hbad]; rfl
    have hl : nonuniformScale F bs.length params (boundsTable bs)
        (List.replicate bs.length "unif") = .error .valueError := by
      obtain ⟨p, hp, hle⟩ := hbad
      obtain ⟨i, hi, rfl⟩ := List.getElem_of_mem hp
      unfold nonuniformScale
      obtain ⟨e, he⟩ := mapM_exists_error (fun i => do
        let b ← pyGet (boundsTable bs) i
        let d ← pyGet (List.replicate bs.length "unif") i
        columnMap F d b) (List.range bs.length) i .valueError (by simpa using hi)
        (by rw [hget2 i hi, if_pos hle])
      obtain ⟨j, hj, hej⟩ := mapM_error _ _ _ he
      rw [List.mem_range] at hj
      rw [hget2 j hj] at hej
      have : e = .valueError := by
        split at hej
        · cases hej; rfl
        · cases hej
      rw [he, this]; rfl
    simp [scaleSamples, hb, hr, hl]
  · have hleg : ∀ p ∈ bs, p.1 < p.2 := fun p hp => not_le.mp fun h => hbad ⟨p, hp, h⟩
    have hr := scaleUniform_legal bs hne hleg params
    have hl : nonuniformScale F bs.length params (boundsTable bs)
        (List.replicate bs.length "unif") = .ok (params.map fun row =>
          List.zipWith (fun f x => f x)
            (bs.map fun p => fun x => some (x * (p.2 - p.1) + p.1)) row) := by
      unfold nonuniformScale
      have : ((List.range bs.length).mapM fun i => do
        let b ← pyGet (boundsTable bs) i
        let d ← pyGet (List.replicate bs.length "unif") i
        columnMap F d b) = .ok (bs.map fun p => fun x => some (x * (p.2 - p.1) + p.1)) := by
        rw [mapM_ok_iff, List.forall₂_iff_get]
        refine ⟨by simp, ?_⟩
        intro i h1 h2
        have hi : i < bs.length := by simpa using h1
        simp only [List.get_eq_getElem, List.getElem_range, List.getElem_map]
        rw [hget2 i hi, if_neg (not_le.mpr (hleg _ (List.getElem_mem hi)))]
      rw [this]; rfl
    simp only [scaleSamples, hb, hr, hl]
    simp only [List.length_replicate, ne_eq, not_true_eq_false, if_false, pyBind_ok, pyPure,
      Except.map]
    congr 1
    rw [List.map_map]
    apply List.map_congr_left
    intro row hrow
    have hlen := hcols row hrow
    simp only [Function.comp]
    rw [List.map_zipWith]
    clear hrow hl hr hleg hbad hget hget2 hcols hne hb
    induction bs generalizing row with
    | nil => simp
    | cons p bs ih =>
      cases row with
      | nil => simp
      | cons x row =>
        simp only [List.map_cons, List.zipWith_cons_cons]
        rw [ih row (by simpa using hlen)]

/-- The hypotheses of `C04` hold for a concrete problem, and the common result is a real matrix. -/
example (F : Ppf ℚ) : (scaleSamples F 2 [[(1/2 : ℚ), 1/4]]
      { names := ["a", "b"], bounds := boundsTable [((-1 : ℚ), (3 : ℚ)), (10, 20)],
        dists := some (List.replicate 2 "unif") }).map Prod.fst
    = .ok [[some 1, some (25/2)]] := by
  have h := C04_all_unif_is_default F
    { names := ["a", "b"], bounds := boundsTable [((-1 : ℚ), (3 : ℚ)), (10, 20)] }
    [((-1 : ℚ), (3 : ℚ)), (10, 20)] [[(1/2 : ℚ), 1/4]] rfl (by simp) (by simp [HasCols])
  refine h.trans ?_
  simp only [scaleSamples, List.length_cons, List.length_nil]
  have := scaleUniform_legal [((-1 : ℚ), (3 : ℚ)), (10, 20)] (by simp) (by simp; norm_num)
    [[(1/2 : ℚ), 1/4]]
  simp only [List.length_cons, List.length_nil] at this
  rw [this]
  simp [Except.map]; norm_num

/-- One column is converted exactly when its parameters are acceptable, and the only exception for a
row with enough numbers is `ValueError`. -/
theorem columnMap_ok_iff (F : Ppf α) (d : String) (b : List α) (hb : EnoughNumbers d b) :
    ((∃ f, columnMap F d b = .ok f) ↔ Acceptable d b) ∧
    (¬ Acceptable d b → columnMap F d b = .error .valueError) := by
  obtain ⟨h2, h4⟩ := hb
  match b, h2 with
  | b1 :: b2 :: rest, _ =>
    have key : (∃ f, columnMap F d (b1 :: b2 :: rest) = .ok f ∧ Acceptable d (b1 :: b2 :: rest)) ∨
        (columnMap F d (b1 :: b2 :: rest) = .error .valueError ∧
          ¬ Acceptable d (b1 :: b2 :: rest)) := by
      unfold columnMap
      simp only [rowPair, pyBind_ok]
      by_cases ht : d = "triang"
      · subst ht
        rw [if_pos rfl]
        match rest with
        | [] =>
          simp only [pyBind_ok]
          by_cases hc : b1 < 0 ∨ b2 < 0 ∨ 1 ≤ b2 ∨ b1 < 0
          · rw [if_pos hc]; right; refine ⟨rfl, ?_⟩
            simp [Acceptable]; grind
          · rw [if_neg hc]; left; refine ⟨_, rfl, ?_⟩
            simp [Acceptable]; grind
        | [b3] =>
          simp only [pyBind_ok]
          by_cases hc : b2 < 0 ∨ b3 < 0 ∨ 1 ≤ b3 ∨ b2 < b1
          · rw [if_pos hc]; right; refine ⟨rfl, ?_⟩
            simp [Acceptable]; grind
          · rw [if_neg hc]; left; refine ⟨_, rfl, ?_⟩
            simp [Acceptable]; grind
        | _ :: _ :: _ =>
          right; refine ⟨rfl, ?_⟩
          simp [Acceptable]
      rw [if_neg ht]
      by_cases hu : d = "unif"
      · subst hu
        rw [if_pos rfl]
        by_cases hc : b2 ≤ b1
        · rw [if_pos hc]; right; refine ⟨rfl, ?_⟩
          simp [Acceptable, hc]
        · rw [if_neg hc]; left; refine ⟨_, rfl, ?_⟩
          simpa [Acceptable] using hc
      rw [if_neg hu]
      by_cases hl : d = "logunif"
      · subst hl
        rw [if_pos rfl]; left; refine ⟨_, rfl, ?_⟩
        simp [Acceptable]
      rw [if_neg hl]
      by_cases hn : d = "norm"
      · subst hn
        rw [if_pos rfl]
        by_cases hc : b2 ≤ 0
        · rw [if_pos hc]; right; refine ⟨rfl, ?_⟩
          simp [Acceptable, hc]
        · rw [if_neg hc]; left; refine ⟨_, rfl, ?_⟩
          simpa [Acceptable] using hc
      rw [if_neg hn]
      by_cases htn : d = "truncnorm"
      · subst htn
        rw [if_pos rfl]
        have h4' := h4 rfl
        match rest, h4' with
        | b3 :: b4 :: rest, _ =>
          simp only
          by_cases hc : b4 ≤ 0
          · rw [if_pos hc]; right; refine ⟨rfl, ?_⟩
            simp [Acceptable]; grind
          · rw [if_neg hc]
            by_cases hc' : b2 ≤ b1
            · rw [if_pos hc']; right; refine ⟨rfl, ?_⟩
              simp [Acceptable]; grind
            · rw [if_neg hc']; left; refine ⟨_, rfl, ?_⟩
              simp [Acceptable]; grind
      rw [if_neg htn]
      by_cases hln : d = "lognorm"
      · subst hln
        rw [if_pos rfl]
        by_cases hc : b2 ≤ 0
        · rw [if_pos hc]; right; refine ⟨rfl, ?_⟩
          simp [Acceptable, hc]
        · rw [if_neg hc]; left; refine ⟨_, rfl, ?_⟩
          simpa [Acceptable] using hc
      rw [if_neg hln]
      by_cases hw : d = "weibull"
      · subst hw
        rw [if_pos rfl]
        match rest with
        | [] =>
          simp only [pyBind_ok]
          by_cases hc : b1 ≤ 0 ∨ b2 ≤ 0
          · rw [if_pos hc]; right; refine ⟨rfl, ?_⟩
            simp [Acceptable]; grind
          · rw [if_neg hc]; left; refine ⟨_, rfl, ?_⟩
            simp [Acceptable]; grind
        | [b3] =>
          simp only [pyBind_ok]
          by_cases hc : b1 ≤ 0 ∨ b2 ≤ 0
          · rw [if_pos hc]; right; refine ⟨rfl, ?_⟩
            simp [Acceptable]; grind
          · rw [if_neg hc]; left; refine ⟨_, rfl, ?_⟩
            simp [Acceptable]; grind
        | _ :: _ :: _ =>
          right; refine ⟨rfl, ?_⟩
          simp [Acceptable]
      rw [if_neg hw]
      right; refine ⟨rfl, ?_⟩
      simp [Acceptable, *]
    rcases key with ⟨f, hf, hacc⟩ | ⟨he, hacc⟩
    · exact ⟨⟨fun _ => hacc, fun _ => ⟨f, hf⟩⟩, fun h => absurd hacc h⟩
    · refine ⟨⟨fun ⟨f, hf⟩ => ?_, fun h => absurd h hacc⟩, fun _ => he⟩
      rw [he] at hf; cases hf

/-- **C05**, acceptance.  With distributions declared, `scale_samples` succeeds exactly when there is
one distribution per column and every column's parameters are acceptable; otherwise it raises
`ValueError`. -/
theorem C05_accepts_iff (F : Ppf α) (D : Nat) (params : Mat α) (pb : Problem α) (ds : List String)
    (hd : pb.dists = some ds) (hb : pb.bounds.length = D)
    (hnum : ∀ (i : Nat) b d, pb.bounds[i]? = some b → ds[i]? = some d → EnoughNumbers d b) :
    let ok := ds.length = D ∧
      ∀ (i : Nat) b d, pb.bounds[i]? = some b → ds[i]? = some d → Acceptable d b
    (ok → ∃ out, scaleSamples F D params pb = .ok (out, { pb with sampleScaled := true })) ∧
    (¬ ok → scaleSamples F D params pb = .error .valueError) := by
  intro ok
  by_cases hlen : ds.length = D
  · have hget : ∀ i, ∀ hi : i < D, (do
        let b ← pyGet pb.bounds i
        let d ← pyGet ds i
        columnMap F d b) = columnMap F (ds[i]'(hlen ▸ hi)) (pb.bounds[i]'(hb ▸ hi)) := by
      intro i hi
      have h1 : i < pb.bounds.length := hb ▸ hi
      have h2 : i < ds.length := hlen ▸ hi
      simp [pyGet, h1, h2]
    constructor
    · intro hok
      have hcol : ∀ i ∈ List.range D, ∃ f, (do
          let b ← pyGet pb.bounds i
          let d ← pyGet ds i
          columnMap F d b) = .ok f := by
        intro i hi
        rw [List.mem_range] at hi
        rw [hget i hi]
        have h1 : pb.bounds[i]? = some (pb.bounds[i]'(hb ▸ hi)) := List.getElem?_eq_getElem _
        have h2 : ds[i]? = some (ds[i]'(hlen ▸ hi)) := List.getElem?_eq_getElem _
        exact (columnMap_ok_iff F _ _ (hnum i _ _ h1 h2)).1.mpr (hok.2 i _ _ h1 h2)
      have : ∃ fs, (List.range D).mapM (fun i => do
          let b ← pyGet pb.bounds i
          let d ← pyGet ds i
          columnMap F d b) = .ok fs := by
        cases hm : (List.range D).mapM (fun i => do
          let b ← pyGet pb.bounds i
          let d ← pyGet ds i
          columnMap F d b) with
        | ok fs => exact ⟨fs, rfl⟩
        | error e =>
          obtain ⟨i, hi, he⟩ := mapM_error _ _ _ hm
          obtain ⟨f, hf⟩ := hcol i hi
          rw [hf] at he; cases he
      obtain ⟨fs, hfs⟩ := this
      refine ⟨params.map fun row => List.zipWith (fun f x => f x) fs row, ?_⟩
      unfold scaleSamples nonuniformScale
      rw [hd]
      simp only [hlen, ne_eq, not_true_eq_false, if_false, hfs]
      rfl
    · intro hnok
      have : ∃ (i : Nat) (b : List α) (d : String), pb.bounds[i]? = some b ∧ ds[i]? = some d ∧ ¬ Acceptable d b := by
        by_contra hcon
        apply hnok
        refine ⟨hlen, fun i b d h1 h2 => ?_⟩
        by_contra h3
        exact hcon ⟨i, b, d, h1, h2, h3⟩
      obtain ⟨i, b, d, h1, h2, h3⟩ := this
      obtain ⟨hi, hbi⟩ := List.getElem?_eq_some_iff.mp h1
      obtain ⟨hi', hdi⟩ := List.getElem?_eq_some_iff.mp h2
      have hiD : i < D := hb ▸ hi
      obtain ⟨e, he⟩ := mapM_exists_error (fun i => do
        let b ← pyGet pb.bounds i
        let d ← pyGet ds i
        columnMap F d b) (List.range D) i .valueError (by simpa using hiD)
        (by rw [hget i hiD, hbi, hdi]; exact (columnMap_ok_iff F _ _ (hnum i _ _ h1 h2)).2 h3)
      obtain ⟨j, hj, hej⟩ := mapM_error _ _ _ he
      rw [List.mem_range] at hj
      rw [hget j hj] at hej
      have g1 : pb.bounds[j]? = some (pb.bounds[j]'(hb ▸ hj)) := List.getElem?_eq_getElem _
      have g2 : ds[j]? = some (ds[j]'(hlen ▸ hj)) := List.getElem?_eq_getElem _
      have hev : e = .valueError := by
        by_cases hacc : Acceptable (ds[j]'(hlen ▸ hj)) (pb.bounds[j]'(hb ▸ hj))
        · obtain ⟨f, hf⟩ := (columnMap_ok_iff F _ _ (hnum j _ _ g1 g2)).1.mpr hacc
          rw [hf] at hej; cases hej
        · have := (columnMap_ok_iff F _ _ (hnum j _ _ g1 g2)).2 hacc
          rw [this] at hej; cases hej; rfl
      unfold scaleSamples nonuniformScale
      rw [hd]
      simp only [hlen, ne_eq, not_true_eq_false, if_false, he, hev]
      rfl
  · constructor
    · intro h; exact absurd h.1 hlen
    · intro _
      unfold scaleSamples
      rw [hd]
      simp only [ne_eq, Ne.symm hlen, not_false_eq_true, if_true]
      rfl

/-- With distributions given, each scaled value is its column's map of the unit value. -/
theorem scaleSamples_entry (F : Ppf α) (D : Nat) (params : Mat α) (pb : Problem α) (ds : List String)
    (out : Mat (Num α)) (q : Problem α) (r c : Nat) (x : α) (hd : pb.dists = some ds)
    (hrun : scaleSamples F D params pb = .ok (out, q)) (hc : c < D) (hx : entry params r c = some x) :
    ∃ b d f, pb.bounds[c]? = some b ∧ ds[c]? = some d ∧ columnMap F d b = .ok f ∧ entry out r c = some (f x) := by
  unfold scaleSamples nonuniformScale at hrun
  rw [hd] at hrun
  by_cases hlen : D = ds.length
  · simp only [hlen, ne_eq, not_true_eq_false, if_false] at hrun
    cases hm : (List.range ds.length).mapM (fun i => do
        let b ← pyGet pb.bounds i
        let d ← pyGet ds i
        columnMap F d b) with
    | error e => rw [hm] at hrun; cases hrun
    | ok fs =>
      rw [hm] at hrun
      simp only [pyBind_ok, pyPure, Except.ok.injEq, Prod.mk.injEq] at hrun
      obtain ⟨rfl, -⟩ := hrun
      rw [mapM_ok_iff] at hm
      obtain ⟨hlen2, hm⟩ := List.forall₂_iff_get.mp hm
      have hc1 : c < (List.range ds.length).length := by simpa [← hlen] using hc
      have hcf : c < fs.length := hlen2 ▸ hc1
      have h := hm c hc1 hcf
      simp only [List.get_eq_getElem, List.getElem_range] at h
      cases hbc : pb.bounds[c]? with
      | none => simp [pyGet, hbc] at h
      | some b =>
        cases hdc : ds[c]? with
        | none => simp [pyGet, hbc, hdc] at h
        | some d =>
          simp only [pyGet, hbc, hdc, pyBind_ok] at h
          refine ⟨b, d, fs[c], rfl, rfl, h, ?_⟩
          rw [entry_map]
          unfold entry at hx
          cases hr : params[r]? with
          | none => simp [hr] at hx
          | some row =>
            simp only [hr, Option.bind_some] at hx ⊢
            rw [List.getElem?_zipWith, hx, List.getElem?_eq_getElem hcf]
  · simp only [ne_eq, hlen, not_false_eq_true, if_true] at hrun
    cases hrun

/-- **C05**, locality.  If two runs succeed and agree on the bounds, the distribution and one sample
value of column `c` (possibly in different rows, with everything else different), the two results
agree on the corresponding value. -/
theorem C05_column_local (F : Ppf α) (D D' : Nat) (params params' : Mat α) (pb pb' : Problem α)
    (ds ds' : List String) (out out' : Mat (Num α)) (q q' : Problem α)
    (hd : pb.dists = some ds) (hd' : pb'.dists = some ds')
    (hrun : scaleSamples F D params pb = .ok (out, q))
    (hrun' : scaleSamples F D' params' pb' = .ok (out', q'))
    (r r' c : Nat) (hc : c < D) (hc' : c < D')
    (hbnd : pb.bounds[c]? = pb'.bounds[c]?) (hds : ds[c]? = ds'[c]?)
    (x : α) (hx : entry params r c = some x) (hx' : entry params' r' c = some x) :
    ∃ y, entry out r c = some y ∧ entry out' r' c = some y := by
  obtain ⟨b, d, f, hb1, hd1, hf1, he1⟩ := scaleSamples_entry F D params pb ds out q r c x hd hrun hc hx
  obtain ⟨b', d', f', hb2, hd2, hf2, he2⟩ :=
    scaleSamples_entry F D' params' pb' ds' out' q' r' c x hd' hrun' hc' hx'
  rw [hbnd, hb2] at hb1
  rw [hds, hd2] at hd1
  cases hb1; cases hd1
  rw [hf1] at hf2; cases hf2
  exact ⟨f x, he1, he2⟩

/-- A problem mixing all kinds of columns meets the hypotheses of `C05_accepts_iff`. -/
example : ∀ (i : Nat) (b : List ℚ) (d : String),
      [[0, 1], [1, 3, 1/2], [2, 1/4], [0, 1], [-1, 1, 0, 1], [1, 2, 5], [3, 9], [0, 2]][i]? = some b →
      ["unif", "triang", "triang", "norm", "truncnorm", "weibull", "logunif", "lognorm"][i]? = some d →
      EnoughNumbers d b ∧ Acceptable d b := by
  intro i b d hb hd
  match i with
  | 0 | 1 | 2 | 3 | 4 | 5 | 6 | 7 =>
    cases hb; cases hd; simp [EnoughNumbers, Acceptable] <;> norm_num
  | n + 8 => simp at hb

/-- ... and some columns are not acceptable (so the rejecting half is not empty). -/
example : ¬ Acceptable "norm" [(0 : ℚ), 0] ∧ ¬ Acceptable "beta" [(0 : ℚ), 1] ∧
    ¬ Acceptable "triang" [(0 : ℚ), 1, 1] := by
  refine ⟨?_, ?_, ?_⟩ <;> simp [Acceptable]

end SALib
