import Verif.Lemmas.Saltelli
import Verif.Lemmas.Scale

/-!
# C10, C11, C24: the Saltelli / Sobol sample
-/

set_option linter.unusedSectionVars false

namespace SALib
open Spec

theorem length_one_iff_same (gs : List String) :
    (pdUnique gs).length = 1 ↔ gs ≠ [] ∧ ∃ l, ∀ g ∈ gs, g = l := by
  constructor
  · intro h1
    obtain ⟨l, hl⟩ := List.length_eq_one_iff.mp h1
    refine ⟨?_, l, ?_⟩
    · rintro rfl; simp [pdUnique] at hl
    · intro g hg
      have : g ∈ pdUnique gs := (mem_pdUnique _ _).mpr hg
      rw [hl] at this; simpa using this
  · rintro ⟨hne, l, hl⟩
    have hsub : ∀ x ∈ pdUnique gs, x = l := fun x hx => hl x ((mem_pdUnique _ _).mp hx)
    obtain ⟨g, hg⟩ := List.exists_mem_of_ne_nil _ hne
    have hnd := nodup_pdUnique gs
    have hmem : g ∈ pdUnique gs := (mem_pdUnique _ _).mpr hg
    match hp : pdUnique gs with
    | [] => rw [hp] at hmem; cases hmem
    | [_] => rfl
    | a :: b :: t =>
      rw [hp] at hsub hnd
      have e1 := hsub a (by simp)
      have e2 := hsub b (by simp)
      simp_all

theorem checkGroups_spec {α : Type} (pb : Problem α) : SamplerLabels pb (checkGroups pb) := by
  unfold checkGroups SamplerLabels
  cases h : pb.groups with
  | none => simp
  | some gs =>
    cases gs with
    | nil => simp
    | cons g gs =>
      simp only
      by_cases h1 : g :: gs = pb.names
      · rw [if_pos h1]; left; exact ⟨rfl, by simp [h1]⟩
      · rw [if_neg h1]
        by_cases h2 : (pdUnique (g :: gs)).length = 1
        · rw [if_pos h2]
          obtain ⟨-, l, hl⟩ := (length_one_iff_same _).mp h2
          left; exact ⟨rfl, Or.inr (Or.inr (Or.inr ⟨_, l, rfl, hl⟩))⟩
        · rw [if_neg h2]
          right
          refine ⟨_, rfl, rfl, h1, ?_⟩
          rw [length_one_iff_same] at h2
          by_contra hc
          apply h2
          refine ⟨by simp, g, ?_⟩
          intro x hx
          by_contra hne
          exact hc ⟨x, hx, g, by simp, hne⟩

variable {α : Type}

theorem numbering_exists (D : Nat) (groups : Option (List String))
    (hlab : ∀ gs, groups = some gs → gs.length = D) :
    ∃ gnames g groupOf, crossGroups D groups = .ok (gnames, g) ∧
      GroupNumbering D groups g groupOf ∧ CondOk groups gnames D g groupOf ∧
      (∀ j < D, groupOf j < g) ∧ ∀ k < g, ∃ j < D, groupOf j = k := by
  cases groups with
  | none =>
    refine ⟨[], D, id, rfl, ⟨rfl, fun _ _ => rfl⟩, ?_, fun _ h => h, fun k hk => ⟨k, hk, rfl⟩⟩
    intro k _ j _
    rfl
  | some gs =>
    have hlen := hlab gs rfl
    obtain ⟨M, names, hM, hdist, -, -, -⟩ := C07_groups_matrix gs
    have hmem : ∀ j, ∀ hj : j < gs.length, gs[j] ∈ names :=
      fun j hj => (hdist.mem_iff _).mpr (List.getElem_mem hj)
    refine ⟨names, names.length, fun j => names.idxOf (gs.getD j ""), ?_, ?_, ?_, ?_, ?_⟩
    · simp only [crossGroups, hM, pyBind_ok, pyPure, pdUnique_of_nodup names hdist.nodup]
    · refine ⟨names, hdist, rfl, ?_⟩
      intro j l hl
      obtain ⟨hj, rfl⟩ := List.getElem?_eq_some_iff.mp hl
      simp only [List.getD, hl, Option.getD_some]
      rw [List.getElem?_idxOf (hmem j hj)]
    · intro k hk j hj
      have hj' : j < gs.length := by omega
      have h1 : pyGet names k = .ok names[k] := by simp [pyGet, hk]
      have h2 : pyGet gs j = .ok gs[j] := by simp [pyGet, hj']
      simp only [crossCond, h1, h2, pyBind_ok, pyPure, List.getD, List.getElem?_eq_getElem hj',
        Option.getD_some, Except.ok.injEq]
      rw [Bool.eq_iff_iff]
      simp only [beq_iff_eq]
      constructor
      · intro h
        rw [← h]
        exact hdist.nodup.idxOf_getElem k hk
      · intro h
        subst h
        simp
    · intro j hj
      have hj' : j < gs.length := by omega
      simp only [List.getD, List.getElem?_eq_getElem hj', Option.getD_some]
      exact List.idxOf_lt_length_of_mem (hmem j hj')
    · intro k hk
      obtain ⟨j, hj, hje⟩ := List.getElem_of_mem ((hdist.mem_iff _).mp (List.getElem_mem hk))
      refine ⟨j, by omega, ?_⟩
      simp only [List.getD, List.getElem?_eq_getElem hj, Option.getD_some, hje]
      exact hdist.nodup.idxOf_getElem k hk

/-- **C11** (unit scale).  The cross-sampling loops, with their running row index, produce exactly the
design of the specification from base rows `start, ..., start+N-1`. -/
theorem C11_cross_design [Zero α] (second : Bool) (D N start : Nat) (groups : Option (List String))
    (base : Mat α) (hcols : HasCols (2 * D) base) (hN : start + N ≤ base.length)
    (hlab : ∀ gs, groups = some gs → gs.length = D) :
    ∃ g groupOf, GroupNumbering D groups g groupOf ∧ (∀ j < D, groupOf j < g) ∧
      (∀ k < g, ∃ j < D, groupOf j = k) ∧
      crossSample second D N start groups base =
        .ok (crossDesign second D g groupOf ((base.drop start).take N)) := by
  obtain ⟨gnames, g, groupOf, hrun, hnum, hcond, hlt, hsur⟩ := numbering_exists D groups hlab
  refine ⟨g, groupOf, hnum, hlt, hsur, ?_⟩
  have := crossLoop_ok second D g groups gnames groupOf hcond base hcols
    (List.replicate D (0 : α)) (by simp) N start 0 hN []
  simp only [List.nil_append, Nat.zero_add, List.replicate_zero, List.append_nil,
    List.length_nil] at this
  unfold crossSample
  simp only [hrun, pyBind_ok, zerosMat]
  have hb : (if second then 2 * g + 2 else g + 2) = blockSize second g := rfl
  rw [hb, this]
  rfl

variable [Field α] [LinearOrder α]

theorem scaleSamples_columns (F : Ppf α) (D : Nat) (pb : Problem α) :
    (∃ e, ∀ params, scaleSamples F D params pb = .error e) ∨
    ∃ fs : List (α → Num α), fs.length = D ∧ ∀ params, scaleSamples F D params pb =
      .ok (params.map (applyCols fs), { pb with sampleScaled := true }) := by
  unfold scaleSamples
  cases hd : pb.dists with
  | none =>
    simp only
    unfold scaleUniform
    cases hc : checkBounds pb.bounds with
    | error e => left; exact ⟨e, fun _ => rfl⟩
    | ok ps =>
      simp only [pyBind_ok]
      by_cases h1 : (ps.any fun p => decide (p.2 ≤ p.1)) = true
      · left; refine ⟨.valueError, fun params => ?_⟩
        simp [h1]
      · simp only [h1]
        cases hb : broadcastBounds D ps with
        | error e => left; exact ⟨e, fun _ => rfl⟩
        | ok ps' =>
          right
          have hlen : ps'.length = D := by
            unfold broadcastBounds at hb
            split at hb
            · cases hb; assumption
            · split at hb
              · cases hb; simp
              · cases hb
          refine ⟨ps'.map fun p x => some (x * (p.2 - p.1) + p.1), by simpa using hlen, fun params => ?_⟩
          simp only [pyPure, pyBind_ok, Bool.false_eq_true, if_false, List.map_map]
          congr 3
          funext row
          simp only [applyCols, List.zipWith_map_left, Function.comp, List.map_zipWith]
          rw [List.zipWith_comm]
  | some ds =>
    by_cases h1 : D ≠ ds.length
    · left; refine ⟨.valueError, fun params => ?_⟩
      simp [h1]
    · simp only [h1, if_false]
      unfold nonuniformScale
      cases hm : (List.range D).mapM (fun i => do
          let b ← pyGet pb.bounds i
          let d ← pyGet ds i
          columnMap F d b) with
      | error e => left; exact ⟨e, fun _ => rfl⟩
      | ok fs =>
        right
        refine ⟨fs, ?_, fun params => rfl⟩
        have := (mapM_ok_iff _ _ _).mp hm
        simpa using this.length_eq.symm

theorem applyCols_replaceIn {β : Type} (fs : List (α → β)) (sel : Nat → Bool) (A B : List α)
    (hA : A.length = fs.length) (hB : B.length = fs.length) :
    applyCols fs (replaceIn sel A B) = replaceIn sel (applyCols fs A) (applyCols fs B) := by
  apply List.ext_getElem
  · simp [applyCols, replaceIn, hA, hB]
  · intro j h1 h2
    simp only [applyCols, replaceIn, List.getElem_zipWith, List.getElem_mapIdx, List.getElem_zip]
    split <;> rfl

theorem map_applyCols_design {β : Type} (fs : List (α → β)) (second : Bool) (D g : Nat)
    (groupOf : Nat → Nat) (base : Mat α) (hfs : fs.length = D) (hcols : HasCols (2 * D) base) :
    (crossDesign second D g groupOf base).map (applyCols fs) =
      crossDesign second D g groupOf (base.map (applyBoth D fs)) := by
  unfold crossDesign
  rw [List.map_flatten, List.map_map, List.map_map]
  congr 1
  apply List.map_congr_left
  intro row hrow
  have hlen := hcols row hrow
  have hA : (row.take D).length = fs.length := by simp; omega
  have hB : (row.drop D).length = fs.length := by simp; omega
  have hA' : (applyCols fs (row.take D)).length = D := by simp [applyCols]; omega
  have e1 : (applyBoth D fs row).take D = applyCols fs (row.take D) := by
    unfold applyBoth; rw [List.take_append_of_le_length (by omega), List.take_of_length_le (by omega)]
  have e2 : (applyBoth D fs row).drop D = applyCols fs (row.drop D) := by
    unfold applyBoth
    rw [List.drop_append_of_le_length (by omega), List.drop_of_length_le (by omega), List.nil_append]
  simp only [Function.comp, e1, e2]
  unfold Spec.crossBlock
  simp only [List.map_append, List.map_cons, List.map_nil, List.map_map]
  congr 2
  · congr 1
    apply List.map_congr_left
    intro k _
    exact applyCols_replaceIn fs _ _ _ hA hB
  · cases second
    · rfl
    · simp only [if_true, List.map_map]
      apply List.map_congr_left
      intro k _
      exact applyCols_replaceIn fs _ _ _ hB hA

/-- What the samplers deliver, whichever base sequence is used: scaling commutes with cross-sampling. -/
theorem crossSample_scaled (F : Ppf α) (pb : Problem α) (second : Bool) (N start : Nat)
    (base : Mat α) (hcols : HasCols (2 * pb.numVars) base) (hN : start + N ≤ base.length)
    (hlab : ∀ gs, checkGroups pb = some gs → gs.length = pb.numVars)
    (X : Mat (Num α)) (q : Problem α)
    (hrun : (crossSample second pb.numVars N start (checkGroups pb) base >>= fun S =>
      scaleSamples F pb.numVars S pb) = .ok (X, q)) :
    ∃ (fs : List (α → Num α)) (g : Nat) (groupOf : Nat → Nat),
      fs.length = pb.numVars ∧
      (∀ params, scaleSamples F pb.numVars params pb =
        .ok (params.map (applyCols fs), { pb with sampleScaled := true })) ∧
      GroupNumbering pb.numVars (checkGroups pb) g groupOf ∧
      (∀ j < pb.numVars, groupOf j < g) ∧ (∀ k < g, ∃ j < pb.numVars, groupOf j = k) ∧
      X = crossDesign second pb.numVars g groupOf
        (((base.drop start).take N).map (applyBoth pb.numVars fs)) := by
  obtain ⟨g, groupOf, hnum, hlt, hsur, hS⟩ :=
    C11_cross_design second pb.numVars N start (checkGroups pb) base hcols hN hlab
  rw [hS] at hrun
  simp only [pyBind_ok] at hrun
  rcases scaleSamples_columns F pb.numVars pb with ⟨e, he⟩ | ⟨fs, hfs, hf⟩
  · rw [he] at hrun; cases hrun
  · refine ⟨fs, g, groupOf, hfs, hf, hnum, hlt, hsur, ?_⟩
    rw [hf] at hrun
    cases hrun
    apply map_applyCols_design _ _ _ _ _ _ hfs
    intro row hrow
    exact hcols row (List.mem_of_mem_drop (List.mem_of_mem_take hrow))

/-- **C11** for `saltelli.sample`: whenever it returns a sample `X`, then with `labels` the effective
groups, `X` is the documented design built from base rows `skip, ..., skip+N-1`, each half of a base row
being scaled column by column exactly as `scale_samples` scales. -/
theorem C11_saltelli (F : Ppf α) (gen : Nat → Nat → Py (Mat α)) (pb : Problem α) (N : Nat)
    (second : Bool) (skip : Option Int) (X : Mat (Num α)) (q : Problem α)
    (hgen : ∀ n d M, gen n d = .ok M → M.length = n ∧ HasCols d M)
    (hlab : ∀ gs, pb.groups = some gs → gs ≠ [] → gs.length = pb.numVars)
    (hrun : saltelliSample F gen pb N second skip = .ok (X, q)) :
    ∃ (labels : Option (List String)) (g : Nat) (groupOf : Nat → Nat) (fs : List (α → Num α))
      (k : Nat) (base : Mat α), SamplerLabels pb labels ∧ GroupNumbering pb.numVars labels g groupOf ∧
      gen (N + k) (2 * pb.numVars) = .ok base ∧ saltelliSkip N skip = .ok k ∧
      (∀ params, scaleSamples F pb.numVars params pb =
        .ok (params.map (applyCols fs), { pb with sampleScaled := true })) ∧
      X = crossDesign second pb.numVars g groupOf
        ((base.drop k).map (applyBoth pb.numVars fs)) := by
  unfold saltelliSample at hrun
  cases hk : saltelliSkip N skip with
  | error e => rw [hk] at hrun; cases hrun
  | ok k =>
    rw [hk] at hrun
    simp only [pyBind_ok] at hrun
    cases hb : gen (N + k) (2 * pb.numVars) with
    | error e => rw [hb] at hrun; cases hrun
    | ok base =>
      rw [hb] at hrun
      simp only [pyBind_ok] at hrun
      obtain ⟨hlen, hcols⟩ := hgen _ _ _ hb
      have hlab' : ∀ gs, checkGroups pb = some gs → gs.length = pb.numVars := by
        intro gs hgs
        rcases checkGroups_spec pb with ⟨h, -⟩ | ⟨gs', h1, h2, -, x, hx, -⟩
        · rw [h] at hgs; cases hgs
        · rw [h1] at hgs; cases hgs
          exact hlab gs h2 (List.ne_nil_of_mem hx)
      obtain ⟨fs, g, groupOf, -, hf, hnum, -, -, hX⟩ :=
        crossSample_scaled F pb second N k base hcols (by omega) hlab' X q hrun
      refine ⟨checkGroups pb, g, groupOf, fs, k, base, checkGroups_spec pb, hnum, hb, rfl, hf, ?_⟩
      rw [hX, List.take_of_length_le (by simp; omega)]

/-- **C11** for `sobol.sample`. -/
theorem C11_sobol (F : Ppf α) (engine : Nat → Nat → Nat → Mat α) (pb : Problem α) (N : Nat)
    (second : Bool) (skip : Int) (X : Mat (Num α)) (q : Problem α)
    (hgen : ∀ s n d, (engine s n d).length = n ∧ HasCols d (engine s n d))
    (hlab : ∀ gs, pb.groups = some gs → gs ≠ [] → gs.length = pb.numVars)
    (hrun : sobolSample F engine pb N second skip = .ok (X, q)) :
    ∃ (labels : Option (List String)) (g : Nat) (groupOf : Nat → Nat) (fs : List (α → Num α)),
      SamplerLabels pb labels ∧ GroupNumbering pb.numVars labels g groupOf ∧ 0 ≤ skip ∧
      (∀ params, scaleSamples F pb.numVars params pb =
        .ok (params.map (applyCols fs), { pb with sampleScaled := true })) ∧
      X = crossDesign second pb.numVars g groupOf
        ((engine skip.toNat N (2 * pb.numVars)).map (applyBoth pb.numVars fs)) := by
  unfold sobolSample at hrun
  by_cases h1 : skip < 0
  · simp [h1] at hrun
  · by_cases h2 : 0 < skip ∧ N = 0
    · simp [h2] at hrun
    · simp only [h1, h2, if_false] at hrun
      obtain ⟨hlen, hcols⟩ := hgen skip.toNat N (2 * pb.numVars)
      have hlab' : ∀ gs, checkGroups pb = some gs → gs.length = pb.numVars := by
        intro gs hgs
        rcases checkGroups_spec pb with ⟨h, -⟩ | ⟨gs', h1, h2, -, x, hx, -⟩
        · rw [h] at hgs; cases hgs
        · rw [h1] at hgs; cases hgs
          exact hlab gs h2 (List.ne_nil_of_mem hx)
      obtain ⟨fs, g, groupOf, -, hf, hnum, -, -, hX⟩ :=
        crossSample_scaled F pb second N 0 _ hcols (by omega) hlab' X q hrun
      refine ⟨checkGroups pb, g, groupOf, fs, checkGroups_spec pb, hnum, by omega, hf, ?_⟩
      rw [hX, List.drop_zero, List.take_of_length_le (by omega)]

/-- **C10.** Building the design never reads or writes out of range: with a base sequence of enough
rows it succeeds, has `N` blocks of `2g+2` (second order) or `g+2` rows, and one value per parameter in
each row; `g` is the number of parameters, or the number of distinct labels. -/
theorem C10_size (second : Bool) (D N start : Nat) (groups : Option (List String))
    (base : Mat α) (hcols : HasCols (2 * D) base) (hN : start + N ≤ base.length)
    (hlab : ∀ gs, groups = some gs → gs.length = D) :
    ∃ S g, crossSample second D N start groups base = .ok S ∧
      (groups = none → g = D) ∧
      (∀ gs, groups = some gs → ∃ names, DistinctInOrder gs names ∧ g = names.length) ∧
      S.length = N * (if second then 2 * g + 2 else g + 2) ∧ HasCols D S := by
  obtain ⟨g, groupOf, hnum, -, -, hS⟩ := C11_cross_design second D N start groups base hcols hN hlab
  refine ⟨_, g, hS, ?_, ?_, ?_, ?_⟩
  · rintro rfl; exact hnum.1
  · rintro gs rfl
    obtain ⟨names, h1, h2, -⟩ := hnum
    exact ⟨names, h1, h2⟩
  · rw [length_crossDesign]
    simp only [List.length_take, List.length_drop, blockSize]
    congr 1
    omega
  · apply cols_crossDesign
    intro row hrow
    exact hcols row (List.mem_of_mem_drop (List.mem_of_mem_take hrow))

/-- **C10** for the delivered (scaled) sample of `saltelli.sample`. -/
theorem C10_saltelli_size (F : Ppf α) (gen : Nat → Nat → Py (Mat α)) (pb : Problem α) (N : Nat)
    (second : Bool) (skip : Option Int) (X : Mat (Num α)) (q : Problem α)
    (hgen : ∀ n d M, gen n d = .ok M → M.length = n ∧ HasCols d M)
    (hlab : ∀ gs, pb.groups = some gs → gs ≠ [] → gs.length = pb.numVars)
    (hrun : saltelliSample F gen pb N second skip = .ok (X, q)) :
    ∃ labels g groupOf, SamplerLabels pb labels ∧ GroupNumbering pb.numVars labels g groupOf ∧
      X.length = N * (if second then 2 * g + 2 else g + 2) ∧ HasCols pb.numVars X ∧
      q = { pb with sampleScaled := true } := by
  have hq : q = { pb with sampleScaled := true } := by
    unfold saltelliSample at hrun
    cases hk : saltelliSkip N skip with
    | error e => rw [hk] at hrun; cases hrun
    | ok k =>
      rw [hk] at hrun
      simp only [pyBind_ok] at hrun
      cases hb : gen (N + k) (2 * pb.numVars) with
      | error e => rw [hb] at hrun; cases hrun
      | ok base =>
        rw [hb] at hrun
        simp only [pyBind_ok] at hrun
        cases hs : crossSample second pb.numVars N k (checkGroups pb) base with
        | error e => rw [hs] at hrun; cases hrun
        | ok S =>
          rw [hs] at hrun
          simp only [pyBind_ok] at hrun
          rcases scaleSamples_columns F pb.numVars pb with ⟨e, he⟩ | ⟨fs, -, hf⟩
          · rw [he] at hrun; cases hrun
          · rw [hf] at hrun; cases hrun; rfl
  obtain ⟨labels, g, groupOf, fs, k, base, h1, h2, h3, h4, h5, rfl⟩ :=
    C11_saltelli F gen pb N second skip X q hgen hlab hrun
  obtain ⟨hlen, hcols⟩ := hgen _ _ _ h3
  have hfs : fs.length = pb.numVars := by
    rcases scaleSamples_columns F pb.numVars pb with ⟨e, he⟩ | ⟨fs', hfs', hf'⟩
    · have := h5 []; rw [he] at this; cases this
    · by_cases hD : pb.numVars = 0
      · -- no columns: compare on a matrix with one long row
        have e := (h5 [List.replicate (fs.length + 1) 0]).symm.trans (hf' _)
        simp only [List.map_cons, List.map_nil, applyCols, Except.ok.injEq, Prod.mk.injEq,
          List.cons.injEq, and_true] at e
        have := congrArg List.length e
        simp at this; omega
      · have e := (h5 [List.replicate (fs.length + fs'.length) 0]).symm.trans (hf' _)
        simp only [List.map_cons, List.map_nil, applyCols, Except.ok.injEq, Prod.mk.injEq,
          List.cons.injEq, and_true] at e
        have := congrArg List.length e
        simp at this; omega
  refine ⟨labels, g, groupOf, h1, h2, ?_, ?_, hq⟩
  · rw [length_crossDesign]
    simp only [List.length_map, List.length_drop, blockSize]
    congr 1
    omega
  · apply cols_crossDesign
    intro row hrow
    simp only [List.mem_map] at hrow
    obtain ⟨r, hr, rfl⟩ := hrow
    have := hcols r (List.mem_of_mem_drop hr)
    simp [applyBoth, applyCols, hfs]
    omega

/-- The hypotheses are met by a grouped problem: three parameters in two groups, N = 1, second order. -/
example : crossSample true 3 1 1 (some ["g", "h", "g"])
      ([[0, 0, 0, 0, 0, 0], [1, 2, 3, 4, 5, 6]] : Mat ℚ) =
    .ok [[1, 2, 3], [4, 2, 6], [1, 5, 3], [1, 5, 3], [4, 2, 6], [4, 5, 6]] := by decide +kernel

/-- **C24**, warning: no sample-size warning exactly when `N` is a power of two greater than 1. -/
theorem C24_warns_iff (N : Nat) : warnsNotPow2 N = false ↔ ∃ k, 1 ≤ k ∧ N = 2 ^ k := by
  unfold warnsNotPow2
  simp only [Bool.not_eq_false', Bool.and_eq_true, beq_iff_eq, bne_iff_ne, ne_eq]
  constructor
  · rintro ⟨h1, h2, h3⟩
    obtain ⟨k, hk⟩ := (Nat.and_sub_one_eq_zero_iff_isPowerOfTwo h2).mp h1
    refine ⟨k, ?_, hk⟩
    rcases k with _ | k
    · simp at hk; omega
    · omega
  · rintro ⟨k, hk, rfl⟩
    have hpos : 2 ^ k ≠ 0 := by positivity
    refine ⟨(Nat.and_sub_one_eq_zero_iff_isPowerOfTwo hpos).mpr ⟨k, rfl⟩, hpos, ?_⟩
    have : 2 ^ 1 ≤ 2 ^ k := Nat.pow_le_pow_right (by norm_num) hk
    omega

/-- **C24**, skipping: by default the larger of 16 and the least power of two that is at least `N` is
skipped; an explicit non-negative number is used as it is; a negative one is rejected. -/
theorem C24_skip (N : Nat) (hN : 0 < N) :
    (∃ k, saltelliSkip N none = .ok (max (2 ^ k) 16) ∧ N ≤ 2 ^ k ∧ ∀ j, N ≤ 2 ^ j → k ≤ j) ∧
    (∀ s : Nat, saltelliSkip N (some s) = .ok s) ∧
    ∀ s : Int, s < 0 → saltelliSkip N (some s) = .error .assertionError := by
  refine ⟨⟨Nat.clog 2 N, ?_, ?_, ?_⟩, ?_, ?_⟩
  · simp [saltelliSkip]; omega
  · exact Nat.le_pow_clog (by norm_num) N
  · intro j hj
    exact (Nat.clog_le_iff_le_pow (by norm_num)).mpr hj
  · intro s
    unfold saltelliSkip
    have : N ≠ 0 := by omega
    rcases s with _ | s
    · simp
    · simp [this]
  · intro s hs
    unfold saltelliSkip
    have h1 : ¬ 0 < s := by omega
    have h2 : s ≠ 0 := by omega
    simp [h1, h2]

example : warnsNotPow2 1024 = false ∧ warnsNotPow2 1 = true ∧ warnsNotPow2 100 = true := by decide

end SALib
