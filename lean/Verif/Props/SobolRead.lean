import Verif.Lemmas.Strided
import Verif.Model.SobolAnalyze
import Verif.Props.Saltelli

/-!
# C12, C18: the Sobol analyser reads the outputs of the right rows
-/

set_option linter.unusedSectionVars false

namespace SALib
open Spec

theorem separate_blocks {β : Type} (blocks : List (List β)) (D : Nat) (second : Bool)
    (h : ∀ b ∈ blocks, b.length = blockSize second D) :
    separateOutputValues blocks.flatten D blocks.length second = .ok
      { A := blocks.filterMap (·[0]?)
        B := blocks.filterMap (·[blockSize second D - 1]?)
        AB := (List.range D).map fun j => blocks.filterMap (·[j + 1]?)
        BA := if second then (List.range D).map fun j => blocks.filterMap (·[j + 1 + D]?) else [] } := by
  have hstep : (if second then 2 * D + 2 else D + 2) = blockSize second D := rfl
  have hge : D + 2 ≤ blockSize second D := by unfold blockSize; split <;> omega
  have hlen : ∀ a, a < blockSize second D → (blocks.filterMap (·[a]?)).length = blocks.length := by
    intro a ha
    have : blocks.filterMap (·[a]?) = blocks.filterMap fun b => (b[a]? : Option β) := rfl
    clear hstep
    induction blocks with
    | nil => rfl
    | cons b bs ih =>
      rw [List.filterMap_cons, List.getElem?_eq_getElem (by rw [h b (by simp)]; exact ha)]
      simp only [List.length_cons]
      rw [ih (fun b' hb => h b' (by simp [hb])) rfl]
  have hA : ∀ a, a < blockSize second D → strided blocks.flatten a (blockSize second D) =
      blocks.filterMap (·[a]?) := fun a ha => strided_flatten blocks a _ h ha
  unfold separateOutputValues
  rw [hstep]
  have hAB : (List.range D).mapM (fun j =>
        assignColumn blocks.length (strided blocks.flatten (j + 1) (blockSize second D))) =
      .ok ((List.range D).map fun j => blocks.filterMap (·[j + 1]?)) := by
    apply mapM_ok_of
    intro j hj
    have hj' := List.mem_range.mp hj
    rw [hA _ (by omega), assignColumn, if_pos (hlen _ (by omega))]
  simp only [hAB, hA 0 (by omega), hA (blockSize second D - 1) (by omega), pyBind_ok, pyPure]
  cases second
  · simp
  · have hge2 : blockSize true D = 2 * D + 2 := rfl
    have hBA : (List.range D).mapM (fun j =>
          assignColumn blocks.length (strided blocks.flatten (j + 1 + D) (blockSize true D))) =
        .ok ((List.range D).map fun j => blocks.filterMap (·[j + 1 + D]?)) := by
      apply mapM_ok_of
      intro j hj
      have hj' := List.mem_range.mp hj
      rw [hA _ (by omega), assignColumn, if_pos (hlen _ (by omega))]
    simp only [if_true, hBA, pyBind_ok]

/-- **C12.** For every row-wise model `f`, the outputs on the rows of the cross-sampling design are cut
into: the model at the points A; at the points B; for each group `k` the model at A with group `k` from
B; and (second order) the model at B with group `k` from A. -/
theorem C12_reads_right_rows {β γ : Type} (f : List β → γ) (second : Bool) (D g : Nat)
    (groupOf : Nat → Nat) (base : List (List β)) :
    separateOutputValues ((crossDesign second D g groupOf base).map f) g base.length second = .ok
      { A := base.map fun row => f (row.take D)
        B := base.map fun row => f (row.drop D)
        AB := (List.range g).map fun k => base.map fun row =>
          f (replaceIn (fun j => groupOf j == k) (row.take D) (row.drop D))
        BA := if second then (List.range g).map fun k => base.map fun row =>
            f (replaceIn (fun j => groupOf j == k) (row.drop D) (row.take D))
          else [] } := by
  have key := separate_blocks
    (base.map fun row => (Spec.crossBlock second g groupOf (row.take D) (row.drop D)).map f) g second
    (by
      intro b hb
      simp only [List.mem_map] at hb
      obtain ⟨row, -, rfl⟩ := hb
      rw [List.length_map, length_crossBlock])
  have hflat : (crossDesign second D g groupOf base).map f =
      (base.map fun row => (Spec.crossBlock second g groupOf (row.take D) (row.drop D)).map f).flatten := by
    unfold crossDesign
    rw [List.map_flatten, List.map_map]
    rfl
  rw [hflat]
  rw [List.length_map] at key
  rw [key]
  have cellA : ∀ A B : List β, ((Spec.crossBlock second g groupOf A B).map f)[0]? = some (f A) := by
    intro A B; simp [Spec.crossBlock]
  have cellB : ∀ A B : List β,
      ((Spec.crossBlock second g groupOf A B).map f)[blockSize second g - 1]? = some (f B) := by
    intro A B
    have hl := length_crossBlock second g groupOf A B
    unfold Spec.crossBlock at hl ⊢
    rw [List.length_append, List.length_singleton] at hl
    rw [List.getElem?_map, List.getElem?_append_right (by omega),
      show blockSize second g - 1 -
        ([A] ++ List.map (fun k => replaceIn (fun j => groupOf j == k) A B) (List.range g) ++
          if second then List.map (fun k => replaceIn (fun j => groupOf j == k) B A) (List.range g)
            else []).length = 0 by omega]
    rfl
  have cellAB : ∀ (A B : List β) k, k < g →
      ((Spec.crossBlock second g groupOf A B).map f)[k + 1]? =
        some (f (replaceIn (fun j => groupOf j == k) A B)) := by
    intro A B k hk
    unfold Spec.crossBlock
    rw [List.getElem?_map, List.append_assoc, List.append_assoc, List.singleton_append,
      List.getElem?_cons_succ, List.getElem?_append_left (by simpa using hk)]
    simp [hk]
  have cellBA : ∀ (A B : List β) k, k < g →
      ((Spec.crossBlock true g groupOf A B).map f)[k + 1 + g]? =
        some (f (replaceIn (fun j => groupOf j == k) B A)) := by
    intro A B k hk
    unfold Spec.crossBlock
    rw [List.getElem?_map, List.append_assoc, List.append_assoc, List.singleton_append,
      show k + 1 + g = (k + g) + 1 by omega,
      List.getElem?_cons_succ, List.getElem?_append_right (by simp)]
    simp only [if_true, List.length_map, List.length_range, Nat.add_sub_cancel]
    rw [List.getElem?_append_left (by simpa using hk)]
    simp [hk]
  congr 2
  · rw [List.filterMap_map]
    simp only [Function.comp_def, cellA]
    rw [List.filterMap_eq_map']
  · rw [List.filterMap_map]
    simp only [Function.comp_def, cellB]
    rw [List.filterMap_eq_map']
  · apply List.map_congr_left
    intro k hk
    rw [List.filterMap_map]
    simp only [Function.comp_def, cellAB _ _ _ (List.mem_range.mp hk)]
    rw [List.filterMap_eq_map']
  · cases second
    · rfl
    · simp only [if_true]
      apply List.map_congr_left
      intro k hk
      rw [List.filterMap_map]
      simp only [Function.comp_def, cellBA _ _ _ (List.mem_range.mp hk)]
      rw [List.filterMap_eq_map']

variable {α : Type} [Field α] [LinearOrder α]

/-- The number of groups in any numbering for the effective labels is the analyser's, unless all of two
or more parameters share one label (see C08). -/
theorem numbering_count (pb : Problem α) (labels : Option (List String)) (g : Nat)
    (groupOf : Nat → Nat) (hl : SamplerLabels pb labels)
    (hn : GroupNumbering pb.numVars labels g groupOf) (hnd : pb.names.Nodup)
    (hnum : pb.numVars = pb.names.length)
    (hlab : ∀ gs, pb.groups = some gs → gs ≠ [] → gs.length = pb.numVars)
    (hsingle : ¬ ∃ gs l, pb.groups = some gs ∧ 2 ≤ gs.length ∧ ∀ g ∈ gs, g = l) :
    g = (extractGroupNames pb).2 := by
  have hU := pdUnique_of_nodup pb.names hnd
  rcases hl with ⟨rfl, h⟩ | ⟨gs, rfl, h1, h2, x, hx, -⟩
  · obtain ⟨rfl, -⟩ := hn
    unfold extractGroupNames
    rcases h with h | h | h | ⟨gs, l, h, hl⟩
    · simp [h, hU, hnum]
    · simp [h, hU, hnum]
    · rw [h]
      cases hnames : pb.names with
      | nil => simp [hnum, hnames, pdUnique]
      | cons a t => rw [hnames] at hU; simp [hU, hnum, hnames]
    · cases gs with
      | nil => simp [h, hU, hnum]
      | cons a t =>
        have hlen := hlab _ h (by simp)
        have : ¬ 2 ≤ (a :: t).length := fun h2 => hsingle ⟨_, l, h, h2, hl⟩
        have ht : t = [] := by
          cases t with
          | nil => rfl
          | cons _ _ => simp at this
        subst ht
        rw [h]
        simp [pdUnique] at hlen ⊢
        exact hlen.symm
  · obtain ⟨names, hd, rfl, -⟩ := hn
    unfold extractGroupNames
    rw [h1]
    cases gs with
    | nil => cases hx
    | cons a t =>
      simp only
      apply List.Perm.length_eq
      rw [List.perm_ext_iff_of_nodup hd.nodup (nodup_pdUnique _)]
      intro n
      rw [hd.mem_iff, mem_pdUnique]

/-- **C12**, end to end: sample with `saltelli.sample`, evaluate any row-wise model, analyse.  The size
check finds exactly the `N` of the sampler and the number of groups of the design, and the outputs are
read as the model at the A, B, AB and BA points of the scaled base rows. -/
theorem C12_end_to_end (F : Ppf α) (gen : Nat → Nat → Py (Mat α)) (pb : Problem α) (N : Nat)
    (second : Bool) (skip : Option Int) (X : Mat (Num α)) (q : Problem α) (conf : α)
    (f : List (Num α) → α)
    (hgen : ∀ n d M, gen n d = .ok M → M.length = n ∧ HasCols d M)
    (hnd : pb.names.Nodup) (hnum : pb.numVars = pb.names.length)
    (hlab : ∀ gs, pb.groups = some gs → gs ≠ [] → gs.length = pb.numVars)
    (hsingle : ¬ ∃ gs l, pb.groups = some gs ∧ 2 ≤ gs.length ∧ ∀ g ∈ gs, g = l)
    (hconf : 0 < conf ∧ conf < 1)
    (hrun : saltelliSample F gen pb N second skip = .ok (X, q)) :
    ∃ labels g groupOf base, SamplerLabels pb labels ∧ GroupNumbering pb.numVars labels g groupOf ∧
      X = crossDesign second pb.numVars g groupOf base ∧
      sobolCheck q (X.map f).length second conf = .ok (g, N) ∧
      separateOutputValues (X.map f) g N second = .ok
        { A := base.map fun row => f (row.take pb.numVars)
          B := base.map fun row => f (row.drop pb.numVars)
          AB := (List.range g).map fun k => base.map fun row =>
            f (replaceIn (fun j => groupOf j == k) (row.take pb.numVars) (row.drop pb.numVars))
          BA := if second then (List.range g).map fun k => base.map fun row =>
              f (replaceIn (fun j => groupOf j == k) (row.drop pb.numVars) (row.take pb.numVars))
            else [] } := by
  obtain ⟨_, _, _, _, _, _, _, hq⟩ := C10_saltelli_size F gen pb N second skip X q hgen hlab hrun
  obtain ⟨labels, g, groupOf, fs, k, base, h1, h2, h3, h4, h5, rfl⟩ :=
    C11_saltelli F gen pb N second skip X q hgen hlab hrun
  obtain ⟨hlen, hcols⟩ := hgen _ _ _ h3
  have hN : ((base.drop k).map (applyBoth pb.numVars fs)).length = N := by simp; omega
  have hg := numbering_count pb labels g groupOf h1 h2 hnd hnum hlab hsingle
  refine ⟨labels, g, groupOf, _, h1, h2, rfl, ?_, ?_⟩
  · have hsize : ((crossDesign second pb.numVars g groupOf
        ((base.drop k).map (applyBoth pb.numVars fs))).map f).length = N * blockSize second g := by
      rw [List.length_map, length_crossDesign, hN]
    have hgq : (extractGroupNames q).2 = g := by rw [hq, hg]; rfl
    unfold sobolCheck
    rw [hsize, hgq]
    simp only [hconf, and_self, not_true_eq_false, if_false]
    unfold blockSize
    cases second
    · simp only [Bool.false_eq_true, if_false, false_and, not_false_eq_true, true_and]
      rw [if_pos (by simp), Nat.mul_div_cancel _ (by omega)]
    · simp only [if_true, true_and]
      rw [if_pos (by simp), Nat.mul_div_cancel _ (by omega)]
  · have := C12_reads_right_rows f second pb.numVars g groupOf
      ((base.drop k).map (applyBoth pb.numVars fs))
    rw [hN] at this
    exact this

/-- Two groups, two base rows: the outputs (here: the rows themselves) come back in the right slots. -/
example : separateOutputValues ((crossDesign true 2 2 id [[1, 2, 3, 4], [5, 6, 7, 8]]).map List.sum) 2 2
    true = .ok { A := [3, 11], B := [7, 15], AB := [[5, 13], [5, 13]], BA := [[5, 13], [5, 13]] } := by
  decide

/-- **C18.** With `g` the number of groups (distinct labels, or parameters), the analyser raises
`RuntimeError` exactly when the number of outputs is not a multiple of `2g+2` (second order) or `g+2`,
or `conf_level` is outside (0,1).  Otherwise the number of base samples is the exact quotient and the
arrays A, B, AB, BA together contain every output exactly once. -/
theorem C18_size_check (sqrt normPpf : α → α) (pb : Problem α) (Y : List α) (second : Bool) (conf : α)
    (r : List (List Nat)) (keep : Bool) (mode : Mode) (names : List String)
    (hnames : DistinctInOrder (effectiveLabels pb) names) :
    let step := if second then 2 * names.length + 2 else names.length + 2
    (sobolAnalyze sqrt normPpf pb Y second conf r keep mode = .error .runtimeError ↔
      ¬ (step ∣ Y.length ∧ 0 < conf ∧ conf < 1)) ∧
    ((step ∣ Y.length ∧ 0 < conf ∧ conf < 1) → ∃ N s, Y.length = N * step ∧
      sobolCheck pb Y.length second conf = .ok (names.length, N) ∧
      separateOutputValues Y names.length N second = .ok s ∧
      (s.A ++ s.AB.flatten ++ s.BA.flatten ++ s.B).Perm Y) := by
  intro step
  have hg : (extractGroupNames pb).2 = names.length := by
    obtain ⟨h1, h2⟩ := C07_group_names pb
    rw [h2]
    apply List.Perm.length_eq
    rw [List.perm_ext_iff_of_nodup h1.nodup hnames.nodup]
    intro n
    rw [h1.mem_iff, hnames.mem_iff]
  have hstep : step = blockSize second names.length := rfl
  have hsep : ∀ (Y : List α) N, Y.length = N * step → ∃ s,
      separateOutputValues Y names.length N second = .ok s ∧
      (s.A ++ s.AB.flatten ++ s.BA.flatten ++ s.B).Perm Y := by
    intro Y N hY
    obtain ⟨blocks, rfl, rfl, hb⟩ := exists_blocks step N Y hY
    rw [hstep] at hb
    refine ⟨_, separate_blocks blocks names.length second hb, ?_⟩
    refine List.Perm.trans (List.Perm.of_eq ?_) (columns_perm blocks _ hb)
    generalize names.length = D
    unfold blockSize
    cases second
    · simp only [Bool.false_eq_true, if_false, List.flatten_nil, List.append_nil]
      rw [show D + 2 = 1 + D + 1 by omega, List.range_succ, List.flatMap_append,
        List.range_eq_range' (n := 1 + D), ← List.range'_append_1, List.flatMap_append]
      congr 1
      · congr 1
        · simp
        · rw [List.range'_eq_map_range, List.flatMap_def, List.map_map]
          congr 1
          apply List.map_congr_left
          intro a _
          simp [Nat.add_comm]
      · simp [Nat.add_comm]
    · simp only [if_true]
      rw [show 2 * D + 2 = (1 + D) + D + 1 by omega, List.range_succ, List.flatMap_append,
        List.range_eq_range' (n := 1 + D + D), ← List.range'_append_1, ← List.range'_append_1, List.flatMap_append,
        List.flatMap_append]
      congr 1
      · congr 1
        · congr 1
          · simp
          · rw [List.range'_eq_map_range, List.flatMap_def, List.map_map]
            congr 1
            apply List.map_congr_left
            intro a _
            simp [Nat.add_comm]
        · rw [List.range'_eq_map_range, List.flatMap_def, List.map_map]
          congr 1
          apply List.map_congr_left
          intro a _
          simp only [Function.comp]
          congr 1
          funext b
          congr 1
          omega
      · simp only [List.flatMap_cons, List.flatMap_nil, List.append_nil]
        congr 1
  have hok : (step ∣ Y.length ∧ 0 < conf ∧ conf < 1) →
      ∃ N, Y.length = N * step ∧ sobolCheck pb Y.length second conf = .ok (names.length, N) := by
    rintro ⟨⟨N, hN⟩, hc⟩
    refine ⟨N, by rw [hN, Nat.mul_comm], ?_⟩
    unfold sobolCheck
    rw [hg, hN]
    simp only [hc, and_self, not_true_eq_false, if_false]
    have hpos : 0 < step := by rw [hstep]; unfold blockSize; split <;> omega
    cases second
    · simp only [Bool.false_eq_true, if_false, false_and, not_false_eq_true, true_and]
      simp only [step, Bool.false_eq_true, if_false]
      rw [if_pos (by simp), Nat.mul_div_cancel_left _ (by omega)]
    · simp only [true_and]
      simp only [step, if_true]
      rw [if_pos (by simp), Nat.mul_div_cancel_left _ (by omega)]
  refine ⟨⟨?_, ?_⟩, ?_⟩
  · intro herr hgood
    obtain ⟨N, hN, hchk⟩ := hok hgood
    unfold sobolAnalyze at herr
    rw [hchk] at herr
    simp only [pyBind_ok] at herr
    by_cases h0 : N = 0 ∨ r.length = 0
    · rw [if_pos h0] at herr
      cases herr
    · simp only [h0, if_false] at herr
      have htask : ∀ np cpu, createTaskList names.length second np cpu ≠ .error .runtimeError := by
        intro np cpu
        have gen : ∀ (n : Nat) (a b : List (List Task)),
            (if n = 0 then .error .valueError else if !second then .ok a else .ok b :
              Py (List (List Task))) ≠ .error .runtimeError := by
          intro n a b
          by_cases h1 : n = 0
          · rw [if_pos h1]; intro h; cases h
          · rw [if_neg h1]; split <;> (intro h; cases h)
        exact gen _ _ _
      cases hn : normalise sqrt Y with
      | none =>
        rw [hn] at herr
        cases mode with
        | serial => cases herr
        | parallel np cpu =>
          simp only at herr
          cases ht : createTaskList names.length second np cpu with
          | error e => rw [ht] at herr; cases herr; exact htask np cpu ht
          | ok t => rw [ht] at herr; cases herr
      | some Y' =>
        rw [hn] at herr
        simp only at herr
        have hY' : Y'.length = N * step := by
          rw [← hN]
          unfold normalise at hn
          cases hm : npMean Y with
          | none => simp [hm] at hn
          | some m =>
            cases hv : npVar Y with
            | none => simp [hm, hv] at hn
            | some v =>
              simp only [hm, hv, Option.bind_eq_bind, Option.bind_some] at hn
              split at hn
              · cases hn
              · cases hn; simp
        obtain ⟨s, hs, -⟩ := hsep Y' N hY'
        rw [hs] at herr
        simp only [pyBind_ok] at herr
        cases mode with
        | serial => cases herr
        | parallel np cpu =>
          simp only at herr
          cases ht : createTaskList names.length second np cpu with
          | error e => rw [ht] at herr; cases herr; exact htask np cpu ht
          | ok t => rw [ht] at herr; cases herr
  · intro hbad
    have : sobolCheck pb Y.length second conf = .error .runtimeError := by
      unfold sobolCheck
      rw [hg]
      simp only
      by_cases hc : 0 < conf ∧ conf < 1
      · have hnd : ¬ step ∣ Y.length := fun h => hbad ⟨h, hc⟩
        rw [Nat.dvd_iff_mod_eq_zero] at hnd
        simp only [hc, and_self, not_true_eq_false, if_false]
        cases second
        · simp only [step, Bool.false_eq_true, if_false] at hnd
          simp [hnd]
        · simp only [step, if_true] at hnd
          simp [hnd]
      · rw [if_pos hc]
    unfold sobolAnalyze
    rw [this]
    rfl
  · intro hgood
    obtain ⟨N, hN, hchk⟩ := hok hgood
    obtain ⟨s, hs, hperm⟩ := hsep Y N hN
    exact ⟨N, s, hN, hchk, hs, hperm⟩

/-- The hypotheses are met: two parameters, second order, 12 outputs are accepted, 13 are not. -/
example :
    let pb : Problem ℚ := { names := ["x", "y"], bounds := [[0, 1], [0, 1]] }
    sobolCheck pb 12 true (19 / 20) = .ok (2, 2) ∧
      sobolCheck pb 13 true (19 / 20) = .error .runtimeError ∧
      DistinctInOrder (effectiveLabels pb) ["x", "y"] := by
  intro pb
  refine ⟨by decide +kernel, by decide +kernel, ⟨by decide, ?_, by decide⟩⟩
  intro n
  simp [effectiveLabels, pb]

end SALib
