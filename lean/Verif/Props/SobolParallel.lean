import Verif.Lemmas.ArraySplit
import Verif.Lemmas.Stats
import Verif.Props.SobolRead

/-!
# C14, C17: signs of the Sobol results, and the parallel code path
-/

set_option linter.unusedSectionVars false

namespace SALib
open Spec

section
variable {α : Type} [Field α] [LinearOrder α]

theorem mem_tasksFirst (D : Nat) (t : Task) :
    t ∈ tasksFirst D ↔ t.j < D ∧ t.k = none ∧
      (t.key = .s1 ∨ t.key = .s1conf ∨ t.key = .st ∨ t.key = .stconf) := by
  obtain ⟨key, j, k⟩ := t
  simp only [tasksFirst, List.mem_flatMap, List.mem_range, List.mem_map, List.mem_cons,
    List.not_mem_nil, or_false, Task.mk.injEq]
  constructor
  · rintro ⟨j', hj, d, hd, rfl, rfl, rfl⟩
    exact ⟨hj, rfl, hd⟩
  · rintro ⟨h1, rfl, h3⟩
    exact ⟨j, h1, key, h3, rfl, rfl, rfl⟩

theorem mem_tasksSecond (D : Nat) (t : Task) :
    t ∈ tasksSecond D ↔ ∃ k, t.k = some k ∧ t.j < k ∧ k < D ∧ (t.key = .s2 ∨ t.key = .s2conf) := by
  obtain ⟨key, j, k⟩ := t
  simp only [tasksSecond, List.mem_flatMap, List.mem_range, List.mem_map, List.mem_cons,
    List.not_mem_nil, or_false, Task.mk.injEq, List.mem_range'_1]
  constructor
  · rintro ⟨j', hj, k', hk', d, hd, rfl, rfl, rfl⟩
    exact ⟨k', rfl, by omega, by omega, hd⟩
  · rintro ⟨k', rfl, h1, h2, h3⟩
    exact ⟨j, by omega, k', by omega, key, h3, rfl, rfl, rfl⟩

/-- Every task is handed to exactly one worker, whatever the number of workers. -/
theorem createTaskList_perm (D : Nat) (second : Bool) (np : Option Nat) (cpu : Nat)
    (tasks : List (List Task)) (h : createTaskList D second np cpu = .ok tasks) :
    tasks.flatten.Perm (tasksFirst D ++ if second then tasksSecond D else []) := by
  unfold createTaskList at h
  cases second with
  | false =>
    simp only [Bool.not_false, if_true, Bool.false_eq_true, if_false] at h
    split at h
    · cases h
    · rename_i hn
      cases h
      rw [arraySplit_flatten _ _ (by omega)]
      simp
  | true =>
    simp only [Bool.not_true, if_true, Bool.false_eq_true, if_false] at h
    split at h
    · cases h
    · rename_i hn
      cases h
      rw [arraySplit_flatten _ _ (by omega)]
      exact (interleave_perm _ _).trans ((List.reverse_perm _).append_right _)

/-- Writing a list of results, seen from one of the one-dimensional arrays. -/
theorem storeResult_fold1 (proj : SobolResult α → List (Num α)) (key : SKey)
    (hproj : ∀ S t, proj (storeResult S t) =
      if (t.1.key = key ∧ t.1.k = none) then (proj S).set t.1.j t.2 else proj S)
    (out : List (Task × Num α)) (S : SobolResult α) :
    proj (out.foldl storeResult S) = out.foldl (fun acc t =>
      if decide (t.1.key = key ∧ t.1.k = none) then acc.set t.1.j t.2 else acc) (proj S) := by
  induction out generalizing S with
  | nil => rfl
  | cons t out ih => rw [List.foldl_cons, List.foldl_cons, ih, hproj]; simp

theorem storeResult_fold2 (proj : SobolResult α → Option (Mat (Num α))) (key : SKey)
    (hproj : ∀ S t, proj (storeResult S t) =
      if (t.1.key = key ∧ t.1.k.isSome = true) then
        (proj S).map fun M => M.set t.1.j ((M.getD t.1.j []).set (t.1.k.getD 0) t.2)
      else proj S)
    (out : List (Task × Num α)) (S : SobolResult α) :
    proj (out.foldl storeResult S) = (proj S).map fun M => out.foldl (fun (M : Mat (Num α)) t =>
      if decide (t.1.key = key ∧ t.1.k.isSome = true) then
        M.set t.1.j ((M.getD t.1.j []).set (t.1.k.getD 0) t.2) else M) M := by
  induction out generalizing S with
  | nil => cases h : proj S <;> simp [h]
  | cons t out ih =>
    simp only [List.foldl_cons]
    rw [ih, hproj]
    split
    · rename_i h
      cases h : proj S <;> simp [*]
    · rename_i h
      cases h : proj S <;> simp [*]

theorem storeResult_S1 (S : SobolResult α) (t : Task × Num α) : (storeResult S t).S1 =
    if (t.1.key = .s1 ∧ t.1.k = none) then S.S1.set t.1.j t.2 else S.S1 := by
  obtain ⟨⟨key, j, k⟩, v⟩ := t
  cases k <;> cases key <;> simp [storeResult]

theorem storeResult_S1conf (S : SobolResult α) (t : Task × Num α) : (storeResult S t).S1conf =
    if (t.1.key = .s1conf ∧ t.1.k = none) then S.S1conf.set t.1.j t.2 else S.S1conf := by
  obtain ⟨⟨key, j, k⟩, v⟩ := t
  cases k <;> cases key <;> simp [storeResult]

theorem storeResult_ST (S : SobolResult α) (t : Task × Num α) : (storeResult S t).ST =
    if (t.1.key = .st ∧ t.1.k = none) then S.ST.set t.1.j t.2 else S.ST := by
  obtain ⟨⟨key, j, k⟩, v⟩ := t
  cases k <;> cases key <;> simp [storeResult]

theorem storeResult_STconf (S : SobolResult α) (t : Task × Num α) : (storeResult S t).STconf =
    if (t.1.key = .stconf ∧ t.1.k = none) then S.STconf.set t.1.j t.2 else S.STconf := by
  obtain ⟨⟨key, j, k⟩, v⟩ := t
  cases k <;> cases key <;> simp [storeResult]

theorem storeResult_S2 (S : SobolResult α) (t : Task × Num α) : (storeResult S t).S2 =
    if (t.1.key = .s2 ∧ t.1.k.isSome = true) then
      S.S2.map fun M => M.set t.1.j ((M.getD t.1.j []).set (t.1.k.getD 0) t.2) else S.S2 := by
  obtain ⟨⟨key, j, k⟩, v⟩ := t
  cases k <;> cases key <;> simp [storeResult]

theorem storeResult_S2conf (S : SobolResult α) (t : Task × Num α) : (storeResult S t).S2conf =
    if (t.1.key = .s2conf ∧ t.1.k.isSome = true) then
      S.S2conf.map fun M => M.set t.1.j ((M.getD t.1.j []).set (t.1.k.getD 0) t.2) else S.S2conf := by
  obtain ⟨⟨key, j, k⟩, v⟩ := t
  cases k <;> cases key <;> simp [storeResult]

theorem storeResult_all (out : List (Task × Num α)) (S : SobolResult α) :
    (out.foldl storeResult S).S1all = S.S1all ∧ (out.foldl storeResult S).STall = S.STall := by
  induction out generalizing S with
  | nil => simp
  | cons t out ih =>
    rw [List.foldl_cons]
    obtain ⟨⟨key, j, k⟩, v⟩ := t
    rw [(ih _).1, (ih _).2]
    cases k <;> cases key <;> simp [storeResult]

/-- Merging worker results, in whatever order they arrive: every cell holds the value of its task, and
the arrays of kept resamples stay as created. -/
theorem merge_any_order (f : Task → Num α) (D R : Nat) (keep second : Bool)
    (out : List (Task × Num α)) (hf : ∀ t ∈ out, t.2 = f t.1)
    (hmem : ∀ t, t ∈ out.map Prod.fst ↔ t ∈ tasksFirst D ++ if second then tasksSecond D else []) :
    let z := createSiDict (α := α) D R keep second
    out.foldl storeResult z =
      { S1 := (List.range D).map fun j => f ⟨.s1, j, none⟩
        S1conf := (List.range D).map fun j => f ⟨.s1conf, j, none⟩
        ST := (List.range D).map fun j => f ⟨.st, j, none⟩
        STconf := (List.range D).map fun j => f ⟨.stconf, j, none⟩
        S1all := z.S1all
        STall := z.STall
        S2 := if second then some ((List.range D).map fun j => (List.range D).map fun k =>
          if j < k then f ⟨.s2, j, some k⟩ else none) else none
        S2conf := if second then some ((List.range D).map fun j => (List.range D).map fun k =>
          if j < k then f ⟨.s2conf, j, some k⟩ else none) else none } := by
  intro z
  have hin : ∀ t ∈ out, (t.1.j < D ∧ t.1.k = none ∧
      (t.1.key = .s1 ∨ t.1.key = .s1conf ∨ t.1.key = .st ∨ t.1.key = .stconf)) ∨
      (second = true ∧ ∃ k, t.1.k = some k ∧ t.1.j < k ∧ k < D ∧
        (t.1.key = .s2 ∨ t.1.key = .s2conf)) := by
    intro t ht
    have := (hmem t.1).mp (List.mem_map.mpr ⟨t, ht, rfl⟩)
    rcases List.mem_append.mp this with h | h
    · exact Or.inl ((mem_tasksFirst D t.1).mp h)
    · cases second with
      | false => simp at h
      | true => exact Or.inr ⟨rfl, (mem_tasksSecond D t.1).mp (by simpa using h)⟩
  have hout : ∀ t : Task, t ∈ tasksFirst D ++ (if second then tasksSecond D else []) →
      ∃ u ∈ out, u.1 = t := by
    intro t ht
    obtain ⟨u, hu, hut⟩ := List.mem_map.mp ((hmem t).mpr ht)
    exact ⟨u, hu, hut⟩
  have one : ∀ key : SKey, (key = .s1 ∨ key = .s1conf ∨ key = .st ∨ key = .stconf) →
      out.foldl (fun acc t => if decide (t.1.key = key ∧ t.1.k = none) then acc.set t.1.j t.2 else acc)
        (List.replicate D (some 0)) = (List.range D).map fun j => f ⟨key, j, none⟩ := by
    intro key hkey
    apply foldl_set_fill (fun t : Task × Num α => decide (t.1.key = key ∧ t.1.k = none))
      (fun t => t.1.j) (fun t => t.2) out _ _ D (by simp)
    · intro t ht hp
      obtain ⟨h1, h2⟩ := of_decide_eq_true hp
      rw [hf t ht]
      obtain ⟨⟨_, _, _⟩, _⟩ := t
      simp only at h1 h2
      subst h1 h2
      rfl
    · intro i hi
      obtain ⟨u, hu, hut⟩ := hout ⟨key, i, none⟩
        (List.mem_append.mpr (Or.inl ((mem_tasksFirst D _).mpr ⟨hi, rfl, hkey⟩)))
      exact ⟨u, hu, by simp [hut]⟩
  have two : ∀ key : SKey, (key = .s2 ∨ key = .s2conf) → second = true →
      out.foldl (fun (M : Mat (Num α)) t => if decide (t.1.key = key ∧ t.1.k.isSome = true) then
          M.set t.1.j ((M.getD t.1.j []).set (t.1.k.getD 0) t.2) else M)
        (List.replicate D (List.replicate D none)) =
      (List.range D).map fun j => (List.range D).map fun k =>
          if j < k then f ⟨key, j, some k⟩ else none := by
    intro key hkey hsec
    apply foldl_set2_fill (fun t : Task × Num α => decide (t.1.key = key ∧ t.1.k.isSome = true))
      (fun t => t.1.j) (fun t => t.1.k.getD 0) (fun t => t.2) out D none
      (fun j k => f ⟨key, j, some k⟩)
    · intro t ht hp
      obtain ⟨h1, h2⟩ := of_decide_eq_true hp
      rcases hin t ht with ⟨-, h3, -⟩ | ⟨-, k, h3, h4, h5, -⟩
      · rw [h3] at h2; simp at h2
      · rw [hf t ht]
        obtain ⟨⟨_, _, _⟩, _⟩ := t
        simp only at h1 h3 h4
        subst h1 h3
        exact ⟨rfl, h4, h5⟩
    · intro j k hjk hk
      obtain ⟨u, hu, hut⟩ := hout ⟨key, j, some k⟩
        (List.mem_append.mpr (Or.inr (by
          rw [if_pos hsec]
          exact (mem_tasksSecond D _).mpr ⟨k, rfl, hjk, hk, hkey⟩)))
      exact ⟨u, hu, by simp [hut]⟩
  have e1 := storeResult_fold1 SobolResult.S1 .s1 storeResult_S1 out z
  have e2 := storeResult_fold1 SobolResult.S1conf .s1conf storeResult_S1conf out z
  have e3 := storeResult_fold1 SobolResult.ST .st storeResult_ST out z
  have e4 := storeResult_fold1 SobolResult.STconf .stconf storeResult_STconf out z
  have e5 := storeResult_fold2 SobolResult.S2 .s2 storeResult_S2 out z
  have e6 := storeResult_fold2 SobolResult.S2conf .s2conf storeResult_S2conf out z
  obtain ⟨e7, e8⟩ := storeResult_all out z
  rw [show z.S1 = List.replicate D (some 0) from rfl, one .s1 (by simp)] at e1
  rw [show z.S1conf = List.replicate D (some 0) from rfl, one .s1conf (by simp)] at e2
  rw [show z.ST = List.replicate D (some 0) from rfl, one .st (by simp)] at e3
  rw [show z.STconf = List.replicate D (some 0) from rfl, one .stconf (by simp)] at e4
  have e5' : (out.foldl storeResult z).S2 = if second then some ((List.range D).map fun j =>
      (List.range D).map fun k => if j < k then f ⟨.s2, j, some k⟩ else none) else none := by
    rw [e5]
    cases hs : second with
    | false => simp [z, createSiDict, hs]
    | true =>
      rw [show z.S2 = some (List.replicate D (List.replicate D none)) by simp [z, createSiDict, hs],
        Option.map_some, two .s2 (by simp) hs]
      simp
  have e6' : (out.foldl storeResult z).S2conf = if second then some ((List.range D).map fun j =>
      (List.range D).map fun k => if j < k then f ⟨.s2conf, j, some k⟩ else none) else none := by
    rw [e6]
    cases hs : second with
    | false => simp [z, createSiDict, hs]
    | true =>
      rw [show z.S2conf = some (List.replicate D (List.replicate D none)) by
        simp [z, createSiDict, hs], Option.map_some, two .s2conf (by simp) hs]
      simp
  generalize out.foldl storeResult z = res at *
  obtain ⟨a, b, c, d, e, f', g, h⟩ := res
  simp only at e1 e2 e3 e4 e5' e6' e7 e8
  subst e1 e2 e3 e4 e5' e6' e7 e8
  rfl

/-- The parallel result, cell by cell, for every number of workers and every order in which the
workers' results are collected: it is the serial result, except that

* when all resampled A and B outputs coincide, `S1_conf` and `ST_conf` are nan instead of 0;
* with `keep_resamples`, the arrays of kept resamples hold zeros. -/
theorem C17_parallel_result (sqrt : α → α) (Z : α) (s : Separated α) (r : List (List Nat)) (D : Nat)
    (keep second : Bool) (np : Option Nat) (cpu : Nat) (tasks : List (List Task))
    (htasks : createTaskList D second np cpu = .ok tasks)
    (out : List (Task × Num α))
    (hout : out.Perm (tasks.map (sobolParallel sqrt Z s r)).flatten) :
    let ser := serialIndices sqrt Z s r D keep second
    let const := ptpZero2 (resample s.A r) (resample s.B r)
    let zeros := List.replicate D (List.replicate r.length (some (0 : α)))
    out.foldl storeResult (createSiDict D r.length keep second) =
      { ser with
        S1conf := if const then List.replicate D none else ser.S1conf
        STconf := if const then List.replicate D none else ser.STconf
        S1all := if keep then some zeros else none
        STall := if keep then some zeros else none } := by
  intro ser const zeros
  have hflat : (tasks.map (sobolParallel sqrt Z s r)).flatten =
      tasks.flatten.map fun t => (t, taskValue sqrt Z s r t) := by
    rw [List.map_flatten]; rfl
  rw [hflat] at hout
  have hperm := createTaskList_perm D second np cpu tasks htasks
  have := merge_any_order (taskValue sqrt Z s r) D r.length keep second out (by
      intro t ht
      obtain ⟨t', -, rfl⟩ := List.mem_map.mp (hout.mem_iff.mp ht)
      rfl) (by
      intro t
      rw [(hout.map Prod.fst).mem_iff, List.map_map]
      simp only [Function.comp_def, List.map_id']
      exact hperm.mem_iff)
  simp only at this
  rw [this]
  simp only [ser, serialIndices, taskValue, const, zeros, createSiDict, SobolResult.mk.injEq, true_and,
    Option.getD_some, and_true]
  by_cases hc : ptpZero2 (resample s.A r) (resample s.B r) = true
  · simp [hc, firstOrderR, totalOrderR, Est.std1, scaleNum, List.map_const']
  · simp [hc]

/-- Without `keep_resamples`, and unless all resampled outputs coincide, `sobol.analyze` returns the
same result whether it runs serially or on any number of workers. -/
theorem C17_parallel_eq_serial_partial (sqrt normPpf : α → α) (pb : Problem α) (Y : List α) (second : Bool)
    (conf : α) (r : List (List Nat)) (np : Option Nat) (cpu : Nat) (hnp : np ≠ some 0) (hcpu : 0 < cpu)
    (hD : 0 < (extractGroupNames pb).2)
    (hvary : ∀ Y' N s, normalise sqrt Y = some Y' →
      separateOutputValues Y' (extractGroupNames pb).2 N second = .ok s →
      ptpZero2 (resample s.A r) (resample s.B r) = false) :
    sobolAnalyze sqrt normPpf pb Y second conf r false (.parallel np cpu) =
      sobolAnalyze sqrt normPpf pb Y second conf r false .serial := by
  have hok : ∃ tasks, createTaskList (extractGroupNames pb).2 second np cpu = .ok tasks := by
    unfold createTaskList
    have hlen : 0 < (tasksFirst (extractGroupNames pb).2).length := by
      apply List.length_pos_of_mem (a := ⟨.s1, 0, none⟩)
      exact (mem_tasksFirst _ _).mpr ⟨hD, rfl, by simp⟩
    simp only
    rw [if_neg]
    · split <;> exact ⟨_, rfl⟩
    · cases np with
      | none => simp only [Option.getD_none]; omega
      | some n => simp only [Option.getD_some]; rintro rfl; exact hnp rfl
  obtain ⟨tasks, htasks⟩ := hok
  unfold sobolAnalyze
  cases hc : sobolCheck pb Y.length second conf with
  | error e => rfl
  | ok DN =>
    obtain ⟨D, N⟩ := DN
    have hDe : D = (extractGroupNames pb).2 := by
      unfold sobolCheck at hc
      simp only at hc
      split at hc
      · cases hc
      · split at hc
        · cases hc; rfl
        · split at hc
          · cases hc; rfl
          · cases hc
    subst hDe
    simp only [pyBind_ok]
    by_cases h0 : N = 0 ∨ r.length = 0
    · simp only [h0, if_true]; rfl
    · simp only [h0, if_false]
      cases hn : normalise sqrt Y with
      | none => simp [pyBind_ok, htasks, nanResult, createSiDict]
      | some Y' =>
        simp only
        cases hs : separateOutputValues Y' (extractGroupNames pb).2 N second with
        | error e => rfl
        | ok s =>
          simp only [pyBind_ok, htasks]
          have := C17_parallel_result sqrt (normPpf (1 / 2 + conf / 2)) s r (extractGroupNames pb).2 false
            second np cpu tasks htasks _ (List.Perm.refl _)
          simp only at this
          have hv := hvary Y' N s hn hs
          unfold siListToDict
          rw [this]
          simp [hv, serialIndices]

/-- The hypotheses of the two theorems are met: a non-constant output vector, two factors, three
workers; the two modes agree and the result is not nan. -/
example :
    let pb : Problem ℚ := { names := ["x", "y"], bounds := [[0, 1], [0, 1]] }
    let Y : List ℚ := [1, 2, 3, 4, 5, 7, 0, 1, 1, 2, 5, 8]
    let r := [[0, 1], [1, 1]]
    sobolAnalyze id id pb Y true (19 / 20) r false (.parallel (some 3) 8) =
        sobolAnalyze id id pb Y true (19 / 20) r false .serial ∧
      (sobolAnalyze id id pb Y true (19 / 20) r false .serial).map
        (fun res => res.ST.all Option.isSome) = .ok true := by
  decide +kernel

/-- The two code paths do differ with `keep_resamples`: the parallel run reports zeros. -/
theorem C17_kept_resamples_differ :
    let pb : Problem ℚ := { names := ["x", "y"], bounds := [[0, 1], [0, 1]] }
    let Y : List ℚ := [1, 2, 3, 4, 5, 7, 0, 1, 1, 2, 5, 8]
    let r := [[0, 1], [1, 1]]
    sobolAnalyze id id pb Y true (19 / 20) r true (.parallel (some 3) 8) ≠
      sobolAnalyze id id pb Y true (19 / 20) r true .serial := by
  decide +kernel

/-- And they differ in `S1_conf`, `ST_conf` when every resample happens to pick outputs of A and B
that coincide (0 serially, nan in parallel). -/
theorem C17_constant_resample_differs :
    let pb : Problem ℚ := { names := ["x"], bounds := [[0, 1]] }
    let Y : List ℚ := [1, 2, 1, 5, 7, 0]
    let r := [[0, 0], [0, 0]]
    (sobolAnalyze id id pb Y false (19 / 20) r false .serial).map (·.S1conf) = .ok [some 0] ∧
      (sobolAnalyze id id pb Y false (19 / 20) r false (.parallel none 4)).map (·.S1conf) =
        .ok [none] := by
  decide +kernel

end

section
variable {α : Type} [Field α] [LinearOrder α] [IsStrictOrderedRing α]

theorem npDiv_nonneg (a b v : α) (ha : 0 ≤ a) (hb : 0 ≤ b) (h : npDiv a b = some v) : 0 ≤ v := by
  unfold npDiv at h
  split at h
  · cases h
  · cases h; exact div_nonneg ha hb

theorem npMean_nonneg (l : List α) (v : α) (hl : ∀ x ∈ l, 0 ≤ x) (h : npMean l = some v) : 0 ≤ v :=
  npDiv_nonneg _ _ v (List.sum_nonneg hl) (Nat.cast_nonneg _) h

theorem totalOrder_nonneg (A AB B : List α) (v : α) (h : totalOrder A AB B = some v) : 0 ≤ v := by
  unfold totalOrder at h
  simp only at h
  split at h
  · cases h; exact le_rfl
  · cases hm : npMean ((List.zipWith (fun a ab => a - ab) A AB).map (· ^ 2)) with
    | none => rw [hm] at h; cases h
    | some m =>
      cases hv : npVar (A ++ B) with
      | none => simp [hm, hv] at h
      | some w =>
        simp only [hm, hv, Option.bind_eq_bind, Option.bind_some] at h
        have hm0 : 0 ≤ m := npMean_nonneg _ m (by
          intro x hx
          obtain ⟨y, -, rfl⟩ := List.mem_map.mp hx
          positivity) hm
        exact npDiv_nonneg _ _ v (by positivity) (npVar_nonneg _ _ hv) h

theorem conf_nonneg (sqrt : α → α) (hs : ∀ x, 0 ≤ sqrt x) (Z : α) (hZ : 0 ≤ Z) (e : Est α) (v : α)
    (h : scaleNum Z (e.std1 sqrt) = some v) : 0 ≤ v := by
  unfold scaleNum at h
  obtain ⟨w, hw, rfl⟩ := Option.map_eq_some_iff.mp h
  cases e with
  | scalarZero => cases hw
  | vec vs => exact mul_nonneg hZ (npStd1N_nonneg sqrt hs vs w hw)

/-- No finite total-order index and no finite confidence value is negative. -/
def Spec.NonnegResult (res : SobolResult α) : Prop :=
  (∀ v, some v ∈ res.ST → 0 ≤ v) ∧ (∀ v, some v ∈ res.S1conf → 0 ≤ v) ∧
  (∀ v, some v ∈ res.STconf → 0 ≤ v) ∧
  ∀ M, res.S2conf = some M → ∀ row ∈ M, ∀ v, some v ∈ row → 0 ≤ v

theorem serial_nonneg (sqrt : α → α) (hs : ∀ x, 0 ≤ sqrt x) (Z : α) (hZ : 0 ≤ Z) (s : Separated α)
    (r : List (List Nat)) (D : Nat) (keep second : Bool) :
    NonnegResult (serialIndices sqrt Z s r D keep second) := by
  refine ⟨?_, ?_, ?_, ?_⟩
  · intro v hv
    obtain ⟨j, -, hj⟩ := List.mem_map.mp hv
    exact totalOrder_nonneg _ _ _ v hj
  · intro v hv
    obtain ⟨j, -, hj⟩ := List.mem_map.mp hv
    simp only at hj
    split at hj
    · cases hj; exact le_rfl
    · exact conf_nonneg sqrt hs Z hZ _ v hj
  · intro v hv
    obtain ⟨j, -, hj⟩ := List.mem_map.mp hv
    simp only at hj
    split at hj
    · cases hj; exact le_rfl
    · exact conf_nonneg sqrt hs Z hZ _ v hj
  · intro M hM row hrow v hv
    simp only [serialIndices] at hM
    split at hM
    · cases hM
      obtain ⟨j, -, rfl⟩ := List.mem_map.mp hrow
      obtain ⟨k, -, hk⟩ := List.mem_map.mp hv
      split at hk
      · exact conf_nonneg sqrt hs Z hZ _ v hk
      · cases hk
    · cases hM

/-- **C14.** Every finite `ST` value and every finite confidence value that `sobol.analyze` returns is
`≥ 0`, serially or in parallel, for every output vector and every resample draw.  Of `np.sqrt` only
non-negativity is used; of `norm.ppf` only that it is monotone with `ppf(1/2) = 0`. -/
theorem C14_nonneg (sqrt normPpf : α → α) (hsqrt : ∀ x, 0 ≤ sqrt x)
    (hppf : ∀ p q, 0 < p → p ≤ q → q < 1 → normPpf p ≤ normPpf q) (hhalf : normPpf (1 / 2) = 0)
    (pb : Problem α) (Y : List α) (second : Bool) (conf : α) (r : List (List Nat)) (keep : Bool)
    (mode : Mode) (res : SobolResult α)
    (h : sobolAnalyze sqrt normPpf pb Y second conf r keep mode = .ok res) : NonnegResult res := by
  unfold sobolAnalyze at h
  cases hc : sobolCheck pb Y.length second conf with
  | error e => rw [hc] at h; cases h
  | ok DN =>
    obtain ⟨D, N⟩ := DN
    have hconf : 0 < conf ∧ conf < 1 := by
      unfold sobolCheck at hc
      by_contra hcon
      simp only [hcon, not_false_eq_true, if_true] at hc
      cases hc
    have hZ : 0 ≤ normPpf (1 / 2 + conf / 2) := by
      rw [← hhalf]
      exact hppf _ _ (by norm_num) (by linarith [hconf.1]) (by linarith [hconf.2])
    have hnan : ∀ R, NonnegResult (nanResult (α := α) D R keep second) := by
      intro R
      refine ⟨?_, ?_, ?_, ?_⟩
      · intro v hv; cases (List.mem_replicate.mp hv).2
      · intro v hv; cases (List.mem_replicate.mp hv).2
      · intro v hv; cases (List.mem_replicate.mp hv).2
      · intro M hM row hrow v hv
        simp only [nanResult] at hM
        split at hM
        · cases hM
          rw [(List.mem_replicate.mp hrow).2] at hv
          cases (List.mem_replicate.mp hv).2
        · cases hM
    rw [hc] at h
    simp only [pyBind_ok] at h
    by_cases h0 : N = 0 ∨ r.length = 0
    · rw [if_pos h0] at h; cases h
    · rw [if_neg h0] at h
      cases hn : normalise sqrt Y with
      | none =>
        simp only [hn] at h
        cases mode with
        | serial => cases h; exact hnan _
        | parallel np cpu =>
          simp only at h
          cases ht : createTaskList D second np cpu with
          | error e => rw [ht] at h; cases h
          | ok tasks => rw [ht] at h; cases h; exact hnan r.length
      | some Y' =>
        simp only [hn] at h
        cases hs : separateOutputValues Y' D N second with
        | error e => rw [hs] at h; cases h
        | ok s =>
          simp only [hs, pyBind_ok] at h
          have hser := serial_nonneg sqrt hsqrt _ hZ s r D keep second
          cases mode with
          | serial => cases h; exact hser
          | parallel np cpu =>
            simp only at h
            cases ht : createTaskList D second np cpu with
            | error e => rw [ht] at h; cases h
            | ok tasks =>
              simp only [ht, pyBind_ok] at h
              cases h
              have := C17_parallel_result sqrt (normPpf (1 / 2 + conf / 2)) s r D keep second np cpu tasks
                ht _ (List.Perm.refl _)
              unfold siListToDict
              rw [this]
              refine ⟨hser.1, ?_, ?_, hser.2.2.2⟩
              · intro v hv
                simp only at hv
                split at hv
                · cases (List.mem_replicate.mp hv).2
                · exact hser.2.1 v hv
              · intro v hv
                simp only at hv
                split at hv
                · cases (List.mem_replicate.mp hv).2
                · exact hser.2.2.1 v hv

/-- The hypotheses are met with the identity for `ppf` shifted to vanish at 1/2, and the result is
finite with a positive confidence value. -/
example :
    let pb : Problem ℚ := { names := ["x"], bounds := [[0, 1]] }
    let Y : List ℚ := [1, 2, 0, 5, 7, 0]
    let r := [[0, 1], [0, 0]]
    (∀ x : ℚ, 0 ≤ |x|) ∧ ((1 / 2 : ℚ) - 1 / 2 = 0) ∧
    (sobolAnalyze (fun x => |x|) (fun x => x - 1 / 2) pb Y false (19 / 20) r false .serial).map
      (fun res => (res.S1conf.all fun v => v.all (0 < ·) && v.isSome) && res.ST.all Option.isSome) =
        .ok true := by
  refine ⟨fun x => abs_nonneg x, by norm_num, ?_⟩
  decide +kernel

end

end SALib
