import Verif.Props.ProblemSpec
import Verif.Model.SpecTables

/-! # Distributed evaluation and the tables of a `ProblemSpec` (C116, C117) -/

set_option linter.unusedSectionVars false

namespace SALib

variable {α β A : Type} [Inhabited β]

open Spec

/-! ### C116 -/

/-- **C116**, without additional arguments: with `pathos`, at least one server named and at least one processor,
distributed evaluation of a row-wise model leaves the object exactly as sequential evaluation does.  Missing: with
additional arguments, and without a list of servers, the claim is false (`C116_arguments_fail`,
`C116_servers_fail`). -/
theorem C116_distributed_partial (s : SpecState α β A) (X : InArr α) (nprocs : Nat) (servers : List String) (junk : β)
    (func : List α → Option (InArr α) → Py (OutArr β)) (hX : s.samples = some X) (hrow : RowWise (func []))
    (hn : 0 < nprocs) (hs : servers ≠ []) :
    specStep s (.evaluateDistributed true nprocs (some servers) junk func []) = specStep s (.evaluate (func [])) := by
  have hl : 0 < servers.length := List.length_pos_iff.mpr hs
  have hpos : 0 < nprocs * servers.length := Nat.mul_pos hn hl
  have e : distributedResults (some X) nprocs (some servers) junk func =
      parallelResults X false (nprocs * servers.length) junk (func []) := by
    simp only [distributedResults, parallelResults]
    rw [if_neg (by omega), if_neg (by omega)]
    rfl
  simp only [specStep, specEvaluateDistributed, specEvaluate, hX]
  rw [e, parallelResults_rowWise X _ junk (func []) hrow hpos]
  rfl

/-- **C116**: without `pathos`, without samples, servers or processors, the call raises and the object stays as it is. -/
theorem C116_refuses (s : SpecState α β A) (pathos : Bool) (nprocs : Nat) (servers : Option (List String)) (junk : β)
    (func : List α → Option (InArr α) → Py (OutArr β)) (args : List α)
    (h : pathos = false ∨ servers = none ∨ servers = some [] ∨ s.samples = none ∨ nprocs = 0) :
    ∃ e, specStep s (.evaluateDistributed pathos nprocs servers junk func args) = (s, .error e) := by
  simp only [specStep, specEvaluateDistributed]
  cases pathos with
  | false => exact ⟨.runtimeError, rfl⟩
  | true =>
    simp only [Bool.not_true, Bool.false_eq_true, if_false]
    cases servers with
    | none => exact ⟨.typeError, rfl⟩
    | some sv =>
      cases hX : s.samples with
      | none => exact ⟨.typeError, rfl⟩
      | some X =>
        have h0 : nprocs * sv.length = 0 := by
          rcases h with h | h | h | h | h
          · cases h
          · cases h
          · rw [Option.some.inj h]; simp
          · rw [hX] at h; cases h
          · rw [h]; simp
        refine ⟨.valueError, ?_⟩
        simp only [distributedResults, if_pos h0, assignOutcome]

/-- **C116 fails** with additional arguments: they never reach the model, so that the call does what it does without
them. -/
theorem C116_arguments_fail (s : SpecState α β A) (X : InArr α) (nprocs : Nat) (servers : List String) (junk : β)
    (func : List α → Option (InArr α) → Py (OutArr β)) (args : List α) (hX : s.samples = some X)
    (hrow : RowWise (func [])) (hn : 0 < nprocs) (hs : servers ≠ []) :
    specStep s (.evaluateDistributed true nprocs (some servers) junk func args) = specStep s (.evaluate (func [])) :=
  C116_distributed_partial s X nprocs servers junk func hX hrow hn hs

/-- **C116 fails** for the default `servers=None`: always a `TypeError`. -/
theorem C116_servers_fail (s : SpecState α β A) (nprocs : Nat) (junk : β)
    (func : List α → Option (InArr α) → Py (OutArr β)) (args : List α) :
    specStep s (.evaluateDistributed true nprocs none junk func args) = (s, .error .typeError) := rfl

/-- `f(x, c=0) = 10 x + c` on five rows, two servers with two processors each. -/
def distExample : List Nat → Option (InArr Nat) → Py (OutArr Nat) := fun args X =>
  .ok (.vec ((X.map InArr.rows).getD [] |>.map fun r => 10 * r.getD 0 0 + args.getD 0 0))

theorem distExample_rowWise (args : List Nat) : RowWise (distExample args) :=
  Or.inl ⟨fun r => 10 * r.getD 0 0 + args.getD 0 0, fun _ _ => rfl⟩

/-- An object with five samples. -/
def distState : SpecState Nat Nat Nat :=
  { names := ["a"], numVars := 1, groups := ["a"], outputs := none, samples := some ⟨1, [[1], [2], [3], [4], [5]]⟩ }

example : RowWise (distExample []) ∧ ["n1", "n2"] ≠ [] ∧
    (specStep distState (.evaluateDistributed true 2 (some ["n1", "n2"]) 99 distExample [])).1.results =
      some (.vec [10, 20, 30, 40, 50]) ∧
    -- evaluated with the argument 7: the sequential results have it, the distributed ones do not
    (specStep distState (.evaluate (distExample [7]))).1.results = some (.vec [17, 27, 37, 47, 57]) ∧
    (specStep distState (.evaluateDistributed true 2 (some ["n1", "n2"]) 99 distExample [7])).1.results =
      some (.vec [10, 20, 30, 40, 50]) :=
  ⟨distExample_rowWise [], by simp, by decide +kernel, by decide +kernel, by decide +kernel⟩

/-! ### C117 -/

theorem dictSet_new {γ : Type} (d : List (String × γ)) (k : String) (v : γ) (h : k ∉ d.map Prod.fst) :
    dictSet d k v = d ++ [(k, v)] := by
  unfold dictSet
  rw [if_neg]
  intro h'
  apply h
  simp only [List.any_eq_true, beq_iff_eq] at h'
  obtain ⟨e, he, rfl⟩ := h'
  exact List.mem_map_of_mem he

theorem foldl_dictSet_nodup {γ : Type} (l : List (String × γ)) :
    ∀ d : List (String × γ), ((d ++ l).map Prod.fst).Nodup → l.foldl (fun d e => dictSet d e.1 e.2) d = d ++ l := by
  induction l with
  | nil => intro d _; simp
  | cons x l ih =>
    intro d h
    have hx : x.1 ∉ d.map Prod.fst := by
      rw [List.map_append, List.nodup_append] at h
      intro hm
      exact h.2.2 _ hm _ (by simp) rfl
    rw [List.foldl_cons, dictSet_new d x.1 x.2 hx, ih _ (by simpa using h)]
    simp

/-- The results of a successful analysis of several outputs. -/
theorem specAnalyze_several (s : SpecState α β A) (w : Bool) (f : Option (InArr α) → OutArr β → Py A) (o : List String)
    (ho : s.outputs = some o) (hl : 1 < o.length) (hok : (specAnalyze s w f).2 = .ok ()) :
    ∃ Y res, s.results = some Y ∧
      (List.range o.length).mapM (fun i => do f (if w then s.samples else none) (← Y.column i)) = .ok res ∧
      (specAnalyze s w f).1.analysis = some (.byOutput ((o.zip res).foldl (fun d e => dictSet d e.1 e.2) [])) := by
  unfold specAnalyze at hok ⊢
  split at hok
  · cases hok
  · rename_i hc
    rw [if_neg hc]
    cases hr : s.results with
    | none => rw [hr] at hok; cases hok
    | some Y =>
      rw [hr] at hok
      simp only [] at hok ⊢
      have hao : analyzeOutputs s Y = o := by simp [analyzeOutputs, ho]
      rw [hao, if_pos hl] at hok
      rw [hao, if_pos hl]
      simp only [] at hok
      obtain ⟨res, h1, h2⟩ := analyzeLoop_ok (f (if w then s.samples else none)) Y o.zipIdx []
        (analyzeLoop (f (if w then s.samples else none)) Y o.zipIdx []).1 (by rw [← hok])
      have hfst : o.zipIdx.map Prod.fst = o := List.zipIdx_map_fst 0 o
      have hsnd : o.zipIdx.map Prod.snd = List.range o.length := by
        rw [List.zipIdx_map_snd, List.range_eq_range']
      rw [hsnd] at h1
      rw [hfst] at h2
      exact ⟨Y, res, rfl, h1, by rw [h2]⟩

/-- **C117**, for distinct names of outputs and an analysis that succeeded: with several outputs there is one table per
output, in the order of the outputs, and table `i` shows the analysis of column `i`.  Missing: output names may be
repeated, and an analysis may fail half way; then tables are missing without an exception (`C117_repeated_fail`,
`C117_interrupted_fail`). -/
theorem C117_tables_partial {T : Type} (s : SpecState α β A) (w : Bool) (f : Option (InArr α) → OutArr β → Py A)
    (df : A → Py T) (o : List String) (ho : s.outputs = some o) (hl : 1 < o.length) (hd : o.Nodup)
    (hok : (specStep s (.analyze w f)).2 = .ok ()) (t : SpecTables T)
    (ht : specToDf (specStep s (.analyze w f)).1 df = .ok t) :
    ∃ Y ts, s.results = some Y ∧ t = .many ts ∧ ts.length = o.length ∧ ∀ (i : Nat), i < o.length →
      ∃ y a tab, Y.column i = .ok y ∧ f (if w then s.samples else none) y = .ok a ∧ df a = .ok tab ∧
        ts[i]? = some tab := by
  simp only [specStep] at hok ht
  obtain ⟨Y, res, hY, hm, ha⟩ := specAnalyze_several s w f o ho hl hok
  have hlen : res.length = o.length := by
    have := (mapM_ok_iff _ _ _).mp hm
    simpa using this.length_eq.symm
  rw [foldl_dictSet_nodup _ [] (by rw [List.nil_append, List.map_fst_zip (by omega)]; exact hd), List.nil_append] at ha
  unfold specToDf at ht
  rw [ha] at ht
  simp only [List.map_snd_zip (l₁ := o) (l₂ := res) (by omega)] at ht
  cases hts : res.mapM df with
  | error e => rw [hts] at ht; cases ht
  | ok ts =>
    rw [hts, pyBind_ok, pyPure] at ht
    cases ht
    have htl : ts.length = res.length := by
      have := (mapM_ok_iff _ _ _).mp hts
      exact this.length_eq.symm
    refine ⟨Y, ts, hY, rfl, by omega, ?_⟩
    intro i hi
    have h1 := mapM_ok_getElem _ _ _ hm i (by simpa using hi) (by omega)
    have h2 := mapM_ok_getElem _ _ _ hts i (by omega) (by omega)
    simp only [List.getElem_range] at h1
    cases hc : Y.column i with
    | error e => rw [hc] at h1; cases h1
    | ok y =>
      rw [hc, pyBind_ok] at h1
      exact ⟨y, res[i], ts[i], rfl, h1, h2, List.getElem?_eq_getElem _⟩

/-- **C117**: with one output there is one table, that of the analysis of all results; and before an analysis, after new
samples too, a `RuntimeError`. -/
theorem C117_single {T : Type} (s : SpecState α β A) (w : Bool) (f : Option (InArr α) → OutArr β → Py A)
    (df : A → Py T) (o : String) (ho : s.outputs = some [o]) (hok : (specStep s (.analyze w f)).2 = .ok ()) :
    ∃ Y a, s.results = some Y ∧ f (if w then s.samples else none) Y = .ok a ∧
      specToDf (specStep s (.analyze w f)).1 df = (df a).map .one := by
  simp only [specStep] at hok ⊢
  unfold specAnalyze at hok ⊢
  split at hok
  · cases hok
  · rename_i hc
    rw [if_neg hc]
    cases hr : s.results with
    | none => rw [hr] at hok; cases hok
    | some Y =>
      rw [hr] at hok
      simp only [] at hok ⊢
      have hao : analyzeOutputs s Y = [o] := by simp [analyzeOutputs, ho]
      have h1 : ¬[o].length > 1 := by simp
      rw [hao, if_neg h1] at hok
      rw [hao, if_neg h1]
      cases hf : f (if w then s.samples else none) Y with
      | error e => rw [hf] at hok; cases hok
      | ok a =>
        refine ⟨Y, a, rfl, hf, ?_⟩
        simp only [specToDf]
        cases df a <;> rfl

theorem C117_none {T : Type} (s : SpecState α β A) (df : A → Py T) (hdf : ∀ a, ∃ t, df a = .ok t)
    (func : SpecState α β A → Py (InArr α)) (eff : Nat → Nat) :
    (specToDf s df = .error .runtimeError ↔ s.analysis = none) ∧
      specToDf (specStep s (.sample func eff)).1 df = .error .runtimeError := by
  constructor
  · unfold specToDf
    cases h : s.analysis with
    | none => simp
    | some an =>
      choose g hg using hdf
      cases an with
      | single a =>
        simp only [hg a, pyBind_ok, pyPure]
        simp
      | byOutput d =>
        simp only [mapM_ok_of df g _ fun a _ => hg a, pyBind_ok, pyPure]
        simp
  · unfold specToDf
    rw [(C60_sample_clears s func eff).2]

/-- **C117 fails** for repeated names of outputs: the analysis succeeds and there are fewer tables than outputs. -/
theorem C117_repeated_fail {T : Type} (s : SpecState α β A) (w : Bool) (f : Option (InArr α) → OutArr β → Py A)
    (df : A → Py T) (o : List String) (ho : s.outputs = some o) (hl : 1 < o.length) (hd : ¬o.Nodup)
    (hok : (specStep s (.analyze w f)).2 = .ok ()) (ts : List T)
    (ht : specToDf (specStep s (.analyze w f)).1 df = .ok (.many ts)) : ts.length < o.length := by
  simp only [specStep] at hok ht
  obtain ⟨d, ha, hn, hk⟩ := C85_keys s w f o ho hl hok
  unfold specToDf at ht
  rw [ha] at ht
  simp only [] at ht
  cases hts : (d.map Prod.snd).mapM df with
  | error e => rw [hts] at ht; cases ht
  | ok ts' =>
    rw [hts, pyBind_ok, pyPure] at ht
    cases ht
    have h1 := ((mapM_ok_iff _ _ _).mp hts).length_eq
    have h2 : (d.map Prod.fst).length ≤ o.dedup.length := by
      apply List.Subperm.length_le
      apply List.subperm_of_subset hn
      intro k hk'
      rw [List.mem_dedup]
      exact (hk k).mp hk'
    have h3 : o.dedup.length < o.length := by
      rcases Nat.lt_or_ge o.dedup.length o.length with h | h
      · exact h
      · exact absurd ((List.dedup_sublist o).eq_of_length_le h ▸ List.nodup_dedup o) hd
    simp only [List.length_map] at h1 h2
    omega

theorem analyzeLoop_append (f : OutArr β → Py A) (Y : OutArr β) (l2 : List (String × Nat)) :
    ∀ (l1 : List (String × Nat)) (d : List (String × A)) (res : List A),
      (l1.map Prod.snd).mapM (fun i => do f (← Y.column i)) = .ok res →
      analyzeLoop f Y (l1 ++ l2) d =
        analyzeLoop f Y l2 (((l1.map Prod.fst).zip res).foldl (fun d e => dictSet d e.1 e.2) d) := by
  intro l1
  induction l1 with
  | nil => intro d res h; cases h; rfl
  | cons p l ih =>
    intro d res h
    obtain ⟨out, i⟩ := p
    rw [List.map_cons, mapM_ok_iff] at h
    cases h with
    | cons h1 h2 =>
      rename_i b bs
      rw [← mapM_ok_iff] at h2
      rw [List.cons_append]
      conv_lhs => unfold analyzeLoop
      simp only at h1
      cases hy : Y.column i with
      | error e => rw [hy] at h1; cases h1
      | ok y =>
        rw [hy, pyBind_ok] at h1
        simp only [h1]
        rw [ih _ _ h2]
        rfl

/-- **C117 fails** after an analysis that raises at output `k`: the object has an analysis, and its tables are those of
the first `k` outputs only. -/
theorem C117_interrupted_fail {T : Type} (s : SpecState α β A) (w : Bool) (f : Option (InArr α) → OutArr β → Py A)
    (df : A → Py T) (hdf : ∀ a, ∃ t, df a = .ok t) (o : List String) (Y : OutArr β) (k : Nat) (y : OutArr β) (e : PyErr)
    (hv : s.numVars ≠ 1) (ho : s.outputs = some o) (hl : 1 < o.length) (hd : o.Nodup) (hY : s.results = some Y)
    (hk : k < o.length)
    (hgood : ∀ i, i < k → ∃ y a, Y.column i = .ok y ∧ f (if w then s.samples else none) y = .ok a)
    (hbad : Y.column k = .ok y ∧ f (if w then s.samples else none) y = .error e) :
    (specStep s (.analyze w f)).2 = .error e ∧
      ∃ ts, specToDf (specStep s (.analyze w f)).1 df = .ok (.many ts) ∧ ts.length = k := by
  simp only [specStep]
  unfold specAnalyze
  rw [if_neg (by rintro (h' | ⟨_, h'⟩); exacts [hv h', absurd h' (by decide +kernel)]), hY]
  have hao : analyzeOutputs s Y = o := by simp [analyzeOutputs, ho]
  simp only [hao, if_pos hl]
  generalize f (if w then s.samples else none) = g at *
  obtain ⟨res, hres⟩ : ∃ res, (List.range k).mapM (fun i => do g (← Y.column i)) = .ok res := by
    have : ∀ m, m ≤ k → ∃ res, (List.range m).mapM (fun i => do g (← Y.column i)) = .ok res := by
      intro m
      induction m with
      | zero => intro _; exact ⟨[], rfl⟩
      | succ m ih =>
        intro hm
        obtain ⟨res, hres⟩ := ih (by omega)
        obtain ⟨y, a, h1, h2⟩ := hgood m (by omega)
        refine ⟨res ++ [a], ?_⟩
        rw [List.range_succ, mapM_ok_iff]
        refine List.rel_append ((mapM_ok_iff _ _ _).mp hres) ?_
        simp [h1, h2]
    exact this k le_rfl
  have hrl : res.length = k := by
    have := ((mapM_ok_iff _ _ _).mp hres).length_eq
    simpa using this.symm
  have hsplit : o.zipIdx = o.zipIdx.take k ++ (o[k], k) :: o.zipIdx.drop (k + 1) := by
    have hkk : k < o.zipIdx.length := by simpa using hk
    conv_lhs => rw [← List.take_append_drop k o.zipIdx, List.drop_eq_getElem_cons hkk]
    simp
  have hs1 : (o.zipIdx.take k).map Prod.snd = List.range k := by
    rw [List.map_take, List.zipIdx_map_snd, ← List.range_eq_range', List.take_range, Nat.min_eq_left hk.le]
  have hf1 : (o.zipIdx.take k).map Prod.fst = o.take k := by
    rw [List.map_take]
    congr 1
    exact List.zipIdx_map_fst 0 o
  have hloop : analyzeLoop g Y o.zipIdx [] = ((o.take k).zip res, .error e) := by
    rw [hsplit, analyzeLoop_append g Y _ _ _ res (by rw [hs1, hres]), hf1]
    rw [foldl_dictSet_nodup _ [] (by
      rw [List.nil_append, List.map_fst_zip (by simp; omega)]
      exact hd.sublist (List.take_sublist _ _)), List.nil_append]
    unfold analyzeLoop
    simp [hbad.1, hbad.2]
  rw [hloop]
  refine ⟨rfl, ?_⟩
  choose h hh using hdf
  refine ⟨res.map h, ?_, by simpa using hrl⟩
  simp only [specToDf, List.map_snd_zip (l₁ := o.take k) (l₂ := res) (by simp; omega),
    mapM_ok_of df h _ fun a _ => hh a, pyBind_ok, pyPure]

/-- Three outputs: distinct names, a repeated name, an analysis that raises at the third. -/
example : (["u", "v", "x"] : List String).Nodup ∧ ¬(["u", "v", "u"] : List String).Nodup ∧
    specToDf (specStep ({ names := ["a", "b"], numVars := 2, groups := ["a", "b"], outputs := some ["u", "v", "x"]
                          results := some (.mat 3 [[1, 2, 3], [3, 4, 5]]) } : SpecState Nat Nat Nat)
      (.analyze false fun _ Y => .ok (match Y with | .vec v => v.sum | _ => 0))).1 (fun a => .ok [a]) =
        .ok (.many [[4], [6], [8]]) ∧
    specToDf (specStep ({ names := ["a", "b"], numVars := 2, groups := ["a", "b"], outputs := some ["u", "v", "u"]
                          results := some (.mat 3 [[1, 2, 3], [3, 4, 5]]) } : SpecState Nat Nat Nat)
      (.analyze false fun _ Y => .ok (match Y with | .vec v => v.sum | _ => 0))).1 (fun a => .ok [a]) =
        .ok (.many [[8], [6]]) ∧
    specToDf (specStep ({ names := ["a", "b"], numVars := 2, groups := ["a", "b"], outputs := some ["u", "v", "x"]
                          results := some (.mat 3 [[1, 2, 3], [3, 4, 5]]) } : SpecState Nat Nat Nat)
      (.analyze false fun _ Y => match Y with | .vec [3, 5] => .error .valueError | .vec v => .ok v.sum | _ => .ok 0)).1
        (fun a => .ok [a]) = .ok (.many [[4], [6]]) := by
  decide +kernel

end SALib
