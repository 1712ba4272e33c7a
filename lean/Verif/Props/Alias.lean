import Verif.Model.Alias
import Verif.Props.EnhancedTerms
import Verif.Props.FracFact

/-! # Analyses and the problem dictionary (C59) -/

set_option linter.unusedSectionVars false

namespace SALib

variable {α : Type} [Field α] [LinearOrder α] [IsStrictOrderedRing α]

namespace Spec

/-- The calls that do no harm: all analysers but `enhanced_hdmr`; `hdmr` only with a plain dictionary, and `ff` only
when the number of parameters is one of the powers of two it knows. -/
def Harmless (numVars : Nat) : AnalysisCall → Prop
  | .sharing _ | .fresh _ _ | .morris _ => True
  | .hdmr _ spec _ => spec = false
  | .ff _ => ∃ x < 10, numVars = 2 ^ x
  | .enhanced _ _ _ => False

/-- The call does not raise after the part modelled. -/
def Finishes : AnalysisCall → Prop
  | .sharing f | .fresh _ f | .hdmr _ _ f | .morris f | .ff f | .enhanced _ _ f => f = false

/-- The labels `L` of the result of call `c` on problem `pb`. -/
def GoodLabels (pb : Problem α) (c : AnalysisCall) (L : List String) : Prop :=
  match c with
  | .sharing _ | .ff _ => L = pb.names
  | .fresh l _ => L = l
  | .hdmr o _ _ => pb.numVars ≤ pb.names.length → L = (hdmrTerms pb.numVars o).map (termLabel pb.names)
  | .morris _ => DistinctInOrder (effectiveLabels pb) L
  | .enhanced _ _ _ => True

/-- References of the dictionary point to existing lists. -/
def WellFormed (h : PyHeap α) : Prop := h.names < h.obj.length ∧ ∀ g ∈ h.groups, g < h.obj.length

end Spec

open Spec

theorem findSmallest_pow (x : Nat) (hx : x < 10) : ffSize (2 ^ x) = .ok (2 ^ x) := by
  have : findSmallest (2 ^ x) = some x := by
    unfold findSmallest
    rw [List.find?_range_eq_some]
    refine ⟨by simp, by simpa using hx, ?_⟩
    intro y hy
    simp only [Bool.not_eq_true', decide_eq_false_iff_not, not_le]
    exact Nat.pow_lt_pow_right (by omega) hy
  unfold ffSize
  rw [this]

theorem get_append (h : PyHeap α) (l : List String) (a : Nat) (ha : a < h.obj.length) :
    (h.alloc l).get a = h.get a := by
  unfold PyHeap.get PyHeap.alloc
  simp [List.getD, List.getElem?_append_left ha]

/-- What is kept by a harmless call. -/
structure Keeps (h h' : PyHeap α) : Prop where
  names : h'.names = h.names
  bounds : h'.bounds = h.bounds
  dists : h'.dists = h.dists
  numVars : h'.numVars = h.numVars
  lists : h.obj <+: h'.obj
  groups : h'.groups = h.groups ∨ (h.noGroups = true ∧ h'.groups = some h.names)

theorem Keeps.get {h h' : PyHeap α} (k : Keeps h h') (a : Nat) (ha : a < h.obj.length) : h'.get a = h.get a := by
  obtain ⟨t, ht⟩ := k.lists
  unfold PyHeap.get
  rw [← ht]
  simp [List.getD, List.getElem?_append_left ha]

theorem Keeps.refl (h : PyHeap α) : Keeps h h := ⟨rfl, rfl, rfl, rfl, List.prefix_refl _, Or.inl rfl⟩

theorem Keeps.trans {a b c : PyHeap α} (ha : WellFormed a) (h1 : Keeps a b) (h2 : Keeps b c) : Keeps a c := by
  refine ⟨h2.names.trans h1.names, h2.bounds.trans h1.bounds, h2.dists.trans h1.dists, h2.numVars.trans h1.numVars,
    h1.lists.trans h2.lists, ?_⟩
  rcases h2.groups with e2 | ⟨n2, e2⟩
  · rcases h1.groups with e1 | ⟨n1, e1⟩
    · exact Or.inl (e2.trans e1)
    · exact Or.inr ⟨n1, e2.trans e1⟩
  · refine Or.inr ⟨?_, e2.trans (by rw [h1.names])⟩
    rcases h1.groups with e1 | ⟨n1, -⟩
    · unfold PyHeap.noGroups at n2 ⊢
      rw [e1] at n2
      cases hg : a.groups with
      | none => rfl
      | some g =>
        rw [hg] at n2
        simp only at n2 ⊢
        rwa [h1.get g (ha.2 g hg)] at n2
    · exact n1

theorem Keeps.wf {h h' : PyHeap α} (hw : WellFormed h) (k : Keeps h h') : WellFormed h' := by
  have hl := k.lists.length_le
  refine ⟨by rw [k.names]; exact lt_of_lt_of_le hw.1 hl, ?_⟩
  intro g hg
  rcases k.groups with e | ⟨-, e⟩
  · rw [e] at hg; exact lt_of_lt_of_le (hw.2 g hg) hl
  · rw [e] at hg
    have : g = h.names := (Option.mem_some_iff.mp hg).symm
    rw [this]; exact lt_of_lt_of_le hw.1 hl

theorem keeps_call (h : PyHeap α) (c : AnalysisCall) (hc : Harmless h.numVars c) : Keeps h (aliasCall h c).1 := by
  cases c with
  | sharing fails => exact Keeps.refl h
  | fresh labels fails => exact ⟨rfl, rfl, rfl, rfl, List.prefix_append _ _, Or.inl rfl⟩
  | hdmr o spec fails =>
    simp only [Harmless] at hc
    subst hc
    simp only [aliasCall]
    cases hl : hdmrLabels (h.get h.names) h.numVars o with
    | error e => exact Keeps.refl h
    | ok labels =>
      simp only [Bool.false_eq_true, and_false, if_false]
      exact ⟨rfl, rfl, rfl, rfl, List.prefix_append _ _, Or.inl rfl⟩
  | morris fails =>
    simp only [aliasCall]
    cases hg : aliasGroups h with
    | error e => exact Keeps.refl h
    | ok h' =>
      unfold aliasGroups at hg
      split at hg
      · rename_i hn
        cases hg
        exact ⟨rfl, rfl, rfl, rfl, List.prefix_append _ _, Or.inr ⟨hn, rfl⟩⟩
      · split at hg
        · cases hg
        · cases hg
          exact ⟨rfl, rfl, rfl, rfl, List.prefix_append _ _, Or.inl rfl⟩
  | ff fails =>
    obtain ⟨x, hx, he⟩ := hc
    have : aliasExtend h = .ok h := by
      unfold aliasExtend
      rw [he, findSmallest_pow x hx, pyBind_ok, if_neg (by omega), pyPure]
    simp only [aliasCall, this]
    exact Keeps.refl h
  | enhanced d o fails => exact absurd hc (by simp [Harmless])

/-- **C59**, as far as it holds: after any sequence of harmless analyses, finished or not, names, bounds, number of
parameters and distributions are what they were; groups that were given are what they were (missing ones may have become
the names); and the labels of every earlier result, or any other list, are unchanged. -/
theorem C59_harmless_partial (h : PyHeap α) (calls : List AnalysisCall) (hw : WellFormed h)
    (hc : ∀ c ∈ calls, Harmless h.numVars c) :
    (aliasRun h calls).view.names = h.view.names ∧ (aliasRun h calls).view.bounds = h.view.bounds ∧
      (aliasRun h calls).view.numVars = h.view.numVars ∧ (aliasRun h calls).view.dists = h.view.dists ∧
      ((aliasRun h calls).view.groups = h.view.groups ∨
        ((h.view.groups = none ∨ h.view.groups = some []) ∧ (aliasRun h calls).view.groups = some h.view.names)) ∧
      ∀ a < h.obj.length, (aliasRun h calls).get a = h.get a := by
  have hk : Keeps h (aliasRun h calls) := by
    unfold aliasRun
    induction calls generalizing h with
    | nil => exact Keeps.refl h
    | cons c cs ih =>
      have k1 := keeps_call h c (hc c (by simp))
      rw [List.foldl_cons]
      refine Keeps.trans hw k1 (ih _ (k1.wf hw) ?_)
      intro c' hc'
      rw [k1.numVars]
      exact hc c' (by simp [hc'])
  have hn : (aliasRun h calls).get (aliasRun h calls).names = h.get h.names := by
    rw [hk.names]; exact hk.get _ hw.1
  refine ⟨hn, hk.bounds, hk.numVars, hk.dists, ?_, fun a ha => hk.get a ha⟩
  rcases hk.groups with e | ⟨n, e⟩
  · left
    unfold PyHeap.view
    simp only
    rw [e]
    cases hg : h.groups with
    | none => rfl
    | some g => simp only [Option.map_some]; rw [hk.get g (hw.2 g hg)]
  · right
    constructor
    · unfold PyHeap.noGroups at n
      unfold PyHeap.view
      cases hg : h.groups with
      | none => left; rfl
      | some g =>
        rw [hg] at n
        right
        simpa using n
    · unfold PyHeap.view
      simp only
      rw [e, Option.map_some, hk.get _ hw.1]

/-- A problem without groups, three analyses, one of which fails. -/
example : (aliasRun (⟨[["a", "b"]], 0, none, [[0, 1], [0, 1]], none, 2⟩ : PyHeap ℚ)
      [.sharing false, .morris true, .ff false, .fresh ["a", "b", "a/b"] false]).view =
    { names := ["a", "b"], bounds := [[0, 1], [0, 1]], groups := some ["a", "b"], numVars := 2 } := by
  decide +kernel

/-- **C59**, results.  A harmless analysis that returns a result has finished; the labels of the result are the ones it
should have, and they stay so during all later harmless analyses. -/
theorem C59_result (h : PyHeap α) (c : AnalysisCall) (calls : List AnalysisCall) (hw : WellFormed h)
    (hc : Harmless h.numVars c) (hcs : ∀ c ∈ calls, Harmless h.numVars c) (a : Nat) (hr : (aliasCall h c).2 = .ok a) :
    Finishes c ∧ GoodLabels h.view c ((aliasRun (aliasCall h c).1 calls).get a) := by
  have hcr : ∀ (f : Bool) (b a : Nat), callResult f b = .ok a → f = false ∧ a = b := by
    intro f b a h
    unfold callResult at h
    cases f with
    | true => cases h
    | false => exact ⟨rfl, (Except.ok.inj h).symm⟩
  have hk := keeps_call h c hc
  have hlast : ∀ (h : PyHeap α) (l : List String), (h.alloc l).get h.obj.length = l := by
    intro h l
    simp [PyHeap.get, PyHeap.alloc, List.getD]
  have main : Finishes c ∧ a < (aliasCall h c).1.obj.length ∧ GoodLabels h.view c ((aliasCall h c).1.get a) := by
    cases c with
    | sharing fails =>
      obtain ⟨hf, rfl⟩ := hcr _ _ _ hr
      exact ⟨hf, hw.1, rfl⟩
    | fresh labels fails =>
      obtain ⟨hf, rfl⟩ := hcr _ _ _ hr
      exact ⟨hf, by simp [aliasCall, PyHeap.alloc], hlast _ _⟩
    | hdmr o spec fails =>
      simp only [Harmless] at hc
      subst hc
      simp only [aliasCall] at hr ⊢
      cases hl : hdmrLabels (h.get h.names) h.numVars o with
      | error e => rw [hl] at hr; cases hr
      | ok labels =>
        rw [hl] at hr
        obtain ⟨hf, rfl⟩ := hcr _ _ _ hr
        simp only [Bool.false_eq_true, and_false, if_false]
        refine ⟨hf, by simp [PyHeap.alloc], fun hn => ?_⟩
        rw [hlast]
        have e := hdmrLabels_eq (h.get h.names) h.numVars o hn
        rw [hl] at e
        exact Except.ok.inj e
    | morris fails =>
      simp only [aliasCall] at hr ⊢
      cases hg : aliasGroups h with
      | error e => rw [hg] at hr; cases hr
      | ok h' =>
        rw [hg] at hr
        obtain ⟨hf, rfl⟩ := hcr _ _ _ hr
        refine ⟨hf, by simp [PyHeap.alloc], ?_⟩
        rw [hlast]
        have e : effectiveLabels h.view = (h'.groups.map h'.get).getD [] := by
          unfold aliasGroups at hg
          unfold effectiveLabels PyHeap.view
          split at hg
          · rename_i hn
            cases hg
            unfold PyHeap.noGroups at hn
            cases hgr : h.groups with
            | none => rfl
            | some g =>
              rw [hgr] at hn
              simp only [List.isEmpty_iff] at hn
              simp only [Option.map_some, hn]
              rfl
          · rename_i hn
            split at hg
            · cases hg
            · cases hg
              unfold PyHeap.noGroups at hn
              cases hgr : h.groups with
              | none => rw [hgr] at hn; simp at hn
              | some g =>
                rw [hgr] at hn
                simp only [Option.map_some, Option.getD_some]
                cases hgg : h.get g with
                | nil => exact absurd (by simp only [hgg]; rfl) hn
                | cons x xs => rfl
        show DistinctInOrder (effectiveLabels h.view) _
        rw [e]
        exact pdUnique_distinct _
    | ff fails =>
      obtain ⟨x, hx, he⟩ := hc
      have hx : aliasExtend h = .ok h := by
        unfold aliasExtend
        rw [he, findSmallest_pow x hx, pyBind_ok, if_neg (by omega), pyPure]
      simp only [aliasCall, hx] at hr ⊢
      obtain ⟨hf, rfl⟩ := hcr _ _ _ hr
      exact ⟨hf, hw.1, rfl⟩
    | enhanced d o fails => exact absurd hc (by simp [Harmless])
  obtain ⟨m1, m2, m3⟩ := main
  refine ⟨m1, ?_⟩
  rw [(C59_harmless_partial _ calls (hk.wf hw) (fun c hc => by rw [hk.numVars]; exact hcs c hc)).2.2.2.2.2 a m2]
  exact m3

/-- A Morris result of a problem with groups, then two other analyses. -/
example : let h : PyHeap ℚ := ⟨[["a", "b"], ["g", "g"]], 0, some 1, [[0, 1], [0, 1]], none, 2⟩
    (aliasCall h (.morris false)).2 = .ok 2 ∧
    (aliasRun (aliasCall h (.morris false)).1 [.sharing false, .hdmr 2 false true]).get 2 = ["g"] := by
  decide +kernel

/-! ### What goes wrong -/

theorem extend_get (h : PyHeap α) (a : Nat) (xs : List String) (ha : a < h.obj.length) :
    (h.extend a xs).get a = h.get a ++ xs := by
  unfold PyHeap.extend PyHeap.get
  simp [List.getD, ha]

theorem extend_get_ne (h : PyHeap α) (a b : Nat) (xs : List String) (hab : a ≠ b) : (h.extend a xs).get b = h.get b := by
  unfold PyHeap.extend PyHeap.get
  simp [List.getD, List.getElem?_set_ne hab]

/-- The heap version of `extend_bounds` agrees with the value version. -/
theorem aliasExtend_view (h h' : PyHeap α) (hw : WellFormed h) (hr : aliasExtend h = .ok h') :
    ∃ pb, extendBounds h.view = .ok pb ∧ h'.view.names = pb.names ∧ h'.view.bounds = pb.bounds ∧
      h'.view.numVars = pb.numVars ∧ h'.view.dists = pb.dists := by
  unfold aliasExtend at hr
  unfold extendBounds
  have hv : h.view.numVars = h.numVars := rfl
  rw [hv]
  cases hs : ffSize h.numVars with
  | error e => rw [hs] at hr; cases hr
  | ok n =>
    rw [hs, pyBind_ok] at hr
    rw [pyBind_ok]
    simp only []
    split at hr
    · rename_i hp
      rw [if_pos hp]
      rw [pyPure] at hr ⊢
      cases hr
      refine ⟨_, rfl, ?_, rfl, rfl, rfl⟩
      exact extend_get h h.names _ hw.1
    · rename_i hp
      rw [if_neg hp]
      rw [pyPure] at hr ⊢
      cases hr
      exact ⟨_, rfl, rfl, rfl, rfl, rfl⟩

/-- **C59 fails** for `ff`: when the number of parameters (at most 512) is not a power of two, the analysis, finished or
not, adds dummies to names and bounds of the caller's dictionary; the labels of every earlier result that shares the list
change as well, and groups given by the caller no longer fit. -/
theorem C59_ff_fail (h : PyHeap α) (fails : Bool) (hw : WellFormed h) (hbig : h.numVars ≤ 512)
    (hpow : ¬∃ x < 10, h.numVars = 2 ^ x) :
    ∃ n, h.numVars < n ∧ (aliasCall h (.ff fails)).1.view.numVars = n ∧
      (aliasCall h (.ff fails)).1.view.names =
        h.view.names ++ (List.range (n - h.numVars)).map (fun v => "dummy_" ++ toString v) ∧
      (aliasCall h (.ff fails)).1.view.bounds = h.view.bounds ++ List.replicate (n - h.numVars) [0, 1] ∧
      (aliasCall h (.ff fails)).1.get h.names ≠ h.get h.names ∧
      (∀ g, h.groups = some g → g ≠ h.names → h.get g ≠ [] → (h.get g).length = h.numVars →
        (aliasCall (aliasCall h (.ff fails)).1 (.morris false)).2 = .error .valueError) ∧
      (h.groups = some h.names → (aliasCall h (.ff fails)).1.view.groups = some ((aliasCall h (.ff fails)).1.view.names)) := by
  have hfs : ∃ x < 10, findSmallest h.numVars = some x ∧ h.numVars ≤ 2 ^ x := by
    cases hf : findSmallest h.numVars with
    | none =>
      unfold findSmallest at hf
      rw [List.find?_eq_none] at hf
      have := hf 9 (by simp)
      simp at this
      omega
    | some x =>
      unfold findSmallest at hf
      have h1 := List.find?_some hf
      have h2 := List.mem_of_find?_eq_some hf
      exact ⟨x, by simpa using h2, rfl, by simpa using h1⟩
  obtain ⟨x, hx, hfx, hle⟩ := hfs
  have hlt : h.numVars < 2 ^ x := lt_of_le_of_ne hle fun e => hpow ⟨x, hx, e⟩
  have hrun : aliasExtend h = .ok (h.pad (2 ^ x)) := by
    unfold aliasExtend ffSize
    rw [hfx]
    simp only [pyBind_ok, pyPure]
    rw [if_pos (by omega)]
  have hcall : (aliasCall h (.ff fails)).1 = h.pad (2 ^ x) := by
    simp only [aliasCall, hrun]
  have hnm : (h.pad (2 ^ x)).get h.names =
      h.get h.names ++ (List.range (2 ^ x - h.numVars)).map (fun v => "dummy_" ++ toString v) :=
    extend_get h h.names _ hw.1
  rw [hcall]
  refine ⟨2 ^ x, hlt, rfl, hnm, ?_, ?_, ?_, ?_⟩
  · simp [PyHeap.view, PyHeap.pad, List.map_const']
  · intro e
    rw [hnm] at e
    have := congrArg List.length e
    simp at this
    omega
  · intro g hg hne hnil hlen
    have hget : (h.pad (2 ^ x)).get g = h.get g := extend_get_ne h h.names g _ hne.symm
    have hgp : (h.pad (2 ^ x)).groups = some g := hg
    have hgr : aliasGroups (h.pad (2 ^ x)) = .error .valueError := by
      unfold aliasGroups
      rw [if_neg, if_pos]
      · rw [hgp, Option.map_some, Option.getD_some, hget]
        show (h.get g).length ≠ 2 ^ x
        omega
      · unfold PyHeap.noGroups
        rw [hgp]
        simp only [hget]
        intro e
        exact hnil (List.isEmpty_iff.mp e)
    simp only [aliasCall, hgr]
  · intro hg
    have hgp : (h.pad (2 ^ x)).groups = some h.names := hg
    unfold PyHeap.view
    simp only [hgp, Option.map_some]
    rfl

/-- A second `ff` analysis adds nothing more. -/
theorem C59_ff_once (h h' : PyHeap α) (hr : aliasExtend h = .ok h') : aliasExtend h' = .ok h' := by
  unfold aliasExtend at hr
  unfold ffSize at hr
  cases hf : findSmallest h.numVars with
  | none => rw [hf] at hr; cases hr
  | some x =>
    rw [hf] at hr
    simp only [pyBind_ok, pyPure] at hr
    have hx : x < 10 := by
      unfold findSmallest at hf
      have h2 := List.mem_of_find?_eq_some hf
      simpa using h2
    split at hr
    · have hn : h'.numVars = 2 ^ x := by cases hr; rfl
      unfold aliasExtend
      rw [hn, findSmallest_pow x hx, pyBind_ok, if_neg (by omega), pyPure]
    · rename_i hp
      cases hr
      have hle : h.numVars ≤ 2 ^ x := by
        unfold findSmallest at hf
        simpa using List.find?_some hf
      unfold aliasExtend
      rw [show h.numVars = 2 ^ x by omega, findSmallest_pow x hx, pyBind_ok, if_neg (by omega), pyPure]

/-- Three parameters: a `delta` analysis, whose result holds the names list (object 0), then `ff`: the labels of the
`delta` result have become four. -/
example : (aliasCall (⟨[["a", "b", "c"]], 0, none, [[0, 1], [0, 1], [0, 1]], none, 3⟩ : PyHeap ℚ) (.sharing false)).2 = .ok 0 ∧
    (aliasRun (⟨[["a", "b", "c"]], 0, none, [[0, 1], [0, 1], [0, 1]], none, 3⟩ : PyHeap ℚ)
      [.sharing false, .ff false]).get 0 = ["a", "b", "c", "dummy_0"] ∧
    (aliasRun (⟨[["a", "b", "c"]], 0, none, [[0, 1], [0, 1], [0, 1]], none, 3⟩ : PyHeap ℚ)
      [.morris false, .ff true]).view.groups = some ["a", "b", "c", "dummy_0"] ∧
    (aliasCall (aliasRun (⟨[["a", "b", "c"], ["g", "g", "k"]], 0, some 1, [[0, 1], [0, 1], [0, 1]], none, 3⟩ : PyHeap ℚ)
      [.ff true]) (.morris false)).2 = .error .valueError := by
  decide +kernel

/-- **C59 fails** for `enhanced_hdmr` of order 2 or 3: the labels of the interactions stay in the names of the problem
(also when the analysis fails later), and every later analysis with it raises `ValueError`. -/
theorem C59_enhanced_alias_fail (h : PyHeap α) (d o : Nat) (fails : Bool) (hw : WellFormed h) (hd : 2 ≤ d) (ho : 2 ≤ o)
    (hn : h.numVars = d) (hl : (h.get h.names).length = d) (hb : h.bounds.length = d) :
    (aliasCall h (.enhanced d o fails)).1.view.names =
        h.view.names ++ (hdmrC2 d o ++ hdmrC3 d o).map (Spec.termLabel (h.get h.names)) ∧
      (aliasCall h (.enhanced d o fails)).1.view.names ≠ h.view.names ∧
      ∀ d' o' f', (aliasCall (aliasCall h (.enhanced d o fails)).1 (.enhanced d' o' f')).2 = .error .valueError := by
  have hcall : (aliasCall h (.enhanced d o fails)).1 =
      h.extend h.names ((hdmrC2 d o ++ hdmrC3 d o).map (Spec.termLabel (h.get h.names))) := by
    simp only [aliasCall]
    rw [if_neg (by tauto), ehLabels_eq _ d o hl]
    simp only []
    congr 1
    rw [List.append_assoc, ← hl, List.drop_left, List.map_append]
  have hv : (h.extend h.names ((hdmrC2 d o ++ hdmrC3 d o).map (Spec.termLabel (h.get h.names)))).view.names =
      h.view.names ++ (hdmrC2 d o ++ hdmrC3 d o).map (Spec.termLabel (h.get h.names)) := extend_get h h.names _ hw.1
  have hpos : 0 < (hdmrC2 d o).length := by
    unfold hdmrC2
    rw [if_pos (by omega), length_combinations, List.length_range]
    exact Nat.choose_pos hd
  rw [hcall]
  refine ⟨hv, ?_, ?_⟩
  · rw [hv]
    intro e
    have := congrArg List.length e
    rw [List.length_append, List.length_map, List.length_append] at this
    omega
  · intro d' o' f'
    have hlen : ((h.extend h.names ((hdmrC2 d o ++ hdmrC3 d o).map (Spec.termLabel (h.get h.names)))).get
        (h.extend h.names ((hdmrC2 d o ++ hdmrC3 d o).map (Spec.termLabel (h.get h.names)))).names).length ≠ d := by
      have e : (h.extend h.names ((hdmrC2 d o ++ hdmrC3 d o).map (Spec.termLabel (h.get h.names)))).get
        (h.extend h.names ((hdmrC2 d o ++ hdmrC3 d o).map (Spec.termLabel (h.get h.names)))).names = _ := hv
      have hvl : h.view.names.length = d := hl
      rw [e, List.length_append, List.length_map, List.length_append]
      omega
    simp only [aliasCall]
    rw [if_pos]
    by_cases hdd : d' = d
    · right; left; rw [hdd]; exact hlen
    · left
      show h.numVars ≠ d'
      rw [hn]
      exact fun e => hdd e.symm

example : (aliasCall (⟨[["a", "b", "c"]], 0, none, [[0, 1], [0, 1], [0, 1]], none, 3⟩ : PyHeap ℚ)
      (.enhanced 3 2 false)).1.view.names = ["a", "b", "c", "a/b", "a/c", "b/c"] := by
  decide +kernel

/-- **C59 fails** for `hdmr` of order 2 or 3 with a `ProblemSpec`: the names of the problem become the labels of all
terms. -/
theorem C59_hdmr_spec_fail (h : PyHeap α) (o : Nat) (hd : 2 ≤ h.numVars) (ho : 2 ≤ o)
    (hl : (h.get h.names).length = h.numVars) :
    (aliasCall h (.hdmr o true false)).1.view.names = (hdmrTerms h.numVars o).map (Spec.termLabel (h.get h.names)) ∧
      (aliasCall h (.hdmr o true false)).1.view.names ≠ h.view.names ∧
      (aliasCall h (.hdmr o true false)).1.view.numVars = h.view.numVars := by
  have hcall : (aliasCall h (.hdmr o true false)).1 = { h.alloc ((hdmrTerms h.numVars o).map
      (Spec.termLabel (h.get h.names))) with names := h.obj.length } := by
    simp only [aliasCall]
    rw [hdmrLabels_eq _ _ _ hl.ge]
    simp
  have hv : (aliasCall h (.hdmr o true false)).1.view.names =
      (hdmrTerms h.numVars o).map (Spec.termLabel (h.get h.names)) := by
    rw [hcall]
    simp [PyHeap.view, PyHeap.get, PyHeap.alloc, List.getD]
  refine ⟨hv, ?_, by rw [hcall]; rfl⟩
  rw [hv]
  intro e
  have hlen := congrArg List.length e
  have hpos : 0 < (hdmrC2 h.numVars o).length := by
    unfold hdmrC2
    rw [if_pos (by omega), length_combinations, List.length_range]
    exact Nat.choose_pos hd
  have hvl : h.view.names.length = h.numVars := hl
  unfold hdmrTerms at hlen
  simp only [List.length_map, List.length_append, List.length_range, hvl] at hlen
  omega

example : (aliasCall (⟨[["a", "b"]], 0, none, [[0, 1], [0, 1]], none, 2⟩ : PyHeap ℚ) (.hdmr 2 true false)).1.view.names =
    ["a", "b", "a/b"] := by
  decide +kernel

end SALib
