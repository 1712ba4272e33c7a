import Verif.Spec.SpecMethods
import Verif.Props.Distributed
import Verif.Props.Tables

/-! # C134: the methods a `ProblemSpec` offers

For every package directory whose modules all provide their function and shorten to different names, the object has
exactly one method per module, and it calls that module's function.  Keywords reach the parameter they name; the problem,
the samples and the outputs are supplied by the object. -/

namespace SALib

open Spec

/-! ### Names -/

theorem pyContains_iff (pat s : List Char) : pyContains pat s = true ↔ pat <:+: s := by
  unfold pyContains
  simp only [List.any_eq_true, List.mem_tails, List.isPrefixOf_iff_prefix]
  constructor
  · rintro ⟨t, ht, hp⟩
    exact List.infix_iff_prefix_suffix.mpr ⟨t, hp, ht⟩
  · intro h
    obtain ⟨t, hp, ht⟩ := List.infix_iff_prefix_suffix.mp h
    exact ⟨t, ht, hp⟩

theorem pyRemove_absent (pat s : List Char) (h : ¬pat <:+: s) : pyRemove pat 0 s = s := by
  induction s with
  | nil => rfl
  | cons c t ih =>
    unfold pyRemove
    rw [if_neg, ih (fun h' => h (h'.trans (List.suffix_cons c t).isInfix))]
    intro h'
    exact h ((List.isPrefixOf_iff_prefix.mp h').isInfix)

theorem pyRemove_drop (pat s : List Char) (k : Nat) : pyRemove pat k s = pyRemove pat 0 (s.drop k) := by
  induction k generalizing s with
  | zero => rfl
  | succ k ih =>
    cases s with
    | nil => rfl
    | cons c t => simpa [pyRemove] using ih t

/-- The ending is removed, if its first character is not repeated within it. -/
theorem pyRemove_ending (c : Char) (cs base : List Char) (hc : c ∉ cs) (h : ¬(c :: cs) <:+: base) :
    pyRemove (c :: cs) 0 (base ++ c :: cs) = base := by
  induction base with
  | nil =>
    rw [List.nil_append]
    unfold pyRemove
    rw [if_pos (List.isPrefixOf_iff_prefix.mpr (List.prefix_refl _)), pyRemove_drop]
    simp [pyRemove]
  | cons b t ih =>
    rw [List.cons_append]
    unfold pyRemove
    rw [if_neg, ih (fun h' => h (h'.trans (List.suffix_cons b t).isInfix))]
    intro h'
    have hp := List.isPrefixOf_iff_prefix.mp h'
    by_cases hl : (c :: cs).length ≤ (b :: t).length
    · exact h ((List.prefix_of_prefix_length_le hp (List.prefix_append (b :: t) (c :: cs)) hl).isInfix)
    · have hlt : (b :: t).length < (c :: cs).length := by omega
      have e1 : (b :: (t ++ c :: cs))[(b :: t).length]? = some c := by
        rw [← List.cons_append, List.getElem?_append_right le_rfl]
        simp
      obtain ⟨r, hr⟩ := hp
      rw [← hr, List.getElem?_append_left hlt] at e1
      simp only [List.length_cons, List.getElem?_cons_succ] at e1
      exact hc (List.mem_of_getElem? e1)

theorem methodName_named (pre suf m name : String) (c : Char) (cs : List Char) (hs : suf.toList = c :: cs)
    (hc : c ∉ cs) (h : Named pre suf m name) : methodName pre suf m = name := by
  unfold methodName
  rcases h with ⟨h1, rfl⟩ | ⟨base, rfl, h1, rfl⟩
  · rw [pyRemove_absent _ _ h1, String.ofList_toList]
  · rw [String.toList_append, hs]
    rw [hs] at h1
    rw [pyRemove_ending c cs _ hc h1, String.ofList_toList]

/-! ### Modules -/

theorem walkPackages_plain (bare : String → BareImport) (dir : List (String × Bool))
    (hb : ∀ n, (n, true) ∈ dir → bare n = .importError) : walkPackages bare dir = .ok (dir.map Prod.fst) := by
  induction dir with
  | nil => rfl
  | cons x dir ih =>
    have ih' := ih fun n hn => hb n (List.mem_cons_of_mem _ hn)
    obtain ⟨n, b⟩ := x
    cases b with
    | false => unfold walkPackages; rw [ih']; rfl
    | true => unfold walkPackages; rw [hb n (by simp), ih']; rfl

theorem availApproaches_plain (bare : String → BareImport) (dir : List (String × Bool))
    (hb : ∀ n, (n, true) ∈ dir → bare n = .importError) (hd : (dir.map Prod.fst).Nodup) :
    ∃ l, availApproaches bare dir = .ok l ∧ l.Nodup ∧ ∀ m, m ∈ l ↔ IsMethod dir m := by
  unfold availApproaches
  rw [walkPackages_plain bare dir hb]
  refine ⟨_, rfl, hd.filter _, fun m => ?_⟩
  rw [List.mem_filter]
  have e0 : m ∈ dir.map Prod.fst ↔ ∃ b, (m, b) ∈ dir := by
    rw [List.mem_map]
    constructor
    · rintro ⟨⟨x, b⟩, hx, rfl⟩; exact ⟨b, hx⟩
    · rintro ⟨b, hx⟩; exact ⟨_, hx, rfl⟩
  rw [e0]
  simp only [Bool.and_eq_true, Bool.not_eq_true', IsMethod]
  have e : (pyContains "test".toList m.toList = false) ↔ ¬"test".toList <:+: m.toList := by
    rw [← pyContains_iff]; simp
  rw [e]
  simp only [List.contains_eq_mem, List.mem_cons, List.not_mem_nil, or_false, decide_eq_false_iff_not, not_or]
  constructor
  · rintro ⟨⟨b, hb'⟩, ⟨h1, h2, h3⟩, h4⟩; exact ⟨⟨b, hb'⟩, h1, h2, h3, h4⟩
  · rintro ⟨⟨b, hb'⟩, h1, h2, h3, h4⟩; exact ⟨⟨b, hb'⟩, ⟨h1, h2, h3⟩, h4⟩

theorem addMethods_fresh {F : Type} (pre suf : String) (lib : String → Py F) (mods : List String)
    (attrs : List (String × F)) (hl : ∀ m ∈ mods, ∃ f, lib m = .ok f)
    (hn : (attrs.map Prod.fst ++ mods.map (methodName pre suf)).Nodup) :
    ∃ t, addMethods pre suf lib mods attrs = .ok (attrs ++ t) ∧ t.map Prod.fst = mods.map (methodName pre suf) ∧
      ∀ name f, (name, f) ∈ t ↔ ∃ m ∈ mods, methodName pre suf m = name ∧ lib m = .ok f := by
  unfold addMethods
  induction mods generalizing attrs with
  | nil => exact ⟨[], by simp, rfl, by simp⟩
  | cons m mods ih =>
    obtain ⟨f, hf⟩ := hl m (by simp)
    have hm : methodName pre suf m ∉ attrs.map Prod.fst := by
      intro hmem
      exact (List.nodup_append.mp hn).2.2 _ hmem _ (by simp) rfl
    obtain ⟨t, h1, h2, h3⟩ := ih (attrs ++ [(methodName pre suf m, f)])
      (fun m' hm' => hl m' (List.mem_cons_of_mem _ hm')) (by simpa using hn)
    refine ⟨(methodName pre suf m, f) :: t, ?_, by simp [h2], ?_⟩
    · rw [List.foldlM_cons, hf, pyBind_ok]
      rw [dictSet_new attrs _ _ hm]
      simp only [pure, Except.pure, bind, Except.bind] at h1 ⊢
      rw [h1]
      simp
    · intro name g
      rw [List.mem_cons, h3]
      constructor
      · rintro (h | ⟨m', h', h''⟩)
        · cases h; exact ⟨m, by simp, rfl, hf⟩
        · exact ⟨m', by simp [h'], h''⟩
      · rintro ⟨m', h', h4, h5⟩
        rcases List.mem_cons.mp h' with rfl | h'
        · left; rw [hf] at h5; cases h5; rw [h4]
        · exact .inr ⟨m', h', h4, h5⟩

/-- **C134 (methods)**: one method per module, for all directories, provided no other module can be imported under the
bare name of a sub-package, every module has its function, and names stay different when the ending is removed. -/
theorem C134_methods_partial {F : Type} (bare : String → BareImport) (sdir adir : List (String × Bool))
    (slib alib : String → Py F)
    (hb : ∀ n, (n, true) ∈ sdir ∨ (n, true) ∈ adir → bare n = .importError)
    (hsd : (sdir.map Prod.fst).Nodup) (had : (adir.map Prod.fst).Nodup)
    (hsl : ∀ m, IsMethod sdir m → ∃ f, slib m = .ok f) (hal : ∀ m, IsMethod adir m → ∃ f, alib m = .ok f)
    (hsn : ∀ m, IsMethod sdir m → ∃ name, Named "sample_" "_sampler" m name)
    (han : ∀ m, IsMethod adir m → ∃ name, Named "analyze_" "_analyzer" m name)
    (hsi : ∀ m m' name, IsMethod sdir m → IsMethod sdir m' → Named "sample_" "_sampler" m name →
      Named "sample_" "_sampler" m' name → m = m')
    (hai : ∀ m m' name, IsMethod adir m → IsMethod adir m' → Named "analyze_" "_analyzer" m name →
      Named "analyze_" "_analyzer" m' name → m = m') :
    ∃ table, specMethods bare sdir adir slib alib = .ok table ∧ (table.map Prod.fst).Nodup ∧
      ∀ name f, (name, f) ∈ table ↔
        (∃ m, IsMethod sdir m ∧ Named "sample_" "_sampler" m name ∧ slib m = .ok f) ∨
        ∃ m, IsMethod adir m ∧ Named "analyze_" "_analyzer" m name ∧ alib m = .ok f := by
  obtain ⟨ls, hls, nls, mls⟩ := availApproaches_plain bare sdir (fun n hn => hb n (.inl hn)) hsd
  obtain ⟨la, hla, nla, mla⟩ := availApproaches_plain bare adir (fun n hn => hb n (.inr hn)) had
  have es : "_sampler".toList = '_' :: "sampler".toList := by decide +kernel
  have ea : "_analyzer".toList = '_' :: "analyzer".toList := by decide +kernel
  have cs : '_' ∉ "sampler".toList := by decide +kernel
  have ca : '_' ∉ "analyzer".toList := by decide +kernel
  have ns : ∀ m name, Named "sample_" "_sampler" m name → methodName "sample_" "_sampler" m = name :=
    fun m name h => methodName_named _ _ _ _ _ _ es cs h
  have na : ∀ m name, Named "analyze_" "_analyzer" m name → methodName "analyze_" "_analyzer" m = name :=
    fun m name h => methodName_named _ _ _ _ _ _ ea ca h
  have ds : (ls.map (methodName "sample_" "_sampler")).Nodup := by
    refine (List.nodup_map_iff_inj_on nls).mpr fun m hm m' hm' he => ?_
    obtain ⟨n, hn⟩ := hsn m ((mls m).mp hm)
    obtain ⟨n', hn'⟩ := hsn m' ((mls m').mp hm')
    rw [ns m n hn, ns m' n' hn'] at he
    subst he
    exact hsi m m' n ((mls m).mp hm) ((mls m').mp hm') hn hn'
  have da : (la.map (methodName "analyze_" "_analyzer")).Nodup := by
    refine (List.nodup_map_iff_inj_on nla).mpr fun m hm m' hm' he => ?_
    obtain ⟨n, hn⟩ := han m ((mla m).mp hm)
    obtain ⟨n', hn'⟩ := han m' ((mla m').mp hm')
    rw [na m n hn, na m' n' hn'] at he
    subst he
    exact hai m m' n ((mla m).mp hm) ((mla m').mp hm') hn hn'
  have hdis : (ls.map (methodName "sample_" "_sampler") ++ la.map (methodName "analyze_" "_analyzer")).Nodup := by
    refine List.nodup_append.mpr ⟨ds, da, ?_⟩
    intro a ha b hb' hab
    obtain ⟨m, _, rfl⟩ := List.mem_map.mp ha
    obtain ⟨m', _, rfl⟩ := List.mem_map.mp hb'
    have := congrArg (fun s : String => s.toList.head?) hab
    simp only [methodName, String.toList_append] at this
    revert this
    have e1 : "sample_".toList = 's' :: "ample_".toList := by decide +kernel
    have e2 : "analyze_".toList = 'a' :: "nalyze_".toList := by decide +kernel
    rw [e1, e2]
    simp
  obtain ⟨ts, hts, kts, mts⟩ := addMethods_fresh "sample_" "_sampler" slib ls []
    (fun m hm => hsl m ((mls m).mp hm)) (by simpa using ds)
  obtain ⟨ta, hta, kta, mta⟩ := addMethods_fresh "analyze_" "_analyzer" alib la ([] ++ ts)
    (fun m hm => hal m ((mla m).mp hm)) (by simpa [kts] using hdis)
  refine ⟨[] ++ ts ++ ta, ?_, ?_, ?_⟩
  · unfold specMethods
    rw [hls, pyBind_ok, hts, pyBind_ok, hla, pyBind_ok, hta]
  · simpa [kts, kta] using hdis
  · intro name f
    rw [List.nil_append, List.mem_append, mts, mta]
    constructor
    · rintro (⟨m, hm, he, hf⟩ | ⟨m, hm, he, hf⟩)
      · obtain ⟨n, hn⟩ := hsn m ((mls m).mp hm)
        rw [ns m n hn] at he
        subst he
        exact .inl ⟨m, (mls m).mp hm, hn, hf⟩
      · obtain ⟨n, hn⟩ := han m ((mla m).mp hm)
        rw [na m n hn] at he
        subst he
        exact .inr ⟨m, (mla m).mp hm, hn, hf⟩
    · rintro (⟨m, hm, he, hf⟩ | ⟨m, hm, he, hf⟩)
      · exact .inl ⟨m, (mls m).mpr hm, ns m name he, hf⟩
      · exact .inr ⟨m, (mla m).mpr hm, na m name he, hf⟩

/-- The directories at the pinned commit. -/
def packageSampleDir : List (String × Bool) :=
  [("common_args", false), ("directions", false), ("fast_sampler", false), ("ff", false), ("finite_diff", false),
   ("latin", false), ("morris", true), ("saltelli", false), ("sobol", false), ("sobol_sequence", false)]

def packageAnalyzeDir : List (String × Bool) :=
  [("common_args", false), ("delta", false), ("dgsm", false), ("discrepancy", false), ("enhanced_hdmr", false),
   ("fast", false), ("ff", false), ("hdmr", false), ("morris", false), ("pawn", false), ("rbd_fast", false),
   ("rsa", false), ("sobol", false)]

/-- The package's own methods: the sampler in `fast_sampler.py` is `sample_fast`. -/
example : specMethods (fun _ => .importError) packageSampleDir packageAnalyzeDir (fun m => .ok ("SALib.sample." ++ m))
      (fun m => .ok ("SALib.analyze." ++ m)) =
    .ok [("sample_fast", "SALib.sample.fast_sampler"), ("sample_ff", "SALib.sample.ff"),
      ("sample_finite_diff", "SALib.sample.finite_diff"), ("sample_latin", "SALib.sample.latin"),
      ("sample_morris", "SALib.sample.morris"), ("sample_saltelli", "SALib.sample.saltelli"),
      ("sample_sobol", "SALib.sample.sobol"), ("analyze_delta", "SALib.analyze.delta"),
      ("analyze_dgsm", "SALib.analyze.dgsm"), ("analyze_discrepancy", "SALib.analyze.discrepancy"),
      ("analyze_enhanced_hdmr", "SALib.analyze.enhanced_hdmr"), ("analyze_fast", "SALib.analyze.fast"),
      ("analyze_ff", "SALib.analyze.ff"), ("analyze_hdmr", "SALib.analyze.hdmr"),
      ("analyze_morris", "SALib.analyze.morris"), ("analyze_pawn", "SALib.analyze.pawn"),
      ("analyze_rbd_fast", "SALib.analyze.rbd_fast"), ("analyze_rsa", "SALib.analyze.rsa"),
      ("analyze_sobol", "SALib.analyze.sobol")] := by
  decide +kernel

/-- The conditions of `C134_methods_partial` hold for the package. -/
example : ∃ table, specMethods (fun _ => .importError) packageSampleDir packageAnalyzeDir
      (fun m => .ok ("SALib.sample." ++ m)) (fun m => .ok ("SALib.analyze." ++ m)) = .ok table ∧
    (table.map Prod.fst).Nodup ∧ ("sample_fast", "SALib.sample.fast_sampler") ∈ table := by
  have hs : ∀ m, IsMethod packageSampleDir m →
      m ∈ ["fast_sampler", "ff", "finite_diff", "latin", "morris", "saltelli", "sobol"] := by
    rintro m ⟨⟨b, hb⟩, h1, h2, h3, _⟩
    simp only [packageSampleDir, List.mem_cons, Prod.mk.injEq, List.not_mem_nil, or_false] at hb ⊢
    tauto
  have ha : ∀ m, IsMethod packageAnalyzeDir m → m ∈ ["delta", "dgsm", "discrepancy", "enhanced_hdmr", "fast", "ff", "hdmr",
      "morris", "pawn", "rbd_fast", "rsa", "sobol"] := by
    rintro m ⟨⟨b, hb⟩, h1, h2, h3, _⟩
    simp only [packageAnalyzeDir, List.mem_cons, Prod.mk.injEq, List.not_mem_nil, or_false] at hb ⊢
    tauto
  have es : "_sampler".toList = '_' :: "sampler".toList := by decide +kernel
  have ea : "_analyzer".toList = '_' :: "analyzer".toList := by decide +kernel
  have ns : ∀ m name, Named "sample_" "_sampler" m name → methodName "sample_" "_sampler" m = name :=
    fun m name h => methodName_named _ _ _ _ _ _ es (by decide +kernel) h
  have na : ∀ m name, Named "analyze_" "_analyzer" m name → methodName "analyze_" "_analyzer" m = name :=
    fun m name h => methodName_named _ _ _ _ _ _ ea (by decide +kernel) h
  obtain ⟨t, h1, h2, h3⟩ := C134_methods_partial (fun _ => .importError) packageSampleDir packageAnalyzeDir
    (fun m => .ok ("SALib.sample." ++ m)) (fun m => .ok ("SALib.analyze." ++ m)) (fun _ _ => rfl)
    (by decide +kernel) (by decide +kernel) (fun _ _ => ⟨_, rfl⟩) (fun _ _ => ⟨_, rfl⟩)
    (by
      intro m hm
      have hcase : m = "fast_sampler" ∨ pyContains "_sampler".toList m.toList = false := by
        have := hs m hm
        clear hm
        revert this m
        decide +kernel
      rcases hcase with rfl | h
      · exact ⟨"sample_fast", .inr ⟨"fast", by decide +kernel, by rw [← pyContains_iff]; decide +kernel,
          by decide +kernel⟩⟩
      · exact ⟨_, .inl ⟨by rw [← pyContains_iff, h]; simp, rfl⟩⟩)
    (by
      intro m hm
      have h : pyContains "_analyzer".toList m.toList = false := by
        have := ha m hm
        clear hm
        revert this m
        decide +kernel
      exact ⟨_, .inl ⟨by rw [← pyContains_iff, h]; simp, rfl⟩⟩)
    (by
      intro m m' name hm hm' hn hn'
      have e := (ns m name hn).trans (ns m' name hn').symm
      have h1 := hs m hm
      have h2 := hs m' hm'
      have key : ∀ a ∈ ["fast_sampler", "ff", "finite_diff", "latin", "morris", "saltelli", "sobol"],
        ∀ b ∈ ["fast_sampler", "ff", "finite_diff", "latin", "morris", "saltelli", "sobol"],
          methodName "sample_" "_sampler" a = methodName "sample_" "_sampler" b → a = b := by decide +kernel
      exact key m h1 m' h2 e)
    (by
      intro m m' name hm hm' hn hn'
      have e := (na m name hn).trans (na m' name hn').symm
      have h1 := ha m hm
      have h2 := ha m' hm'
      have key : ∀ a ∈ ["delta", "dgsm", "discrepancy", "enhanced_hdmr", "fast", "ff", "hdmr", "morris", "pawn", "rbd_fast",
          "rsa", "sobol"],
        ∀ b ∈ ["delta", "dgsm", "discrepancy", "enhanced_hdmr", "fast", "ff", "hdmr", "morris", "pawn", "rbd_fast", "rsa",
          "sobol"], methodName "analyze_" "_analyzer" a = methodName "analyze_" "_analyzer" b → a = b := by decide +kernel
      exact key m h1 m' h2 e)
  refine ⟨t, h1, h2, (h3 _ _).mpr (.inl ⟨"fast_sampler", ⟨⟨false, by decide⟩, by decide, by decide, by decide,
    by rw [← pyContains_iff]; decide +kernel⟩, .inr ⟨"fast", by decide +kernel, by rw [← pyContains_iff]; decide +kernel,
      by decide +kernel⟩, by decide +kernel⟩)⟩

theorem walkPackages_below (bare : String → BareImport) (dir : List (String × Bool)) (l : List String)
    (h : walkPackages bare dir = .ok l) (pkg : String) (hp : (pkg, true) ∈ dir) :
    bare pkg = .importError ∨ ∃ names, bare pkg = .found names ∧ ∀ n ∈ names, n ∈ l := by
  induction dir generalizing l with
  | nil => simp at hp
  | cons x dir ih =>
    obtain ⟨n, b⟩ := x
    have key : ∀ r, walkPackages bare dir = .ok r → (∀ a ∈ r, a ∈ l) → (pkg, true) ∈ dir →
        bare pkg = .importError ∨ ∃ names, bare pkg = .found names ∧ ∀ n ∈ names, n ∈ l := by
      intro r hr hsub hd
      rcases ih r hr hd with h' | ⟨names, h1, h2⟩
      · exact .inl h'
      · exact .inr ⟨names, h1, fun n hn => hsub n (h2 n hn)⟩
    cases b with
    | false =>
      unfold walkPackages at h
      obtain ⟨r, hr, h'⟩ := pyBind_inv _ _ _ h
      obtain rfl := Except.ok.inj h'
      refine key r hr (fun a ha => List.mem_cons_of_mem _ ha) ?_
      simpa using hp
    | true =>
      unfold walkPackages at h
      cases hbn : bare n with
      | importError =>
        rw [hbn] at h
        obtain ⟨r, hr, h'⟩ := pyBind_inv _ _ _ h
        obtain rfl := Except.ok.inj h'
        rcases List.mem_cons.mp hp with he | hd
        · cases he; exact .inl hbn
        · exact key r hr (fun a ha => List.mem_cons_of_mem _ ha) hd
      | raises e => rw [hbn] at h; cases h
      | found names =>
        rw [hbn] at h
        obtain ⟨r, hr, h'⟩ := pyBind_inv _ _ _ h
        obtain rfl := Except.ok.inj h'
        rcases List.mem_cons.mp hp with he | hd
        · cases he
          exact .inr ⟨names, hbn, fun a ha => List.mem_cons_of_mem _ (List.mem_append_left _ ha)⟩
        · exact key r hr (fun a ha => List.mem_cons_of_mem _ (List.mem_append_right _ ha)) hd

theorem addMethods_all {F : Type} (pre suf : String) (lib : String → Py F) (mods : List String)
    (attrs t : List (String × F)) (h : addMethods pre suf lib mods attrs = .ok t) : ∀ m ∈ mods, ∃ f, lib m = .ok f := by
  induction mods generalizing attrs with
  | nil => simp
  | cons m mods ih =>
    unfold addMethods at h
    rw [List.foldlM_cons] at h
    obtain ⟨a, ha, h'⟩ := pyBind_inv _ _ _ h
    obtain ⟨f, hf, _⟩ := pyBind_inv _ _ _ ha
    intro m' hm'
    rcases List.mem_cons.mp hm' with rfl | hm'
    · exact ⟨f, hf⟩
    · exact ih a h' m' hm'

/-- **C134 fails** when another module can be imported under the name of a sub-package (`morris`): what lies below it is
looked up in `SALib.sample`, and no `ProblemSpec` can be made. -/
theorem C134_other_module_fail {F : Type} (bare : String → BareImport) (sdir adir : List (String × Bool))
    (slib alib : String → Py F) (pkg sub : String) (names : List String) (hp : (pkg, true) ∈ sdir)
    (hb : bare pkg = .found names) (hs : sub ∈ names) (hm : IsMethod [(sub, false)] sub)
    (hl : ∀ f, slib sub ≠ .ok f) : ∃ e, specMethods bare sdir adir slib alib = .error e := by
  cases h : specMethods bare sdir adir slib alib with
  | error e => exact ⟨e, rfl⟩
  | ok t =>
    exfalso
    unfold specMethods at h
    obtain ⟨l, hl', h⟩ := pyBind_inv _ _ _ h
    obtain ⟨a, ha, _⟩ := pyBind_inv _ _ _ h
    unfold availApproaches at hl'
    obtain ⟨w, hw, hl'⟩ := pyBind_inv _ _ _ hl'
    obtain rfl := Except.ok.inj hl'
    have hsub : sub ∈ w := by
      rcases walkPackages_below bare sdir w hw pkg hp with h' | ⟨names', h1, h2⟩
      · rw [hb] at h'; cases h'
      · rw [hb] at h1; cases h1; exact h2 sub hs
    obtain ⟨_, h1, h2, h3, h4⟩ := hm
    have h4' : pyContains "test".toList sub.toList = false := by
      rw [← pyContains_iff] at h4; simpa using h4
    obtain ⟨f, hf⟩ := addMethods_all _ _ _ _ _ _ ha sub (by
      rw [List.mem_filter]
      refine ⟨hsub, ?_⟩
      rw [h4']
      simp [h1, h2, h3])
    exact hl f hf

/-- … or when importing it raises anything but an `ImportError`. -/
theorem C134_import_fail {F : Type} (bare : String → BareImport) (sdir adir : List (String × Bool))
    (slib alib : String → Py F) (pkg : String) (e : PyErr) (hp : (pkg, true) ∈ sdir)
    (hb : bare pkg = .raises e) : ∃ e', specMethods bare sdir adir slib alib = .error e' := by
  cases h : specMethods bare sdir adir slib alib with
  | error e => exact ⟨e, rfl⟩
  | ok t =>
    exfalso
    unfold specMethods at h
    obtain ⟨l, hl', h⟩ := pyBind_inv _ _ _ h
    unfold availApproaches at hl'
    obtain ⟨w, hw, hl'⟩ := pyBind_inv _ _ _ hl'
    rcases walkPackages_below bare sdir w hw pkg hp with h' | ⟨names', h1, _⟩
    · rw [hb] at h'; cases h'
    · rw [hb] at h1; cases h1

/-- A directory `morris` with a module `plots` on the path. -/
example : ∃ e, specMethods (fun n => if n = "morris" then .found ["morris.plots"] else .importError) packageSampleDir
    packageAnalyzeDir (fun m => if m = "morris.plots" then .error .attributeError else .ok m) (fun m => .ok m) = .error e :=
  C134_other_module_fail _ _ _ _ _ "morris" "morris.plots" ["morris.plots"] (by decide) (by decide +kernel) (by simp)
    ⟨⟨false, by simp⟩, by decide +kernel, by decide +kernel, by decide +kernel,
      by rw [← pyContains_iff]; decide +kernel⟩
    (by intro f; rw [if_pos rfl]; intro h; cases h)

/-- Two modules with one short name: the function of the first is lost. -/
theorem C134_same_name {F : Type} (pre suf : String) (lib : String → Py F) (mods : List String) (attrs : List (String × F))
    (m m' : String) (t : List (String × F)) (hm : methodName pre suf m = methodName pre suf m')
    (h : addMethods pre suf lib (mods ++ [m, m']) attrs = .ok t) : ∀ f, (methodName pre suf m, f) ∈ t → lib m' = .ok f := by
  unfold addMethods at h
  rw [List.foldlM_append] at h
  obtain ⟨a, _, h⟩ := pyBind_inv _ _ _ h
  rw [List.foldlM_cons] at h
  obtain ⟨b, _, h⟩ := pyBind_inv _ _ _ h
  rw [List.foldlM_cons] at h
  obtain ⟨c, hc, h⟩ := pyBind_inv _ _ _ h
  obtain rfl := Except.ok.inj h
  obtain ⟨g, hg, hc⟩ := pyBind_inv _ _ _ hc
  obtain rfl := Except.ok.inj hc
  intro f hf
  rw [hm] at hf
  unfold dictSet at hf
  split at hf
  · obtain ⟨x, _, hx⟩ := List.mem_map.mp hf
    split at hx
    · cases hx; exact hg
    · rename_i hne
      subst hx
      simp at hne
  · rename_i hany
    rcases List.mem_append.mp hf with h' | h'
    · exfalso
      apply hany
      rw [List.any_eq_true]
      exact ⟨_, h', by simp⟩
    · simp only [List.mem_singleton, Prod.mk.injEq] at h'
      rw [hg, h'.2]

example : addMethods "sample_" "_sampler" (fun m => .ok m) ["fast", "fast_sampler"] [] =
    .ok [("sample_fast", "fast_sampler")] := by decide +kernel

/-! ### Calls -/

theorem forall₂_mem_left {β γ : Type} {R : β → γ → Prop} {l : List β} {m : List γ} (h : List.Forall₂ R l m) (x : β)
    (hx : x ∈ l) : ∃ y ∈ m, R x y := by
  induction h with
  | nil => cases hx
  | cons hr _ ih =>
    rcases List.mem_cons.mp hx with rfl | hx
    · exact ⟨_, by simp, hr⟩
    · obtain ⟨y, hy, hxy⟩ := ih hx
      exact ⟨y, List.mem_cons_of_mem _ hy, hxy⟩

theorem methodCall_inv {V : Type} (sig : Sig) (pos : List (MArg V)) (kw : List (String × MArg V))
    (hkn : (kw.map Prod.fst).Nodup) (L : List (String × Option (MArg V)))
    (h : methodCall sig pos kw = .ok L) :
    pos.length ≤ sig.maxPos ∧ L.map Prod.fst = sig.params.map Prod.fst ∧
      (∀ (i : Nat) a p, pos[i]? = some a → sig.params[i]? = some p → (p.1, some a) ∈ L) ∧
      (∀ k ∈ kw, (k.1, some k.2) ∈ L) ∧
      ∀ (i : Nat) p, sig.params[i]? = some p → pos[i]? = none → p.1 ∉ kw.map Prod.fst → p.2.isSome ∧ (p.1, none) ∈ L := by
  unfold methodCall at h
  split at h
  · cases h
  rename_i hc
  rw [not_or] at hc
  obtain ⟨hp, hk⟩ := hc
  rw [mapM_ok_iff] at h
  have hat : ∀ (i : Nat) p, sig.params[i]? = some p → ∃ e ∈ L, methodParam pos kw (p, i) = .ok e := by
    intro i p hi
    have hz : sig.params.zipIdx[i]? = some (p, i) := by
      rw [List.getElem?_zipIdx, hi]; simp
    obtain ⟨b, hb, hm⟩ := forall₂_mem_left h (p, i) (List.mem_of_getElem? hz)
    exact ⟨b, hb, hm⟩
  refine ⟨by omega, ?_, ?_, ?_, ?_⟩
  · have : L.map Prod.fst = (sig.params.zipIdx.map Prod.fst).map Prod.fst := by
      clear hat hp hk
      generalize sig.params.zipIdx = z at h
      induction h with
      | nil => rfl
      | cons hx _ ih =>
        rw [List.map_cons, ih]
        simp only [List.map_cons, List.cons.injEq, and_true]
        unfold methodParam at hx
        split at hx
        · cases hx; rfl
        · split at hx
          · cases hx; rfl
          · split at hx
            · cases hx; rfl
            · cases hx
    rw [this, List.zipIdx_map_fst]
  · intro i a p ha hi
    obtain ⟨e, he, hm⟩ := hat i p hi
    unfold methodParam at hm
    rw [ha] at hm
    obtain rfl := Except.ok.inj hm
    exact he
  · intro k hkm
    simp only [List.any_eq_true, Bool.not_eq_true', List.any_eq_false, not_exists, not_and] at hk
    have h1 := hk k hkm
    push Not at h1
    obtain ⟨p, hpd, hpk⟩ := h1
    have hpk : p.1 = k.1 := by simpa using hpk
    obtain ⟨j, hj⟩ := List.getElem?_of_mem hpd
    rw [List.getElem?_drop] at hj
    obtain ⟨e, he, hm⟩ := hat _ p hj
    unfold methodParam at hm
    have hn : pos[pos.length + j]? = none := List.getElem?_eq_none (by omega)
    rw [hn] at hm
    have hlk : kw.lookup p.1 = some k.2 := by
      rw [hpk]
      clear hk hpk hm hat h
      induction kw with
      | nil => simp at hkm
      | cons x kw ih =>
        obtain ⟨x1, x2⟩ := x
        rw [List.map_cons, List.nodup_cons] at hkn
        rw [List.lookup_cons]
        rcases List.mem_cons.mp hkm with rfl | hkm'
        · simp
        · have hne : (k.1 == x1) = false := by
            rw [beq_eq_false_iff_ne]
            rintro rfl
            exact hkn.1 (List.mem_map.mpr ⟨k, hkm', rfl⟩)
          rw [hne]
          exact ih hkn.2 hkm'
    rw [hlk] at hm
    obtain rfl := Except.ok.inj hm
    rw [← hpk]
    exact he
  · intro i p hi hn hnk
    obtain ⟨e, he, hm⟩ := hat i p hi
    unfold methodParam at hm
    rw [hn] at hm
    have hlk : kw.lookup p.1 = none := by
      rw [List.lookup_eq_none_iff]
      intro x hx
      rw [bne_iff_ne]
      intro hxx
      exact hnk (by rw [hxx]; exact List.mem_map_of_mem hx)
    rw [hlk] at hm
    by_cases hd : p.2.isSome
    · simp only [hd, if_true] at hm
      obtain rfl := Except.ok.inj hm
      exact ⟨hd, he⟩
    · simp [hd] at hm

theorem methodCall_ok {V : Type} (sig : Sig) (pos : List (MArg V)) (kw : List (String × MArg V))
    (hp : pos.length ≤ sig.maxPos) (hk : ∀ k ∈ kw, ∃ p ∈ sig.params.drop pos.length, p.1 = k.1)
    (hreq : ∀ (i : Nat) p, sig.params[i]? = some p → pos[i]? = none → p.1 ∉ kw.map Prod.fst → p.2.isSome) :
    ∃ L, methodCall sig pos kw = .ok L := by
  unfold methodCall
  rw [if_neg]
  · cases h : sig.params.zipIdx.mapM (methodParam pos kw) with
    | ok L => exact ⟨L, rfl⟩
    | error e =>
      exfalso
      obtain ⟨⟨p, i⟩, hpi, he⟩ := mapM_error _ _ _ h
      obtain ⟨j, hj⟩ := List.getElem?_of_mem hpi
      rw [List.getElem?_zipIdx] at hj
      cases hsj : sig.params[j]? with
      | none => rw [hsj] at hj; cases hj
      | some q =>
        rw [hsj] at hj
        simp only [Option.map_some, Option.some.injEq, Prod.mk.injEq, Nat.zero_add] at hj
        obtain ⟨rfl, rfl⟩ := hj
        unfold methodParam at he
        split at he
        · cases he
        · rename_i hn
          split at he
          · cases he
          · rename_i hlk
            split at he
            · cases he
            · rename_i hd
              apply hd
              refine hreq _ _ hsj hn ?_
              intro hmem
              rw [List.lookup_eq_none_iff] at hlk
              obtain ⟨x, hx, hxe⟩ := List.mem_map.mp hmem
              have := hlk x hx
              simp [hxe] at this
  · rintro (h | h)
    · omega
    · rw [List.any_eq_true] at h
      obtain ⟨k, hkm, hk'⟩ := h
      obtain ⟨p, hp', hpk⟩ := hk k hkm
      rw [Bool.not_eq_true', List.any_eq_false] at hk'
      exact hk' p hp' (by simp [hpk])

theorem userKw_keys {V : Type} (kw : List (String × V)) : (userKw kw).map Prod.fst = kw.map Prod.fst := by
  simp [userKw]

/-- **C134 (sampling)**: the object is the problem, the values given by position go to the parameters after it, the
keywords to the parameters they name, and every other parameter has its default. -/
theorem C134_sample {V : Type} (sig : Sig) (args : List V) (kw : List (String × V)) (hkn : (kw.map Prod.fst).Nodup)
    (L : List (String × Option (MArg V))) (h : sampleCall sig args kw = .ok L) :
    L.map Prod.fst = sig.params.map Prod.fst ∧
      (∀ p, sig.params[0]? = some p → Hands L p.1 (some .spec)) ∧
      (∀ (i : Nat) v p, args[i]? = some v → sig.params[i + 1]? = some p → Hands L p.1 (some (.user v))) ∧
      (∀ k ∈ kw, Hands L k.1 (some (.user k.2))) ∧
      ∀ (i : Nat) p, args.length < i → sig.params[i]? = some p → p.1 ∉ kw.map Prod.fst → p.2.isSome ∧ Hands L p.1 none := by
  unfold sampleCall at h
  obtain ⟨_, h1, h2, h3, h4⟩ := methodCall_inv sig _ _ (by rw [userKw_keys]; exact hkn) L h
  refine ⟨h1, fun p hp => h2 0 _ p rfl hp, fun i v p hv hp => h2 (i + 1) _ p ?_ hp, fun k hk => ?_, ?_⟩
  · simp [hv]
  · exact h3 (k.1, .user k.2) (List.mem_map.mpr ⟨k, hk, rfl⟩)
  · intro i p hi hp hk
    exact h4 i p hp (List.getElem?_eq_none (by simp; omega)) (by rw [userKw_keys]; exact hk)

/-- The same for the model given to `evaluate`, which gets the samples first. -/
theorem C134_evaluate {V : Type} (sig : Sig) (args : List V) (kw : List (String × V)) (hkn : (kw.map Prod.fst).Nodup)
    (L : List (String × Option (MArg V))) (h : evaluateCall sig args kw = .ok L) :
    (∀ p, sig.params[0]? = some p → Hands L p.1 (some .samples)) ∧
      (∀ (i : Nat) v p, args[i]? = some v → sig.params[i + 1]? = some p → Hands L p.1 (some (.user v))) ∧
      ∀ k ∈ kw, k.1 ≠ "nprocs" → Hands L k.1 (some (.user k.2)) := by
  unfold evaluateCall at h
  have hkn' : ((userKw (kw.filter fun k => k.1 != "nprocs")).map Prod.fst).Nodup := by
    rw [userKw_keys]
    exact hkn.sublist (List.filter_sublist.map _)
  obtain ⟨_, _, h2, h3, _⟩ := methodCall_inv sig _ _ hkn' L h
  refine ⟨fun p hp => h2 0 _ p rfl hp, fun i v p hv hp => h2 (i + 1) _ p ?_ hp, fun k hk hne => ?_⟩
  · simp [hv]
  · refine h3 (k.1, .user k.2) (List.mem_map.mpr ⟨k, ?_, rfl⟩)
    rw [List.mem_filter]
    exact ⟨hk, by simpa using hne⟩

/-- A signature of an analysis: first the problem, then perhaps `X`, then `Y`, everything else with defaults. -/
structure AnalysisSig (sig : Sig) (w : Bool) : Prop where
  nodup : (sig.params.map Prod.fst).Nodup
  start : (sig.params.map Prod.fst).take (if w then 3 else 2) = if w then ["problem", "X", "Y"] else ["problem", "Y"]
  noX : w = false → "X" ∉ sig.params.map Prod.fst
  noProcs : "nprocs" ∉ sig.params.map Prod.fst
  pos : 1 ≤ sig.maxPos
  defaults : ∀ p ∈ sig.params, p.1 ≠ "problem" → p.1 ≠ "X" → p.1 ≠ "Y" → p.2.isSome

/-- Every analysis of the package has such a signature. -/
theorem C134_signatures : ∀ m ∈ [CliMethod.aDelta, .aDgsm, .aDiscrepancy, .aEnhanced, .aFast, .aFf, .aHdmr, .aMorris, .aPawn,
    .aRbdFast, .aRsa, .aSobol], AnalysisSig (command m).sig (decide (m ≠ .aFast ∧ m ≠ .aSobol)) := by
  intro m hm
  simp only [List.mem_cons, List.not_mem_nil, or_false] at hm
  rcases hm with rfl | rfl | rfl | rfl | rfl | rfl | rfl | rfl | rfl | rfl | rfl | rfl <;>
    exact ⟨by decide +kernel, by decide +kernel, by decide +kernel, by decide +kernel, by decide +kernel, by decide +kernel⟩

theorem dictSet_nodup {γ : Type} (d : List (String × γ)) (k : String) (v : γ) (hd : (d.map Prod.fst).Nodup) :
    ((dictSet d k v).map Prod.fst).Nodup := by
  rw [dictSet_keys]
  split
  · exact hd
  · rename_i h
    rw [List.nodup_append]
    refine ⟨hd, by simp, ?_⟩
    intro a ha b hb'
    rw [List.mem_singleton] at hb'
    rintro rfl
    exact h (hb' ▸ ha)

/-- The keywords of the call of an analysis. -/
def analysisKw {V : Type} (w : Bool) (kw : List (String × V)) : List (String × MArg V) :=
  dictSet (if w then ("X", .samples) :: userKw (kw.filter fun k => k.1 != "nprocs")
    else userKw (kw.filter fun k => k.1 != "nprocs")) "Y" .results

theorem analysisKw_nodup {V : Type} (w : Bool) (kw : List (String × V)) (hkn : (kw.map Prod.fst).Nodup)
    (hX : w = true → "X" ∉ kw.map Prod.fst) : ((analysisKw w kw).map Prod.fst).Nodup := by
  have hf : ((userKw (kw.filter fun k => k.1 != "nprocs")).map Prod.fst).Nodup := by
    rw [userKw_keys]
    exact hkn.sublist (List.filter_sublist.map _)
  apply dictSet_nodup
  cases w with
  | false => exact hf
  | true =>
    rw [if_pos rfl, List.map_cons, List.nodup_cons]
    refine ⟨?_, hf⟩
    rw [userKw_keys]
    intro h
    obtain ⟨x, hx, hxe⟩ := List.mem_map.mp h
    exact hX rfl (List.mem_map.mpr ⟨x, (List.mem_filter.mp hx).1, hxe⟩)

theorem analyzeCall_eq {V : Type} (sig : Sig) (w : Bool) (args : List V) (kw : List (String × V))
    (hX : w = true → "X" ∉ kw.map Prod.fst) :
    analyzeCall sig w args kw = methodCall sig (args.map .user ++ [.spec]) (analysisKw w kw) := by
  unfold analyzeCall
  rw [if_neg]
  · rfl
  · intro h
    rw [Bool.and_eq_true, List.any_eq_true] at h
    obtain ⟨hw, k, hk, hkx⟩ := h
    obtain ⟨x, hx, rfl⟩ := List.mem_map.mp hk
    exact hX hw (List.mem_map.mpr ⟨x, (List.mem_filter.mp hx).1, by simpa using hkx⟩)

theorem dictSet_other {γ : Type} (d : List (String × γ)) (k : String) (v : γ) (e : String × γ) (he : e ∈ d) (hne : e.1 ≠ k) :
    e ∈ dictSet d k v := by
  unfold dictSet
  split
  · refine List.mem_map.mpr ⟨e, he, ?_⟩
    rw [if_neg (by simpa using hne)]
  · exact List.mem_append_left _ he

theorem dictSet_self {γ : Type} (d : List (String × γ)) (k : String) (v : γ) : (k, v) ∈ dictSet d k v := by
  unfold dictSet
  split
  · rename_i h
    rw [List.any_eq_true] at h
    obtain ⟨e, he, hk⟩ := h
    exact List.mem_map.mpr ⟨e, he, by rw [if_pos hk]⟩
  · simp

theorem analysisKw_mem {V : Type} (w : Bool) (kw : List (String × V)) :
    ("Y", MArg.results) ∈ analysisKw w kw ∧ (w = true → ("X", MArg.samples) ∈ analysisKw w kw) ∧
      (∀ k ∈ kw, k.1 ≠ "nprocs" → k.1 ≠ "Y" → (k.1, MArg.user k.2) ∈ analysisKw w kw) ∧
      ∀ n ∈ (analysisKw w kw).map Prod.fst, n = "Y" ∨ n = "X" ∧ w = true ∨ n ∈ kw.map Prod.fst ∧ n ≠ "nprocs" := by
  refine ⟨dictSet_self _ _ _, fun hw => ?_, fun k hk h1 h2 => ?_, fun n hn => ?_⟩
  · refine dictSet_other _ _ _ _ ?_ (show "X" ≠ "Y" by decide)
    rw [if_pos hw]; simp
  · refine dictSet_other _ _ _ _ ?_ h2
    have : (k.1, MArg.user k.2) ∈ userKw (kw.filter fun k => k.1 != "nprocs") :=
      List.mem_map.mpr ⟨k, List.mem_filter.mpr ⟨hk, by simpa using h1⟩, rfl⟩
    split
    · exact List.mem_cons_of_mem _ this
    · exact this
  · have hu : n ∈ (userKw (kw.filter fun k => k.1 != "nprocs")).map Prod.fst → n ∈ kw.map Prod.fst ∧ n ≠ "nprocs" := by
      intro h
      rw [userKw_keys] at h
      obtain ⟨x, hx, rfl⟩ := List.mem_map.mp h
      exact ⟨List.mem_map_of_mem (List.mem_filter.mp hx).1, by simpa using (List.mem_filter.mp hx).2⟩
    have hn' : n = "Y" ∨ n ∈ (if w then ("X", MArg.samples) :: userKw (kw.filter fun k => k.1 != "nprocs")
        else userKw (kw.filter fun k => k.1 != "nprocs")).map Prod.fst := by
      obtain ⟨e, he, rfl⟩ := List.mem_map.mp hn
      rcases dictSet_mem _ _ _ e he with h | h
      · exact .inr (List.mem_map_of_mem h)
      · exact .inl (by rw [h])
    rcases hn' with h | h
    · exact .inl h
    · cases w with
      | false => exact .inr (.inr (hu h))
      | true =>
        rw [if_pos rfl, List.map_cons] at h
        rcases List.mem_cons.mp h with h | h
        · exact .inr (.inl ⟨h, rfl⟩)
        · exact .inr (.inr (hu h))

theorem AnalysisSig.shape {sig : Sig} {w : Bool} (hs : AnalysisSig sig w) : ∃ p0 p1 rest, sig.params = p0 :: p1 :: rest ∧
    p0.1 = "problem" ∧ p1.1 = (if w then "X" else "Y") ∧ "Y" ∈ (p1 :: rest).map Prod.fst := by
  have h := hs.start
  cases w with
  | false =>
    rcases hp : sig.params with _ | ⟨p0, _ | ⟨p1, rest⟩⟩
    · rw [hp] at h; simp at h
    · rw [hp] at h; simp at h
    · rw [hp] at h
      simp at h
      exact ⟨p0, p1, rest, rfl, h.1, h.2, by simp [h.2]⟩
  | true =>
    rcases hp : sig.params with _ | ⟨p0, _ | ⟨p1, _ | ⟨p2, rest⟩⟩⟩
    · rw [hp] at h; simp at h
    · rw [hp] at h; simp at h
    · rw [hp] at h; simp at h
    · rw [hp] at h
      simp at h
      exact ⟨p0, p1, p2 :: rest, rfl, h.1, h.2.1, by simp [h.2.2]⟩

/-- **C134 (analysis)**: without arguments by position, the object is the problem, `X` the samples, `Y` the outputs, and
each keyword has the value given; everything else has its default. -/
theorem C134_analyze_partial {V : Type} (sig : Sig) (w : Bool) (hs : AnalysisSig sig w) (kw : List (String × V))
    (hkn : (kw.map Prod.fst).Nodup)
    (hk : ∀ k ∈ kw, k.1 = "nprocs" ∨ k.1 ∈ sig.params.map Prod.fst ∧ k.1 ≠ "problem" ∧ k.1 ≠ "X" ∧ k.1 ≠ "Y") :
    ∃ L, analyzeCall sig w [] kw = .ok L ∧ L.map Prod.fst = sig.params.map Prod.fst ∧ Hands L "problem" (some .spec) ∧
      Hands L "Y" (some .results) ∧ (w = true → Hands L "X" (some .samples)) ∧
      (∀ k ∈ kw, k.1 ≠ "nprocs" → Hands L k.1 (some (.user k.2))) ∧
      ∀ n ∈ sig.params.map Prod.fst, n ≠ "problem" → n ≠ "X" → n ≠ "Y" → n ∉ kw.map Prod.fst → Hands L n none := by
  have hX : w = true → "X" ∉ kw.map Prod.fst := by
    intro _ h
    obtain ⟨x, hx, hxe⟩ := List.mem_map.mp h
    rcases hk x hx with h' | h'
    · rw [hxe] at h'; revert h'; decide
    · exact h'.2.2.1 hxe
  rw [analyzeCall_eq sig w [] kw hX]
  obtain ⟨p0, p1, rest, hp, h0, h1, hY⟩ := hs.shape
  obtain ⟨m1, m2, m3, m4⟩ := analysisKw_mem w kw
  obtain ⟨L, hL⟩ := methodCall_ok sig (([] : List V).map MArg.user ++ [.spec]) (analysisKw w kw)
    (by simpa using hs.pos) (by
      intro k hkm
      have hin : k.1 ∈ (p1 :: rest).map Prod.fst := by
        rcases m4 k.1 (List.mem_map_of_mem hkm) with h | ⟨h, hw⟩ | ⟨h, hne⟩
        · rw [h]; exact hY
        · rw [h]; rw [if_pos hw] at h1; simp [h1]
        · obtain ⟨x, hx, hxe⟩ := List.mem_map.mp h
          rcases hk x hx with h' | h'
          · exact absurd (hxe ▸ h') hne
          · rw [hxe, hp] at h'
            rcases List.mem_cons.mp h'.1 with h'' | h''
            · exact absurd (h''.trans h0) h'.2.1
            · exact h''
      obtain ⟨p, hpm, hpe⟩ := List.mem_map.mp hin
      exact ⟨p, by rw [hp]; simpa using hpm, hpe⟩)
    (by
      intro i p hi hn hnk
      have hmem : p ∈ sig.params := List.mem_of_getElem? hi
      apply hs.defaults p hmem
      · intro he
        have hi0 : i ≠ 0 := by rintro rfl; simp at hn
        have e0 : (sig.params.map Prod.fst)[0]? = some "problem" := by rw [hp]; simp [h0]
        have ei : (sig.params.map Prod.fst)[i]? = some "problem" := by rw [List.getElem?_map, hi]; simp [he]
        obtain ⟨l0, _⟩ := List.getElem?_eq_some_iff.mp e0
        exact hi0 ((List.getElem?_inj l0 hs.nodup).mp (e0.trans ei.symm)).symm
      · intro he
        cases hw : w with
        | false => exact hs.noX hw (he ▸ List.mem_map_of_mem hmem)
        | true => exact hnk (he ▸ List.mem_map_of_mem (m2 hw))
      · intro he
        exact hnk (he ▸ List.mem_map_of_mem m1))
  obtain ⟨_, k1, k2, k3, k4⟩ := methodCall_inv sig _ _ (analysisKw_nodup w kw hkn hX) L hL
  refine ⟨L, hL, k1, ?_, k3 _ m1, fun hw => k3 _ (m2 hw), ?_, ?_⟩
  · have := k2 0 .spec p0 rfl (by rw [hp]; rfl)
    rw [h0] at this
    exact this
  · intro k hkm hne
    refine k3 _ (m3 k hkm hne ?_)
    rcases hk k hkm with h' | h'
    · exact absurd h' hne
    · exact h'.2.2.2
  · intro n hn n1 n2 n3 n4
    obtain ⟨p, hpm, rfl⟩ := List.mem_map.mp hn
    obtain ⟨i, hi⟩ := List.getElem?_of_mem hpm
    refine (k4 i p hi ?_ ?_).2
    · refine List.getElem?_eq_none ?_
      rcases i with _ | i
      · rw [hp] at hi
        obtain rfl := Option.some.inj hi
        exact absurd h0 n1
      · simp
    · intro hmem
      rcases m4 _ hmem with h | ⟨h, _⟩ | ⟨h, _⟩
      · exact n3 h
      · exact n2 h
      · exact n4 h

/-- **C134 fails** with arguments by position: they come before the problem, so that an analysis of the package always
raises `TypeError`. -/
theorem C134_positional_fail {V : Type} (sig : Sig) (w : Bool) (hs : AnalysisSig sig w) (args : List V)
    (kw : List (String × V)) (ha : args ≠ []) : analyzeCall sig w args kw = .error .typeError := by
  by_cases hX : w = true → "X" ∉ kw.map Prod.fst
  · rw [analyzeCall_eq sig w args kw hX]
    obtain ⟨p0, p1, rest, hp, h0, h1, _⟩ := hs.shape
    obtain ⟨m1, m2, _, _⟩ := analysisKw_mem w kw
    unfold methodCall
    rw [if_pos]
    right
    rw [List.any_eq_true]
    have hmem : ∃ k ∈ analysisKw w kw, k.1 = p1.1 := by
      cases hw : w with
      | false => rw [hw] at m1 h1; exact ⟨_, m1, h1.symm⟩
      | true => rw [hw] at m2 h1; exact ⟨_, m2 rfl, h1.symm⟩
    obtain ⟨k, hk, hke⟩ := hmem
    refine ⟨k, hk, ?_⟩
    rw [Bool.not_eq_true', List.any_eq_false]
    intro p hpm hpk
    have hpk : p.1 = p1.1 := (by simpa using hpk : p.1 = k.1).trans hke
    have hnd := hs.nodup
    rw [hp] at hnd hpm
    obtain ⟨a, as, rfl⟩ : ∃ a as, args = a :: as := by
      cases args with
      | nil => exact absurd rfl ha
      | cons a as => exact ⟨a, as, rfl⟩
    simp only [List.map_cons, List.cons_append, List.length_cons, List.length_append, List.length_map, List.length_nil,
      Nat.zero_add, List.drop_succ_cons] at hpm
    rw [List.map_cons, List.nodup_cons, List.map_cons, List.nodup_cons] at hnd
    exact hnd.2.1 (hpk ▸ List.mem_map_of_mem (List.mem_of_mem_drop hpm))
  · push Not at hX
    obtain ⟨rfl, hX⟩ := hX
    unfold analyzeCall
    rw [if_pos]
    obtain ⟨x, hx, hxe⟩ := List.mem_map.mp hX
    rw [Bool.true_and, List.any_eq_true]
    exact ⟨(x.1, .user x.2), List.mem_map.mpr ⟨x, List.mem_filter.mpr ⟨hx, by rw [hxe]; decide⟩, rfl⟩, by simp [hxe]⟩

/-- An `X` given as keyword is a `TypeError`, a `Y` given as keyword is ignored. -/
theorem C134_given {V : Type} (sig : Sig) (args : List V) (kw : List (String × V)) :
    ("X" ∈ kw.map Prod.fst → analyzeCall sig true args kw = .error .typeError) ∧
      ∀ w v L, (kw.map Prod.fst).Nodup → (sig.params.map Prod.fst).Nodup → ("Y", v) ∈ kw →
        analyzeCall sig w args kw = .ok L → Hands L "Y" (some .results) ∧ ¬Hands L "Y" (some (.user v)) := by
  have hfirst : "X" ∈ kw.map Prod.fst → analyzeCall sig true args kw = .error .typeError := by
    intro hX
    unfold analyzeCall
    rw [if_pos]
    obtain ⟨x, hx, hxe⟩ := List.mem_map.mp hX
    rw [Bool.true_and, List.any_eq_true]
    exact ⟨(x.1, .user x.2), List.mem_map.mpr ⟨x, List.mem_filter.mpr ⟨hx, by rw [hxe]; decide⟩, rfl⟩, by simp [hxe]⟩
  refine ⟨hfirst, fun w v L hkn hnd hY h => ?_⟩
  have hX : w = true → "X" ∉ kw.map Prod.fst := by
    rintro rfl hX
    rw [hfirst hX] at h
    cases h
  rw [analyzeCall_eq sig w args kw hX] at h
  obtain ⟨_, k1, _, k3, _⟩ := methodCall_inv sig _ _ (analysisKw_nodup w kw hkn hX) L h
  have hr := k3 _ (analysisKw_mem w kw).1
  refine ⟨hr, fun hu => ?_⟩
  rw [← k1] at hnd
  have := List.inj_on_of_nodup_map hnd hr hu rfl
  simp at this

/-- `spec.analyze_sobol(num_resamples=50)`, and with the number by position. -/
example : analyzeCall (command .aSobol).sig false [] [("num_resamples", (50 : Nat))] =
      .ok [("problem", some .spec), ("Y", some .results), ("calc_second_order", none), ("num_resamples", some (.user 50)),
        ("conf_level", none), ("print_to_console", none), ("parallel", none), ("n_processors", none),
        ("keep_resamples", none), ("seed", none)] ∧
    analyzeCall (command .aSobol).sig false [(50 : Nat)] [] = .error .typeError ∧
    sampleCall (command .sMorris).sig [(100 : Nat)] [("seed", 7)] =
      .ok [("problem", some .spec), ("N", some (.user 100)), ("num_levels", none), ("optimal_trajectories", none),
        ("local_optimization", none), ("seed", some (.user 7))] := by
  decide +kernel

/-! ### Summary -/

variable {α β A : Type} [Inhabited β]

/-- **C134 (summary)**: for every object made by the constructor and any operations on it, the text can be made as soon as
the tables can, and says what the object holds. -/
theorem C134_summary {T : Type} (names : Option (List String)) (bounds : Option (List (List α)))
    (groups outputs : Option (List String)) (s0 : SpecState α β A) (h : specInit names bounds groups outputs = .ok s0)
    (ops : List (SpecOp α β A)) (df : A → Py (SpecTables T)) (s : SpecState α β A) (hs : s = specRun s0 ops)
    (hdf : ∀ a, s.analysis = some (.single a) ∨ (∃ d o, s.analysis = some (.byOutput d) ∧ (o, a) ∈ d) → ∃ t, df a = .ok t) :
    ∃ parts, specStr s df = .ok parts ∧
      (.nothing ∈ parts ↔ s.samples = none ∧ s.results = none ∧ s.analysis = none) ∧
      (∀ n l r, .samples n l r ∈ parts ↔ ∃ X, s.samples = some X ∧ n = X.cols ∧ l = s.names ∧ r = X.rows.length) ∧
      (∀ n l r, .outputs n l r ∈ parts ↔
        ∃ Y, s.results = some Y ∧ n = Y.numCols ∧ s.outputs = some l ∧ l.length = n ∧ r = Y.len) ∧
      (.header ∈ parts ↔ s.analysis ≠ none) ∧
      ∀ o, .output o ∈ parts ↔ ∃ d, s.analysis = some (.byOutput d) ∧ o ∈ d.map Prod.fst := by
  have hr : ∃ r : List (StrPart T), resultParts s = .ok r ∧
      (s.results = none → r = []) ∧ (r = [] → s.results = none) ∧
      (∀ x ∈ r, ∃ n l k, x = .outputs n l k) ∧
      ∀ n l k, .outputs n l k ∈ r ↔
        ∃ Y, s.results = some Y ∧ n = Y.numCols ∧ s.outputs = some l ∧ l.length = n ∧ k = Y.len := by
    have ho := (C63_outputs names bounds groups outputs s0 h ops).1
    rw [← hs] at ho
    unfold resultParts
    cases hY : s.results with
    | none => exact ⟨[], rfl, fun _ => rfl, fun _ => rfl, by simp, by simp⟩
    | some Y =>
      obtain ⟨o, h1, h2⟩ := ho Y hY
      rw [h1]
      refine ⟨_, rfl, by simp, by simp, by simp, ?_⟩
      intro n l k
      simp only [List.mem_singleton, StrPart.outputs.injEq, Option.some.injEq]
      constructor
      · rintro ⟨rfl, rfl, rfl⟩; exact ⟨Y, rfl, rfl, rfl, h2, rfl⟩
      · rintro ⟨Y', rfl, rfl, rfl, _, rfl⟩; exact ⟨rfl, rfl, rfl⟩
  have htab : ∀ (t : SpecTables T), ∀ x ∈ tableParts t, ∃ y, x = .table y := by
    intro t x hx
    cases t with
    | one t => simp only [tableParts, List.mem_singleton] at hx; exact ⟨t, hx⟩
    | many ts =>
      obtain ⟨y, _, rfl⟩ := List.mem_map.mp hx
      exact ⟨y, rfl⟩
  have ha : ∃ a : List (StrPart T), analysisParts df s.analysis = .ok a ∧
      (s.analysis = none → a = []) ∧ (s.analysis ≠ none → .header ∈ a) ∧
      (∀ x ∈ a, x = .header ∨ (∃ o, x = .output o) ∨ ∃ t, x = .table t) ∧
      ∀ o, .output o ∈ a ↔ ∃ d, s.analysis = some (.byOutput d) ∧ o ∈ d.map Prod.fst := by
    cases hA : s.analysis with
    | none => exact ⟨[], rfl, fun _ => rfl, by simp, by simp, by simp⟩
    | some an =>
      cases an with
      | single a =>
        obtain ⟨t, ht⟩ := hdf a (.inl hA)
        refine ⟨.header :: tableParts t, ?_, by simp, by simp, ?_, ?_⟩
        · simp only [analysisParts]; rw [ht]; rfl
        · intro x hx
          rcases List.mem_cons.mp hx with rfl | hx
          · exact .inl rfl
          · exact .inr (.inr (htab t x hx))
        · intro o
          constructor
          · intro hx
            rcases List.mem_cons.mp hx with hx | hx
            · cases hx
            · obtain ⟨y, hy⟩ := htab t _ hx; cases hy
          · rintro ⟨d, hd, _⟩; cases hd
      | byOutput d =>
        have hd : ∀ e ∈ d, ∃ t, df e.2 = .ok t := fun e he => hdf e.2 (.inr ⟨d, e.1, hA, he⟩)
        cases hm : d.mapM fun (e : String × A) => (do return StrPart.output e.1 :: tableParts (← df e.2) :
            Py (List (StrPart T))) with
        | error e =>
          exfalso
          obtain ⟨x, hx, hxe⟩ := mapM_error _ _ _ hm
          obtain ⟨t, ht⟩ := hd x hx
          rw [ht] at hxe
          cases hxe
        | ok parts =>
          have hf := (mapM_ok_iff _ _ _).mp hm
          refine ⟨.header :: parts.flatten, ?_, by simp, by simp, ?_, ?_⟩
          · simp only [analysisParts]; rw [hm]; rfl
          · intro x hx
            rcases List.mem_cons.mp hx with rfl | hx
            · exact .inl rfl
            · right
              obtain ⟨p, hp, hxp⟩ := List.mem_flatten.mp hx
              obtain ⟨e, _, hep⟩ := forall₂_mem_left hf.flip p hp
              obtain ⟨t, _, ht⟩ := pyBind_inv _ _ _ hep
              obtain rfl := Except.ok.inj ht
              rcases List.mem_cons.mp hxp with rfl | hxp
              · exact .inl ⟨_, rfl⟩
              · exact .inr (htab t x hxp)
          · intro o
            constructor
            · intro hx
              rcases List.mem_cons.mp hx with hx | hx
              · cases hx
              · obtain ⟨p, hp, hxp⟩ := List.mem_flatten.mp hx
                obtain ⟨e, he, hep⟩ := forall₂_mem_left hf.flip p hp
                obtain ⟨t, _, ht⟩ := pyBind_inv _ _ _ hep
                obtain rfl := Except.ok.inj ht
                rcases List.mem_cons.mp hxp with hxp | hxp
                · cases hxp
                  exact ⟨d, rfl, List.mem_map_of_mem he⟩
                · obtain ⟨y, hy⟩ := htab t _ hxp; cases hy
            · rintro ⟨d', hd', ho⟩
              cases hd'
              obtain ⟨e, he, rfl⟩ := List.mem_map.mp ho
              obtain ⟨p, hp, hep⟩ := forall₂_mem_left hf e he
              obtain ⟨t, _, ht⟩ := pyBind_inv _ _ _ hep
              obtain rfl := Except.ok.inj ht
              exact List.mem_cons_of_mem _ (List.mem_flatten.mpr ⟨_, hp, by simp⟩)
  obtain ⟨r, hr0, hr1, hr1', hr2, hr3⟩ := hr
  obtain ⟨a, ha0, ha1, ha2, ha3, ha4⟩ := ha
  have hsx : ∀ x ∈ (sampleParts s : List (StrPart T)), ∃ X, s.samples = some X ∧ x = .samples X.cols s.names X.rows.length := by
    unfold sampleParts
    cases hX : s.samples with
    | none => simp
    | some X => simp
  have hsy : ∀ X, s.samples = some X → StrPart.samples X.cols s.names X.rows.length ∈ (sampleParts s : List (StrPart T)) := by
    intro X hX
    unfold sampleParts
    rw [hX]; simp
  have hmem : ∀ x : StrPart T, x ≠ .nothing →
      (x ∈ (if (sampleParts s ++ r ++ a).length = 0 then [StrPart.nothing] else sampleParts s ++ r ++ a) ↔
        x ∈ (sampleParts s : List (StrPart T)) ∨ x ∈ r ∨ x ∈ a) := by
    intro x hx
    split
    · rename_i h0
      rw [List.length_eq_zero_iff, List.append_eq_nil_iff, List.append_eq_nil_iff] at h0
      rw [h0.1.1, h0.1.2, h0.2]
      simpa using hx
    · simp
  refine ⟨if (sampleParts s ++ r ++ a).length = 0 then [StrPart.nothing] else sampleParts s ++ r ++ a,
    ?_, ?_, ?_, ?_, ?_, ?_⟩
  · unfold specStr
    rw [hr0, pyBind_ok, ha0, pyBind_ok]
    rfl
  · constructor
    · intro hn
      split at hn
      · rename_i h0
        rw [List.length_eq_zero_iff, List.append_eq_nil_iff, List.append_eq_nil_iff] at h0
        refine ⟨?_, hr1' h0.1.2, ?_⟩
        · cases hX : s.samples with
          | none => rfl
          | some X => have := hsy X hX; rw [h0.1.1] at this; simp at this
        · by_contra hne
          have := ha2 hne
          rw [h0.2] at this
          simp at this
      · exfalso
        rcases List.mem_append.mp hn with hn | hn
        · rcases List.mem_append.mp hn with hn | hn
          · obtain ⟨X, _, hx⟩ := hsx _ hn; cases hx
          · obtain ⟨_, _, _, hx⟩ := hr2 _ hn; cases hx
        · rcases ha3 _ hn with hx | ⟨_, hx⟩ | ⟨_, hx⟩ <;> cases hx
    · rintro ⟨h1, h2, h3⟩
      rw [hr1 h2, ha1 h3]
      unfold sampleParts
      rw [h1]
      simp
  · intro n l k
    rw [hmem _ (by simp)]
    constructor
    · rintro (hx | hx | hx)
      · obtain ⟨X, hX, he⟩ := hsx _ hx
        cases he
        exact ⟨X, hX, rfl, rfl, rfl⟩
      · obtain ⟨_, _, _, he⟩ := hr2 _ hx; cases he
      · rcases ha3 _ hx with he | ⟨_, he⟩ | ⟨_, he⟩ <;> cases he
    · rintro ⟨X, hX, rfl, rfl, rfl⟩
      exact .inl (hsy X hX)
  · intro n l k
    rw [hmem _ (by simp), ← hr3]
    constructor
    · rintro (hx | hx | hx)
      · obtain ⟨X, hX, he⟩ := hsx _ hx; cases he
      · exact hx
      · rcases ha3 _ hx with he | ⟨_, he⟩ | ⟨_, he⟩ <;> cases he
    · exact fun hx => .inr (.inl hx)
  · rw [hmem _ (by simp)]
    constructor
    · rintro (hx | hx | hx)
      · obtain ⟨X, hX, he⟩ := hsx _ hx; cases he
      · obtain ⟨_, _, _, he⟩ := hr2 _ hx; cases he
      · intro hn; rw [ha1 hn] at hx; simp at hx
    · exact fun hx => .inr (.inr (ha2 hx))
  · intro o
    rw [hmem _ (by simp), ← ha4]
    constructor
    · rintro (hx | hx | hx)
      · obtain ⟨X, hX, he⟩ := hsx _ hx; cases he
      · obtain ⟨_, _, _, he⟩ := hr2 _ hx; cases he
      · exact hx
    · exact fun hx => .inr (.inr hx)

omit [Inhabited β] in
/-- The tables of each output follow its name. -/
theorem C134_summary_tables {T : Type} (s : SpecState α β A) (df : A → Py (SpecTables T)) (d : List (String × A))
    (hA : s.analysis = some (.byOutput d)) (parts : List (StrPart T)) (h : specStr s df = .ok parts) :
    ∃ (before : List (StrPart T)) (blocks : List (List (StrPart T))),
      parts = before ++ .header :: blocks.flatten ∧ blocks.length = d.length ∧
      ∀ (i : Nat) o a, d[i]? = some (o, a) → ∃ t, df a = .ok t ∧
        blocks[i]? = some (.output o :: match t with | .one x => [.table x] | .many xs => xs.map .table) := by
  unfold specStr at h
  obtain ⟨r, _, h⟩ := pyBind_inv _ _ _ h
  obtain ⟨a, ha, h⟩ := pyBind_inv _ _ _ h
  obtain rfl := Except.ok.inj h
  rw [hA] at ha
  unfold analysisParts at ha
  obtain ⟨blocks, hb, ha⟩ := pyBind_inv _ _ _ ha
  obtain rfl := Except.ok.inj ha
  have hf := (mapM_ok_iff _ _ _).mp hb
  refine ⟨sampleParts s ++ r, blocks, ?_, hf.length_eq.symm, ?_⟩
  · rw [if_neg (by simp)]
  · intro i o a hi
    obtain ⟨hl, hg⟩ := List.getElem?_eq_some_iff.mp hi
    have hl' : i < blocks.length := by rw [← hf.length_eq]; exact hl
    have := hf.get hl hl'
    simp only [List.get_eq_getElem, hg] at this
    obtain ⟨t, ht, hx⟩ := pyBind_inv _ _ _ this
    refine ⟨t, ht, ?_⟩
    rw [List.getElem?_eq_getElem hl', ← Except.ok.inj hx]
    cases t <;> rfl

/-- Two outputs: after the analysis, and after new samples, when the old analysis is still shown (C61). -/
example :
    let s : SpecState Nat Nat Nat := SpecState.mk ["a", "b"] 2 ["a", "b"] (some ["u", "v"]) (some ⟨2, [[1, 2], [3, 4]]⟩)
      (some (.mat 2 [[5, 6], [7, 8]])) (some (.byOutput [("u", 12), ("v", 14)]))
    specStr s (fun a => .ok (SpecTables.one a)) =
      .ok [.samples 2 ["a", "b"] 2, .outputs 2 ["u", "v"] 2, .header, .output "u", .table 12, .output "v", .table 14] ∧
    specStr (specStep s (.setSamples ⟨2, [[0, 0]]⟩)).1 (fun a => .ok (SpecTables.one a)) =
      .ok [.samples 2 ["a", "b"] 1, .header, .output "u", .table 12, .output "v", .table 14] := by
  decide +kernel

end SALib
