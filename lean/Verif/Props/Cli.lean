import Verif.Lemmas.Cli

/-! # C96: options of the command line reach the call -/

namespace SALib

open Spec

variable (pyInt : String → Option Int) (pyFloat : String → Option ℚ)

/-- The conversion of the option agrees with how its value is meant, given how the action uses the value. -/
def readingMatches (r : Reading) (o : CliOpt) (a : CliArg) : Bool :=
  match r, a with
  | .whole, .attr d => o.conv == .int && o.dest == d
  | .real, .attr d => o.conv == .float && o.dest == d
  | .text, .attr d => o.conv == .str && o.dest == d
  | .yesNo, .attr d => o.conv == .trueWord && o.dest == d
  | .presence, .attr d => o.conv == .storeTrue && o.dest == d
  | .upToSecondOrder, .isTwo d => o.conv == .int && o.dest == d
  | .dictionary, .jsonSpec d => o.conv == .str && o.dest == d
  | _, _ => false

/-- The tables connect the option to the parameter. -/
def Connected (c : CliCommand) (w : Want) : Prop :=
  ∃ o ∈ c.opts, o.flags = w.flags ∧ ∃ p ∈ c.sig.params.zipIdx, p.1.1 = w.param ∧
    ∃ a, suppliedArg c.pos c.kw p.2 p.1.1 = some a ∧ readingMatches w.reading o a = true

theorem reading_value {r : Reading} {o : CliOpt} {a : CliArg} (hm : readingMatches r o a = true) {ns : String → Option CVal}
    {s : String} {u v : CVal} (hu : convertValue pyInt pyFloat o.conv s = some u) (hn : ns o.dest = some u)
    (hv : evalArg ns a = .ok v) :
    (∀ x, readAs pyInt pyFloat r s = some x → v = x) ∧ (r ≠ .yesNo → (readAs pyInt pyFloat r s).isSome = true) := by
  unfold readingMatches at hm
  split at hm
  all_goals first
    | (exfalso; exact Bool.noConfusion hm)
    | skip
  all_goals
    rw [Bool.and_eq_true, beq_iff_eq, beq_iff_eq] at hm
    obtain ⟨h1, h2⟩ := hm
    rw [h1] at hu
    subst h2
    simp only [evalArg, getAttr, hn] at hv
  · injection hv with hv
    subst hv
    simp only [convertValue] at hu
    simp only [readAs, hu]
    exact ⟨fun x hx => by injection hx, fun _ => rfl⟩
  · injection hv with hv
    subst hv
    simp only [convertValue] at hu
    simp only [readAs, hu]
    exact ⟨fun x hx => by injection hx, fun _ => rfl⟩
  · injection hv with hv
    subst hv
    simp only [convertValue] at hu
    simp only [readAs, hu]
    exact ⟨fun x hx => by injection hx, fun _ => rfl⟩
  · injection hv with hv
    subst hv
    simp only [convertValue] at hu
    injection hu with hu
    subst hu
    simp only [readAs]
    refine ⟨fun x hx => ?_, fun h => absurd rfl h⟩
    split at hx
    · rename_i h
      injection hx with hx
      rw [← hx, h]
      rfl
    · split at hx
      · rename_i h
        injection hx with hx
        rw [← hx, h]
        rfl
      · cases hx
  · injection hv with hv
    subst hv
    simp only [convertValue] at hu
    injection hu with hu
    subst hu
    simp only [readAs]
    exact ⟨fun x hx => by injection hx, fun _ => rfl⟩
  · simp only [convertValue] at hu
    simp only [readAs]
    cases hi : pyInt s with
    | none => rw [hi] at hu; cases hu
    | some i =>
      rw [hi] at hu
      injection hu with hu
      subst hu
      injection hv with hv
      subst hv
      refine ⟨fun x hx => ?_, fun _ => rfl⟩
      injection hx with hx
      rw [← hx]
      congr 1
      by_cases h : i = 2
      · subst h; rfl
      · rw [decide_eq_false h]
        exact beq_false_of_ne (fun e => h (by injection e))
  · simp only [convertValue] at hu
    injection hu with hu
    subst hu
    injection hv with hv
    subst hv
    simp only [readAs]
    exact ⟨fun x hx => by injection hx, fun _ => rfl⟩

theorem connected_given {c : CliCommand} (hd : DistinctOpts c.opts) (hnd : (c.sig.params.map (·.1)).Nodup) {w : Want}
    (hc : Connected c w) {tokens : List (String × String)} {call : List (String × CVal)}
    (h : runCli pyInt pyFloat c tokens = .ok call) {s : String} (hs : given w.flags tokens = some s) :
    (∀ x, readAs pyInt pyFloat w.reading s = some x → call.lookup w.param = some x) ∧
      (w.reading ≠ .yesNo → (readAs pyInt pyFloat w.reading s).isSome = true) := by
  obtain ⟨o, ho, hof, p, hp, hpn, a, ha, hm⟩ := hc
  obtain ⟨ns, hns, hb⟩ := exceptBind_ok h
  obtain ⟨h1, -⟩ := parse_value pyInt pyFloat hd hns ho
  unfold NsOk at h1
  rw [hof, hs] at h1
  obtain ⟨u, hu, -, hnd'⟩ := h1
  obtain ⟨v, hv, hcase⟩ := bind_value hb hnd hp
  rcases hcase with ⟨a', ha', he⟩ | ⟨hn, -⟩
  · rw [ha] at ha'
    injection ha' with ha'
    subst ha'
    obtain ⟨r1, r2⟩ := reading_value pyInt pyFloat hm hu hnd' he
    refine ⟨fun x hx => ?_, r2⟩
    rw [← hpn, hv, r1 x hx]
  · rw [ha] at hn; cases hn

/-- The options that do not reach the call. -/
def lostOptions : List (CliMethod × String) :=
  [(.sSobol, "skip_values"), (.sSobol, "seed"), (.aHdmr, "seed"), (.aEnhanced, "seed"),
   (.sMorris, "local_optimization"), (.aMorris, "scaled")]

theorem tables_distinct (m : CliMethod) : DistinctOpts (command m).opts ∧ ((command m).sig.params.map (·.1)).Nodup := by
  cases m <;> decide +kernel

instance (c : CliCommand) (w : Want) : Decidable (Connected c w) := by unfold Connected; infer_instance

theorem tables_connected (m : CliMethod) : ∀ w ∈ wants m, (m, w.param) ∉ lostOptions → Connected (command m) w := by
  cases m <;> decide +kernel

/-- **C96.** Every option given on the command line reaches the call of `sample` or `analyze` with its value, but for six
options. -/
theorem C96_given_partial (m : CliMethod) (w : Want) (hw : w ∈ wants m) (hl : (m, w.param) ∉ lostOptions)
    (tokens : List (String × String)) (call : List (String × CVal))
    (h : runCli pyInt pyFloat (command m) tokens = .ok call) (s : String) (hs : given w.flags tokens = some s) :
    (∀ x, readAs pyInt pyFloat w.reading s = some x → call.lookup w.param = some x) ∧
      (w.reading ≠ .yesNo → (readAs pyInt pyFloat w.reading s).isSome = true) :=
  connected_given pyInt pyFloat (tables_distinct m).1 (tables_distinct m).2 (tables_connected m w hw hl) h hs


/-- What the action passes on for an option that is not given. -/
def defaultValue (o : CliOpt) : CliArg → Option CVal
  | .attr d => if o.dest = d then some o.default else none
  | .isTwo d => if o.dest = d then some (.bool (o.default == .int 2)) else none
  | .jsonSpec d => if o.dest = d then some (jsonOf o.default) else none
  | _ => none

/-- The tables pass on the default of the function, or the option is required. -/
def DefaultKept (c : CliCommand) (w : Want) : Prop :=
  ∃ o ∈ c.opts, o.flags = w.flags ∧ (o.required = true ∨ ∃ p ∈ c.sig.params.zipIdx, p.1.1 = w.param ∧
    (suppliedArg c.pos c.kw p.2 p.1.1 = none ∨
      ∃ a, suppliedArg c.pos c.kw p.2 p.1.1 = some a ∧ (defaultValue o a).isSome = true ∧ defaultValue o a = p.1.2))

instance (c : CliCommand) (w : Want) : Decidable (DefaultKept c w) := by unfold DefaultKept; infer_instance

theorem defaultValue_eval {o : CliOpt} {a : CliArg} {ns : String → Option CVal} {v x : CVal} (hn : ns o.dest = some o.default)
    (hv : evalArg ns a = .ok v) (hx : defaultValue o a = some x) : v = x := by
  unfold defaultValue at hx
  split at hx
  all_goals first
    | (exfalso; cases hx; done)
    | skip
  all_goals
    split at hx
    · rename_i hd
      subst hd
      simp only [evalArg, getAttr, hn] at hv
      injection hv with hv
      injection hx with hx
      rw [← hv, hx]
    · cases hx

theorem default_kept {c : CliCommand} (hd : DistinctOpts c.opts) (hnd : (c.sig.params.map (·.1)).Nodup) {w : Want}
    (hc : DefaultKept c w) {tokens : List (String × String)} {call : List (String × CVal)}
    (h : runCli pyInt pyFloat c tokens = .ok call) (hs : given w.flags tokens = none) :
    ∃ v, (w.param, some v) ∈ c.sig.params ∧ call.lookup w.param = some v := by
  obtain ⟨o, ho, hof, hor⟩ := hc
  obtain ⟨ns, hns, hb⟩ := exceptBind_ok h
  obtain ⟨h1, h2⟩ := parse_value pyInt pyFloat hd hns ho
  unfold NsOk at h1
  rw [hof, hs] at h1 h2
  rcases hor with hr | ⟨p, hp, hpn, hcase⟩
  · exact absurd (h2 hr) (by decide)
  · obtain ⟨v, hv, hb⟩ := bind_value hb hnd hp
    rw [hpn] at hv
    refine ⟨v, ?_, hv⟩
    have hmem : ∀ w', p.1.2 = some w' → (w.param, some w') ∈ c.sig.params := by
      intro w' hw'
      rw [← hpn, ← hw']
      exact (List.mem_zipIdx' hp).2 ▸ List.getElem_mem _
    rcases hb with ⟨a, ha, he⟩ | ⟨-, hpd⟩
    · rcases hcase with hc | ⟨a', ha', hs', hd'⟩
      · rw [ha] at hc; cases hc
      · rw [ha] at ha'
        injection ha' with ha'
        subst ha'
        obtain ⟨x, hx⟩ := Option.isSome_iff_exists.mp hs'
        have := defaultValue_eval h1 he hx
        subst this
        exact hmem _ (by rw [← hd', hx])
    · exact hmem v hpd

/-- The options whose omission does not leave the default of the function. -/
def changedDefaults : List (CliMethod × String) :=
  [(.aDelta, "num_resamples"), (.aDgsm, "num_resamples"), (.aMorris, "num_resamples"), (.aFf, "second_order"),
   (.aPawn, "S"), (.aRsa, "bins"), (.aRsa, "target")]

theorem tables_default (m : CliMethod) : ∀ w ∈ wants m, (m, w.param) ∉ changedDefaults → DefaultKept (command m) w := by
  cases m <;> decide +kernel

/-- **C96.** An option that is not given leaves the parameter at the default of the function, but for seven options. -/
theorem C96_default_partial (m : CliMethod) (w : Want) (hw : w ∈ wants m) (hl : (m, w.param) ∉ changedDefaults)
    (tokens : List (String × String)) (call : List (String × CVal))
    (h : runCli pyInt pyFloat (command m) tokens = .ok call) (hs : given w.flags tokens = none) :
    ∃ v, (w.param, some v) ∈ (command m).sig.params ∧ call.lookup w.param = some v :=
  default_kept pyInt pyFloat (tables_distinct m).1 (tables_distinct m).2 (tables_default m w hw hl) h hs

/-- An option with text as value that is required or has a text for default. -/
def TextOpt (opts : List CliOpt) (flags : List String) (d : String) (dflt : Option String) : Prop :=
  ∃ o ∈ opts, o.flags = flags ∧ o.dest = d ∧ o.conv = .str ∧
    match dflt with
    | none => o.required = true
    | some s => o.default = .str s

instance (opts : List CliOpt) (flags : List String) (d : String) (dflt : Option String) :
    Decidable (TextOpt opts flags d dflt) := by
  unfold TextOpt
  cases dflt <;> infer_instance

theorem textOpt_value {opts : List CliOpt} (hd : DistinctOpts opts) {flags : List String} {d : String} {dflt : Option String}
    (ho : TextOpt opts flags d dflt) {tokens : List (String × String)} {ns : String → Option CVal}
    (h : parseArgs pyInt pyFloat opts tokens = .ok ns) :
    ∃ s, (given flags tokens <|> dflt) = some s ∧ getStr ns d = .ok s := by
  obtain ⟨o, ho, h1, h2, h3, h4⟩ := ho
  obtain ⟨g1, g2⟩ := parse_value pyInt pyFloat hd h ho
  unfold NsOk at g1
  rw [h1, h2, h3] at g1
  rw [h1] at g2
  cases hg : given flags tokens with
  | some s =>
    rw [hg] at g1
    obtain ⟨v, hv, -, hn⟩ := g1
    injection hv with hv
    subst hv
    exact ⟨s, rfl, by unfold getStr; rw [hn]⟩
  | none =>
    rw [hg] at g1 g2
    cases dflt with
    | none => exact absurd (g2 h4) (by decide)
    | some s =>
      refine ⟨s, rfl, ?_⟩
      change o.default = .str s at h4
      change ns d = some o.default at g1
      unfold getStr
      rw [g1, h4]

/-- An option with a whole number as value and the default `i`. -/
def WholeOpt (opts : List CliOpt) (flags : List String) (d : String) (i : Int) : Prop :=
  ∃ o ∈ opts, o.flags = flags ∧ o.dest = d ∧ o.conv = .int ∧ o.default = .int i

instance (opts : List CliOpt) (flags : List String) (d : String) (i : Int) : Decidable (WholeOpt opts flags d i) := by
  unfold WholeOpt; infer_instance

theorem wholeOpt_value {opts : List CliOpt} (hd : DistinctOpts opts) {flags : List String} {d : String} {i : Int}
    (ho : WholeOpt opts flags d i) {tokens : List (String × String)} {ns : String → Option CVal}
    (h : parseArgs pyInt pyFloat opts tokens = .ok ns) :
    ∃ k, (match given flags tokens with | some s => pyInt s | none => some i) = some k ∧ getInt ns d = .ok k := by
  obtain ⟨o, ho, h1, h2, h3, h4⟩ := ho
  obtain ⟨g1, -⟩ := parse_value pyInt pyFloat hd h ho
  unfold NsOk at g1
  rw [h1, h2, h3, h4] at g1
  cases hg : given flags tokens with
  | some s =>
    rw [hg] at g1
    obtain ⟨v, hv, -, hn⟩ := g1
    simp only [convertValue] at hv
    cases hi : pyInt s with
    | none => rw [hi] at hv; cases hv
    | some k =>
      rw [hi] at hv
      injection hv with hv
      refine ⟨k, hi, ?_⟩
      unfold getInt
      rw [hn, ← hv]
  | none =>
    rw [hg] at g1
    refine ⟨i, rfl, ?_⟩
    change ns d = some (.int i) at g1
    unfold getInt
    rw [g1]

theorem common_options (m : CliMethod) :
    TextOpt (command m).opts ["-p", "--paramfile"] "paramfile" none ∧
    TextOpt (command m).opts ["--delimiter"] "delimiter" (some " ") ∧
    (isAnalysis m = true → TextOpt (command m).opts ["-Y", "--model-output-file"] "model_output_file" none ∧
      WholeOpt (command m).opts ["-c", "--column"] "column" 0) ∧
    (isAnalysis m = false → TextOpt (command m).opts ["-o", "--output"] "output" none ∧
      WholeOpt (command m).opts ["--precision"] "precision" 8) ∧
    ((command m).pos.any (fun a => a == .inputs true || a == .inputs false) = true →
      TextOpt (command m).opts ["-X", "--model-input-file"] "model_input_file" none) := by
  cases m <;> decide +kernel

/-- Parameter `name` is supplied by `a`. -/
def SuppliedBy (c : CliCommand) (name : String) (a : CliArg) : Prop :=
  ∃ p ∈ c.sig.params.zipIdx, p.1.1 = name ∧ suppliedArg c.pos c.kw p.2 p.1.1 = some a

instance (c : CliCommand) (name : String) (a : CliArg) : Decidable (SuppliedBy c name a) := by
  unfold SuppliedBy; infer_instance

theorem supplied_value {c : CliCommand} (hnd : (c.sig.params.map (·.1)).Nodup) {name : String} {a : CliArg}
    (hs : SuppliedBy c name a) {ns : String → Option CVal} {call : List (String × CVal)}
    (hb : bindCall ns c.sig c.pos c.kw = .ok call) : ∃ v, call.lookup name = some v ∧ evalArg ns a = .ok v := by
  obtain ⟨p, hp, hpn, ha⟩ := hs
  obtain ⟨v, hv, hcase⟩ := bind_value hb hnd hp
  rw [hpn] at hv
  rcases hcase with ⟨a', ha', he⟩ | ⟨hn, -⟩
  · rw [ha] at ha'
    injection ha' with ha'
    subst ha'
    exact ⟨v, hv, he⟩
  · rw [ha] at hn; cases hn

/-- The analyses that read a one-column input file as a vector. -/
def flatInputs : List CliMethod := [.aDiscrepancy, .aPawn, .aRbdFast, .aRsa]

theorem tables_data (m : CliMethod) : SuppliedBy (command m) "problem" .problem ∧
    (isAnalysis m = true → SuppliedBy (command m) "Y" .outputs) ∧
    (isAnalysis m = true → "X" ∈ (command m).sig.params.map (·.1) → m ∉ flatInputs →
      SuppliedBy (command m) "X" (.inputs true)) ∧
    (m ∈ flatInputs → SuppliedBy (command m) "X" (.inputs false)) := by
  cases m <;> decide +kernel

/-- **C96.** The problem is read from the parameter file, the output from the column asked for of the output file, and the
inputs from the input file, with the delimiter given. -/
theorem C96_data (m : CliMethod) (tokens : List (String × String)) (call : List (String × CVal))
    (h : runCli pyInt pyFloat (command m) tokens = .ok call) :
    (∃ p, given ["-p", "--paramfile"] tokens = some p ∧ call.lookup "problem" = some (.problem p)) ∧
    (isAnalysis m = true → ∃ f c, given ["-Y", "--model-output-file"] tokens = some f ∧
      (match given ["-c", "--column"] tokens with | some s => pyInt s | none => some 0) = some c ∧
      call.lookup "Y" = some (.column f ((given ["--delimiter"] tokens).getD " ") c)) ∧
    (isAnalysis m = true → "X" ∈ (command m).sig.params.map (·.1) → ∃ f, given ["-X", "--model-input-file"] tokens = some f ∧
      call.lookup "X" = some (.table f ((given ["--delimiter"] tokens).getD " ") (decide (m ∉ flatInputs)))) := by
  obtain ⟨hd, hnd⟩ := tables_distinct m
  obtain ⟨o1, o2, o3, -, o5⟩ := common_options m
  obtain ⟨t1, t2, t3, t4⟩ := tables_data m
  obtain ⟨ns, hns, hb⟩ := exceptBind_ok h
  obtain ⟨p, p1, p2⟩ := textOpt_value pyInt pyFloat hd o1 hns
  obtain ⟨dl, d1, d2⟩ := textOpt_value pyInt pyFloat hd o2 hns
  have hdl : (given ["--delimiter"] tokens).getD " " = dl := by
    cases hg : given ["--delimiter"] tokens with
    | none => rw [hg] at d1; exact Option.some.inj d1
    | some s => rw [hg] at d1; exact Option.some.inj d1
  rw [hdl]
  refine ⟨?_, ?_, ?_⟩
  · obtain ⟨v, hv, he⟩ := supplied_value hnd t1 hb
    simp only [evalArg, p2] at he
    injection he with he
    refine ⟨p, ?_, by rw [hv, ← he]⟩
    cases hg : given ["-p", "--paramfile"] tokens with
    | none => rw [hg] at p1; cases p1
    | some s => rw [hg] at p1; exact p1
  · intro ha
    obtain ⟨q1, q2⟩ := o3 ha
    obtain ⟨f, f1, f2⟩ := textOpt_value pyInt pyFloat hd q1 hns
    obtain ⟨k, k1, k2⟩ := wholeOpt_value pyInt pyFloat hd q2 hns
    obtain ⟨v, hv, he⟩ := supplied_value hnd (t2 ha) hb
    simp only [evalArg, f2, d2, k2] at he
    injection he with he
    refine ⟨f, k, ?_, k1, by rw [hv, ← he]⟩
    cases hg : given ["-Y", "--model-output-file"] tokens with
    | none => rw [hg] at f1; cases f1
    | some s => rw [hg] at f1; exact f1
  · intro ha hx
    have hin : TextOpt (command m).opts ["-X", "--model-input-file"] "model_input_file" none := by
      apply o5
      cases m <;> first | (exfalso; revert ha; decide) | decide +kernel | (exfalso; revert hx; decide +kernel)
    obtain ⟨f, f1, f2⟩ := textOpt_value pyInt pyFloat hd hin hns
    refine ⟨f, ?_, ?_⟩
    · cases hg : given ["-X", "--model-input-file"] tokens with
      | none => rw [hg] at f1; cases f1
      | some s => rw [hg] at f1; exact f1
    · by_cases hm : m ∈ flatInputs
      · obtain ⟨v, hv, he⟩ := supplied_value hnd (t4 hm) hb
        simp only [evalArg, f2, d2] at he
        injection he with he
        rw [hv, ← he]
        simp [hm]
      · obtain ⟨v, hv, he⟩ := supplied_value hnd (t3 ha hx hm) hb
        simp only [evalArg, f2, d2] at he
        injection he with he
        rw [hv, ← he]
        simp [hm]

/-- **C96.** The samples go to the output file, with the delimiter and the number of digits given. -/
theorem C96_saved (m : CliMethod) (hm : isAnalysis m = false) (tokens : List (String × String)) (o d : String) (k : Int)
    (h : savedTo pyInt pyFloat (command m) tokens = .ok (o, d, k)) :
    given ["-o", "--output"] tokens = some o ∧ (given ["--delimiter"] tokens).getD " " = d ∧
      (match given ["--precision"] tokens with | some s => pyInt s | none => some 8) = some k := by
  obtain ⟨hd, -⟩ := tables_distinct m
  obtain ⟨-, o2, -, o4, -⟩ := common_options m
  obtain ⟨q1, q2⟩ := o4 hm
  obtain ⟨ns, hns, hb⟩ := exceptBind_ok h
  obtain ⟨f, f1, f2⟩ := textOpt_value pyInt pyFloat hd q1 hns
  obtain ⟨dl, d1, d2⟩ := textOpt_value pyInt pyFloat hd o2 hns
  obtain ⟨i, i1, i2⟩ := wholeOpt_value pyInt pyFloat hd q2 hns
  simp only [f2, d2, i2] at hb
  injection hb with hb
  injection hb with e1 hb
  injection hb with e2 e3
  subst e1 e2 e3
  refine ⟨?_, ?_, i1⟩
  · cases hg : given ["-o", "--output"] tokens with
    | none => rw [hg] at f1; cases f1
    | some s => rw [hg] at f1; exact f1
  · cases hg : given ["--delimiter"] tokens with
    | none => rw [hg] at d1; exact Option.some.inj d1
    | some s => rw [hg] at d1; exact Option.some.inj d1

/-- The argument can be evaluated after every successful parse. -/
def Evaluable (opts : List CliOpt) : CliArg → Prop
  | .attr d | .isTwo d | .jsonSpec d => ∃ o ∈ opts, o.dest = d
  | _ => True

instance (opts : List CliOpt) (a : CliArg) : Decidable (Evaluable opts a) := by
  cases a <;> unfold Evaluable <;> infer_instance

theorem tables_callable (m : CliMethod) :
    ¬ ((command m).sig.maxPos < (command m).pos.length ∨
      (command m).kw.any (fun k => !((command m).sig.params.drop (command m).pos.length).any fun p => p.1 == k.1)) ∧
    (∀ a ∈ (command m).pos ++ (command m).kw.map (·.2), Evaluable (command m).opts a ∧
      (a = .outputs ∨ (∃ b, a = .inputs b) → isAnalysis m = true)) ∧
    ∀ p ∈ (command m).sig.params.zipIdx,
      (suppliedArg (command m).pos (command m).kw p.2 p.1.1).isSome = true ∨ p.1.2.isSome = true := by
  cases m <;> decide +kernel

theorem mapM_except_ok {β γ ε : Type} (f : β → Except ε γ) : ∀ l : List β, (∀ b ∈ l, ∃ c, f b = .ok c) →
    ∃ cs, l.mapM f = .ok cs := by
  intro l
  induction l with
  | nil => intro _; exact ⟨[], rfl⟩
  | cons x l ih =>
    intro h
    obtain ⟨c, hc⟩ := h x (by simp)
    obtain ⟨cs, hcs⟩ := ih fun b hb => h b (by simp [hb])
    refine ⟨c :: cs, ?_⟩
    rw [List.mapM_cons, hc]
    show (do let cs ← l.mapM f; _) = _
    rw [hcs]
    rfl

theorem lookup_mem {β : Type} (l : List (String × β)) (k : String) (v : β) (h : l.lookup k = some v) : v ∈ l.map (·.2) := by
  induction l with
  | nil => cases h
  | cons x l ih =>
    obtain ⟨x1, x2⟩ := x
    rw [List.lookup_cons] at h
    split at h
    · injection h with h
      simp [h]
    · rw [List.map_cons]
      exact List.mem_cons_of_mem _ (ih h)

/-- **C96.** Every command line with known options, readable values and all required options leads to a call: the action
raises nothing before it. -/
theorem C96_accepts (m : CliMethod) (tokens : List (String × String))
    (hknown : ∀ t ∈ tokens, ∃ o v, findOpt (command m).opts t.1 = some o ∧
      convertValue pyInt pyFloat o.conv t.2 = some v ∧ (o.choices = [] ∨ v ∈ o.choices))
    (hreq : ∀ o ∈ (command m).opts, o.required = true → ∃ t ∈ tokens, t.1 ∈ o.flags) :
    ∃ call, runCli pyInt pyFloat (command m) tokens = .ok call := by
  obtain ⟨ns, hns⟩ := parse_accepts pyInt pyFloat hknown hreq
  obtain ⟨hd, -⟩ := tables_distinct m
  obtain ⟨o1, o2, o3, -, o5⟩ := common_options m
  obtain ⟨c1, c2, c3⟩ := tables_callable m
  have hattr : ∀ d, (∃ o ∈ (command m).opts, o.dest = d) → ∃ v, getAttr ns d = .ok v := by
    rintro d ⟨o, ho, rfl⟩
    obtain ⟨g, -⟩ := parse_value pyInt pyFloat hd hns ho
    unfold NsOk at g
    unfold getAttr
    split at g
    · obtain ⟨v, -, -, hv⟩ := g
      rw [hv]
      exact ⟨v, rfl⟩
    · rw [g]
      exact ⟨_, rfl⟩
  have heval : ∀ a ∈ (command m).pos ++ (command m).kw.map (·.2), ∃ v, evalArg ns a = .ok v := by
    intro a ha
    obtain ⟨e1, e2⟩ := c2 a ha
    obtain ⟨p, -, p2⟩ := textOpt_value pyInt pyFloat hd o1 hns
    obtain ⟨dl, -, d2⟩ := textOpt_value pyInt pyFloat hd o2 hns
    cases a with
    | problem => exact ⟨.problem p, by simp only [evalArg, p2]; rfl⟩
    | inputs b =>
      have hin : TextOpt (command m).opts ["-X", "--model-input-file"] "model_input_file" none := by
        apply o5
        have hkw : CliArg.inputs b ∉ (command m).kw.map (·.2) := by
          cases b <;> cases m <;> decide +kernel
        rcases List.mem_append.mp ha with h | h
        · rw [List.any_eq_true]
          exact ⟨_, h, by cases b <;> decide⟩
        · exact absurd h hkw
      obtain ⟨f, -, f2⟩ := textOpt_value pyInt pyFloat hd hin hns
      exact ⟨_, by simp only [evalArg, f2, d2]; rfl⟩
    | outputs =>
      obtain ⟨q1, q2⟩ := o3 (e2 (Or.inl rfl))
      obtain ⟨f, -, f2⟩ := textOpt_value pyInt pyFloat hd q1 hns
      obtain ⟨k, -, k2⟩ := wholeOpt_value pyInt pyFloat hd q2 hns
      exact ⟨_, by simp only [evalArg, f2, d2, k2]; rfl⟩
    | attr d => exact hattr d e1
    | isTwo d =>
      obtain ⟨v, hv⟩ := hattr d e1
      exact ⟨_, by simp only [evalArg, hv]; rfl⟩
    | const v => exact ⟨v, rfl⟩
    | jsonSpec d =>
      obtain ⟨v, hv⟩ := hattr d e1
      exact ⟨_, by simp only [evalArg, hv]; rfl⟩
  have hbind : ∃ call, bindCall ns (command m).sig (command m).pos (command m).kw = .ok call := by
    unfold bindCall
    rw [if_neg c1]
    apply mapM_except_ok
    intro p hp
    unfold bindParam
    cases hs : suppliedArg (command m).pos (command m).kw p.2 p.1.1 with
    | some a =>
      have ha : a ∈ (command m).pos ++ (command m).kw.map (·.2) := by
        unfold suppliedArg at hs
        split at hs
        · rename_i x hx
          injection hs with hs
          subst hs
          exact List.mem_append_left _ (List.mem_of_getElem? hx)
        · exact List.mem_append_right _ (lookup_mem _ _ _ hs)
      obtain ⟨v, hv⟩ := heval a ha
      refine ⟨(p.1.1, v), ?_⟩
      simp only [hv]
      rfl
    | none =>
      rcases c3 p hp with h | h
      · rw [hs] at h; cases h
      · obtain ⟨v, hv⟩ := Option.isSome_iff_exists.mp h
        refine ⟨(p.1.1, v), ?_⟩
        simp only [hv]
  obtain ⟨call, hcall⟩ := hbind
  refine ⟨call, ?_⟩
  unfold runCli
  rw [hns]
  exact hcall

/-- Parameter `name` is not supplied by the call and has the default `v`. -/
def LeftOut (c : CliCommand) (name : String) (v : CVal) : Prop :=
  ∃ p ∈ c.sig.params.zipIdx, p.1.1 = name ∧ suppliedArg c.pos c.kw p.2 p.1.1 = none ∧ p.1.2 = some v

instance (c : CliCommand) (name : String) (v : CVal) : Decidable (LeftOut c name v) := by unfold LeftOut; infer_instance

theorem leftOut_value {c : CliCommand} (hnd : (c.sig.params.map (·.1)).Nodup) {name : String} {v : CVal}
    (hl : LeftOut c name v) {tokens : List (String × String)} {call : List (String × CVal)}
    (h : runCli pyInt pyFloat c tokens = .ok call) : call.lookup name = some v := by
  obtain ⟨ns, hns, hb⟩ := exceptBind_ok h
  obtain ⟨p, hp, hpn, h1, h2⟩ := hl
  obtain ⟨v', hv, hcase⟩ := bind_value hb hnd hp
  rw [hpn] at hv
  rcases hcase with ⟨a, ha, -⟩ | ⟨-, hd⟩
  · rw [h1] at ha; cases ha
  · rw [h2] at hd
    injection hd with hd
    rw [hv, hd]

/-- **C96 (failing part).** `--seed` and `--skip-values` of the Sobol sampler and `--seed` of both HDMR analyses are
accepted and never reach the call. -/
theorem C96_seed_fail (tokens : List (String × String)) (call : List (String × CVal)) :
    (runCli pyInt pyFloat (command .sSobol) tokens = .ok call →
      call.lookup "seed" = some .none ∧ call.lookup "skip_values" = some (.int 0)) ∧
    (runCli pyInt pyFloat (command .aHdmr) tokens = .ok call → call.lookup "seed" = some .none) ∧
    (runCli pyInt pyFloat (command .aEnhanced) tokens = .ok call → call.lookup "seed" = some .none) :=
  ⟨fun h => ⟨leftOut_value pyInt pyFloat (tables_distinct _).2 (by decide +kernel) h,
      leftOut_value pyInt pyFloat (tables_distinct _).2 (by decide +kernel) h⟩,
    fun h => leftOut_value pyInt pyFloat (tables_distinct _).2 (by decide +kernel) h,
    fun h => leftOut_value pyInt pyFloat (tables_distinct _).2 (by decide +kernel) h⟩

/-- What an option of type `bool` hands over. -/
theorem bool_option {c : CliCommand} (hd : DistinctOpts c.opts) (hnd : (c.sig.params.map (·.1)).Nodup) {name dest : String}
    {flags : List String} (ho : ∃ o ∈ c.opts, o.flags = flags ∧ o.dest = dest ∧ o.conv = .bool)
    (hs : SuppliedBy c name (.attr dest)) {tokens : List (String × String)} {call : List (String × CVal)}
    (h : runCli pyInt pyFloat c tokens = .ok call) {s : String} (hg : given flags tokens = some s) :
    call.lookup name = some (.bool (s != "")) := by
  obtain ⟨ns, hns, hb⟩ := exceptBind_ok h
  obtain ⟨o, ho, h1, h2, h3⟩ := ho
  obtain ⟨g, -⟩ := parse_value pyInt pyFloat hd hns ho
  unfold NsOk at g
  rw [h1, hg] at g
  obtain ⟨v, hv, -, hn⟩ := g
  rw [h3] at hv
  injection hv with hv
  obtain ⟨v', h4, h5⟩ := supplied_value hnd hs hb
  rw [← h2] at h5
  simp only [evalArg, getAttr, hn] at h5
  injection h5 with h5
  rw [h4, ← h5, ← hv]

/-- **C96 (failing part).** `--local` of the Morris sampler and `--scaled` of the Morris analysis take every text but the
empty one for true, `False` included. -/
theorem C96_bool_fail (tokens : List (String × String)) (call : List (String × CVal)) (s : String) (hs : s ≠ "") :
    (runCli pyInt pyFloat (command .sMorris) tokens = .ok call → given ["-lo", "--local"] tokens = some s →
      call.lookup "local_optimization" = some (.bool true)) ∧
    (runCli pyInt pyFloat (command .aMorris) tokens = .ok call → given ["--scaled"] tokens = some s →
      call.lookup "scaled" = some (.bool true)) := by
  have e : (s != "") = true := by rw [bne_iff_ne]; exact hs
  constructor
  · intro h hg
    rw [bool_option pyInt pyFloat (tables_distinct _).1 (tables_distinct _).2 (dest := "local") (by decide +kernel)
      (by decide +kernel) h hg, e]
  · intro h hg
    rw [bool_option pyInt pyFloat (tables_distinct _).1 (tables_distinct _).2 (dest := "scaled") (by decide +kernel)
      (by decide +kernel) h hg, e]

/-- The default an option hands over when it is not given. -/
theorem plain_default {c : CliCommand} (hd : DistinctOpts c.opts) (hnd : (c.sig.params.map (·.1)).Nodup) {name dest : String}
    {flags : List String} {v : CVal} (ho : ∃ o ∈ c.opts, o.flags = flags ∧ o.dest = dest ∧ o.default = v)
    (hs : SuppliedBy c name (.attr dest)) {tokens : List (String × String)} {call : List (String × CVal)}
    (h : runCli pyInt pyFloat c tokens = .ok call) (hg : given flags tokens = none) : call.lookup name = some v := by
  obtain ⟨ns, hns, hb⟩ := exceptBind_ok h
  obtain ⟨o, ho, h1, h2, h3⟩ := ho
  obtain ⟨g, -⟩ := parse_value pyInt pyFloat hd hns ho
  unfold NsOk at g
  rw [h1, hg] at g
  obtain ⟨v', h4, h5⟩ := supplied_value hnd hs hb
  change ns o.dest = some o.default at g
  rw [← h2] at h5
  simp only [evalArg, getAttr, g] at h5
  injection h5 with h5
  rw [h4, ← h5, h3]

/-- **C96 (failing part).** Without `-S`, `-b` or `-t` PAWN and RSA are called with `None` instead of their defaults 10, 20
and `"Y"`. -/
theorem C96_none_fail (tokens : List (String × String)) (call : List (String × CVal)) :
    (runCli pyInt pyFloat (command .aPawn) tokens = .ok call → given ["-S", "--slices"] tokens = none →
      call.lookup "S" = some .none) ∧
    (runCli pyInt pyFloat (command .aRsa) tokens = .ok call → given ["-b", "--bins"] tokens = none →
      call.lookup "bins" = some .none) ∧
    (runCli pyInt pyFloat (command .aRsa) tokens = .ok call → given ["-t", "--target"] tokens = none →
      call.lookup "target" = some .none) :=
  ⟨fun h hg => plain_default pyInt pyFloat (tables_distinct _).1 (tables_distinct _).2 (dest := "slices")
      (by decide +kernel) (by decide +kernel) h hg,
    fun h hg => plain_default pyInt pyFloat (tables_distinct _).1 (tables_distinct _).2 (dest := "bins")
      (by decide +kernel) (by decide +kernel) h hg,
    fun h hg => plain_default pyInt pyFloat (tables_distinct _).1 (tables_distinct _).2 (dest := "target")
      (by decide +kernel) (by decide +kernel) h hg⟩

/-- The numerals of the examples. -/
def someNumerals (s : String) : Option Int := [("3", 3), ("7", 7), ("8", 8), ("10", 10), ("12", 12), ("42", 42)].lookup s

/-- A command line for PAWN, and the call it leads to. -/
example : runCli someNumerals (fun _ => none) (command .aPawn)
    [("-p", "p.txt"), ("-Y", "y.txt"), ("-X", "x.txt"), ("-S", "12"), ("--seed", "3"), ("-S", "7")] =
    .ok [("problem", .problem "p.txt"), ("X", .table "x.txt" " " false), ("Y", .column "y.txt" " " 0), ("S", .int 7),
      ("print_to_console", .bool true), ("seed", .int 3)] := by decide +kernel

/-- `--local False` asks for the local optimisation. -/
example : (runCli someNumerals (fun _ => none) (command .sMorris)
    [("-p", "p.txt"), ("-o", "o.txt"), ("-n", "10"), ("-lo", "False")]).toOption.bind (·.lookup "local_optimization") =
    some (.bool true) := by decide +kernel

/-- The seed given to the Sobol sampler is dropped. -/
example : (runCli someNumerals (fun _ => none) (command .sSobol)
    [("-p", "p.txt"), ("-o", "o.txt"), ("-n", "8"), ("-s", "42")]).toOption.bind (·.lookup "seed") = some .none := by
  decide +kernel

/-- Without `-X` the parser refuses. -/
example : runCli someNumerals (fun _ => none) (command .aDgsm) [("-p", "p.txt"), ("-Y", "y.txt")] = .error .exit := by
  decide +kernel

end SALib
