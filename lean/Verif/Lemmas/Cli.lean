import Verif.Spec.Cli

/-! # Parsing and binding -/

namespace SALib

open Spec

variable (pyInt : String → Option Int) (pyFloat : String → Option ℚ)

/-- No two options share a name or a destination. -/
def DistinctOpts (opts : List CliOpt) : Prop :=
  opts.Pairwise fun o o' => o.dest ≠ o'.dest ∧ ∀ f ∈ o.flags, f ∉ o'.flags

instance (opts : List CliOpt) : Decidable (DistinctOpts opts) := inferInstanceAs (Decidable (List.Pairwise _ _))

theorem distinct_eq {opts : List CliOpt} (h : DistinctOpts opts) {o o' : CliOpt} (ho : o ∈ opts) (ho' : o' ∈ opts)
    (hs : o.dest = o'.dest ∨ ∃ f ∈ o.flags, f ∈ o'.flags) : o = o' := by
  by_contra hne
  have hsym : ∀ {a b : CliOpt}, (a.dest ≠ b.dest ∧ ∀ f ∈ a.flags, f ∉ b.flags) → (b.dest ≠ a.dest ∧ ∀ f ∈ b.flags, f ∉ a.flags) :=
    fun h => ⟨h.1.symm, fun f hf hf' => h.2 f hf' hf⟩
  have := List.Pairwise.forall_of_forall_of_flip (R := fun o o' => o ≠ o' → o.dest ≠ o'.dest ∧ ∀ f ∈ o.flags, f ∉ o'.flags)
    (fun x _ hx => absurd rfl hx) (by refine List.Pairwise.imp ?_ h; intro a b hab _; exact hab) (by refine List.Pairwise.imp ?_ h; intro a b hab _; exact hsym hab) ho ho' hne
  rcases hs with hs | ⟨f, hf, hf'⟩
  · exact this.1 hs
  · exact this.2 f hf hf'

theorem findOpt_spec {opts : List CliOpt} {flag : String} {o : CliOpt} (h : findOpt opts flag = some o) :
    o ∈ opts ∧ flag ∈ o.flags := by
  unfold findOpt at h
  refine ⟨List.mem_of_find?_eq_some h, ?_⟩
  have := List.find?_some h
  simpa using this

theorem findOpt_of_mem {opts : List CliOpt} (hd : DistinctOpts opts) {o : CliOpt} (ho : o ∈ opts) {flag : String}
    (hf : flag ∈ o.flags) : findOpt opts flag = some o := by
  cases h : findOpt opts flag with
  | none =>
    unfold findOpt at h
    have := List.find?_eq_none.mp h o ho
    simp [hf] at this
  | some o' =>
    obtain ⟨h1, h2⟩ := findOpt_spec h
    rw [distinct_eq hd ho h1 (Or.inr ⟨flag, hf, h2⟩)]

/-- The state of destination `o.dest` after some tokens. -/
def NsOk (o : CliOpt) (tokens : List (String × String)) (ns : String → Option CVal) : Prop :=
  match given o.flags tokens with
  | some s => ∃ v, convertValue pyInt pyFloat o.conv s = some v ∧ (o.choices = [] ∨ v ∈ o.choices) ∧ ns o.dest = some v
  | none => ns o.dest = some o.default

theorem given_concat (flags : List String) (tokens : List (String × String)) (t : String × String) :
    given flags (tokens ++ [t]) = if t.1 ∈ flags then some t.2 else given flags tokens := by
  unfold given
  rw [List.filter_append]
  by_cases h : t.1 ∈ flags
  · simp [h]
  · simp [h]

theorem parseToken_ok {opts : List CliOpt} {ns ns' : String → Option CVal} {t : String × String}
    (h : parseToken pyInt pyFloat opts ns t = .ok ns') :
    ∃ o v, findOpt opts t.1 = some o ∧ convertValue pyInt pyFloat o.conv t.2 = some v ∧ (o.choices = [] ∨ v ∈ o.choices) ∧
      ns' = Function.update ns o.dest (some v) := by
  unfold parseToken at h
  split at h
  · cases h
  · rename_i o ho
    split at h
    · cases h
    · rename_i v hv
      split at h
      · rename_i hc
        injection h with h
        exact ⟨o, v, ho, hv, hc, h.symm⟩
      · cases h

theorem nsOk_step {opts : List CliOpt} (hd : DistinctOpts opts) {o : CliOpt} (ho : o ∈ opts) (tokens : List (String × String))
    (t : String × String) (ns ns' : String → Option CVal) (hns : NsOk pyInt pyFloat o tokens ns)
    (h : parseToken pyInt pyFloat opts ns t = .ok ns') : NsOk pyInt pyFloat o (tokens ++ [t]) ns' := by
  obtain ⟨o', v, h1, h2, h3, rfl⟩ := parseToken_ok pyInt pyFloat h
  obtain ⟨m1, m2⟩ := findOpt_spec h1
  unfold NsOk at *
  rw [given_concat]
  by_cases ht : t.1 ∈ o.flags
  · have e : o' = o := distinct_eq hd m1 ho (Or.inr ⟨_, m2, ht⟩)
    subst e
    rw [if_pos ht]
    exact ⟨v, h2, h3, by rw [Function.update_self]⟩
  · rw [if_neg ht]
    have hne : o.dest ≠ o'.dest := by
      intro e
      have := distinct_eq hd ho m1 (Or.inl e)
      subst this
      exact ht m2
    rw [Function.update_of_ne hne]
    exact hns

theorem foldlM_concat_ok {σ τ ε : Type} (f : σ → τ → Except ε σ) (P : List τ → σ → Prop)
    (hstep : ∀ ts t s s', P ts s → f s t = .ok s' → P (ts ++ [t]) s') :
    ∀ (ts pre : List τ) (s s' : σ), P pre s → ts.foldlM f s = .ok s' → P (pre ++ ts) s' := by
  intro ts
  induction ts with
  | nil =>
    intro pre s s' h1 h2
    rw [List.foldlM_nil] at h2
    injection h2 with h2
    rw [List.append_nil, ← h2]
    exact h1
  | cons t ts ih =>
    intro pre s s' h1 h2
    rw [List.foldlM_cons] at h2
    cases h : f s t with
    | error e => rw [h] at h2; cases h2
    | ok s1 =>
      rw [h] at h2
      have := ih (pre ++ [t]) s1 s' (hstep _ _ _ _ h1 h) h2
      rwa [List.append_assoc] at this

theorem initialNs_ok {opts : List CliOpt} (hd : DistinctOpts opts) {o : CliOpt} (ho : o ∈ opts) :
    initialNs opts o.dest = some o.default := by
  unfold initialNs
  cases h : opts.find? fun o' => o'.dest == o.dest with
  | none =>
    have := List.find?_eq_none.mp h o ho
    simp at this
  | some o' =>
    have h1 := List.find?_some h
    have h2 := List.mem_of_find?_eq_some h
    have e : o' = o := distinct_eq hd h2 ho (Or.inl (by simpa using h1))
    rw [e]
    rfl

theorem parseArgs_ok {opts : List CliOpt} {tokens : List (String × String)} {ns : String → Option CVal}
    (h : parseArgs pyInt pyFloat opts tokens = .ok ns) :
    tokens.foldlM (parseToken pyInt pyFloat opts) (initialNs opts) = .ok ns ∧
      ∀ o ∈ opts, o.required = true → ∃ t ∈ tokens, t.1 ∈ o.flags := by
  unfold parseArgs at h
  cases hf : tokens.foldlM (parseToken pyInt pyFloat opts) (initialNs opts) with
  | error e => rw [hf] at h; cases h
  | ok ns' =>
    rw [hf] at h
    change (if _ then _ else _) = _ at h
    split at h
    · rename_i hc
      injection h with h
      subst h
      refine ⟨rfl, fun o ho hr => ?_⟩
      have := List.all_eq_true.mp hc o ho
      rw [hr] at this
      simpa using this
    · cases h

theorem given_isSome (flags : List String) (tokens : List (String × String)) :
    (∃ t ∈ tokens, t.1 ∈ flags) ↔ (given flags tokens).isSome = true := by
  unfold given
  rw [List.getLast?_isSome]
  constructor
  · rintro ⟨t, h1, h2⟩ h
    have : t ∈ tokens.filter (fun t => t.1 ∈ flags) := List.mem_filter.mpr ⟨h1, by simpa using h2⟩
    rw [List.map_eq_nil_iff.mp h] at this
    cases this
  · intro h
    cases hf : tokens.filter (fun t => decide (t.1 ∈ flags)) with
    | nil => rw [hf] at h; exact absurd rfl h
    | cons t l =>
      have : t ∈ tokens.filter (fun t => decide (t.1 ∈ flags)) := by rw [hf]; simp
      obtain ⟨h1, h2⟩ := List.mem_filter.mp this
      exact ⟨t, h1, by simpa using h2⟩

/-- What the parser hands over for an option. -/
theorem parse_value {opts : List CliOpt} (hd : DistinctOpts opts) {tokens : List (String × String)}
    {ns : String → Option CVal} (h : parseArgs pyInt pyFloat opts tokens = .ok ns) {o : CliOpt} (ho : o ∈ opts) :
    NsOk pyInt pyFloat o tokens ns ∧ (o.required = true → (given o.flags tokens).isSome = true) := by
  obtain ⟨h1, h2⟩ := parseArgs_ok pyInt pyFloat h
  refine ⟨?_, fun hr => (given_isSome _ _).mp (h2 o ho hr)⟩
  have := foldlM_concat_ok (parseToken pyInt pyFloat opts) (NsOk pyInt pyFloat o)
    (fun ts t s s' => nsOk_step pyInt pyFloat hd ho ts t s s') tokens [] (initialNs opts) ns
    (by show initialNs opts o.dest = some o.default; exact initialNs_ok hd ho) h1
  exact this

/-- The parser accepts exactly the command lines with known options, readable values and all required options. -/
theorem parse_accepts {opts : List CliOpt} {tokens : List (String × String)}
    (hknown : ∀ t ∈ tokens, ∃ o v, findOpt opts t.1 = some o ∧ convertValue pyInt pyFloat o.conv t.2 = some v ∧
      (o.choices = [] ∨ v ∈ o.choices))
    (hreq : ∀ o ∈ opts, o.required = true → ∃ t ∈ tokens, t.1 ∈ o.flags) :
    ∃ ns, parseArgs pyInt pyFloat opts tokens = .ok ns := by
  have hf : ∀ (ts : List (String × String)) (s : String → Option CVal), (∀ t ∈ ts, t ∈ tokens) →
      ∃ s', ts.foldlM (parseToken pyInt pyFloat opts) s = .ok s' := by
    intro ts
    induction ts with
    | nil => intro s _; exact ⟨s, rfl⟩
    | cons t ts ih =>
      intro s hm
      obtain ⟨o, v, h1, h2, h3⟩ := hknown t (hm t (by simp))
      obtain ⟨s', hs'⟩ := ih (Function.update s o.dest (some v)) (fun t ht => hm t (by simp [ht]))
      refine ⟨s', ?_⟩
      rw [List.foldlM_cons]
      have : parseToken pyInt pyFloat opts s t = .ok (Function.update s o.dest (some v)) := by
        unfold parseToken
        rw [h1]
        simp only [h2]
        rw [if_pos h3]
      rw [this]
      exact hs'
  obtain ⟨ns, hns⟩ := hf tokens (initialNs opts) (fun _ h => h)
  refine ⟨ns, ?_⟩
  unfold parseArgs
  rw [hns]
  show (if _ then _ else _) = _
  rw [if_pos]
  rw [List.all_eq_true]
  intro o ho
  cases hr : o.required with
  | false => rfl
  | true => simpa using hreq o ho hr

theorem exceptBind_ok {ε β γ : Type} {x : Except ε β} {f : β → Except ε γ} {c : γ} (h : (x >>= f) = .ok c) :
    ∃ b, x = .ok b ∧ f b = .ok c := by
  cases x with
  | error e => cases h
  | ok b => exact ⟨b, rfl, h⟩

theorem bindParam_name {ns : String → Option CVal} {pos : List CliArg} {kw : List (String × CliArg)}
    {p : (String × Option CVal) × Nat} {r : String × CVal} (h : bindParam ns pos kw p = .ok r) :
    r.1 = p.1.1 ∧ ((∃ a, suppliedArg pos kw p.2 p.1.1 = some a ∧ evalArg ns a = .ok r.2) ∨
      (suppliedArg pos kw p.2 p.1.1 = none ∧ p.1.2 = some r.2)) := by
  unfold bindParam at h
  split at h
  · rename_i a ha
    obtain ⟨v, h1, h2⟩ := exceptBind_ok h
    injection h2 with h2
    rw [← h2]
    exact ⟨rfl, Or.inl ⟨a, ha, h1⟩⟩
  · rename_i hn
    split at h
    · rename_i v hv
      injection h with h
      rw [← h]
      exact ⟨rfl, Or.inr ⟨hn, hv⟩⟩
    · cases h

theorem mapM_except_lookup {β ε : Type} (f : β → Except ε (String × CVal)) (name : β → String)
    (hname : ∀ b r, f b = .ok r → r.1 = name b) :
    ∀ (l : List β) (rs : List (String × CVal)), l.mapM f = .ok rs → (l.map name).Nodup →
      ∀ b ∈ l, ∃ v, f b = .ok (name b, v) ∧ rs.lookup (name b) = some v := by
  intro l
  induction l with
  | nil => intro rs _ _ b hb; cases hb
  | cons x l ih =>
    intro rs h hnd b hb
    rw [List.mapM_cons] at h
    obtain ⟨r, hr, h⟩ := exceptBind_ok h
    obtain ⟨rs', hrs, h⟩ := exceptBind_ok h
    injection h with h
    subst h
    rw [List.map_cons, List.nodup_cons] at hnd
    have hrn := hname x r hr
    rcases List.mem_cons.mp hb with rfl | hb
    · refine ⟨r.2, by rw [hr, ← hrn], ?_⟩
      obtain ⟨r1, r2⟩ := r
      simp only at hrn
      subst hrn
      rw [List.lookup_cons_self]
    · obtain ⟨v, h1, h2⟩ := ih rs' hrs hnd.2 b hb
      refine ⟨v, h1, ?_⟩
      have hne : name b ≠ r.1 := by
        rw [hrn]
        intro e
        exact hnd.1 (e ▸ List.mem_map_of_mem hb)
      obtain ⟨r1, r2⟩ := r
      rw [List.lookup_cons, beq_false_of_ne hne]
      exact h2

/-- What a parameter of the function receives. -/
theorem bind_value {ns : String → Option CVal} {sig : Sig} {pos : List CliArg} {kw : List (String × CliArg)}
    {call : List (String × CVal)} (h : bindCall ns sig pos kw = .ok call) (hnd : (sig.params.map (·.1)).Nodup)
    {p : (String × Option CVal) × Nat} (hp : p ∈ sig.params.zipIdx) :
    ∃ v, call.lookup p.1.1 = some v ∧ ((∃ a, suppliedArg pos kw p.2 p.1.1 = some a ∧ evalArg ns a = .ok v) ∨
      (suppliedArg pos kw p.2 p.1.1 = none ∧ p.1.2 = some v)) := by
  unfold bindCall at h
  split at h
  · cases h
  · have hmap : (sig.params.zipIdx.map fun p => p.1.1) = sig.params.map (·.1) := by
      apply List.ext_getElem
      · simp
      · intro i h1 h2
        simp
    obtain ⟨v, h1, h2⟩ := mapM_except_lookup (bindParam ns pos kw) (fun p => p.1.1) (fun b r hb => (bindParam_name hb).1)
      _ call h (by rw [hmap]; exact hnd) p hp
    exact ⟨v, h2, (bindParam_name h1).2⟩

end SALib
