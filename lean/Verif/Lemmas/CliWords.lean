import Verif.Spec.CliWords
import Verif.Lemmas.Cli
import Verif.Lemmas.ListAux

/-! # Words of the command line -/

namespace SALib

open Spec

theorem beforeEq_noEq {w : Word} (h : '=' ∉ w) : beforeEq w = w ∧ afterEq w = none := by
  induction w with
  | nil => exact ⟨rfl, rfl⟩
  | cons c t ih =>
    have hc : c ≠ '=' := fun e => h (by simp [e])
    obtain ⟨h1, h2⟩ := ih fun e => h (List.mem_cons_of_mem _ e)
    unfold beforeEq at h1 ⊢
    unfold afterEq at h2 ⊢
    have : (c != '=') = true := by simpa using hc
    rw [List.takeWhile_cons, List.dropWhile_cons, this]
    simp only [if_true, h1]
    exact ⟨trivial, h2⟩

theorem beforeEq_joined {p v : Word} (h : '=' ∉ p) : beforeEq (p ++ '=' :: v) = p ∧ afterEq (p ++ '=' :: v) = some v := by
  induction p with
  | nil => exact ⟨rfl, rfl⟩
  | cons c t ih =>
    have hc : c ≠ '=' := fun e => h (by simp [e])
    obtain ⟨h1, h2⟩ := ih fun e => h (List.mem_cons_of_mem _ e)
    unfold beforeEq at h1 ⊢
    unfold afterEq at h2 ⊢
    have : (c != '=') = true := by simpa using hc
    rw [List.cons_append, List.takeWhile_cons, List.dropWhile_cons, this]
    simp only [if_true, h1]
    exact ⟨trivial, h2⟩

theorem beforeEq_append {p : Word} (h : '=' ∉ p) (v : Word) : beforeEq (p ++ v) = p ++ beforeEq v := by
  induction p with
  | nil => rfl
  | cons c t ih =>
    have hc : c ≠ '=' := fun e => h (by simp [e])
    have h1 := ih fun e => h (List.mem_cons_of_mem _ e)
    have : (c != '=') = true := by simpa using hc
    unfold beforeEq at h1 ⊢
    rw [List.cons_append, List.takeWhile_cons, this]
    simp only [if_true, h1, List.cons_append]

theorem afterEq_cases (w : Word) :
    (afterEq w = none ∧ beforeEq w = w ∧ '=' ∉ w) ∨ ∃ p v, '=' ∉ p ∧ w = p ++ '=' :: v ∧ beforeEq w = p ∧ afterEq w = some v := by
  by_cases h : '=' ∈ w
  · right
    have key : ∀ w : Word, '=' ∈ w → ∃ p v, '=' ∉ p ∧ w = p ++ '=' :: v := by
      intro w
      induction w with
      | nil => intro h; simp at h
      | cons c t ih =>
        intro h
        by_cases hc : c = '='
        · exact ⟨[], t, by simp, by rw [hc]; rfl⟩
        · obtain ⟨p, v, hp, rfl⟩ := ih (by
            rcases List.mem_cons.mp h with h | h
            · exact absurd h.symm hc
            · exact h)
          refine ⟨c :: p, v, ?_, rfl⟩
          intro e
          rcases List.mem_cons.mp e with e | e
          · exact hc e.symm
          · exact hp e
    obtain ⟨p, v, hp, rfl⟩ := key w h
    exact ⟨p, v, hp, rfl, (beforeEq_joined hp).1, (beforeEq_joined hp).2⟩
  · exact .inl ⟨(beforeEq_noEq h).2, (beforeEq_noEq h).1, h⟩

theorem noEq_beforeEq (w : Word) : '=' ∉ beforeEq w := by
  rcases afterEq_cases w with ⟨_, h1, h2⟩ | ⟨p, v, hp, _, h, _⟩
  · rwa [h1]
  · rwa [h]

theorem beforeEq_prefix (w : Word) : beforeEq w <+: w := List.takeWhile_prefix _

/-- Finding a name. -/
theorem find_name {strs : List String} (hn : strs.Nodup) {f : String} (hf : f ∈ strs) :
    strs.find? (fun s => s.toList == f.toList) = some f := by
  cases h : strs.find? (fun s => s.toList == f.toList) with
  | none => have := List.find?_eq_none.mp h f hf; simp at this
  | some g =>
    have := List.find?_some h
    simp only [beq_iff_eq] at this
    rw [String.toList_injective this]

theorem find_name_inv {strs : List String} {f : String} {w : Word} (h : strs.find? (fun s => s.toList == w) = some f) :
    f ∈ strs ∧ f.toList = w := by
  have := List.find?_some h
  simp only [beq_iff_eq] at this
  exact ⟨List.mem_of_find?_eq_some h, this⟩

theorem find_name_none {strs : List String} {w : Word} (h : ∀ s ∈ strs, s.toList ≠ w) :
    strs.find? (fun s => s.toList == w) = none := by
  rw [List.find?_eq_none]
  intro s hs
  simpa using h s hs

theorem find_name_none_inv {strs : List String} {w : Word} (h : strs.find? (fun s => s.toList == w) = none) :
    ∀ s ∈ strs, s.toList ≠ w := by
  intro s hs e
  have := List.find?_eq_none.mp h s hs
  simp [e] at this

/-- A filter that lets through exactly one element. -/
theorem filter_only {β : Type} {l : List β} (hn : l.Nodup) {p : β → Bool} {x : β} (hx : x ∈ l) (hp : p x = true)
    (ho : ∀ y ∈ l, p y = true → y = x) : l.filter p = [x] := by
  have h1 : ∀ y, y ∈ l.filter p ↔ y ∈ [x] := by
    intro y
    rw [List.mem_filter, List.mem_singleton]
    exact ⟨fun h => ho y h.1 h.2, fun h => h ▸ ⟨hx, hp⟩⟩
  have h2 := (List.perm_ext_iff_of_nodup (hn.filter p) (by simp)).mpr h1
  exact List.perm_singleton.mp h2

theorem filterMap_only {β γ : Type} {l : List β} (hn : l.Nodup) {g : β → Option γ} {x : β} {z : γ} (hx : x ∈ l) (hg : g x = some z)
    (ho : ∀ y ∈ l, y ≠ x → g y = none) : l.filterMap g = [z] := by
  induction l with
  | nil => simp at hx
  | cons a l ih =>
    rw [List.nodup_cons] at hn
    by_cases ha : a = x
    · subst ha
      rw [List.filterMap_cons_some hg]
      congr 1
      rw [List.filterMap_eq_nil_iff]
      intro y hy
      exact ho y (List.mem_cons_of_mem _ hy) fun e => hn.1 (e ▸ hy)
    · rw [List.filterMap_cons_none (ho a (by simp) ha)]
      refine ih hn.2 ?_ fun y hy => ho y (List.mem_cons_of_mem _ hy)
      rcases List.mem_cons.mp hx with h | h
      · exact absurd h.symm ha
      · exact h

/-! ## Negative numbers -/

theorem negativeNumber_iff (w : Word) : negativeNumber w = true ↔ MinusNumber w := by
  constructor
  · intro h
    unfold negativeNumber at h
    split at h
    · rename_i t
      rcases Bool.or_eq_true _ _ ▸ h with h | h
      · rw [Bool.and_eq_true] at h
        exact .inl ⟨t, by simpa using h.1, by simpa using h.2, rfl⟩
      · split at h
        · rename_i r hr
          rw [Bool.and_eq_true] at h
          refine .inr ⟨t.takeWhile Char.isDigit, r, fun c hc => ?_, by simpa using h.1, by simpa using h.2, ?_⟩
          · exact List.all_eq_true.mp (List.all_takeWhile) c hc
          · rw [← hr, List.takeWhile_append_dropWhile]
        · exact absurd h (by simp)
    · exact absurd h (by simp)
  · rintro (⟨d, h1, h2, rfl⟩ | ⟨a, b, h1, h2, h3, rfl⟩)
    · unfold negativeNumber
      simp only [Bool.or_eq_true, Bool.and_eq_true]
      left
      exact ⟨by simpa using h1, by simpa using h2⟩
    · unfold negativeNumber
      have e : (a ++ '.' :: b).dropWhile Char.isDigit = '.' :: b := by
        rw [List.dropWhile_append_of_pos (by simpa using h1)]
        rfl
      simp only [e, Bool.or_eq_true, Bool.and_eq_true]
      right
      exact ⟨by simpa using h2, by simpa using h3⟩

/-! ## Classes of words -/

/-- Names that can be told apart. -/
structure StrsOk (strs : List String) : Prop where
  nodup : strs.Nodup
  shape : ∀ s ∈ strs, ∃ c t, s.toList = '-' :: c :: t ∧ '=' ∉ s.toList ∧ c.isDigit = false ∧ c ≠ '.' ∧ s.toList ≠ ['-', '-']

variable {strs : List String}

theorem classify_full (hs : StrsOk strs) {f : String} (hf : f ∈ strs) : classify strs f.toList = .ok (.option f none) := by
  obtain ⟨c, t, h1, _, _, _, h2⟩ := hs.shape f hf
  unfold classify
  rw [if_neg h2, if_neg (by rw [h1]; simp), find_name hs.nodup hf]

theorem optionTuples_long (hs : StrsOk strs) {p : Word} {f : String} (hf : f ∈ strs) (h : Abbreviates strs p f) {w : Word}
    (hw : p <+: w) (hb : beforeEq w = p) : optionTuples strs w = [(f, afterEq w)] := by
  unfold optionTuples
  have h1 : w[1]? = some '-' := by
    obtain ⟨t, ht⟩ := h.dashes.trans hw
    rw [← ht]; rfl
  rw [if_pos h1, hb, filter_only hs.nodup hf (List.isPrefixOf_iff_prefix.mpr h.starts)
    fun y hy hp => h.only y hy (List.isPrefixOf_iff_prefix.mp hp)]
  rfl

theorem classify_long (hs : StrsOk strs) {p : Word} {f : String} (hf : f ∈ strs) (h : Abbreviates strs p f)
    (hp : p ≠ ['-', '-']) : classify strs p = .ok (.option f none) := by
  by_cases he : ∃ s ∈ strs, s.toList = p
  · obtain ⟨s, hs1, hs2⟩ := he
    have := h.only s hs1 (hs2 ▸ List.prefix_refl _)
    subst this
    rw [← hs2]
    exact classify_full hs hf
  · push Not at he
    obtain ⟨t, ht⟩ := h.dashes
    have hb := beforeEq_noEq h.noEq
    unfold classify
    rw [if_neg hp, if_neg (by rw [← ht]; simp), find_name_none he]
    simp only
    rw [if_neg (by rw [← ht]; simp)]
    unfold joinedOption
    rw [hb.2]
    simp only
    unfold classifyRest
    rw [optionTuples_long hs hf h (List.prefix_refl _) hb.1, hb.2]

theorem names_noEq (hs : StrsOk strs) {p : Word} {f : String} (hf : f ∈ strs) (h : Names strs p f) : '=' ∉ p := by
  rcases h with rfl | h
  · obtain ⟨c, t, _, h2, _⟩ := hs.shape f hf
    exact h2
  · exact h.noEq

theorem classify_joined (hs : StrsOk strs) {p : Word} {f : String} (hf : f ∈ strs) (h : Names strs p f) (v : Word) :
    classify strs (p ++ '=' :: v) = .ok (.option f (some v)) := by
  have hne := names_noEq hs hf h
  obtain ⟨b1, b2⟩ := beforeEq_joined (v := v) hne
  have hw1 : p ++ '=' :: v ≠ ['-', '-'] := by
    intro e
    have : '=' ∈ p ++ '=' :: v := by simp
    rw [e] at this
    simp at this
  have hw2 : ∀ s ∈ strs, s.toList ≠ p ++ '=' :: v := by
    intro s hs1 e
    obtain ⟨c, t, _, h2, _⟩ := hs.shape s hs1
    exact h2 (by rw [e]; simp)
  obtain ⟨c, t, hp⟩ : ∃ c t, p = '-' :: c :: t := by
    rcases h with rfl | h
    · obtain ⟨c, t, h1, _⟩ := hs.shape f hf
      exact ⟨c, t, h1⟩
    · obtain ⟨t, ht⟩ := h.dashes
      exact ⟨'-', t, ht.symm⟩
  unfold classify
  rw [if_neg hw1, if_neg (by rw [hp]; simp), find_name_none hw2]
  simp only
  rw [if_neg (by rw [hp]; simp)]
  unfold joinedOption
  rw [b1, b2]
  simp only
  by_cases he : ∃ s ∈ strs, s.toList = p
  · obtain ⟨s, hs1, hs2⟩ := he
    have : s = f := by
      rcases h with h | h
      · exact String.toList_injective (hs2.trans h)
      · exact h.only s hs1 (hs2 ▸ List.prefix_refl _)
    subst this
    rw [← hs2, find_name hs.nodup hs1]
    rfl
  · push Not at he
    rw [find_name_none he]
    simp only [Option.map_none]
    rcases h with h | h
    · exact absurd h.symm (he f hf)
    · unfold classifyRest
      rw [optionTuples_long hs hf h (List.prefix_append _ _) b1, b2]

theorem classify_short (hs : StrsOk strs) {p : Word} {f : String} (hf : f ∈ strs) (h : ShortAbbreviates strs p f) :
    classify strs p = .ok (.option f none) := by
  obtain ⟨c, t, hc, rfl⟩ := h.dash
  by_cases he : ∃ s ∈ strs, s.toList = '-' :: c :: t
  · obtain ⟨s, hs1, hs2⟩ := he
    have := h.only s hs1 (hs2 ▸ List.prefix_refl _)
    subst this
    rw [← hs2]
    exact classify_full hs hf
  · push Not at he
    have hne : '=' ∉ '-' :: c :: t := by
      obtain ⟨_, _, _, h2, _⟩ := hs.shape f hf
      exact fun e => h2 (h.starts.subset e)
    unfold classify
    rw [if_neg (by simp [hc]), if_neg (by simp), find_name_none he]
    simp only
    rw [if_neg (by simp)]
    unfold joinedOption
    rw [(beforeEq_noEq hne).2]
    simp only
    unfold classifyRest optionTuples
    rw [if_neg (by simp [hc]), filterMap_only hs.nodup hf (z := (f, none))]
    · unfold shortTuple
      rw [if_neg (h.letter f hf), if_pos (List.isPrefixOf_iff_prefix.mpr h.starts)]
    · intro y hy hyf
      unfold shortTuple
      rw [if_neg (h.letter y hy), if_neg]
      intro hp
      exact hyf (h.only y hy (List.isPrefixOf_iff_prefix.mp hp))

theorem classify_attached (hs : StrsOk strs) {f : String} (hf : f ∈ strs) {c : Char} (hc : c ≠ '-') (hl : f.toList = ['-', c])
    (v : Word) (hn : ∀ s ∈ strs, s.toList ≠ f.toList ++ v.takeWhile (· != '=') ∧ ¬(f.toList ++ v) <+: s.toList) :
    classify strs (f.toList ++ v) = .ok (.option f (some v)) := by
  have hne : '=' ∉ f.toList := by
    obtain ⟨_, _, _, h2, _⟩ := hs.shape f hf
    exact h2
  unfold classify
  rw [if_neg (by rw [hl]; simp [hc]), if_neg (by rw [hl]; simp),
    find_name_none fun s hs1 e => (hn s hs1).2 (e ▸ List.prefix_refl _)]
  simp only
  rw [if_neg (by rw [hl]; simp)]
  have hj : joinedOption strs (f.toList ++ v) = none := by
    unfold joinedOption
    split
    · rfl
    · rw [beforeEq_append hne, find_name_none fun s hs1 => (show s.toList ≠ f.toList ++ beforeEq v from (hn s hs1).1)]
      rfl
  rw [hj]
  simp only
  unfold classifyRest optionTuples
  rw [if_neg (by rw [hl]; simp [hc]), filterMap_only hs.nodup hf (z := (f, some v))]
  · unfold shortTuple
    rw [if_pos (by rw [hl]; rfl), hl]
    rfl
  · intro y hy hyf
    unfold shortTuple
    rw [if_neg, if_neg]
    · intro hp
      exact (hn y hy).2 (List.isPrefixOf_iff_prefix.mp hp)
    · intro e
      refine hyf (String.toList_injective (e.trans ?_))
      rw [hl]; rfl

theorem digit_shape {w : Word} (h : MinusNumber w) : ∃ c t, w = '-' :: c :: t ∧ (c.isDigit = true ∨ c = '.') ∧ '=' ∉ w := by
  have nd : ∀ l : List Char, (∀ c ∈ l, c.isDigit = true) → '=' ∉ l := fun l hl e => absurd (hl _ e) (by decide)
  rcases h with ⟨d, h1, h2, rfl⟩ | ⟨a, b, h1, h2, h3, rfl⟩
  · obtain ⟨c, t, rfl⟩ := List.exists_cons_of_ne_nil h1
    refine ⟨c, t, rfl, .inl (h2 c (by simp)), ?_⟩
    have := nd _ h2
    rw [List.mem_cons]
    rintro (e | e)
    · exact absurd e (by decide)
    · exact this e
  · have e1 := nd _ h1
    have e3 := nd _ h3
    have e : '=' ∉ '-' :: (a ++ '.' :: b) := by
      simp only [List.mem_cons, List.mem_append, not_or]
      exact ⟨by decide, e1, by decide, e3⟩
    cases a with
    | nil => exact ⟨'.', b, rfl, .inr rfl, e⟩
    | cons c a => exact ⟨c, a ++ '.' :: b, rfl, .inl (h1 c (by simp)), e⟩

theorem classify_value (hs : StrsOk strs) {v : Word} (h : ValueWord v) : classify strs v = .ok .arg := by
  unfold classify
  rcases h with h | rfl | h
  · rw [if_neg, if_pos h]
    rintro rfl
    exact h rfl
  · rw [if_neg (by simp), if_neg (by simp), find_name_none]
    · rfl
    · intro s hs1 e
      obtain ⟨c, t, h1, _⟩ := hs.shape s hs1
      rw [e] at h1
      simp at h1
  · obtain ⟨c, t, hv, hc, hne⟩ := digit_shape h
    have hcd : c ≠ '-' := by
      rintro rfl
      rcases hc with hc | hc
      · exact absurd hc (by decide)
      · exact absurd hc (by decide)
    have hno : ∀ s ∈ strs, ∀ u, s.toList ≠ '-' :: c :: u := by
      intro s hs1 u e
      obtain ⟨c', t', h1, _, h3, h4, _⟩ := hs.shape s hs1
      rw [e] at h1
      simp only [List.cons.injEq, true_and] at h1
      obtain ⟨rfl, _⟩ := h1
      rcases hc with hc | hc
      · rw [hc] at h3; exact absurd h3 (by simp)
      · exact h4 hc
    rw [if_neg (by rw [hv]; simp [hcd]), if_neg (by rw [hv]; simp), find_name_none fun s hs1 => by rw [hv]; exact hno s hs1 t]
    simp only
    rw [if_neg (by rw [hv]; simp)]
    unfold joinedOption
    rw [(beforeEq_noEq hne).2]
    simp only
    unfold classifyRest optionTuples
    have : strs.filterMap (shortTuple v) = [] := by
      rw [List.filterMap_eq_nil_iff]
      intro s hs1
      unfold shortTuple
      rw [if_neg, if_neg]
      · intro hp
        obtain ⟨u, hu⟩ := List.isPrefixOf_iff_prefix.mp hp
        rw [hv] at hu
        exact hno s hs1 (t ++ u) hu.symm
      · rw [hv]
        exact hno s hs1 []
    rw [if_neg (by rw [hv]; simp [hcd]), this]
    simp only [(negativeNumber_iff v).mpr h, Bool.true_or, if_true]

/-- What is accepted as an option is one of the spellings. -/
theorem classify_option_inv (hs : StrsOk strs) {w : Word} {f : String} {e : Option Word} (h : classify strs w = .ok (.option f e)) :
    f ∈ strs ∧ ((e = none ∧ (Names strs w f ∨ ShortAbbreviates strs w f)) ∨ ∃ v, e = some v ∧
      ((∃ p, Names strs p f ∧ w = p ++ '=' :: v) ∨ ∃ c, c ≠ '-' ∧ f.toList = ['-', c] ∧ w = f.toList ++ v ∧
        ∀ s ∈ strs, s.toList ≠ f.toList ++ v.takeWhile (· != '=') ∧ ¬(f.toList ++ v) <+: s.toList)) := by
  unfold classify at h
  split at h
  · exact absurd h (by simp)
  rename_i hw1
  split at h
  · exact absurd h (by simp)
  rename_i hw2
  rw [not_not] at hw2
  split at h
  · rename_i s hfind
    simp only [Except.ok.injEq, WordClass.option.injEq] at h
    obtain ⟨rfl, rfl⟩ := h
    obtain ⟨h1, h2⟩ := find_name_inv hfind
    exact ⟨h1, .inl ⟨rfl, .inl (.inl h2.symm)⟩⟩
  rename_i hfind
  have hex := find_name_none_inv hfind
  split at h
  · exact absurd h (by simp)
  rename_i hlen
  obtain ⟨c, t, rfl⟩ : ∃ c t, w = '-' :: c :: t := by
    match w, hw2, hlen with
    | a :: c :: t, h, _ => simp only [List.head?_cons, Option.some.injEq] at h; exact ⟨c, t, by rw [h]⟩
    | [a], _, h => exact absurd rfl h
  split at h
  · rename_i s v hj
    simp only [Except.ok.injEq, WordClass.option.injEq] at h
    obtain ⟨rfl, rfl⟩ := h
    unfold joinedOption at hj
    rcases afterEq_cases ('-' :: c :: t) with ⟨h1, _⟩ | ⟨p, v', hp, hw, hb, ha⟩
    · rw [h1] at hj; exact absurd hj (by simp)
    · rw [ha, hb] at hj
      simp only [Option.map_eq_some_iff, Prod.mk.injEq] at hj
      obtain ⟨s', h1, rfl, rfl⟩ := hj
      obtain ⟨h2, h3⟩ := find_name_inv h1
      exact ⟨h2, .inr ⟨v', rfl, .inl ⟨p, .inl h3.symm, hw⟩⟩⟩
  rename_i hj
  unfold classifyRest at h
  split at h
  · split at h
    · exact absurd h (by simp)
    · exact absurd h (by simp)
  rotate_left
  · exact absurd h (by simp)
  rename_i x hx
  obtain ⟨f', e'⟩ := x
  simp only [Except.ok.injEq, WordClass.option.injEq] at h
  obtain ⟨rfl, rfl⟩ := h
  unfold optionTuples at hx
  split at hx
  · rename_i hd
    have hc : c = '-' := by simpa using hd
    subst hc
    have hm : ∀ s, s ∈ strs.filter (fun s => (beforeEq ('-' :: '-' :: t)).isPrefixOf s.toList) → s = f' := by
      intro s hs1
      have : (s, afterEq ('-' :: '-' :: t)) ∈ [(f', e')] := hx ▸ List.mem_map_of_mem hs1
      simp only [List.mem_singleton, Prod.mk.injEq] at this
      exact this.1
    have hmem : (f', e') ∈ (strs.filter (fun s => (beforeEq ('-' :: '-' :: t)).isPrefixOf s.toList)).map
        fun s => (s, afterEq ('-' :: '-' :: t)) := by rw [hx]; simp
    rw [List.mem_map] at hmem
    obtain ⟨s, hs1, hs2⟩ := hmem
    simp only [Prod.mk.injEq] at hs2
    obtain ⟨rfl, rfl⟩ := hs2
    rw [List.mem_filter] at hs1
    have habb : Abbreviates strs (beforeEq ('-' :: '-' :: t)) s := by
      refine ⟨?_, noEq_beforeEq _, List.isPrefixOf_iff_prefix.mp hs1.2, fun y hy hp => hm y ?_⟩
      · exact ⟨beforeEq t, (beforeEq_append (p := ['-', '-']) (by decide) t).symm⟩
      · exact List.mem_filter.mpr ⟨hy, List.isPrefixOf_iff_prefix.mpr hp⟩
    refine ⟨hs1.1, ?_⟩
    rcases afterEq_cases ('-' :: '-' :: t) with ⟨h1, h2, _⟩ | ⟨p, v', hp, hw, hb, ha⟩
    · rw [h2] at habb
      exact .inl ⟨h1, .inl (.inr habb)⟩
    · rw [hb] at habb
      exact .inr ⟨v', ha, .inl ⟨p, .inr habb, hw⟩⟩
  · rename_i hd
    have hc : c ≠ '-' := by simpa using hd
    have hmem : (f', e') ∈ strs.filterMap (shortTuple ('-' :: c :: t)) := by rw [hx]; simp
    have honly : ∀ s ∈ strs, ∀ z, shortTuple ('-' :: c :: t) s = some z → z = (f', e') := by
      intro s hs1 z hz
      have : z ∈ strs.filterMap (shortTuple ('-' :: c :: t)) := List.mem_filterMap.mpr ⟨s, hs1, hz⟩
      rw [hx] at this
      simpa using this
    rw [List.mem_filterMap] at hmem
    obtain ⟨s, hs1, hs2⟩ := hmem
    unfold shortTuple at hs2
    split at hs2
    · rename_i ht
      simp only [Option.some.injEq, Prod.mk.injEq] at hs2
      obtain ⟨rfl, rfl⟩ := hs2
      have hl : s.toList = ['-', c] := ht
      refine ⟨hs1, .inr ⟨t, rfl, .inr ⟨c, hc, hl, by rw [hl]; rfl, fun y hy => ⟨?_, ?_⟩⟩⟩⟩
      · intro e
        rcases afterEq_cases ('-' :: c :: t) with ⟨h1, h2, h3⟩ | ⟨p, v', hp, hw, hb, ha⟩
        · refine hex y hy (e.trans ?_)
          have : '=' ∉ t := fun e => h3 (List.mem_cons_of_mem _ (List.mem_cons_of_mem _ e))
          have := (beforeEq_noEq this).1
          unfold beforeEq at this
          rw [this, hl]; rfl
        · unfold joinedOption at hj
          rw [ha, hb] at hj
          simp only [Option.map_eq_none_iff] at hj
          refine find_name_none_inv hj y hy (e.trans ?_)
          rw [← hb]
          have hce : '=' ∉ s.toList := by
            obtain ⟨_, _, _, h2, _⟩ := hs.shape s hs1
            exact h2
          have := beforeEq_append hce t
          rw [hl] at this ⊢
          exact this.symm
      · intro hp
        have := honly y hy (if y.toList = ['-', c] then (y, some t) else (y, none)) (by
          unfold shortTuple
          rw [hl] at hp
          by_cases h' : y.toList = ['-', c]
          · simp [h']
          · rw [if_neg (by simpa using h'), if_neg h', if_pos (show ('-' :: c :: t).isPrefixOf y.toList = true from List.isPrefixOf_iff_prefix.mpr hp)])
        split at this
        · rename_i h'
          rw [h', hl] at hp
          have h0 : t = [] := by
            have := hp.length_le
            simp at this
            simpa using this
          exact hex y hy (by rw [h', h0])
        · simp at this
    · rename_i ht
      split at hs2
      · rename_i hp
        simp only [Option.some.injEq, Prod.mk.injEq] at hs2
        obtain ⟨rfl, rfl⟩ := hs2
        refine ⟨hs1, .inl ⟨rfl, .inr ⟨⟨c, t, hc, rfl⟩, List.isPrefixOf_iff_prefix.mp hp, fun y hy hpy => ?_, fun y hy hy2 => ?_⟩⟩⟩
        · by_cases hy2 : y.toList = ('-' :: c :: t).take 2
          · have := honly y hy (y, some t) (by unfold shortTuple; rw [if_pos hy2]; rfl)
            simp at this
          · have := honly y hy (y, none) (by
              unfold shortTuple
              rw [if_neg hy2, if_pos (List.isPrefixOf_iff_prefix.mpr hpy)])
            simpa using this
        · have := honly y hy (y, some t) (by unfold shortTuple; rw [if_pos hy2]; rfl)
          simp at this
      · exact absurd hs2 (by simp)

/-- What is accepted as a value. -/
theorem classify_arg_inv {w : Word} (h : classify strs w = .ok .arg) : ValueWord w ∨ ' ' ∈ w := by
  unfold classify at h
  split at h
  · exact absurd h (by simp)
  split at h
  · rename_i h1
    exact .inl (.inl h1)
  rename_i h1
  rw [not_not] at h1
  split at h
  · exact absurd h (by simp)
  split at h
  · rename_i h2
    left; right; left
    match w, h1, h2 with
    | [a], h1, _ => simpa using h1
  split at h
  · exact absurd h (by simp)
  unfold classifyRest at h
  split at h
  · split at h
    · rename_i hv
      rw [Bool.or_eq_true] at hv
      rcases hv with hv | hv
      · exact .inl (.inr (.inr ((negativeNumber_iff w).mp hv)))
      · right; simpa using hv
    · exact absurd h (by simp)
  · exact absurd h (by simp)
  · exact absurd h (by simp)

end SALib
