import Verif.Model.EnhancedHdmr
import Verif.Props.HdmrFit
import Verif.Props.FastAnalyze

/-! # Enhanced HDMR: terms, labels, totals, F-test, decomposition (C56, C57, C58, C59, C79) -/

set_option linter.unusedSectionVars false

namespace SALib

open Finset

variable {α : Type} [Field α] [LinearOrder α] [IsStrictOrderedRing α]

open Spec

/-! ### `_prod` -/

theorem mem_cartProd (args : List (List Nat)) (t : List Nat) :
    t ∈ cartProd args ↔ List.Forall₂ (fun x l => x ∈ l) t args := by
  induction args generalizing t with
  | nil => simp [cartProd]
  | cons l ls ih =>
    rw [cartProd, List.mem_flatMap]
    constructor
    · rintro ⟨a, ha, ht⟩
      obtain ⟨t', ht', rfl⟩ := List.mem_map.mp ht
      exact List.Forall₂.cons ha ((ih t').mp ht')
    · intro h
      cases h with
      | cons ha ht => exact ⟨_, ha, List.mem_map.mpr ⟨_, (ih _).mpr ht, rfl⟩⟩

theorem cartProd_lex (args : List (List Nat)) (h : ∀ l ∈ args, l.Pairwise (· < ·)) :
    (cartProd args).Pairwise (List.Lex (· < ·)) := by
  induction args with
  | nil => simp [cartProd]
  | cons l ls ih =>
    rw [cartProd, List.pairwise_flatMap]
    constructor
    · intro a _
      rw [List.pairwise_map]
      exact (ih fun l' hl' => h l' (by simp [hl'])).imp fun hab => List.Lex.cons hab
    · refine (h l (by simp)).imp ?_
      intro a b hab x hx y hy
      obtain ⟨x', -, rfl⟩ := List.mem_map.mp hx
      obtain ⟨y', -, rfl⟩ := List.mem_map.mp hy
      exact List.Lex.rel hab

theorem sorted_le_perm (s t : List Nat) (hp : s.Perm t) (hs : s.Pairwise (· ≤ ·)) : s = t ∨ List.Lex (· < ·) s t := by
  induction t generalizing s with
  | nil => left; exact List.perm_nil.mp hp
  | cons x xs ih =>
    cases s with
    | nil => exact absurd hp.symm (by simp)
    | cons y ys =>
      have hs' := List.pairwise_cons.mp hs
      have hx : x ∈ y :: ys := hp.symm.subset (by simp)
      have hyx : y ≤ x := by
        rcases List.mem_cons.mp hx with h | h
        · exact h.ge
        · exact hs'.1 x h
      rcases hyx.lt_or_eq with h | h
      · right; exact List.Lex.rel h
      · subst h
        rcases ih ys (List.perm_cons y |>.mp hp) hs'.2 with h | h
        · left; rw [h]
        · right; exact List.Lex.cons h

theorem sameSet_iff (s t : List Nat) : sameSet s t = true ↔ ∀ x, x ∈ s ↔ x ∈ t := by
  unfold sameSet
  simp only [Bool.and_eq_true, List.all_eq_true, decide_eq_true_iff]
  constructor
  · rintro ⟨h1, h2⟩ x; exact ⟨h1 x, h2 x⟩
  · intro h; exact ⟨fun x hx => (h x).mp hx, fun x hx => (h x).mpr hx⟩

theorem lex_trans_nat {a b c : List Nat} (h1 : List.Lex (· < ·) a b) (h2 : List.Lex (· < ·) b c) :
    List.Lex (· < ·) a c := by
  induction h1 generalizing c with
  | nil => cases h2 <;> exact List.Lex.nil
  | cons h ih => cases h2 with
    | cons h2 => exact List.Lex.cons (ih h2)
    | rel h2 => exact List.Lex.rel h2
  | rel h => cases h2 with
    | cons h2 => exact List.Lex.rel h
    | rel h2 => exact List.Lex.rel (h.trans h2)

/-- `_prod` yields exactly the ascending tuples of the product, in the order of the product, as soon as the product
contains the sorted form of each of its repetition-free tuples. -/
theorem prodUnique_eq (args : List (List Nat)) (hinc : ∀ l ∈ args, l.Pairwise (· < ·))
    (hcl : ∀ t ∈ cartProd args, t.Nodup → t.insertionSort (· ≤ ·) ∈ cartProd args) :
    prodUnique args = (cartProd args).filter fun t => decide (t.Pairwise (· < ·)) := by
  have hlex := cartProd_lex args hinc
  unfold prodUnique
  generalize cartProd args = L at hlex hcl
  have key : ∀ (P Q : List (List Nat)), L = P ++ Q →
      Q.foldl (fun acc t => if t.dedup.length ≠ t.length then acc
        else if acc.any (fun s => sameSet s t) then acc else acc ++ [t])
        (P.filter fun t => decide (t.Pairwise (· < ·))) = L.filter fun t => decide (t.Pairwise (· < ·)) := by
    intro P Q
    induction Q generalizing P with
    | nil => intro h; rw [h]; simp
    | cons t Q ih =>
      intro h
      rw [List.foldl_cons]
      have hstep : (if t.dedup.length ≠ t.length then P.filter fun t => decide (t.Pairwise (· < ·))
          else if (P.filter fun t => decide (t.Pairwise (· < ·))).any (fun s => sameSet s t) then
            P.filter fun t => decide (t.Pairwise (· < ·))
          else (P.filter fun t => decide (t.Pairwise (· < ·))) ++ [t]) =
          (P ++ [t]).filter fun t => decide (t.Pairwise (· < ·)) := by
        rw [List.filter_append]
        have htL : t ∈ L := by rw [h]; simp
        by_cases hn : t.Nodup
        · rw [if_neg (by rw [hn.dedup]; simp)]
          by_cases hs : t.Pairwise (· < ·)
          · have hf : [t].filter (fun t => decide (t.Pairwise (· < ·))) = [t] := by simp [hs]
            rw [hf, if_neg]
            intro hany
            obtain ⟨s, hs1, hs2⟩ := List.any_eq_true.mp hany
            obtain ⟨hsP, hsS⟩ := List.mem_filter.mp hs1
            have hsS := of_decide_eq_true hsS
            have heq : s = t := by
              apply List.Perm.eq_of_pairwise (le := (· ≤ ·)) (fun a b _ _ h1 h2 => le_antisymm h1 h2)
                (hsS.imp fun h => h.le) (hs.imp fun h => h.le)
              exact (List.perm_ext_iff_of_nodup (hsS.imp fun h => h.ne) hn).mpr ((sameSet_iff s t).mp hs2)
            rw [h, List.pairwise_append] at hlex
            exact lex_irrefl t (heq ▸ hlex.2.2 s hsP t (by simp))
          · have hf : [t].filter (fun t => decide (t.Pairwise (· < ·))) = [] := by simp [hs]
            rw [hf, List.append_nil, if_pos]
            have hsortmem := hcl t htL hn
            have hperm : (t.insertionSort (· ≤ ·)).Perm t := List.perm_insertionSort _ _
            have hsle : (t.insertionSort (· ≤ ·)).Pairwise (· ≤ ·) := List.pairwise_insertionSort _ _
            have hslt : (t.insertionSort (· ≤ ·)).Pairwise (· < ·) := by
              have hnd : (t.insertionSort (· ≤ ·)).Nodup := hperm.nodup_iff.mpr hn
              exact (hsle.and hnd).imp fun h => lt_of_le_of_ne h.1 h.2
            have hlt : List.Lex (· < ·) (t.insertionSort (· ≤ ·)) t := by
              rcases sorted_le_perm _ _ hperm hsle with he | hl
              · rw [he] at hslt; exact absurd hslt hs
              · exact hl
            have hinP : t.insertionSort (· ≤ ·) ∈ P := by
              rw [h] at hsortmem hlex
              rcases List.mem_append.mp hsortmem with hm | hm
              · exact hm
              · rcases List.mem_cons.mp hm with he | hm
                · rw [he] at hslt; exact absurd hslt hs
                · rw [List.pairwise_append, List.pairwise_cons] at hlex
                  exact absurd (lex_trans_nat hlt (hlex.2.1.1 _ hm)) (lex_irrefl _)
            rw [List.any_eq_true]
            refine ⟨_, List.mem_filter.mpr ⟨hinP, decide_eq_true hslt⟩, ?_⟩
            rw [sameSet_iff]
            exact fun x => hperm.mem_iff
        · have hf : [t].filter (fun t => decide (t.Pairwise (· < ·))) = [] := by
            have : ¬t.Pairwise (· < ·) := fun hp => hn (hp.imp fun h => h.ne)
            simp [this]
          rw [hf, List.append_nil, if_pos]
          intro he
          exact hn (List.dedup_eq_self.mp ((List.dedup_sublist t).eq_of_length he))
      rw [hstep]
      exact ih (P ++ [t]) (by rw [h]; simp)
  simpa using key [] L rfl

theorem lex_sorted_ext (l l' : List (List Nat)) (h : l.Pairwise (List.Lex (· < ·))) (h' : l'.Pairwise (List.Lex (· < ·)))
    (hm : ∀ c, c ∈ l ↔ c ∈ l') : l = l' := by
  have hn : ∀ l : List (List Nat), l.Pairwise (List.Lex (· < ·)) → l.Nodup := by
    intro l hl
    refine List.Pairwise.imp ?_ hl
    intro a b hab e
    exact lex_irrefl b (e ▸ hab)
  have hp : l.Perm l' := (List.perm_ext_iff_of_nodup (hn l h) (hn l' h')).mpr hm
  exact hp.eq_of_pairwise (fun a b _ _ h1 h2 => absurd (lex_trans_nat h1 h2) (lex_irrefl a)) h h'

theorem mem_combinations_range (d k : Nat) (c : List Nat) :
    c ∈ combinations k (List.range d) ↔ c.Pairwise (· < ·) ∧ (∀ i ∈ c, i < d) ∧ c.length = k := by
  constructor
  · exact combinations_range_sorted d k c
  · rintro ⟨h1, h2, h3⟩
    have hs := sort_mem_combinations d c (h1.imp fun h => h.ne) h2
    have he : c.insertionSort (· ≤ ·) = c := (h1.imp fun h => h.le).insertionSort_eq
    rwa [he, h3] at hs

theorem range'_lt (s n : Nat) : (List.range' s n).Pairwise (· < ·) := List.pairwise_lt_range' 1

/-- The pairs of `_prod(range(0, d-1), range(1, d))` are those of `combinations(range(d), 2)`, in the same order. -/
theorem prodUnique_pairs (d : Nat) :
    prodUnique [List.range (d - 1), List.range' 1 (d - 1)] = combinations 2 (List.range d) := by
  have hmem : ∀ t, t ∈ cartProd [List.range (d - 1), List.range' 1 (d - 1)] ↔
      ∃ a b, t = [a, b] ∧ a < d - 1 ∧ 1 ≤ b ∧ b < d := by
    intro t
    rw [mem_cartProd]
    constructor
    · intro h
      match t, h with
      | [a, b], .cons ha (.cons hb .nil) =>
        refine ⟨a, b, rfl, List.mem_range.mp ha, ?_⟩
        have := List.mem_range'_1.mp hb
        omega
    · rintro ⟨a, b, rfl, ha, hb, hb'⟩
      exact .cons (List.mem_range.mpr ha) (.cons (List.mem_range'_1.mpr (by omega)) .nil)
  rw [prodUnique_eq]
  · apply lex_sorted_ext
    · apply List.Pairwise.filter
      apply cartProd_lex
      intro l hl
      rcases List.mem_cons.mp hl with rfl | hl
      · exact List.pairwise_lt_range
      · rw [List.mem_singleton] at hl; rw [hl]; exact range'_lt _ _
    · exact combinations_lex 2 _ List.pairwise_lt_range
    · intro c
      rw [List.mem_filter, hmem, mem_combinations_range, decide_eq_true_iff]
      constructor
      · rintro ⟨⟨a, b, rfl, ha, hb, hb'⟩, hs⟩
        exact ⟨hs, by simp; omega, rfl⟩
      · rintro ⟨hs, hl, hlen⟩
        match c, hlen with
        | [a, b], _ =>
          have hab : a < b := by simpa using hs
          have := hl b (by simp)
          exact ⟨⟨a, b, rfl, by omega, by omega, this⟩, hs⟩
  · intro l hl
    rcases List.mem_cons.mp hl with rfl | hl
    · exact List.pairwise_lt_range
    · rw [List.mem_singleton] at hl; rw [hl]; exact range'_lt _ _
  · intro t ht hn
    obtain ⟨a, b, rfl, ha, hb, hb'⟩ := (hmem t).mp ht
    rw [hmem]
    have hab : a ≠ b := by simpa using hn
    by_cases h : a ≤ b
    · exact ⟨a, b, by simp [List.orderedInsert, h], ha, hb, hb'⟩
    · exact ⟨b, a, by simp [List.orderedInsert, h], by omega, by omega, by omega⟩

theorem prodUnique_triples (d : Nat) :
    prodUnique [List.range (d - 2), List.range' 1 (d - 2), List.range' 2 (d - 2)] =
      combinations 3 (List.range d) := by
  have hmem : ∀ t, t ∈ cartProd [List.range (d - 2), List.range' 1 (d - 2), List.range' 2 (d - 2)] ↔
      ∃ a b c, t = [a, b, c] ∧ a < d - 2 ∧ 1 ≤ b ∧ b < d - 1 ∧ 2 ≤ c ∧ c < d := by
    intro t
    rw [mem_cartProd]
    constructor
    · intro h
      match t, h with
      | [a, b, c], .cons ha (.cons hb (.cons hc .nil)) =>
        have := List.mem_range.mp ha
        have := List.mem_range'_1.mp hb
        have := List.mem_range'_1.mp hc
        exact ⟨a, b, c, rfl, by omega, by omega, by omega, by omega, by omega⟩
    · rintro ⟨a, b, c, rfl, h1, h2, h3, h4, h5⟩
      exact .cons (List.mem_range.mpr h1) (.cons (List.mem_range'_1.mpr (by omega))
        (.cons (List.mem_range'_1.mpr (by omega)) .nil))
  have hinc : ∀ l ∈ [List.range (d - 2), List.range' 1 (d - 2), List.range' 2 (d - 2)], l.Pairwise (· < ·) := by
    intro l hl
    simp only [List.mem_cons, List.not_mem_nil, or_false] at hl
    rcases hl with rfl | rfl | rfl
    · exact List.pairwise_lt_range
    · exact range'_lt _ _
    · exact range'_lt _ _
  rw [prodUnique_eq _ hinc]
  · apply lex_sorted_ext
    · exact List.Pairwise.filter _ (cartProd_lex _ hinc)
    · exact combinations_lex 3 _ List.pairwise_lt_range
    · intro c
      rw [List.mem_filter, hmem, mem_combinations_range, decide_eq_true_iff]
      constructor
      · rintro ⟨⟨a, b, e, rfl, ha, hb, hb', he, he'⟩, hs⟩
        exact ⟨hs, by simp; omega, rfl⟩
      · rintro ⟨hs, hl, hlen⟩
        match c, hlen with
        | [a, b, e], _ =>
          have h3 : (a < b ∧ a < e) ∧ b < e := by simpa using hs
          have := hl e (by simp)
          exact ⟨⟨a, b, e, rfl, by omega, by omega, by omega, by omega, this⟩, hs⟩
  · intro t ht hn
    obtain ⟨a, b, c, rfl, h1, h2, h3, h4, h5⟩ := (hmem t).mp ht
    have hs := (List.perm_insertionSort (r := (· ≤ · : Nat → Nat → Prop)) [a, b, c])
    have hlt : ([a, b, c].insertionSort (· ≤ ·)).Pairwise (· < ·) := by
      have hnd := hs.nodup_iff.mpr hn
      exact ((List.pairwise_insertionSort (r := (· ≤ · : Nat → Nat → Prop)) [a, b, c]).and hnd).imp
        fun h => lt_of_le_of_ne h.1 h.2
    have hlen := hs.length_eq
    have hb : ∀ x ∈ [a, b, c].insertionSort (· ≤ ·), x < d := by
      intro x hx
      have := hs.subset hx
      simp at this
      omega
    rw [hmem]
    match hl : [a, b, c].insertionSort (· ≤ ·), hlen with
    | [x, y, z], _ =>
      rw [hl] at hlt hb
      have h3 : (x < y ∧ x < z) ∧ y < z := by simpa using hlt
      have := hb z (by simp)
      exact ⟨x, y, z, rfl, by omega, by omega, by omega, by omega, by omega⟩

/-- Four parameters. -/
example : prodUnique [List.range 3, List.range' 1 3] = [[0, 1], [0, 2], [0, 3], [1, 2], [1, 3], [2, 3]] ∧
    prodUnique [List.range 2, List.range' 1 2, List.range' 2 2] = [[0, 1, 2], [0, 1, 3], [0, 2, 3], [1, 2, 3]] := by
  decide +kernel

/-! ### Labels -/

theorem ehNc_eq (d o : Nat) : ehNc d o = (d, (hdmrC2 d o).length, (hdmrC3 d o).length) := by
  unfold ehNc hdmrC2 hdmrC3
  congr 2
  · split
    · rw [length_combinations, List.length_range]
    · rfl
  · split
    · rw [length_combinations, List.length_range]
    · rfl

theorem foldlM_range_pyGet {β σ : Type} (l : List β) (f : σ → β → Py σ) (s : σ) :
    (List.range l.length).foldlM (fun s i => do let c ← pyGet l i; f s c) s = l.foldlM f s := by
  have : ∀ n ≤ l.length, (List.range n).foldlM (fun s i => do let c ← pyGet l i; f s c) s = (l.take n).foldlM f s := by
    intro n hn
    induction n with
    | zero => simp
    | succ n ih =>
      have hl : n < l.length := by omega
      rw [List.range_succ, List.foldlM_append, ih (by omega), List.take_succ_eq_append_getElem hl,
        List.foldlM_append]
      congr 1
      funext s
      simp only [List.foldlM_cons, List.foldlM_nil, pyGet_ok l n hl, pyBind_ok]
  rw [this l.length le_rfl, List.take_length]

theorem ehAddLabels (ts : List (List Nat)) (d : Nat) (names base : List String) (hlen : d ≤ base.length)
    (hpre : base <+: names) (hts : ∀ c ∈ ts, ∀ i ∈ c, i < d) :
    ts.foldlM ehAddLabel names = .ok (names ++ ts.map (termLabel base)) := by
  induction ts generalizing names with
  | nil => simp
  | cons c ts ih =>
    have h1 : ehAddLabel names c = .ok (names ++ [termLabel base c]) := by
      unfold ehAddLabel
      rw [mapM_ok_of _ (fun i => base.getD i "")]
      · rfl
      · intro i hi
        have hi := hts c (by simp) i hi
        obtain ⟨s, rfl⟩ := hpre
        rw [pyGet_ok _ _ (by simp; omega)]
        simp [List.getD, List.getElem?_eq_getElem (show i < base.length by omega),
          List.getElem_append_left (show i < base.length by omega)]
    rw [List.foldlM_cons, h1, pyBind_ok, ih _ (hpre.trans (List.prefix_append _ _)) fun c' hc' => hts c' (by simp [hc'])]
    simp

/-- The list of labels is the list of names followed by the labels of the interactions, and it is also the new
list of names of the problem. -/
theorem ehLabels_eq (names : List String) (d o : Nat) (hn : names.length = d) :
    ehLabels names d o = .ok (names ++ (hdmrC2 d o).map (termLabel names) ++ (hdmrC3 d o).map (termLabel names)) := by
  have h2 : ∀ c ∈ hdmrC2 d o, ∀ i ∈ c, i < d := fun c hc => (mem_hdmrC2 d o c hc).2.1
  have h3 : ∀ c ∈ hdmrC3 d o, ∀ i ∈ c, i < d := fun c hc => (mem_hdmrC3 d o c hc).2.1
  have e2 : ehLabels2 names d o = .ok (names ++ (hdmrC2 d o).map (termLabel names)) := by
    unfold ehLabels2
    split
    · rename_i h
      rw [ehNc_eq]
      have : hdmrC2 d o = combinations 2 (List.range d) := by unfold hdmrC2; rw [if_pos h]
      rw [this] at h2 ⊢
      rw [foldlM_range_pyGet]
      exact ehAddLabels _ d names names (by omega) (List.prefix_refl _) h2
    · rename_i h
      unfold hdmrC2
      rw [if_neg h]
      simp
  unfold ehLabels
  rw [e2, pyBind_ok]
  split
  · rename_i h
    have : hdmrC3 d o = combinations 3 (List.range d) := by unfold hdmrC3; rw [if_pos h]
    rw [this] at h3
    rw [ehNc_eq, this]
    rw [foldlM_range_pyGet]
    exact ehAddLabels _ d _ names (by omega) (List.prefix_append _ _) h3
  · rename_i h
    unfold hdmrC3
    rw [if_neg h]
    simp

/-- **C56** for `enhanced_hdmr` with order 2: the same terms, labels and totals as for `hdmr`. -/
theorem C56_enhanced_order2 (names : List String) (d : Nat) (ext : Bool) (S : List (List α)) (hn : names.length = d) :
    ∃ terms labels rows, ehRun names d 2 ext S = .ok (labels, (List.range d).map fun r => S.map fun col =>
        ((rows r).map fun i => col.getD i 0).sum) ∧
      terms.length = (ehNc d 2).1 + (ehNc d 2).2.1 + (ehNc d 2).2.2 ∧ GoodTerms names d 2 terms labels rows := by
  obtain ⟨terms, labels, h1, h2, h3⟩ := C56_hdmr names d 2 (by omega) (by omega) hn.ge
  refine ⟨terms, labels, hdmrTotalRows d 2, ?_, by rw [h2, ehNc_eq]; rfl, h3⟩
  have hlab : ehLabels names d 2 = .ok labels := by
    rw [ehLabels_eq names d 2 hn, ← h1, hdmrLabels_eq names d 2 hn.ge]
    unfold hdmrTerms
    rw [List.map_append, List.map_append, List.map_map]
    congr 3
    apply List.ext_getElem
    · simp [hn]
    · intro i hi hi'
      simp [termLabel, List.getD, hi]
  unfold ehRun
  rw [hlab, pyBind_ok, if_neg (by simp)]
  unfold ehTS
  rw [mapM_ok_of _ (fun r => S.map fun col => ((hdmrTotalRows d 2 r).map fun i => col.getD i 0).sum)]
  · rfl
  · intro r _
    rfl

/-- **C56 fails** for `enhanced_hdmr` with order 1 or 3: the analysis always ends with an error. -/
theorem C56_enhanced_fail (names : List String) (d o : Nat) (ext : Bool) (S : List (List α)) (hn : names.length = d)
    (hd : 1 ≤ d) :
    (o = 1 → ehRun names d o ext S = .error .attributeError) ∧
    (o = 3 → ehRun names d o ext S = .error (if ext then .valueError else .typeError)) := by
  have hts : ∀ e, (∀ r, ehTotalRows d o r = .error e) → ehTS d o S = .error e := by
    intro e he
    unfold ehTS
    obtain ⟨d, rfl⟩ : ∃ d', d = d' + 1 := ⟨d - 1, by omega⟩
    rw [List.range_succ_eq_map, List.mapM_cons, he]
    rfl
  constructor
  · rintro rfl
    unfold ehRun
    rw [ehLabels_eq names d 1 hn, pyBind_ok, if_neg (by simp), hts .attributeError (fun r => rfl)]
    rfl
  · rintro rfl
    unfold ehRun
    rw [ehLabels_eq names d 3 hn, pyBind_ok]
    cases ext
    · rw [if_pos (by simp)]; rfl
    · rw [if_neg (by simp), hts .valueError (fun r => rfl)]; rfl

example : (ehRun ["a", "b", "c"] 3 2 true ([[1 / 2, 1 / 4, 0, 1 / 8, 0, 1 / 8]] : List (List ℚ))) =
    .ok (["a", "b", "c", "a/b", "a/c", "b/c"], [[5 / 8], [1 / 2], [1 / 8]]) := by decide +kernel

/-! ### C59: the problem is changed -/

/-- The problem after a successful run: the list of labels is the list of names. -/
def ehProblemAfter (pb : EhProblem α) (d : Nat) (xb : List (List α)) (labels : List String) : EhProblem α :=
  { names := some labels, bounds := some (ehFill pb d xb).2.1, numVars := some (ehFill pb d xb).2.2 }

theorem ite_error_ok {β : Type} {c : Prop} [Decidable c] {e : PyErr} {x : Py β} {v : β}
    (h : (if c then .error e else x) = .ok v) : ¬c ∧ x = .ok v := by
  by_cases hc : c
  · rw [if_pos hc] at h; cases h
  · rw [if_neg hc] at h; exact ⟨hc, h⟩

theorem ehCheck_ok (pb : EhProblem α) (N d yRow : Nat) (xb : List (List α)) (maxOrder polyOrder bootstrap : Int)
    (subset : Option Int) (maxIter : Int) (l2 alpha : α) (ext : Bool) (f : List String × List (List α) × Nat) (s : Int)
    (hok : ehCheck pb N d yRow xb maxOrder polyOrder bootstrap subset maxIter l2 alpha ext = .ok (f, s)) :
    f = ehFill pb d xb ∧ f.1.length = d := by
  unfold ehCheck at hok
  obtain ⟨-, hok⟩ := ite_error_ok hok
  obtain ⟨hlen, hok⟩ := ite_error_ok hok
  obtain ⟨-, hok⟩ := ite_error_ok hok
  obtain ⟨-, hok⟩ := ite_error_ok hok
  obtain ⟨-, hok⟩ := ite_error_ok hok
  obtain ⟨-, hok⟩ := ite_error_ok hok
  obtain ⟨-, hok⟩ := ite_error_ok hok
  obtain ⟨-, hok⟩ := ite_error_ok hok
  obtain ⟨-, hok⟩ := ite_error_ok hok
  cases hs : ehSubset N yRow bootstrap subset with
  | error e => rw [hs] at hok; cases hok
  | ok v =>
    rw [hs, pyBind_ok] at hok
    obtain ⟨-, hok⟩ := ite_error_ok hok
    obtain ⟨-, hok⟩ := ite_error_ok hok
    obtain ⟨-, hok⟩ := ite_error_ok hok
    rw [pyPure] at hok
    have h := (Prod.mk.inj (Except.ok.inj hok)).1
    rw [← h]
    exact ⟨rfl, not_not.mp hlen⟩

/-- **C59 fails** for `enhanced_hdmr`: with order 2 the interaction labels stay in the names of the problem, and
every later analysis with that problem raises `ValueError`, whatever its arguments. -/
theorem C59_enhanced_fail (pb : EhProblem α) (N d yRow : Nat) (xb : List (List α)) (maxOrder polyOrder bootstrap : Int)
    (subset : Option Int) (maxIter : Int) (l2 alpha : α) (ext : Bool) (f : List String × List (List α) × Nat) (s : Int)
    (hok : ehCheck pb N d yRow xb maxOrder polyOrder bootstrap subset maxIter l2 alpha ext = .ok (f, s)) (hd : 2 ≤ d)
    (S : List (List α)) (labels : List String) (ts : List (List α)) (hrun : ehRun f.1 d 2 ext S = .ok (labels, ts)) :
    labels ≠ f.1 ∧ f.1 <+: labels ∧
      ∀ N' yRow' xb' mo po bo su mi l2' al ext',
        ehCheck (ehProblemAfter pb d xb labels) N' d yRow' xb' mo po bo su mi l2' al ext' = .error .valueError := by
  obtain ⟨rfl, hlen⟩ := ehCheck_ok pb N d yRow xb maxOrder polyOrder bootstrap subset maxIter l2 alpha ext f s hok
  have hlab : labels = (ehFill pb d xb).1 ++ (hdmrC2 d 2).map (termLabel (ehFill pb d xb).1) := by
    unfold ehRun at hrun
    rw [ehLabels_eq _ d 2 hlen, pyBind_ok, if_neg (by simp)] at hrun
    cases hts : ehTS d 2 S with
    | error e => rw [hts] at hrun; cases hrun
    | ok t =>
      rw [hts] at hrun
      simp only [pyBind_ok, pyPure] at hrun
      have := (Prod.mk.inj (Except.ok.inj hrun)).1
      rw [← this]
      simp [hdmrC3]
  have hpos : 0 < ((hdmrC2 d 2).map (termLabel (ehFill pb d xb).1)).length := by
    rw [List.length_map]
    unfold hdmrC2
    rw [if_pos (by omega), length_combinations, List.length_range]
    exact Nat.choose_pos hd
  have hlen' : labels.length ≠ d := by rw [hlab, List.length_append]; omega
  refine ⟨?_, ?_, ?_⟩
  · intro he; rw [he] at hlen'; exact hlen' hlen
  · rw [hlab]; exact List.prefix_append _ _
  · intro N' yRow' xb' mo po bo su mi l2' al ext'
    unfold ehCheck
    by_cases hc : (ehFill (ehProblemAfter pb d xb labels) d xb').2.2 ≠ d
    · rw [if_pos hc]
    · rw [if_neg hc, if_pos]
      exact hlen'

/-- Three parameters: a first analysis is accepted, and the labels of the pairs stay in the problem. -/
example : (ehCheck (⟨some ["a", "b", "c"], none, none⟩ : EhProblem ℚ) 300 3 300 [[0, 1], [0, 1], [0, 1]] 2 3 20 none 100
      (1 / 100) (19 / 20) true).map (fun r => (r.1.1, r.2)) = .ok (["a", "b", "c"], 150) ∧
    (ehCheck (⟨some ["a", "b", "c", "a/b", "a/c", "b/c"], none, none⟩ : EhProblem ℚ) 300 3 300
      [[0, 1], [0, 1], [0, 1]] 2 3 20 none 100 (1 / 100) (19 / 20) true).map (fun r => r.2) = .error .valueError := by
  decide +kernel

/-! ### C57, C79: the decomposition -/

theorem ehAncova_eq (Y : List α) (Ye : List (List α)) (V : α) (j : Nat) (hR : 2 ≤ Y.length)
    (hcol : ∀ c ∈ Ye, c.length = Y.length) (hVY : npVar Y = some V) (hV : V ≠ 0) (hj : j < Ye.length) :
    ehAncova Y Ye j =
      (some (devSum Y.length (fun i => (Ye.getD j []).getD i 0) (fun i => Y.getD i 0) / ((Y.length : α) - 1) / V),
       some (devSum Y.length (fun i => (Ye.getD j []).getD i 0) (fun i => (Ye.getD j []).getD i 0) /
        ((Y.length : α) - 1) / V),
       some (devSum Y.length (fun i => (Ye.getD j []).getD i 0)
        (fun i => (∑ k ∈ range Ye.length, (Ye.getD k []).getD i 0) - (Ye.getD j []).getD i 0) /
        ((Y.length : α) - 1) / V)) := by
  have hl := getD_mem_length Ye Y.length j hcol hj
  unfold ehAncova numDiv
  simp only []
  rw [npCov_devSum _ _ Y.length hl rfl hR, npCov_devSum _ _ Y.length hl hl hR,
    npCov_devSum _ _ Y.length hl (by simp [vecSub, sumColumns, -List.getD_eq_getElem?_getD, hl]) hR, hVY]
  simp only [Option.bind_eq_bind, Option.bind_some, npDiv_some _ _ hV]
  rw [devSum_congr Y.length _ _ _ _ (fun i _ => rfl) fun i hi => rest_getD Ye Y.length j i hcol hj hi]

/-- **C57** for `enhanced_hdmr`: whenever the components add up to the output up to a constant, `S = Sa + Sb` for
every term; in general the difference is the covariance of the term with what is not fitted. -/
theorem C57_enhanced (Y : List α) (f0 : α) (Ye : List (List α)) (e : List α) (V : α) (j : Nat) (hR : 2 ≤ Y.length)
    (hcol : ∀ c ∈ Ye, c.length = Y.length) (he : e.length = Y.length) (hVY : npVar Y = some V) (hV : V ≠ 0)
    (hj : j < Ye.length) (hadd : AddsUp Y f0 Ye e) :
    ∃ S Sa Sb E, ehAncova Y Ye j = (some S, some Sa, some Sb) ∧ npCov (Ye.getD j []) e = some E ∧
      S = Sa + Sb + E / V ∧ ((∀ r < Y.length, e.getD r 0 = 0) → S = Sa + Sb) := by
  have hl := getD_mem_length Ye Y.length j hcol hj
  have hs : devSum Y.length (fun i => (Ye.getD j []).getD i 0) (fun i => Y.getD i 0) =
      devSum Y.length (fun i => (Ye.getD j []).getD i 0) (fun i => (Ye.getD j []).getD i 0) +
      devSum Y.length (fun i => (Ye.getD j []).getD i 0)
        (fun i => (∑ k ∈ range Ye.length, (Ye.getD k []).getD i 0) - (Ye.getD j []).getD i 0) +
      devSum Y.length (fun i => (Ye.getD j []).getD i 0) (fun i => e.getD i 0) := by
    rw [← devSum_add_right, ← devSum_add_right, ← devSum_shift_right Y.length _ (fun i => _ + _ + _) f0]
    apply devSum_congr
    · intro i _; rfl
    · intro i hi
      rw [hadd i hi]; ring
  have hgen : ∀ S Sa Sb E, ehAncova Y Ye j = (some S, some Sa, some Sb) → npCov (Ye.getD j []) e = some E →
      S = Sa + Sb + E / V := by
    intro S Sa Sb E h1 h2
    rw [ehAncova_eq Y Ye V j hR hcol hVY hV hj] at h1
    rw [npCov_devSum _ _ Y.length hl he hR] at h2
    simp only [Prod.mk.injEq, Option.some.injEq] at h1 h2
    rw [← h1.1, ← h1.2.1, ← h1.2.2, ← h2, hs]
    ring
  refine ⟨_, _, _, _, ehAncova_eq Y Ye V j hR hcol hVY hV hj, npCov_devSum _ _ Y.length hl he hR,
    hgen _ _ _ _ (ehAncova_eq Y Ye V j hR hcol hVY hV hj) (npCov_devSum _ _ Y.length hl he hR), ?_⟩
  intro hz
  rw [hgen _ _ _ _ (ehAncova_eq Y Ye V j hR hcol hVY hV hj) (npCov_devSum _ _ Y.length hl he hR)]
  have h0 : devSum Y.length (fun i => (Ye.getD j []).getD i 0) (fun i => e.getD i 0) = 0 := by
    refine Eq.trans ?_ (devSum_const_right Y.length (fun i => (Ye.getD j []).getD i 0) 0)
    exact devSum_congr _ _ _ _ _ (fun i _ => rfl) hz
  rw [h0]
  simp

example : ehAncova ([-1, 1, -2, 2] : List ℚ) [[-1, 1, -1, 1], [0, 0, -1, 1]] 0 = (some (4 / 5), some (8 / 15), some (4 / 15)) ∧
    AddsUp ([-1, 1, -2, 2] : List ℚ) 0 [[-1, 1, -1, 1], [0, 0, -1, 1]] [0, 0, 0, 0] := by
  refine ⟨by decide +kernel, ?_⟩
  intro r hr
  simp only [List.length_cons, List.length_nil] at hr
  interval_cases r <;> decide +kernel

/-- **C79** for `enhanced_hdmr`: the sum of the indices; `R/(R-1)` on an exact fit. -/
theorem C79_enhanced_sum (Y : List α) (Ye : List (List α)) (V : α) (hR : 2 ≤ Y.length)
    (hcol : ∀ c ∈ Ye, c.length = Y.length) (hVY : npVar Y = some V) (hV : V ≠ 0) :
    ∃ S : Nat → α, (∀ j < Ye.length, (ehAncova Y Ye j).1 = some (S j)) ∧
      numDiv (npCov (sumColumns Y.length Ye) Y) V = some (∑ j ∈ range Ye.length, S j) ∧
      (∀ f0, AddsUp Y f0 Ye (List.replicate Y.length 0) →
        ∑ j ∈ range Ye.length, S j = (Y.length : α) / ((Y.length : α) - 1)) := by
  have heq : ∀ j < Ye.length, (ehAncova Y Ye j).1 = (hdmrAncova Y Ye V j).1 := by
    intro j hj
    rw [ehAncova_eq Y Ye V j hR hcol hVY hV hj, hdmrAncova_eq Y Ye V j hR hcol hV hj]
  obtain ⟨S, hS, hsum⟩ := C79_hdmr_sum Y Ye V hR hcol hV
  refine ⟨S, fun j hj => by rw [heq j hj, hS j hj], hsum, ?_⟩
  intro f0 hadd
  obtain ⟨S', hS', hsum'⟩ := C79_hdmr_exact Y f0 Ye V hR hcol hV hVY hadd
  rw [← hsum']
  refine Finset.sum_congr rfl fun j hj => ?_
  have h1 := hS j (mem_range.mp hj)
  rw [hS' j (mem_range.mp hj)] at h1
  exact (Option.some.inj h1).symm

/-! ### C58 -/

/-- The number of columns a term of a given order has. -/
def Spec.termColumns (p : Nat) (ext : Bool) : Nat → Nat
  | 1 => p
  | 2 => p ^ 2 + (if ext then 2 * p else 0)
  | 3 => p ^ 3 + (if ext then 3 * p + 3 * p ^ 2 else 0)
  | _ => 0

theorem ehFTest_term (fppf : Nat → Nat → Option α) (Y : List α) (Ye : List (List α)) (subset d p o : Nat) (ext : Bool)
    (i : Nat) (c : List Nat) (hc : (hdmrTerms d o)[i]? = some c) :
    (ehFTest fppf Y Ye subset d p o ext)[i]? =
      some (fAccept fppf subset (Spec.termColumns p ext c.length) (sqNorm Y) (sqNorm (vecSub Y (Ye.getD i [])))) := by
  have hi : i < (hdmrTerms d o).length := (List.getElem?_eq_some_iff.mp hc).1
  have hi' : i < (ehNc d o).1 + (ehNc d o).2.1 + (ehNc d o).2.2 := by
    rw [ehNc_eq]; simp [hdmrTerms] at hi; simp only []; omega
  unfold ehFTest
  simp only [List.getElem?_map, List.getElem?_range hi', Option.map_some]
  congr 2
  unfold ehCoeffs
  rw [ehNc_eq]
  simp only []
  unfold hdmrTerms at hc
  by_cases ha : i < d
  · rw [if_pos ha]
    rw [List.append_assoc, List.getElem?_append_left (by simpa using ha)] at hc
    simp [ha] at hc
    rw [← hc]; rfl
  · rw [if_neg ha]
    by_cases hb : i < d + (hdmrC2 d o).length
    · rw [if_pos ⟨by omega, hb⟩]
      rw [List.append_assoc, List.getElem?_append_right (by simpa using ha),
        List.getElem?_append_left (by simp; omega)] at hc
      have hm := List.mem_of_getElem? hc
      rw [(mem_hdmrC2 d o c hm).2.2]
      have ho : o > 1 := by
        by_contra h
        unfold hdmrC2 at hm
        rw [if_neg h] at hm
        simp at hm
      simp [ehNt, ho, Spec.termColumns]
    · rw [if_neg (by omega)]
      rw [List.getElem?_append_right (by simp; omega)] at hc
      have hm := List.mem_of_getElem? hc
      rw [(mem_hdmrC3 d o c hm).2.2]
      have ho : o = 3 := by
        by_contra h
        unfold hdmrC3 at hm
        rw [if_neg h] at hm
        simp at hm
      simp [ehNt, ho, Spec.termColumns]

/-- **C58** for `enhanced_hdmr`: every term is selected exactly when it passes the F-test with the number of columns of
its own order. -/
theorem C58_enhanced (fppf : Nat → Nat → Option α) (Y : List α) (Ye : List (List α)) (subset d p o : Nat) (ext : Bool)
    (hp : 0 < p) (i : Nat) (c : List Nat) (hc : (hdmrTerms d o)[i]? = some c) (hY : (Ye.getD i []).length = Y.length) :
    ∃ b, (ehFTest fppf Y Ye subset d p o ext)[i]? = some b ∧
      (b = true ↔ Significant fppf subset (termColumns p ext c.length) Y.length (fun t => Y.getD t 0)
        fun t => (Ye.getD i []).getD t 0) := by
  refine ⟨_, ehFTest_term fppf Y Ye subset d p o ext i c hc, fAccept_iff fppf subset _ ?_ Y _ hY⟩
  have hm := List.mem_of_getElem? hc
  have hl : c.length = 1 ∨ c.length = 2 ∨ c.length = 3 := by
    unfold hdmrTerms at hm
    rcases List.mem_append.mp hm with hm | hm
    · rcases List.mem_append.mp hm with hm | hm
      · obtain ⟨i, -, rfl⟩ := List.mem_map.mp hm
        exact Or.inl rfl
      · exact Or.inr (Or.inl (mem_hdmrC2 d o c hm).2.2)
    · exact Or.inr (Or.inr (mem_hdmrC3 d o c hm).2.2)
  rcases hl with h | h | h <;> rw [h] <;> simp only [termColumns] <;> positivity

/-- A term with one coefficient, four rows: a fit that halves the outputs passes for the critical value 2, a fit that
doubles them does not. -/
example : Significant (fun _ _ => some 2) 4 1 4 (fun t => [1, -1, 1, (-1 : ℚ)].getD t 0) (fun t => [1, -1, 1, (-1 : ℚ)].getD t 0 / 2) ∧
    ¬Significant (fun _ _ => some 2) 4 1 4 (fun t => [1, -1, 1, (-1 : ℚ)].getD t 0) (fun t => 2 * [1, -1, 1, (-1 : ℚ)].getD t 0) := by
  constructor
  · refine ⟨by norm_num, 2, rfl, ?_⟩
    simp [Finset.sum_range_succ]
    norm_num
  · rintro ⟨-, c, hc, h⟩
    obtain rfl := Option.some.inj hc
    simp [Finset.sum_range_succ] at h
    norm_num at h

example : (hdmrTerms 3 3)[3]? = some [0, 1] ∧ ehCoeffs 3 2 3 true 3 = 8 ∧ ehCoeffs 3 2 3 true 6 = 26 := by
  decide +kernel

end SALib
