import Verif.Model.Hdmr
import Verif.Lemmas.Combos
import Verif.Lemmas.Stats
import Mathlib.Tactic.IntervalCases

/-! # HDMR: terms, labels, total indices, F-test (C56, C58) -/

set_option linter.unusedSectionVars false

namespace SALib

variable {α : Type} [Field α] [LinearOrder α] [IsStrictOrderedRing α]

namespace Spec

/-- A non-empty set of parameters of size at most `o`, written in ascending order. -/
def IsTerm (d o : Nat) (c : List Nat) : Prop :=
  c.Pairwise (· < ·) ∧ (∀ i ∈ c, i < d) ∧ 1 ≤ c.length ∧ c.length ≤ o

/-- Terms come by size, and within a size lexicographically. -/
def TermBefore (a b : List Nat) : Prop := a.length < b.length ∨ (a.length = b.length ∧ List.Lex (· < ·) a b)

/-- The label of a term: the names joined by slashes. -/
def termLabel (names : List String) (c : List Nat) : String := "/".intercalate (c.map fun i => names.getD i "")

/-- What C56 asks of the list of terms, its labels and the rows added up for the total index of a parameter. -/
structure GoodTerms (names : List String) (d o : Nat) (terms : List (List Nat)) (labels : List String)
    (rows : Nat → List Nat) : Prop where
  once : terms.Nodup
  all : ∀ c, c ∈ terms ↔ IsTerm d o c
  sorted : terms.Pairwise TermBefore
  label : labels = terms.map (termLabel names)
  total : ∀ r < d, (rows r).Nodup ∧ ∀ i, i ∈ rows r ↔ ∃ c, terms[i]? = some c ∧ r ∈ c

end Spec

open Spec

theorem combinations_lex (k : Nat) (l : List Nat) (h : l.Pairwise (· < ·)) :
    (combinations k l).Pairwise (List.Lex (· < ·)) := by
  induction l generalizing k with
  | nil => cases k <;> simp [combinations]
  | cons x xs ih =>
    cases k with
    | zero => simp [combinations]
    | succ k =>
      rw [combinations, List.pairwise_append]
      have h' := List.pairwise_cons.mp h
      refine ⟨?_, ih (k + 1) h'.2, ?_⟩
      · rw [List.pairwise_map]
        exact (ih k h'.2).imp fun hab => List.Lex.cons hab
      · intro a ha b hb
        obtain ⟨c, -, rfl⟩ := List.mem_map.mp ha
        rw [mem_combinations] at hb
        cases b with
        | nil => simp at hb
        | cons y ys =>
          exact List.Lex.rel (h'.1 y (hb.1.subset (by simp)))

theorem lex_irrefl (c : List Nat) : ¬List.Lex (· < ·) c c := by
  induction c with
  | nil => intro h; cases h
  | cons x xs ih =>
    intro h
    cases h with
    | rel h => exact absurd h (lt_irrefl _)
    | cons h => exact ih h

theorem filter_range_append {β : Type} (l1 l2 : List β) (d : β) (p : β → Bool) :
    (List.range (l1 ++ l2).length).filter (fun i => p ((l1 ++ l2).getD i d)) =
      (List.range l1.length).filter (fun i => p (l1.getD i d)) ++
        ((List.range l2.length).filter fun i => p (l2.getD i d)).map (l1.length + ·) := by
  rw [List.length_append, List.range_add, List.filter_append, List.filter_map]
  congr 1
  · apply List.filter_congr
    intro i hi
    rw [List.getD, List.getElem?_append_left (List.mem_range.mp hi), List.getD]
  · congr 1
    apply List.filter_congr
    intro i _
    simp only [Function.comp]
    rw [List.getD, List.getElem?_append_right (by omega), Nat.add_sub_cancel_left, List.getD]

/-- The list of terms. -/
def hdmrTerms (d o : Nat) : List (List Nat) := (List.range d).map (fun i => [i]) ++ hdmrC2 d o ++ hdmrC3 d o

theorem hdmrTerms_mem (d o : Nat) (ho : 1 ≤ o) (ho3 : o ≤ 3) (c : List Nat) : c ∈ hdmrTerms d o ↔ IsTerm d o c := by
  have hc : ∀ k, c ∈ combinations k (List.range d) ↔ c.Pairwise (· < ·) ∧ (∀ i ∈ c, i < d) ∧ c.length = k := by
    intro k
    constructor
    · exact combinations_range_sorted d k c
    · rintro ⟨h1, h2, h3⟩
      have hs := sort_mem_combinations d c (h1.imp fun h => h.ne) h2
      have he : c.insertionSort (· ≤ ·) = c := (h1.imp fun h => h.le).insertionSort_eq
      rwa [he, h3] at hs
  have h1 : c ∈ (List.range d).map (fun i => [i]) ↔ c.Pairwise (· < ·) ∧ (∀ i ∈ c, i < d) ∧ c.length = 1 := by
    rw [← hc, combinations_one]
  unfold hdmrTerms IsTerm hdmrC2 hdmrC3
  rw [List.mem_append, List.mem_append, h1]
  interval_cases o
  · simp only [gt_iff_lt, lt_self_iff_false, if_false, List.not_mem_nil, or_false, OfNat.one_ne_ofNat]
    constructor
    · rintro ⟨a, b, e⟩; exact ⟨a, b, by omega, by omega⟩
    · rintro ⟨a, b, e, f⟩; exact ⟨a, b, by omega⟩
  · simp only [gt_iff_lt, Nat.one_lt_ofNat, if_true, Nat.reduceEqDiff, if_false, List.not_mem_nil, or_false, hc]
    constructor
    · rintro (⟨a, b, e⟩ | ⟨a, b, e⟩) <;> exact ⟨a, b, by omega, by omega⟩
    · rintro ⟨a, b, e, f⟩
      rcases (show c.length = 1 ∨ c.length = 2 by omega) with h | h
      · exact Or.inl ⟨a, b, h⟩
      · exact Or.inr ⟨a, b, h⟩
  · simp only [gt_iff_lt, Nat.one_lt_ofNat, if_true, hc]
    constructor
    · rintro ((⟨a, b, e⟩ | ⟨a, b, e⟩) | ⟨a, b, e⟩) <;> exact ⟨a, b, by omega, by omega⟩
    · rintro ⟨a, b, e, f⟩
      rcases (show c.length = 1 ∨ c.length = 2 ∨ c.length = 3 by omega) with h | h | h
      · exact Or.inl (Or.inl ⟨a, b, h⟩)
      · exact Or.inl (Or.inr ⟨a, b, h⟩)
      · exact Or.inr ⟨a, b, h⟩

theorem mem_hdmrC2 (d o : Nat) (c : List Nat) (h : c ∈ hdmrC2 d o) :
    c.Pairwise (· < ·) ∧ (∀ i ∈ c, i < d) ∧ c.length = 2 := by
  unfold hdmrC2 at h
  split at h
  · exact combinations_range_sorted d 2 c h
  · simp at h

theorem mem_hdmrC3 (d o : Nat) (c : List Nat) (h : c ∈ hdmrC3 d o) :
    c.Pairwise (· < ·) ∧ (∀ i ∈ c, i < d) ∧ c.length = 3 := by
  unfold hdmrC3 at h
  split at h
  · exact combinations_range_sorted d 3 c h
  · simp at h

theorem hdmrTerms_sorted (d o : Nat) : (hdmrTerms d o).Pairwise TermBefore := by
  have key : ∀ k (l : List (List Nat)), (∀ c ∈ l, c.length = k) → l.Pairwise (List.Lex (· < ·)) →
      l.Pairwise TermBefore := by
    intro k l hl hp
    rw [List.pairwise_iff_getElem] at hp ⊢
    intro i j hi hj hij
    exact Or.inr ⟨by rw [hl _ (List.getElem_mem hi), hl _ (List.getElem_mem hj)], hp i j hi hj hij⟩
  unfold hdmrTerms
  rw [List.pairwise_append, List.pairwise_append]
  have h1 : ∀ c ∈ (List.range d).map (fun i => [i]), c.length = 1 := by
    intro c hc
    obtain ⟨i, -, rfl⟩ := List.mem_map.mp hc
    rfl
  have h2 : ∀ c ∈ hdmrC2 d o, c.length = 2 := fun c hc => (mem_hdmrC2 d o c hc).2.2
  have h3 : ∀ c ∈ hdmrC3 d o, c.length = 3 := fun c hc => (mem_hdmrC3 d o c hc).2.2
  refine ⟨⟨key 1 _ h1 ?_, key 2 _ h2 ?_, ?_⟩, key 3 _ h3 ?_, ?_⟩
  · rw [← combinations_one]
    exact combinations_lex 1 _ List.pairwise_lt_range
  · unfold hdmrC2
    split
    · exact combinations_lex 2 _ List.pairwise_lt_range
    · simp
  · intro a ha b hb
    exact Or.inl (by rw [h1 a ha, h2 b hb]; omega)
  · unfold hdmrC3
    split
    · exact combinations_lex 3 _ List.pairwise_lt_range
    · simp
  · intro a ha b hb
    rcases List.mem_append.mp ha with ha | ha
    · exact Or.inl (by rw [h1 a ha, h3 b hb]; omega)
    · exact Or.inl (by rw [h2 a ha, h3 b hb]; omega)

theorem termBefore_irrefl (c : List Nat) : ¬TermBefore c c := by
  rintro (h | ⟨-, h⟩)
  · omega
  · exact lex_irrefl c h

theorem hdmrTerms_nodup (d o : Nat) : (hdmrTerms d o).Nodup := by
  refine List.Pairwise.imp ?_ (hdmrTerms_sorted d o)
  intro a b h e
  exact termBefore_irrefl b (e ▸ h)

theorem whereOnce_eq (c : List (List Nat)) (r : Nat) (hc : ∀ x ∈ c, x.Nodup) :
    whereOnce c r = (List.range c.length).filter fun i => decide (r ∈ c.getD i []) := by
  unfold whereOnce
  apply List.filter_congr
  intro i hi
  have hi := List.mem_range.mp hi
  have hn : (c.getD i []).Nodup := by
    rw [List.getD, List.getElem?_eq_getElem hi]
    exact hc _ (List.getElem_mem hi)
  congr 1
  rw [eq_iff_iff]
  constructor
  · intro h
    exact List.count_pos_iff.mp (by omega)
  · intro h
    exact List.count_eq_one_of_mem hn h

theorem hdmrTotalRows_eq (d o r : Nat) (ho : 1 ≤ o) (ho3 : o ≤ 3) (hr : r < d) :
    hdmrTotalRows d o r =
      (List.range (hdmrTerms d o).length).filter fun i => decide (r ∈ (hdmrTerms d o).getD i []) := by
  have hsingle : (List.range ((List.range d).map (fun i => [i])).length).filter
      (fun i => decide (r ∈ ((List.range d).map (fun i => [i])).getD i [])) = [r] := by
    have e : ∀ i ∈ List.range d, decide (r ∈ ((List.range d).map (fun i => [i])).getD i []) = decide (i = r) := by
      intro i hi
      have hi := List.mem_range.mp hi
      simp [List.getD, hi, eq_comm]
    rw [List.length_map, List.length_range, List.filter_congr e]
    clear e ho ho3
    induction d with
    | zero => omega
    | succ d ih =>
      rw [List.range_succ, List.filter_append]
      by_cases h : r = d
      · subst h
        have : (List.range r).filter (fun i => decide (i = r)) = [] := by
          rw [List.filter_eq_nil_iff]
          intro a ha
          have := List.mem_range.mp ha
          simp; omega
        rw [this]
        simp
      · rw [ih (by omega)]
        have : ¬d = r := fun e => h e.symm
        simp [this]
  unfold hdmrTerms
  have hf := fun l1 l2 : List (List Nat) => filter_range_append l1 l2 [] fun c => decide (r ∈ c)
  rw [hf, hf, hsingle,
    ← whereOnce_eq _ r (fun x hx => (mem_hdmrC2 d o x hx).1.imp fun h => h.ne),
    ← whereOnce_eq _ r (fun x hx => (mem_hdmrC3 d o x hx).1.imp fun h => h.ne)]
  unfold hdmrTotalRows
  simp only [List.length_append, List.length_map, List.length_range]
  interval_cases o
  · simp [hdmrC2, hdmrC3, whereOnce]
  · simp [hdmrC3, whereOnce]
  · simp

theorem hdmrLabels_eq (names : List String) (d o : Nat) (hn : d ≤ names.length) :
    hdmrLabels names d o = .ok ((hdmrTerms d o).map (termLabel names)) := by
  have hget : ∀ i, i < d → pyGet names i = .ok (names.getD i "") := by
    intro i hi
    simp [pyGet, List.getD, show i < names.length by omega]
  unfold hdmrLabels hdmrTerms
  rw [mapM_ok_of _ (fun i => names.getD i "") _ fun i hi => hget i (List.mem_range.mp hi)]
  simp only [pyBind_ok]
  rw [mapM_ok_of _ (termLabel names) (hdmrC2 d o)]
  · simp only [pyBind_ok]
    rw [mapM_ok_of _ (termLabel names) (hdmrC3 d o)]
    · simp only [pyBind_ok, pyPure]
      rw [List.map_append, List.map_append, List.map_map]
      rfl
    · intro c hc
      obtain ⟨-, h2, h3⟩ := mem_hdmrC3 d o c hc
      match c, h3 with
      | [x, y, z], _ =>
        simp only [List.getD_cons_zero, List.getD_cons_succ]
        rw [hget x (h2 x (by simp)), hget y (h2 y (by simp)), hget z (h2 z (by simp))]
        rfl
  · intro c hc
    obtain ⟨-, h2, h3⟩ := mem_hdmrC2 d o c hc
    match c, h3 with
    | [x, y], _ =>
      simp only [List.getD_cons_zero, List.getD_cons_succ]
      rw [hget x (h2 x (by simp)), hget y (h2 y (by simp))]
      rfl

/-- **C56** for `hdmr`: all subsets up to the order, once, by size and then lexicographically, labelled by their
names; the total index of a parameter adds up exactly the rows of the terms containing it. -/
theorem C56_hdmr (names : List String) (d o : Nat) (ho : 1 ≤ o) (ho3 : o ≤ 3) (hn : d ≤ names.length) :
    ∃ terms labels, hdmrLabels names d o = .ok labels ∧ terms.length = hdmrN d o ∧
      GoodTerms names d o terms labels (hdmrTotalRows d o) := by
  refine ⟨hdmrTerms d o, _, hdmrLabels_eq names d o hn, by simp [hdmrTerms, hdmrN]; omega, ?_⟩
  refine ⟨hdmrTerms_nodup d o, hdmrTerms_mem d o ho ho3, hdmrTerms_sorted d o, rfl, ?_⟩
  intro r hr
  rw [hdmrTotalRows_eq d o r ho ho3 hr]
  refine ⟨List.nodup_range.filter _, fun i => ?_⟩
  rw [List.mem_filter, List.mem_range, decide_eq_true_iff]
  constructor
  · rintro ⟨hi, hm⟩
    rw [List.getD, List.getElem?_eq_getElem hi] at hm
    exact ⟨_, List.getElem?_eq_getElem hi, hm⟩
  · rintro ⟨c, hc, hm⟩
    refine ⟨(List.getElem?_eq_some_iff.mp hc).1, ?_⟩
    rw [List.getD, hc]
    exact hm

/-- The total index reported for parameter `r` is the mean over the bootstrap of the sum of the indices of all
terms containing `r`. -/
theorem C56_total_value (sqrt : α → α) (mult : α) (d o r : Nat) (S : List (List α)) (ho : 1 ≤ o) (ho3 : o ≤ 3)
    (hr : r < d) (hS : S ≠ []) :
    (hdmrST sqrt mult d o r S).1 = some ((S.map fun col =>
      (((List.range (hdmrTerms d o).length).filter fun i => decide (r ∈ (hdmrTerms d o).getD i [])).map
        fun i => col.getD i 0).sum).sum / (S.length : α)) := by
  unfold hdmrST hdmrTS
  rw [npMean_some _ (by simpa using hS), hdmrTotalRows_eq d o r ho ho3 hr, List.length_map]

/-- Three parameters, third order. -/
example : hdmrLabels ["a", "b", "c"] 3 3 = .ok ["a", "b", "c", "a/b", "a/c", "b/c", "a/b/c"] ∧
    hdmrTotalRows 3 3 1 = [1, 3, 5, 6] ∧ hdmrN 3 3 = 7 := by decide +kernel

/-! ### C58 -/

/-- The F-test for adding to the zero model a term with `p` coefficients that fits `y t` by `fit t` at `R` rows: the
statistic `((SSR0 - SSR1) / p) / (SSR1 / (R - p))` exceeds the critical value of the F distribution with `p` and `R - p`
degrees of freedom (written without division; an exact fit of outputs that are not all zero passes). -/
def Spec.Significant (crit : Nat → Nat → Option α) (R p n : Nat) (y fit : Nat → α) : Prop :=
  p < R ∧ ∃ c, crit p (R - p) = some c ∧
    c * (p * ∑ t ∈ Finset.range n, (y t - fit t) ^ 2) <
      ((R : α) - p) * (∑ t ∈ Finset.range n, y t ^ 2 - ∑ t ∈ Finset.range n, (y t - fit t) ^ 2)

theorem sqNorm_eq (u : List α) : sqNorm u = ∑ t ∈ Finset.range u.length, u.getD t 0 ^ 2 := by
  unfold sqNorm
  induction u with
  | nil => simp
  | cons x xs ih =>
    rw [List.map_cons, List.sum_cons, ih, List.length_cons, Finset.sum_range_succ']
    simp [add_comm, sq]

theorem sqNorm_vecSub (u v : List α) (h : v.length = u.length) :
    sqNorm (vecSub u v) = ∑ t ∈ Finset.range u.length, (u.getD t 0 - v.getD t 0) ^ 2 := by
  rw [sqNorm_eq]
  have hl : (vecSub u v).length = u.length := by simp [vecSub, h]
  rw [hl]
  refine Finset.sum_congr rfl fun t ht => ?_
  have ht := Finset.mem_range.mp ht
  have ht' : t < v.length := by omega
  congr 1
  simp [vecSub, List.getD, ht, ht']

theorem fAccept_iff (fppf : Nat → Nat → Option α) (R p : Nat) (hp : 0 < p) (u v : List α) (h : v.length = u.length) :
    fAccept fppf R p (sqNorm u) (sqNorm (vecSub u v)) = true ↔
      Spec.Significant fppf R p u.length (fun t => u.getD t 0) (fun t => v.getD t 0) := by
  have h0 := sqNorm_eq u
  have h1 := sqNorm_vecSub u v h
  have hn : 0 ≤ sqNorm (vecSub u v) := by rw [h1]; exact Finset.sum_nonneg fun _ _ => sq_nonneg _
  unfold Spec.Significant fAccept
  rw [← h0, ← h1]
  by_cases hR : R ≤ p
  · rw [if_pos hR]
    simp only [Bool.false_eq_true, false_iff]
    rintro ⟨hlt, -⟩
    omega
  rw [if_neg hR]
  have hpR : p < R := by omega
  have hpα : (0 : α) < p := by exact_mod_cast hp
  have hRp : (0 : α) < (R : α) - p := by
    have : (p : α) < R := by exact_mod_cast hpR
    linarith
  cases hc : fppf p (R - p) with
  | none => simp
  | some c =>
    simp only [hpR, true_and, Option.some.injEq, exists_eq_left']
    by_cases hs : sqNorm (vecSub u v) = 0
    · rw [if_pos hs, hs]
      rw [decide_eq_true_iff, mul_zero, mul_zero, sub_zero]
      exact (mul_pos_iff_of_pos_left hRp).symm
    · rw [if_neg hs, decide_eq_true_iff, Nat.cast_sub hpR.le]
      have hpos : 0 < sqNorm (vecSub u v) := lt_of_le_of_ne hn (Ne.symm hs)
      rw [div_div, lt_div_iff₀ (by positivity)]
      have e : (p : α) * (sqNorm (vecSub u v) / ((R : α) - p)) = (p * sqNorm (vecSub u v)) / ((R : α) - p) := by ring
      rw [e, ← mul_div_assoc, div_lt_iff₀ hRp]
      constructor <;> intro h <;> nlinarith

theorem centred_test (fppf : Nat → Nat → Option α) (R p : Nat) (hp : 0 < p) (Y : List α) (f0 : α) (v : List α)
    (h : v.length = Y.length) :
    fAccept fppf R p (sqNorm (Y.map fun y => y - f0)) (sqNorm (vecSub (Y.map fun y => y - f0) v)) = true ↔
      Spec.Significant fppf R p Y.length (fun t => Y.getD t 0 - f0) (fun t => v.getD t 0) := by
  rw [fAccept_iff fppf R p hp _ v (by simpa using h), List.length_map]
  unfold Spec.Significant
  have e : ∀ t ∈ Finset.range Y.length, (Y.map fun y => y - f0).getD t 0 = Y.getD t 0 - f0 := fun t ht => by
    have ht := Finset.mem_range.mp ht
    simp [List.getD, ht]
  have e1 : ∑ t ∈ Finset.range Y.length, ((Y.map fun y => y - f0).getD t 0 - v.getD t 0) ^ 2 =
      ∑ t ∈ Finset.range Y.length, (Y.getD t 0 - f0 - v.getD t 0) ^ 2 :=
    Finset.sum_congr rfl fun t ht => by rw [e t ht]
  have e2 : ∑ t ∈ Finset.range Y.length, (Y.map fun y => y - f0).getD t 0 ^ 2 =
      ∑ t ∈ Finset.range Y.length, (Y.getD t 0 - f0) ^ 2 :=
    Finset.sum_congr rfl fun t ht => by rw [e t ht]
  simp only [e1, e2]

theorem hdmrFTest_term (fppf : Nat → Nat → Option α) (Y : List α) (f0 : α) (Yem : List (List α)) (R m d o : Nat)
    (hlen : Yem.length = hdmrN d o) (i : Nat) (c : List Nat) (hc : (hdmrTerms d o)[i]? = some c)
    (h1 : i ≠ d) (h2 : i ≠ d + (hdmrC2 d o).length) :
    (hdmrFTest fppf Y f0 Yem R (m + 3) ((m + 3) ^ 2) ((m + 3) ^ 3) d (hdmrC2 d o).length)[i]? =
      some (fAccept fppf R ((m + 3) ^ c.length) (sqNorm (Y.map fun y => y - f0))
        (sqNorm (vecSub (Y.map fun y => y - f0) (Yem.getD i [])))) := by
  have hi : i < (hdmrTerms d o).length := (List.getElem?_eq_some_iff.mp hc).1
  have hi' : i < Yem.length := by
    rw [hlen]; simp [hdmrTerms] at hi; unfold hdmrN; omega
  unfold hdmrFTest
  simp only [List.getElem?_map, List.getElem?_range hi', Option.map_some]
  congr 2
  unfold fTestCoeffs
  unfold hdmrTerms at hc
  by_cases ha : i < d
  · rw [if_pos ha.le]
    rw [List.append_assoc, List.getElem?_append_left (by simpa using ha)] at hc
    simp [ha] at hc
    rw [← hc]; simp
  · rw [if_neg (by omega)]
    by_cases hb : i < d + (hdmrC2 d o).length
    · rw [if_pos ⟨by omega, hb.le⟩]
      rw [List.append_assoc, List.getElem?_append_right (by simpa using ha),
        List.getElem?_append_left (by simp; omega)] at hc
      rw [(mem_hdmrC2 d o c (List.mem_of_getElem? hc)).2.2]
    · rw [if_neg (by omega)]
      rw [List.getElem?_append_right (by simp; omega)] at hc
      rw [(mem_hdmrC3 d o c (List.mem_of_getElem? hc)).2.2]

/-- **C58** for `hdmr`, as far as it holds: apart from the first second-order term and the first third-order term,
each term is selected exactly when it passes the F-test with `(m+3)^order` coefficients, `order` being its own order. -/
theorem C58_hdmr_partial (fppf : Nat → Nat → Option α) (Y : List α) (f0 : α) (Yem : List (List α)) (R m d o : Nat)
    (hlen : Yem.length = hdmrN d o) (i : Nat) (c : List Nat) (hc : (hdmrTerms d o)[i]? = some c)
    (hY : (Yem.getD i []).length = Y.length) (h1 : i ≠ d) (h2 : i ≠ d + (hdmrC2 d o).length) :
    ∃ b, (hdmrFTest fppf Y f0 Yem R (m + 3) ((m + 3) ^ 2) ((m + 3) ^ 3) d (hdmrC2 d o).length)[i]? = some b ∧
      (b = true ↔ Spec.Significant fppf R ((m + 3) ^ c.length) Y.length (fun t => Y.getD t 0 - f0)
        fun t => (Yem.getD i []).getD t 0) :=
  ⟨_, hdmrFTest_term fppf Y f0 Yem R m d o hlen i c hc h1 h2, centred_test fppf R _ (by positivity) Y f0 _ hY⟩

/-- **C58 fails** for `hdmr`: the first second-order term is tested with the number of coefficients of a
first-order term, and the first third-order term with that of a second-order term. -/
theorem C58_hdmr_fail (fppf : Nat → Nat → Option α) (Y : List α) (f0 : α) (Yem : List (List α)) (R m d o : Nat)
    (hlen : Yem.length = hdmrN d o) (hY : ∀ i < hdmrN d o, (Yem.getD i []).length = Y.length) (hd : 2 ≤ d) (ho : 2 ≤ o) :
    (∃ b, (hdmrFTest fppf Y f0 Yem R (m + 3) ((m + 3) ^ 2) ((m + 3) ^ 3) d (hdmrC2 d o).length)[d]? = some b ∧
      (b = true ↔ Spec.Significant fppf R (m + 3) Y.length (fun t => Y.getD t 0 - f0) fun t => (Yem.getD d []).getD t 0)) ∧
    (∃ c, (hdmrTerms d o)[d]? = some c ∧ c.length = 2) ∧
    (3 ≤ d → o = 3 →
      (∃ b, (hdmrFTest fppf Y f0 Yem R (m + 3) ((m + 3) ^ 2) ((m + 3) ^ 3) d
        (hdmrC2 d o).length)[d + (hdmrC2 d o).length]? = some b ∧
        (b = true ↔ Spec.Significant fppf R ((m + 3) ^ 2) Y.length (fun t => Y.getD t 0 - f0)
          fun t => (Yem.getD (d + (hdmrC2 d o).length) []).getD t 0)) ∧
      ∃ c, (hdmrTerms d o)[d + (hdmrC2 d o).length]? = some c ∧ c.length = 3) := by
  have hpos : 0 < (hdmrC2 d o).length := by
    unfold hdmrC2
    rw [if_pos (by omega), length_combinations, List.length_range]
    exact Nat.choose_pos hd
  have hlen' : d < Yem.length := by rw [hlen]; unfold hdmrN; omega
  refine ⟨⟨_, ?_, centred_test fppf R _ (by omega) Y f0 _ (hY d (by rw [← hlen]; exact hlen'))⟩, ?_, ?_⟩
  · unfold hdmrFTest
    simp [List.getElem?_range hlen', fTestCoeffs]
  · refine ⟨(hdmrC2 d o)[0], ?_, (mem_hdmrC2 d o _ (List.getElem_mem hpos)).2.2⟩
    unfold hdmrTerms
    rw [List.append_assoc, List.getElem?_append_right (by simp), List.getElem?_append_left (by simpa using hpos)]
    simp
  · intro hd3 ho3
    have hpos3 : 0 < (hdmrC3 d o).length := by
      unfold hdmrC3
      rw [if_pos ho3, length_combinations, List.length_range]
      exact Nat.choose_pos hd3
    have hlen3 : d + (hdmrC2 d o).length < Yem.length := by rw [hlen]; unfold hdmrN; omega
    refine ⟨⟨_, ?_, centred_test fppf R _ (by positivity) Y f0 _ (hY _ (by rw [← hlen]; exact hlen3))⟩, (hdmrC3 d o)[0], ?_, (mem_hdmrC3 d o _ (List.getElem_mem hpos3)).2.2⟩
    · unfold hdmrFTest
      simp only [List.getElem?_map, List.getElem?_range hlen3, Option.map_some, fTestCoeffs]
      rw [if_neg (by omega), if_pos ⟨by omega, le_rfl⟩]
    · unfold hdmrTerms
      rw [List.getElem?_append_right (by simp)]
      simp

end SALib
