import Verif.Model.Delta
import Verif.Lemmas.ListAux
import Verif.Lemmas.Stats
import Mathlib.Tactic.FieldSimp
import Mathlib.Tactic.Linarith
import Mathlib.Data.List.Pairwise

/-! # Delta method: classes and resampling (C50, C52) -/

set_option linter.unusedSectionVars false

namespace SALib

variable {α : Type} [Field α] [LinearOrder α] [IsStrictOrderedRing α]

/-! ### Merging -/

theorem mergeFrom_flatten (minSize : Nat) (cur : List Nat) (rest : List (List Nat)) :
    (mergeFrom minSize cur rest).flatten = cur ++ rest.flatten := by
  induction rest generalizing cur with
  | nil => simp [mergeFrom]
  | cons b rest ih =>
    unfold mergeFrom
    split
    · rw [ih]; simp
    · rw [List.flatten_cons, ih]; simp

theorem mergeFrom_ne_nil (minSize : Nat) (cur : List Nat) (rest : List (List Nat)) :
    mergeFrom minSize cur rest ≠ [] := by
  induction rest generalizing cur with
  | nil => simp [mergeFrom]
  | cons b rest ih =>
    unfold mergeFrom
    split
    · exact ih _
    · simp

theorem mergeFrom_size (minSize : Nat) (cur : List Nat) (rest : List (List Nat)) :
    ∀ b ∈ (mergeFrom minSize cur rest).dropLast, minSize ≤ b.length := by
  induction rest generalizing cur with
  | nil => simp [mergeFrom]
  | cons b rest ih =>
    unfold mergeFrom
    split
    · exact ih _
    · rename_i h
      rw [List.dropLast_cons_of_ne_nil (mergeFrom_ne_nil _ _ _)]
      intro c hc
      rcases List.mem_cons.mp hc with rfl | hc
      · omega
      · exact ih _ c hc

/-- The last class contains the last bin. -/
theorem mergeFrom_last (minSize : Nat) (cur : List Nat) (rest : List (List Nat)) (last : List Nat)
    (h : (cur :: rest).getLast? = some last) :
    ∃ c, (mergeFrom minSize cur rest).getLast? = some c ∧ ∀ i ∈ last, i ∈ c := by
  induction rest generalizing cur with
  | nil =>
    simp at h
    subst h
    exact ⟨cur, by simp [mergeFrom], fun _ h => h⟩
  | cons b rest ih =>
    have h' : (b :: rest).getLast? = some last := by rw [← h]; simp [List.getLast?_cons_cons]
    unfold mergeFrom
    split
    · by_cases hr : rest = []
      · subst hr
        simp at h'
        subst h'
        exact ⟨cur ++ b, by simp [mergeFrom], fun i hi => List.mem_append_right _ hi⟩
      · apply ih
        obtain ⟨x, xs, rfl⟩ := List.exists_cons_of_ne_nil hr
        rw [List.getLast?_cons_cons] at h' ⊢
        exact h'
    · obtain ⟨c, hc, hcl⟩ := ih b h'
      refine ⟨c, ?_, hcl⟩
      rw [List.getLast?_cons, hc]
      rfl

/-! ### Bins -/

theorem mem_whereIdx (X : List α) (p : α → Bool) (i : Nat) :
    i ∈ whereIdx X p ↔ ∃ x, X[i]? = some x ∧ p x = true := by
  unfold whereIdx
  rw [List.mem_filter, List.mem_range]
  constructor
  · rintro ⟨h, hp⟩
    rw [List.getD, List.getElem?_eq_getElem h] at hp
    exact ⟨X[i], List.getElem?_eq_getElem h, hp⟩
  · rintro ⟨x, hx, hp⟩
    refine ⟨(List.getElem?_eq_some_iff.mp hx).1, ?_⟩
    rw [List.getD, hx]; exact hp

theorem nodup_whereIdx (X : List α) (p : α → Bool) : (whereIdx X p).Nodup :=
  List.Nodup.filter _ List.nodup_range

theorem getD_mono (edges : List α) (hs : edges.Pairwise (· ≤ ·)) (i k : Nat) (hik : i ≤ k)
    (hk : k < edges.length) : edges.getD i 0 ≤ edges.getD k 0 := by
  rw [List.getD, List.getD, List.getElem?_eq_getElem (by omega), List.getElem?_eq_getElem hk]
  rcases Nat.eq_or_lt_of_le hik with rfl | h
  · exact le_refl _
  · exact List.pairwise_iff_getElem.mp hs i k (by omega) hk h

theorem initBins_getElem (edges X : List α) (c : Nat) (h : c < edges.length - 1) :
    (initBins edges X)[c]? = some (whereIdx X fun x =>
      (if c = 0 then decide (edges.getD c 0 ≤ x) else decide (edges.getD c 0 < x)) &&
        decide (x ≤ edges.getD (c + 1) 0)) := by
  unfold initBins
  rw [List.getElem?_map, List.getElem?_range h, Option.map_some]
  split <;> simp_all

/-- Every sample between the outer edges is in exactly one bin. -/
theorem initBins_spec (edges X : List α) (h2 : 2 ≤ edges.length) (hs : edges.Pairwise (· ≤ ·)) :
    (initBins edges X).flatten.Nodup ∧ ∀ i, i ∈ (initBins edges X).flatten ↔
      ∃ x, X[i]? = some x ∧ edges.getD 0 0 ≤ x ∧ x ≤ edges.getD (edges.length - 1) 0 := by
  have hlen : (initBins edges X).length = edges.length - 1 := by simp [initBins]
  constructor
  · rw [List.nodup_flatten]
    constructor
    · intro l hl
      unfold initBins at hl
      obtain ⟨c, -, rfl⟩ := List.mem_map.mp hl
      split <;> exact nodup_whereIdx _ _
    · rw [List.pairwise_iff_getElem]
      intro c d hc hd hcd
      have e1 := initBins_getElem edges X c (by omega)
      have e2 := initBins_getElem edges X d (by omega)
      rw [List.getElem?_eq_getElem hc, Option.some.injEq] at e1
      rw [List.getElem?_eq_getElem hd, Option.some.injEq] at e2
      rw [e1, e2]
      intro i h1 h2'
      obtain ⟨x, hx, h1⟩ := (mem_whereIdx _ _ _).mp h1
      obtain ⟨x', hx', h2'⟩ := (mem_whereIdx _ _ _).mp h2'
      rw [hx] at hx'
      cases hx'
      rw [if_neg (by omega)] at h2'
      simp only [Bool.and_eq_true, decide_eq_true_eq] at h1 h2'
      have := getD_mono edges hs (c + 1) d (by omega) (by omega)
      exact absurd (lt_of_lt_of_le h2'.1 (h1.2.trans this)) (lt_irrefl _)
  · intro i
    rw [List.mem_flatten]
    constructor
    · rintro ⟨l, hl, hi⟩
      obtain ⟨c, hc, rfl⟩ := List.mem_iff_getElem.mp hl
      have e1 := initBins_getElem edges X c (by omega)
      rw [List.getElem?_eq_getElem hc, Option.some.injEq] at e1
      rw [e1] at hi
      obtain ⟨x, hx, hp⟩ := (mem_whereIdx _ _ _).mp hi
      simp only [Bool.and_eq_true, decide_eq_true_eq] at hp
      refine ⟨x, hx, ?_, hp.2.trans (getD_mono edges hs _ _ (by omega) (by omega))⟩
      by_cases h0 : c = 0
      · rw [if_pos h0] at hp
        rw [← h0]; simpa using hp.1
      · rw [if_neg h0] at hp
        exact (getD_mono edges hs 0 c (by omega) (by omega)).trans (by simpa using (of_decide_eq_true hp.1).le)
    · rintro ⟨x, hx, h0, h1⟩
      have hex : ∃ c, x ≤ edges.getD (c + 1) 0 ∧ c < edges.length - 1 :=
        ⟨edges.length - 2, by rw [show edges.length - 2 + 1 = edges.length - 1 by omega]; exact h1, by omega⟩
      have hfind := Nat.find_spec hex
      set c := Nat.find hex with hcdef
      have hc : c < (initBins edges X).length := by rw [hlen]; exact hfind.2
      refine ⟨(initBins edges X)[c], List.getElem_mem _, ?_⟩
      have e1 := initBins_getElem edges X c hfind.2
      rw [List.getElem?_eq_getElem hc, Option.some.injEq] at e1
      rw [e1, mem_whereIdx]
      refine ⟨x, hx, ?_⟩
      simp only [Bool.and_eq_true, decide_eq_true_eq]
      refine ⟨?_, hfind.1⟩
      by_cases hc0 : c = 0
      · rw [if_pos hc0, hc0]; simpa using h0
      · rw [if_neg hc0]
        have hmin := Nat.find_min hex (m := c - 1) (by omega)
        rw [show c - 1 + 1 = c by omega] at hmin
        have : ¬ x ≤ edges.getD c 0 := fun h => hmin ⟨h, by omega⟩
        simpa using not_le.mp this

theorem binsIndices_flatten (edges X : List α) (minSize : Nat) :
    (binsIndices edges X minSize).2.flatten = (initBins edges X).flatten := by
  unfold binsIndices
  cases h : initBins edges X with
  | nil => simp
  | cons b rest => simp [mergeFrom_flatten]

/-- **C50.** For ascending edges (at least two), every sample from the smallest to the largest edge is in
exactly one final class, no other sample is in any class, and every class but the last has at least the
minimum size. -/
theorem C50_classes (edges X : List α) (minSize : Nat) (lo hi : α) (h2 : 2 ≤ edges.length)
    (hs : edges.Pairwise (· ≤ ·)) (hlo : edges[0]? = some lo) (hhi : edges.getLast? = some hi) :
    (∀ (i : Nat) (x : α), X[i]? = some x → lo ≤ x → x ≤ hi →
      ∃! c : Nat, ∃ cls : List Nat, (binsIndices edges X minSize).2[c]? = some cls ∧ i ∈ cls) ∧
    (∀ i, (∃ cls ∈ (binsIndices edges X minSize).2, i ∈ cls) →
      ∃ x, X[i]? = some x ∧ lo ≤ x ∧ x ≤ hi) ∧
    (∀ cls ∈ (binsIndices edges X minSize).2, cls.Nodup) ∧
    ∀ cls ∈ (binsIndices edges X minSize).2.dropLast, minSize ≤ cls.length := by
  have hlo' : edges.getD 0 0 = lo := by simp [List.getD, hlo]
  have hhi' : edges.getD (edges.length - 1) 0 = hi := by
    rw [List.getLast?_eq_getElem?] at hhi
    simp [List.getD, hhi]
  obtain ⟨hnd, hmem⟩ := initBins_spec edges X h2 hs
  rw [hlo', hhi'] at hmem
  rw [← binsIndices_flatten edges X minSize] at hnd hmem
  rw [List.nodup_flatten] at hnd
  refine ⟨?_, ?_, hnd.1, ?_⟩
  · intro i x hx h0 h1
    obtain ⟨cls, hcls, hi⟩ := List.mem_flatten.mp ((hmem i).mpr ⟨x, hx, h0, h1⟩)
    obtain ⟨c, hc, rfl⟩ := List.mem_iff_getElem.mp hcls
    refine ⟨c, ⟨_, List.getElem?_eq_getElem hc, hi⟩, ?_⟩
    rintro d ⟨cls', hd, hi'⟩
    obtain ⟨hdl, rfl⟩ := List.getElem?_eq_some_iff.mp hd
    have hp := List.pairwise_iff_getElem.mp hnd.2
    rcases Nat.lt_trichotomy c d with h | h | h
    · exact absurd hi' (hp c d hc hdl h hi)
    · exact h.symm
    · exact absurd hi (hp d c hdl hc h hi')
  · rintro i ⟨cls, hcls, hi⟩
    exact (hmem i).mp (List.mem_flatten.mpr ⟨cls, hcls, hi⟩)
  · unfold binsIndices
    cases h : initBins edges X with
    | nil => simp
    | cons b rest => exact mergeFrom_size minSize b rest

/-- The hypotheses of `C50_classes` at a concrete case: the second bin is too small and absorbs the third. -/
example : (binsIndices [(0 : ℚ), 1, 2, 3, 4] [0, 1, 3 / 2, 5 / 2, 3, 4, 1 / 2] 2).2 =
    [[0, 1, 6], [2, 3, 4], [5]] := by
  decide +kernel

/-! ### Edges -/

theorem length_linspace (a b : α) (n : Nat) : (linspace a b n).length = n := by
  unfold linspace; split <;> simp

theorem linspace_getElem (a b : α) (n i : Nat) (hn : 2 ≤ n) (hi : i < n) :
    (linspace a b n)[i]? = some (a + (i : α) * ((b - a) / ((n : α) - 1))) := by
  unfold linspace
  rw [if_neg (by omega)]
  simp [hi]

theorem linspace_sorted (a b : α) (n : Nat) (h : a ≤ b) : (linspace a b n).Pairwise (· ≤ ·) := by
  unfold linspace
  split
  · rw [List.pairwise_map]
    exact List.pairwise_lt_range.imp fun _ => le_refl a
  · rename_i hn
    rw [List.pairwise_map]
    refine List.pairwise_lt_range.imp fun {i k} hik => ?_
    have h1 : (i : α) ≤ k := by exact_mod_cast hik.le
    have h2 : (0 : α) ≤ (n : α) - 1 := by
      have : (1 : α) ≤ n := by exact_mod_cast (show 1 ≤ n by omega)
      linarith
    have h3 : 0 ≤ (b - a) / ((n : α) - 1) := div_nonneg (sub_nonneg.mpr h) h2
    have := mul_le_mul_of_nonneg_right h1 h3
    linarith

theorem linspace_ends (a b : α) (n : Nat) (hn : 2 ≤ n) :
    (linspace a b n)[0]? = some a ∧ (linspace a b n).getLast? = some b := by
  constructor
  · rw [linspace_getElem a b n 0 hn (by omega)]; simp
  · rw [List.getLast?_eq_getElem?, length_linspace, linspace_getElem a b n (n - 1) hn (by omega)]
    have : ((n : α) - 1) ≠ 0 := by
      have : (1 : α) < n := by exact_mod_cast (show 1 < n by omega)
      exact (sub_pos.mpr this).ne'
    rw [Nat.cast_sub (by omega)]
    push_cast
    field_simp
    simp

theorem ascending_iff (l : List α) : ascending l = true ↔ l.IsChain (· < ·) := by
  unfold ascending
  induction l with
  | nil => simp
  | cons a l ih =>
    cases l with
    | nil => simp
    | cons b l =>
      rw [List.isChain_cons_cons, ← ih]
      simp [sub_pos]

/-- Whatever the user gives (a count must be positive), the edges used ascend and reach from the smallest to
the largest value. -/
theorem checkBinInfo_edges (eps : α) (heps : 0 < eps) (info : BinInfo α) (xmin xmax : α) (h : xmin ≤ xmax)
    (hc : ∀ n, info = .count n → 1 ≤ n) :
    ∃ lo hi, 2 ≤ (checkBinInfo eps info xmin xmax).length ∧
      (checkBinInfo eps info xmin xmax).Pairwise (· ≤ ·) ∧
      (checkBinInfo eps info xmin xmax)[0]? = some lo ∧
      (checkBinInfo eps info xmin xmax).getLast? = some hi ∧ lo ≤ xmin ∧ xmax ≤ hi := by
  have hlin : ∀ n, 2 ≤ n → ∃ lo hi, 2 ≤ (linspace xmin xmax n).length ∧
      (linspace xmin xmax n).Pairwise (· ≤ ·) ∧ (linspace xmin xmax n)[0]? = some lo ∧
      (linspace xmin xmax n).getLast? = some hi ∧ lo ≤ xmin ∧ xmax ≤ hi := by
    intro n hn
    exact ⟨xmin, xmax, by rw [length_linspace]; exact hn, linspace_sorted _ _ _ h,
      (linspace_ends _ _ n hn).1, (linspace_ends _ _ n hn).2, le_refl _, le_refl _⟩
  unfold checkBinInfo
  cases info with
  | absent => exact hlin 11 (by omega)
  | junk => exact hlin 11 (by omega)
  | other => exact hlin 11 (by omega)
  | count n => exact hlin (n + 1) (by have := hc n rfl; omega)
  | edges l =>
    simp only
    split
    · exact hlin 11 (by omega)
    · rename_i hrange
      split
      · exact hlin 11 (by omega)
      · rename_i hasc
        have hasc : l.IsChain (· < ·) := (ascending_iff l).mp (by simpa using hasc)
        have hp : l.Pairwise (· ≤ ·) := (List.isChain_iff_pairwise.mp hasc).imp fun h => h.le
        simp only [Bool.or_eq_true, List.any_eq_true, decide_eq_true_eq, not_or, not_exists, not_and,
          not_lt] at hrange
        refine ⟨xmin - eps, xmax + eps, by simp, ?_, by simp, by rw [List.getLast?_concat], by linarith, by linarith⟩
        rw [List.append_assoc, List.pairwise_append]
        refine ⟨by simp, ?_, ?_⟩
        · rw [List.pairwise_append]
          refine ⟨hp, by simp, ?_⟩
          intro a ha b hb
          simp at hb
          rw [hb]; linarith [hrange.2 a ha]
        · intro a ha b hb
          simp at ha
          rw [ha]
          rcases List.mem_append.mp hb with hb | hb
          · linarith [hrange.1 b hb]
          · simp at hb; rw [hb]; linarith

theorem arrMin_spec (l : List α) (m : α) (h : arrMin l = .ok m) : m ∈ l ∧ ∀ x ∈ l, m ≤ x := by
  cases l with
  | nil => cases h
  | cons y l =>
    cases h
    have key : ∀ (l : List α) (y : α), (l.foldl min y = y ∨ l.foldl min y ∈ l) ∧ l.foldl min y ≤ y ∧
        ∀ x ∈ l, l.foldl min y ≤ x := by
      intro l
      induction l with
      | nil => simp
      | cons a l ih =>
        intro y
        obtain ⟨h1, h2, h3⟩ := ih (min y a)
        rw [List.foldl_cons]
        refine ⟨?_, h2.trans (min_le_left _ _), ?_⟩
        · rcases h1 with h1 | h1
          · rcases min_choice y a with h | h
            · left; rw [h1, h]
            · right; rw [h1, h]; simp
          · right; exact List.mem_cons_of_mem _ h1
        · intro x hx
          rcases List.mem_cons.mp hx with rfl | hx
          · exact h2.trans (min_le_right _ _)
          · exact h3 x hx
    obtain ⟨h1, h2, h3⟩ := key l y
    refine ⟨?_, ?_⟩
    · rcases h1 with h1 | h1
      · rw [h1]; simp
      · exact List.mem_cons_of_mem _ h1
    · intro x hx
      rcases List.mem_cons.mp hx with rfl | hx
      · exact h2
      · exact h3 x hx

theorem arrMax_spec (l : List α) (m : α) (h : arrMax l = .ok m) : m ∈ l ∧ ∀ x ∈ l, x ≤ m := by
  cases l with
  | nil => cases h
  | cons y l =>
    cases h
    have key : ∀ (l : List α) (y : α), (l.foldl max y = y ∨ l.foldl max y ∈ l) ∧ y ≤ l.foldl max y ∧
        ∀ x ∈ l, x ≤ l.foldl max y := by
      intro l
      induction l with
      | nil => simp
      | cons a l ih =>
        intro y
        obtain ⟨h1, h2, h3⟩ := ih (max y a)
        rw [List.foldl_cons]
        refine ⟨?_, (le_max_left _ _).trans h2, ?_⟩
        · rcases h1 with h1 | h1
          · rcases max_choice y a with h | h
            · left; rw [h1, h]
            · right; rw [h1, h]; simp
          · right; exact List.mem_cons_of_mem _ h1
        · intro x hx
          rcases List.mem_cons.mp hx with rfl | hx
          · exact (le_max_right _ _).trans h2
          · exact h3 x hx
    obtain ⟨h1, h2, h3⟩ := key l y
    refine ⟨?_, ?_⟩
    · rcases h1 with h1 | h1
      · rw [h1]; simp
      · exact List.mem_cons_of_mem _ h1
    · intro x hx
      rcases List.mem_cons.mp hx with rfl | hx
      · exact h2
      · exact h3 x hx

/-- **C50**, with the edges the analysis really uses: every sample is in exactly one class. -/
theorem C50_all_samples (eps : α) (heps : 0 < eps) (info : BinInfo α)
    (hc : ∀ n, info = .count n → 1 ≤ n) (X : List α) (xmin xmax : α) (hmin : arrMin X = .ok xmin)
    (hmax : arrMax X = .ok xmax) (minSize : Nat) :
    (∀ i < X.length, ∃! c : Nat, ∃ cls : List Nat,
      (binsIndices (checkBinInfo eps info xmin xmax) X minSize).2[c]? = some cls ∧ i ∈ cls) ∧
    ∀ cls ∈ (binsIndices (checkBinInfo eps info xmin xmax) X minSize).2, ∀ i ∈ cls, i < X.length := by
  obtain ⟨hm1, hm2⟩ := arrMin_spec X xmin hmin
  obtain ⟨hM1, hM2⟩ := arrMax_spec X xmax hmax
  obtain ⟨lo, hi, h1, h2, h3, h4, h5, h6⟩ := checkBinInfo_edges eps heps info xmin xmax (hm2 _ hM1) hc
  obtain ⟨g1, g2, -, -⟩ := C50_classes _ X minSize lo hi h1 h2 h3 h4
  refine ⟨?_, ?_⟩
  · intro i hi
    have hx := List.getElem_mem hi
    exact g1 i X[i] (List.getElem?_eq_getElem hi) (h5.trans (hm2 _ hx)) ((hM2 _ hx).trans h6)
  · intro cls hcls i hi
    obtain ⟨x, hx, -⟩ := g2 i ⟨cls, hcls, hi⟩
    exact (List.getElem?_eq_some_iff.mp hx).1

/-- The hypotheses of `C50_all_samples`: user edges inside the range. -/
example : arrMin [(3 : ℚ), 1, 2, 5] = .ok 1 ∧ arrMax [(3 : ℚ), 1, 2, 5] = .ok 5 ∧
    (binsIndices (checkBinInfo (1 / 1000) (.edges [2, 4]) 1 5) [(3 : ℚ), 1, 2, 5] 1).2 =
      [[1, 2], [0], [3]] := by
  refine ⟨?_, ?_, ?_⟩ <;> decide +kernel

end SALib
