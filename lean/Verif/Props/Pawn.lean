import Verif.Model.Pawn
import Verif.Props.DeltaBins
import Verif.Lemmas.MorrisAnalyze
import Mathlib.Algebra.BigOperators.Group.List.Basic
import Mathlib.Algebra.Order.BigOperators.Group.List

/-! # PAWN (C53, C54, C75) -/

set_option linter.unusedSectionVars false

namespace SALib

variable {α : Type} [Field α] [LinearOrder α] [IsStrictOrderedRing α]

/-! ### Quantiles -/

theorem npSort_perm (l : List α) : (npSort l).Perm l := List.perm_insertionSort _ _

theorem npSort_length (l : List α) : (npSort l).length = l.length := (npSort_perm l).length_eq

theorem npSort_sorted (l : List α) : (npSort l).Pairwise (· ≤ ·) := List.pairwise_insertionSort _ _

theorem npSort_mem (l : List α) (i : Nat) (hi : i < l.length) (d : α) : (npSort l).getD i d ∈ l := by
  have hi' : i < (npSort l).length := by rw [npSort_length]; exact hi
  rw [List.getD, List.getElem?_eq_getElem hi']
  exact (npSort_perm l).mem_iff.mp (List.getElem_mem hi')

/-- The sorted value at position `k`, the last one beyond the end. -/
def sortedAt (l : List α) (k : Nat) : α := (npSort l).getD (min k (l.length - 1)) 0

theorem sortedAt_mono (l : List α) (hl : l ≠ []) (i k : Nat) (h : i ≤ k) : sortedAt l i ≤ sortedAt l k := by
  have := List.length_pos_iff.mpr hl
  exact getD_mono _ (npSort_sorted l) _ _ (by omega) (by rw [npSort_length]; omega)

theorem npQuantile_eq (l : List α) (hl : l ≠ []) (s S : Nat) (hs : s ≤ S) :
    npQuantile l s S = sortedAt l (s * (l.length - 1) / S) +
      ((s * (l.length - 1) % S : Nat) : α) / (S : α) *
        (sortedAt l (s * (l.length - 1) / S + 1) - sortedAt l (s * (l.length - 1) / S)) := by
  have hpos := List.length_pos_iff.mpr hl
  have hi : s * (l.length - 1) / S ≤ l.length - 1 :=
    Nat.div_le_of_le_mul (Nat.mul_le_mul_right _ hs)
  have h1 : (npSort l).getD (s * (l.length - 1) / S) 0 = sortedAt l (s * (l.length - 1) / S) := by
    unfold sortedAt; rw [min_eq_left hi]
  unfold npQuantile
  simp only [h1]
  congr 3
  by_cases hlt : s * (l.length - 1) / S + 1 < l.length
  · unfold sortedAt
    have e : min (s * (l.length - 1) / S + 1) (l.length - 1) = s * (l.length - 1) / S + 1 := by omega
    have hlt' : s * (l.length - 1) / S + 1 < (npSort l).length := by rw [npSort_length]; exact hlt
    rw [e]
    simp only [List.getD, List.getElem?_eq_getElem hlt', Option.getD_some]
  · have e : s * (l.length - 1) / S = l.length - 1 := by omega
    rw [List.getD, List.getElem?_eq_none (by rw [npSort_length]; omega)]
    simp only [Option.getD_none, sortedAt]
    rw [e, min_eq_left (le_refl _), min_eq_right (by omega)]

theorem npQuantile_mono (l : List α) (hl : l ≠ []) (s t S : Nat) (hS : 0 < S) (hst : s ≤ t) (ht : t ≤ S) :
    npQuantile l s S ≤ npQuantile l t S := by
  rw [npQuantile_eq l hl s S (hst.trans ht), npQuantile_eq l hl t S ht]
  have hS' : (0 : α) < S := by exact_mod_cast hS
  set p := s * (l.length - 1) with hp
  set q := t * (l.length - 1) with hq
  have hpq : p ≤ q := Nat.mul_le_mul_right _ hst
  have hd : ∀ k, 0 ≤ sortedAt l (k + 1) - sortedAt l k := fun k =>
    sub_nonneg.mpr (sortedAt_mono l hl _ _ (Nat.le_succ k))
  have hr0 : ∀ p : Nat, (0 : α) ≤ ((p % S : Nat) : α) / S := fun p => by positivity
  have hr1 : ∀ p : Nat, ((p % S : Nat) : α) / S ≤ 1 := fun p => by
    rw [div_le_one hS']
    exact_mod_cast (Nat.mod_lt p hS).le
  rcases Nat.eq_or_lt_of_le (Nat.div_le_div_right (c := S) hpq) with h | h
  · rw [h]
    have hmod : p % S ≤ q % S := by
      have e1 := Nat.div_add_mod p S
      have e2 := Nat.div_add_mod q S
      rw [h] at e1
      omega
    have hmod' : ((p % S : Nat) : α) / S ≤ ((q % S : Nat) : α) / S := by
      apply div_le_div_of_nonneg_right _ hS'.le
      exact_mod_cast hmod
    have := mul_le_mul_of_nonneg_right hmod' (hd (q / S))
    linarith
  · have h1 := mul_le_mul_of_nonneg_right (hr1 p) (hd (p / S))
    have h2 := mul_nonneg (hr0 q) (hd (q / S))
    have h3 := sortedAt_mono l hl (p / S + 1) (q / S) h
    linarith

theorem npQuantile_zero (l : List α) (S : Nat) : npQuantile l 0 S = (npSort l).getD 0 0 := by
  simp [npQuantile]

theorem npQuantile_one (l : List α) (hl : l ≠ []) (S : Nat) (hS : 0 < S) :
    npQuantile l S S = (npSort l).getD (l.length - 1) 0 := by
  rw [npQuantile_eq l hl S S (le_refl _), Nat.mul_div_cancel_left _ hS, Nat.mul_mod_right]
  simp [sortedAt]

theorem npSort_first_le (l : List α) (x : α) (hx : x ∈ l) : (npSort l).getD 0 0 ≤ x := by
  obtain ⟨i, hi, rfl⟩ := List.mem_iff_getElem.mp ((npSort_perm l).mem_iff.mpr hx)
  have := getD_mono _ (npSort_sorted l) 0 i (by omega) hi
  rwa [List.getD, List.getD, List.getElem?_eq_getElem hi, ← List.getD] at this

theorem npSort_le_last (l : List α) (x : α) (hx : x ∈ l) : x ≤ (npSort l).getD (l.length - 1) 0 := by
  obtain ⟨i, hi, rfl⟩ := List.mem_iff_getElem.mp ((npSort_perm l).mem_iff.mpr hx)
  have := getD_mono _ (npSort_sorted l) i (l.length - 1) (by rw [npSort_length] at hi; omega)
    (by rw [npSort_length] at hi ⊢; omega)
  rwa [List.getD, List.getElem?_eq_getElem hi] at this

theorem pawnEdges_getD (X : List α) (S s : Nat) (hs : s ≤ S) :
    (pawnEdges X S).getD s 0 = npQuantile X s S := by
  unfold pawnEdges
  rw [List.getD, List.getElem?_map, List.getElem?_range (by omega)]
  rfl

/-! ### C54: slices -/

/-- In half-open slices, every value from the first edge up to, but not including, the last edge is in exactly
one. -/
theorem halfOpen_unique (e : Nat → α) (S : Nat) (hmono : ∀ i k, i ≤ k → k ≤ S → e i ≤ e k) (x : α)
    (h0 : e 0 ≤ x) (h1 : x < e S) : ∃! s, s < S ∧ e s ≤ x ∧ x < e (s + 1) := by
  have hex : ∃ k, x < e k := ⟨S, h1⟩
  have hf := Nat.find_spec hex
  set k := Nat.find hex with hk
  have hkS : k ≤ S := Nat.find_min' hex h1
  have hk0 : k ≠ 0 := by
    intro h; rw [h] at hf; exact absurd hf (not_lt.mpr h0)
  refine ⟨k - 1, ⟨by omega, ?_, by rw [show k - 1 + 1 = k by omega]; exact hf⟩, ?_⟩
  · exact not_lt.mp (Nat.find_min hex (show k - 1 < k by omega))
  · rintro s ⟨hs, hs1, hs2⟩
    have h2 : k ≤ s + 1 := Nat.find_min' hex hs2
    by_contra hne
    have : k ≤ s := by omega
    exact absurd (lt_of_lt_of_le hf (hmono k s this (by omega))) (not_lt.mpr hs1)

/-- The largest value of a column. -/
def Spec.IsMax (X : List α) (x : α) : Prop := x ∈ X ∧ ∀ y ∈ X, y ≤ x

/-- **C54** (as far as it is true, and how it fails): a sample whose input value is below the largest one of its
column is used in exactly one conditioning slice; a sample with the largest value is never used. The full
property ("every sample is used in exactly one slice") is false because of the second part. -/
theorem C54_partial (X : List α) (S : Nat) (hS : 1 ≤ S) (i : Nat) (x : α) (hx : X[i]? = some x) :
    (¬ Spec.IsMax X x → ∃! s, s < S ∧ i ∈ pawnSlice (pawnEdges X S) X s) ∧
    (Spec.IsMax X x → ∀ s < S, i ∉ pawnSlice (pawnEdges X S) X s) := by
  have hxm : x ∈ X := List.mem_of_getElem? hx
  have hX : X ≠ [] := List.ne_nil_of_mem hxm
  have hmem : ∀ s, s < S → (i ∈ pawnSlice (pawnEdges X S) X s ↔
      npQuantile X s S ≤ x ∧ x < npQuantile X (s + 1) S) := by
    intro s hs
    unfold pawnSlice
    rw [mem_whereIdx, pawnEdges_getD X S s (by omega), pawnEdges_getD X S (s + 1) (by omega)]
    constructor
    · rintro ⟨y, hy, hp⟩
      rw [hx] at hy; cases hy
      simpa using hp
    · intro h
      exact ⟨x, hx, by simpa using h⟩
  have hmono : ∀ i k, i ≤ k → k ≤ S → npQuantile X i S ≤ npQuantile X k S := fun i k h1 h2 =>
    npQuantile_mono X hX i k S (by omega) h1 h2
  constructor
  · intro hmax
    have hlt : x < npQuantile X S S := by
      rw [npQuantile_one X hX S (by omega)]
      refine lt_of_le_of_ne (npSort_le_last X x hxm) ?_
      intro he
      apply hmax
      refine ⟨hxm, fun y hy => ?_⟩
      rw [he]; exact npSort_le_last X y hy
    obtain ⟨s, ⟨hs, hs'⟩, huniq⟩ := halfOpen_unique (fun k => npQuantile X k S) S hmono x
      (by simp only [npQuantile_zero]; exact npSort_first_le X x hxm) hlt
    refine ⟨s, ⟨hs, (hmem s hs).mpr hs'⟩, ?_⟩
    rintro t ⟨ht, ht'⟩
    exact huniq t ⟨ht, (hmem t ht).mp ht'⟩
  · intro hmax s hs hi
    have h1 := ((hmem s hs).mp hi).2
    have h2 := hmono (s + 1) S (by omega) (le_refl _)
    rw [npQuantile_one X hX S (by omega)] at h2
    have h3 := hmax.2 _ (npSort_mem X (X.length - 1) (by have := List.length_pos_iff.mpr hX; omega) 0)
    exact absurd (lt_of_lt_of_le h1 (h2.trans h3)) (lt_irrefl _)

/-- Four samples, two slices: the largest value (row 3) is in no slice. -/
example : (List.range 2).map (pawnSlice (pawnEdges [(1 : ℚ), 2, 3, 4] 2) [1, 2, 3, 4]) = [[0, 1], [2]] := by
  decide +kernel

/-! ### C53: summary statistics -/

theorem ecdf_range (l : List α) (z : α) : 0 ≤ ecdf l z ∧ ecdf l z ≤ 1 := by
  unfold ecdf
  refine ⟨by positivity, div_le_one_of_le₀ ?_ (by positivity)⟩
  exact_mod_cast List.length_filter_le _ _

theorem foldl_max_range (l : List α) (a lo hi : α) (ha : lo ≤ a ∧ a ≤ hi) (h : ∀ x ∈ l, x ≤ hi) :
    lo ≤ l.foldl max a ∧ l.foldl max a ≤ hi := by
  induction l generalizing a with
  | nil => exact ha
  | cons x l ih =>
    rw [List.foldl_cons]
    exact ih _ ⟨ha.1.trans (le_max_left _ _), max_le ha.2 (h x (by simp))⟩
      fun y hy => h y (List.mem_cons_of_mem _ hy)

theorem ksStat_range (a b : List α) : 0 ≤ ksStat a b ∧ ksStat a b ≤ 1 := by
  apply foldl_max_range _ _ _ _ ⟨le_refl _, zero_le_one⟩
  intro x hx
  obtain ⟨z, -, rfl⟩ := List.mem_map.mp hx
  have h1 := ecdf_range a z
  have h2 := ecdf_range b z
  rw [abs_le]
  constructor <;> linarith [h1.1, h1.2, h2.1, h2.2]

/-- The statistics of one row are numbers in the right order within [0,1]; the spread is not negative. -/
def Spec.PawnOrdered (r : PawnRow α) : Prop :=
  ∃ mn mean med mx sd, r.minimum = some mn ∧ r.mean = some mean ∧ r.median = some med ∧ r.maximum = some mx ∧
    r.stdev = some sd ∧ 0 ≤ mn ∧ mn ≤ mean ∧ mean ≤ mx ∧ mn ≤ med ∧ med ≤ mx ∧ mx ≤ 1 ∧ 0 ≤ sd

/-- A row of nan. -/
def Spec.PawnNan (r : PawnRow α) : Prop :=
  r.minimum = none ∧ r.mean = none ∧ r.median = none ∧ r.maximum = none

theorem mean_between (l : List α) (hl : l ≠ []) (lo hi : α) (h : ∀ x ∈ l, lo ≤ x ∧ x ≤ hi) :
    lo ≤ l.sum / (l.length : α) ∧ l.sum / (l.length : α) ≤ hi := by
  have hpos : (0 : α) < l.length := by
    have := List.length_pos_iff.mpr hl
    positivity
  have key : (l.length : α) * lo ≤ l.sum ∧ l.sum ≤ (l.length : α) * hi := by
    clear hl hpos
    induction l with
    | nil => simp
    | cons a l ih =>
      have h1 := h a (by simp)
      have h2 := ih fun x hx => h x (List.mem_cons_of_mem _ hx)
      simp only [List.sum_cons, List.length_cons, Nat.cast_add, Nat.cast_one]
      constructor <;> linarith [h1.1, h1.2, h2.1, h2.2]
  rw [le_div_iff₀ hpos, div_le_iff₀ hpos]
  constructor <;> linarith [key.1, key.2]

theorem median_between (l : List α) (hl : l ≠ []) (lo hi : α) (h : ∀ x ∈ l, lo ≤ x ∧ x ≤ hi) :
    lo ≤ npMedian l ∧ npMedian l ≤ hi := by
  have hpos := List.length_pos_iff.mpr hl
  unfold npMedian
  simp only []
  split
  · exact h _ (npSort_mem l _ (by omega) 0)
  · have h1 := h _ (npSort_mem l (l.length / 2 - 1) (by omega) 0)
    have h2 := h _ (npSort_mem l (l.length / 2) (by omega) 0)
    constructor <;> linarith [h1.1, h1.2, h2.1, h2.2]

theorem pawnRow_ordered (sqrt : α → α) (hsq : ∀ x, 0 ≤ sqrt x) (p : List (Num α))
    (h : ∀ v, some v ∈ p → 0 ≤ v ∧ v ≤ 1) :
    ((∀ e ∈ p, e = none) → Spec.PawnNan (pawnRow sqrt p)) ∧
    ((∃ v, some v ∈ p) → Spec.PawnOrdered (pawnRow sqrt p)) := by
  have hmem : ∀ v, v ∈ p.filterMap id ↔ some v ∈ p := by
    intro v; simp
  unfold pawnRow
  cases hl : p.filterMap id with
  | nil =>
    refine ⟨fun _ => ⟨rfl, rfl, rfl, rfl⟩, ?_⟩
    rintro ⟨v, hv⟩
    rw [← hmem, hl] at hv
    cases hv
  | cons v vs =>
    constructor
    · intro hn
      have := (hmem v).mp (by rw [hl]; simp)
      cases hn _ this
    · intro _
      have hb : ∀ x ∈ v :: vs, 0 ≤ x ∧ x ≤ 1 := by
        intro x hx
        apply h
        rw [← hmem, hl]
        exact hx
      have hmin := arrMin_spec (v :: vs) _ rfl
      have hmax := arrMax_spec (v :: vs) _ rfl
      have hbt : ∀ x ∈ v :: vs, vs.foldl min v ≤ x ∧ x ≤ vs.foldl max v := fun x hx =>
        ⟨hmin.2 x hx, hmax.2 x hx⟩
      have e1 := mean_between (v :: vs) (by simp) _ _ hbt
      have e2 := median_between (v :: vs) (by simp) _ _ hbt
      have hsd : npStd0 sqrt (v :: vs) = some (sqrt _) :=
        congrArg (Option.map sqrt) (npVar_some (v :: vs) (by simp))
      exact ⟨_, _, _, _, _, rfl, npMean_some _ (by simp), rfl, rfl, hsd, (hb _ hmin.1).1, e1.1, e1.2, e2.1, e2.2,
        (hb _ hmax.1).2, hsq _⟩

theorem pawnColumn_range (X Y : List α) (S : Nat) : ∀ v, some v ∈ pawnColumn X Y S → 0 ≤ v ∧ v ≤ 1 := by
  intro v hv
  unfold pawnColumn at hv
  obtain ⟨s, -, hs⟩ := List.mem_map.mp hv
  simp only [] at hs
  split at hs
  · cases hs
  · cases hs
    exact ksStat_range _ _

/-- A column which is not constant has a slice with samples. -/
theorem pawnColumn_some (X Y : List α) (S : Nat) (hS : 1 ≤ S) (hv : ∃ a ∈ X, ∃ b ∈ X, a < b) :
    ∃ v, some v ∈ pawnColumn X Y S := by
  obtain ⟨a, ha, b, hb, hab⟩ := hv
  obtain ⟨i, hi, rfl⟩ := List.mem_iff_getElem.mp ha
  obtain ⟨s, ⟨hs, hmem⟩, -⟩ := (C54_partial X S hS i X[i] (List.getElem?_eq_getElem hi)).1
    (fun hm => absurd hab (not_lt.mpr (hm.2 b hb)))
  refine ⟨ksStat ((pawnSlice (pawnEdges X S) X s).map fun i => Y.getD i 0) Y, ?_⟩
  unfold pawnColumn
  refine List.mem_map.mpr ⟨s, List.mem_range.mpr hs, ?_⟩
  simp only []
  rw [if_neg]
  rw [List.length_map]
  exact (List.length_pos_iff.mpr (List.ne_nil_of_mem hmem)).ne'

/-- **C53**, every parameter: the statistics are numbers with minimum ≤ mean ≤ maximum, minimum ≤ median ≤
maximum, all within [0,1], whenever the input column is not constant; they are nan for a constant column. -/
theorem C53_params (sqrt : α → α) (hsq : ∀ x, 0 ≤ sqrt x) (pb : Problem α) (X : Mat α) (Y : List α) (S : Nat)
    (hS : 1 ≤ S) (rows : List (PawnRow α)) (h : pawnParams sqrt pb X Y S = .ok rows) :
    rows.length = pb.numVars ∧ ∀ (d : Nat) (r : PawnRow α), rows[d]? = some r →
      ∃ col, List.Forall₂ (fun row (v : α) => row[d]? = some v) X col ∧
        ((∃ a ∈ col, ∃ b ∈ col, a < b) → Spec.PawnOrdered r) ∧
        ((∀ a ∈ col, ∀ b ∈ col, a = b) → Spec.PawnNan r) := by
  unfold pawnParams at h
  have hf := (mapM_ok_iff _ _ _).mp h
  have hlen : rows.length = pb.numVars := by
    have := hf.length_eq
    rw [List.length_range] at this
    exact this.symm
  refine ⟨hlen, ?_⟩
  intro d r hr
  have hd : d < pb.numVars := by
    rw [← hlen]; exact (List.getElem?_eq_some_iff.mp hr).1
  have hd' := (List.forall₂_iff_get.mp hf).2 d (by rw [List.length_range]; exact hd) (by rw [hlen]; exact hd)
  simp only [List.get_eq_getElem, List.getElem_range] at hd'
  rw [List.getElem?_eq_getElem (by rw [hlen]; exact hd), Option.some.injEq] at hr
  rw [hr] at hd'
  cases hc : inputColumn X d with
  | error e => rw [hc] at hd'; cases hd'
  | ok col =>
    rw [hc] at hd'
    simp only [pyBind_ok] at hd'
    split at hd'
    · cases hd'
    · cases hd'
      have hcf := (mapM_ok_iff _ _ _).mp hc
      refine ⟨col, hcf.imp ?_, ?_, ?_⟩
      · intro row v hv
        unfold pyGet at hv
        split at hv
        · cases hv; assumption
        · cases hv
      · intro hv
        exact (pawnRow_ordered sqrt hsq _ (pawnColumn_range col Y S)).2 (pawnColumn_some col Y S hS hv)
      · intro hcst
        apply (pawnRow_ordered sqrt hsq _ (pawnColumn_range col Y S)).1
        intro e he
        unfold pawnColumn at he
        obtain ⟨s, hs, rfl⟩ := List.mem_map.mp he
        simp only []
        rw [if_pos]
        rw [List.length_map, List.length_eq_zero_iff, List.eq_nil_iff_forall_not_mem]
        intro i hi
        obtain ⟨x, hx, -⟩ := (mem_whereIdx _ _ _).mp hi
        have hxm := List.mem_of_getElem? hx
        exact (C54_partial col S hS i x hx).2 ⟨hxm, fun y hy => (hcst y hy x hxm).le⟩ s
          (List.mem_range.mp hs) hi

theorem npMeanN_of_some (l : List (Num α)) (vs : List α) (h : l = vs.map some) : npMeanN l = npMean vs := by
  subst h
  unfold npMeanN
  have : ((vs.map some).mapM id : Option (List α)) = some vs := by
    induction vs with
    | nil => rfl
    | cons v vs ih => rw [List.map_cons, List.mapM_cons, ih]; rfl
  rw [this]
  rfl

/-- A group row built from ordered rows is ordered. -/
theorem pawnGroupRow_ordered (rows : List (PawnRow α)) (hne : rows ≠ []) (h : ∀ r ∈ rows, Spec.PawnOrdered r) :
    Spec.PawnOrdered (pawnGroupRow rows) := by
  have key : ∃ a b c d e : List α, rows.map (·.minimum) = a.map some ∧ rows.map (·.mean) = b.map some ∧
      rows.map (·.median) = c.map some ∧ rows.map (·.maximum) = d.map some ∧ rows.map (·.stdev) = e.map some ∧
      a.length = rows.length ∧ b.length = rows.length ∧ c.length = rows.length ∧ d.length = rows.length ∧
      e.length = rows.length ∧
      0 ≤ a.sum ∧ a.sum ≤ b.sum ∧ b.sum ≤ d.sum ∧ a.sum ≤ c.sum ∧ c.sum ≤ d.sum ∧
      d.sum ≤ (rows.length : α) ∧ 0 ≤ e.sum := by
    clear hne
    induction rows with
    | nil => exact ⟨[], [], [], [], [], by simp⟩
    | cons r rows ih =>
      obtain ⟨a, b, c, d, e, h1, h2, h3, h4, h5, l1, l2, l3, l4, l5, o1, o2, o3, o4, o5, o6, o7⟩ :=
        ih fun r hr => h r (List.mem_cons_of_mem _ hr)
      obtain ⟨mn, mean, med, mx, sd, g1, g2, g3, g4, g5, p1, p2, p3, p4, p5, p6, p7⟩ := h r (by simp)
      refine ⟨mn :: a, mean :: b, med :: c, mx :: d, sd :: e, ?_, ?_, ?_, ?_, ?_, by simp [l1], by simp [l2],
        by simp [l3], by simp [l4], by simp [l5], ?_⟩
      · simp [g1, h1]
      · simp [g2, h2]
      · simp [g3, h3]
      · simp [g4, h4]
      · simp [g5, h5]
      · simp only [List.sum_cons, List.length_cons, Nat.cast_add, Nat.cast_one]
        refine ⟨?_, ?_, ?_, ?_, ?_, ?_, ?_⟩ <;> linarith
  obtain ⟨a, b, c, d, e, h1, h2, h3, h4, h5, l1, l2, l3, l4, l5, o1, o2, o3, o4, o5, o6, o7⟩ := key
  have hpos : (0 : α) < rows.length := by
    have := List.length_pos_iff.mpr hne
    positivity
  have hn : ∀ l : List α, l.length = rows.length → npMean l = some (l.sum / (rows.length : α)) := by
    intro l hl
    rw [npMean_some l (by intro h0; subst h0; exact hne (List.length_eq_zero_iff.mp hl.symm)), hl]
  refine ⟨a.sum / rows.length, b.sum / rows.length, c.sum / rows.length, d.sum / rows.length,
    e.sum / rows.length, ?_, ?_, ?_, ?_, ?_, ?_⟩
  rotate_left 5
  · exact ⟨div_nonneg o1 hpos.le, div_le_div_of_nonneg_right o2 hpos.le, div_le_div_of_nonneg_right o3 hpos.le,
      div_le_div_of_nonneg_right o4 hpos.le, div_le_div_of_nonneg_right o5 hpos.le,
      (div_le_one hpos).mpr o6, div_nonneg o7 hpos.le⟩
  · exact (npMeanN_of_some _ a h1).trans (hn a l1)
  · exact (npMeanN_of_some _ b h2).trans (hn b l2)
  · exact (npMeanN_of_some _ c h3).trans (hn c l3)
  · exact (npMeanN_of_some _ d h4).trans (hn d l4)
  · exact (npMeanN_of_some _ e h5).trans (hn e l5)

end SALib
