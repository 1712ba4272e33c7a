import Verif.Model.FloatMorrisStats
import Verif.Spec.FloatMorrisStats
import Verif.Lemmas.FloatSobol
import Verif.Lemmas.MorrisAnalyze
import Verif.Lemmas.ListAux

/-! # Statistics of Morris effects, rounded -/

namespace SALib
open Spec

variable {F : Fmt}

/-! ### Sums that dominate sums -/

theorem sumFl_abs_le (hp : 1 ≤ F.p) {l l' : List ℚ} (h : ∀ i, |l.getD i 0| ≤ l'.getD i 0) (t : SumTree) :
    |sumFl F l t| ≤ sumFl F l' t := by
  induction t with
  | leaf i => exact h i
  | node a b iha ihb =>
    simp only [sumFl, fadd]
    rw [abs_fl]
    exact fl_mono hp ((abs_add_le _ _).trans (add_le_add iha ihb))

theorem sumFl_nonneg {l : List ℚ} (h : ∀ x ∈ l, 0 ≤ x) (t : SumTree) : 0 ≤ sumFl F l t := by
  induction t with
  | leaf i =>
    rw [sumFl, List.getD_eq_getElem?_getD]
    by_cases hi : i < l.length
    · rw [List.getElem?_eq_getElem hi]; exact h _ (List.getElem_mem hi)
    · rw [List.getElem?_eq_none (by omega)]; exact le_rfl
  | node a b iha ihb => exact fl_nonneg (add_nonneg iha ihb)

/-- Entries that are numbers on the left are larger numbers on the right. -/
def DomN (a b : Num ℚ) : Prop := ∀ m, a = some m → ∃ s, b = some s ∧ |m| ≤ s

theorem mapM_dom {l l' : List (Num ℚ)} (h : List.Forall₂ DomN l l') (k : List ℚ) (hk : l.mapM id = some k) :
    ∃ k', l'.mapM id = some k' ∧ k'.length = k.length ∧ ∀ i, |k.getD i 0| ≤ k'.getD i 0 := by
  rw [optMapM_id] at hk
  subst hk
  suffices ∃ k' : List ℚ, l' = k'.map some ∧ k'.length = k.length ∧ ∀ i, |k.getD i 0| ≤ k'.getD i 0 by
    obtain ⟨k', h1, h2⟩ := this
    exact ⟨k', (optMapM_id _ _).mpr h1, h2⟩
  induction k generalizing l' with
  | nil => cases h; exact ⟨[], rfl, rfl, by simp⟩
  | cons x k ih =>
    rw [List.map_cons] at h
    cases h with
    | cons hx ht =>
      obtain ⟨s, rfl, hs⟩ := hx x rfl
      obtain ⟨k', rfl, hl, hi⟩ := ih ht
      refine ⟨s :: k', rfl, by simp [hl], fun i => ?_⟩
      cases i with
      | zero => exact hs
      | succ i => simpa using hi i

theorem meanFlN_dom (hp : 1 ≤ F.p) (o : Nat → SumTree) {l l' : List (Num ℚ)} (h : List.Forall₂ DomN l l') :
    DomN (meanFlN F o l) (meanFlN F o l') := by
  intro m hm
  unfold meanFlN at hm
  obtain ⟨k, hk, hm⟩ := Option.bind_eq_some_iff.mp hm
  obtain ⟨k', hk', hl, hd⟩ := mapM_dom h k hk
  unfold meanFl at hm
  split at hm
  · cases hm
  · rename_i hne
    refine ⟨fdiv F (sumFl F k' (o k.length)) k.length, ?_, ?_⟩
    · unfold meanFlN
      rw [hk']
      show meanFl F o k' = _
      unfold meanFl
      rw [hl, if_neg hne]
    · cases hm
      unfold fdiv
      rw [abs_fl, abs_div, abs_of_nonneg (Nat.cast_nonneg _ : (0 : ℚ) ≤ k.length)]
      exact fl_mono hp (div_le_div_of_nonneg_right (sumFl_abs_le hp hd _) (Nat.cast_nonneg _))

theorem groupMeanFl_dom (hp : 1 ≤ F.p) (o : Nat → SumTree) {l l' : List (Num ℚ)} (h : List.Forall₂ DomN l l')
    (b : List Bool) : DomN (groupMeanFl F o l b) (groupMeanFl F o l' b) := by
  have hz : List.Forall₂ DomN (List.zipWith (fun m b => if b then m else some 0) l b)
      (List.zipWith (fun m b => if b then m else some 0) l' b) := by
    clear hp o
    induction h generalizing b with
    | nil => simp
    | cons hx _ ih =>
      cases b with
      | nil => simp
      | cons c b =>
        simp only [List.zipWith_cons_cons]
        refine List.Forall₂.cons ?_ (ih b)
        cases c
        · rintro m hm
          cases hm
          exact ⟨0, rfl, by simp⟩
        · exact hx
  intro m hm
  unfold groupMeanFl at hm ⊢
  obtain ⟨k, hk, hm⟩ := Option.bind_eq_some_iff.mp hm
  obtain ⟨k', hk', hl, hd⟩ := mapM_dom hz k hk
  rw [hk']
  simp only [Option.bind_eq_bind, Option.bind_some]
  split at hm
  · cases hm
  · rename_i hne
    rw [if_neg hne]
    refine ⟨_, rfl, ?_⟩
    cases hm
    unfold fdiv
    rw [abs_fl, abs_div, abs_of_nonneg (Nat.cast_nonneg _ : (0 : ℚ) ≤ _), hl]
    exact fl_mono hp (div_le_div_of_nonneg_right (sumFl_abs_le hp hd _) (Nat.cast_nonneg _))

theorem absN_dom (l : List (Num ℚ)) : List.Forall₂ DomN l (absN l) := by
  induction l with
  | nil => exact List.Forall₂.nil
  | cons a l ih =>
    refine List.Forall₂.cons ?_ ih
    rintro m rfl
    exact ⟨|m|, rfl, le_rfl⟩

/-- Numbers that are not negative. -/
def NonnegN (a : Num ℚ) : Prop := ∀ m, a = some m → 0 ≤ m

theorem meanFlN_nonneg (o : Nat → SumTree) {l : List (Num ℚ)} (h : ∀ a ∈ l, NonnegN a) : NonnegN (meanFlN F o l) := by
  intro m hm
  unfold meanFlN at hm
  obtain ⟨k, hk, hk'⟩ := Option.bind_eq_some_iff.mp hm
  rw [optMapM_id] at hk
  subst hk
  unfold meanFl at hk'
  split at hk'
  · cases hk'
  · cases hk'
    exact fl_nonneg (div_nonneg (sumFl_nonneg (fun x hx => h _ (List.mem_map_of_mem hx) x rfl) _) (Nat.cast_nonneg _))

theorem groupMeanFl_nonneg (o : Nat → SumTree) {l : List (Num ℚ)} (h : ∀ a ∈ l, NonnegN a) (b : List Bool) :
    NonnegN (groupMeanFl F o l b) := by
  intro m hm
  unfold groupMeanFl at hm
  obtain ⟨k, hk, hm⟩ := Option.bind_eq_some_iff.mp hm
  rw [optMapM_id] at hk
  split at hm
  · cases hm
  · cases hm
    refine fl_nonneg (div_nonneg (sumFl_nonneg ?_ _) (Nat.cast_nonneg _))
    intro x hx
    have : some x ∈ List.zipWith (fun (m : Num ℚ) b => if b then m else some 0) l b := by
      rw [hk]; exact List.mem_map_of_mem hx
    obtain ⟨i, hi, he⟩ := List.getElem_of_mem this
    rw [List.getElem_zipWith] at he
    split at he
    · exact h _ (List.getElem_mem _) x he
    · rw [← Option.some.inj he]

theorem std1FlN_nonnegN (o : Nat → SumTree) {sqrt : ℚ → ℚ} (hs : ∀ t, 0 ≤ sqrt t) (l : List (Num ℚ)) :
    NonnegN (std1FlN F o sqrt l) := by
  intro m hm
  unfold std1FlN at hm
  obtain ⟨k, -, hm⟩ := Option.bind_eq_some_iff.mp hm
  unfold std1Fl at hm
  obtain ⟨μ, -, hm⟩ := Option.bind_eq_some_iff.mp hm
  split at hm
  · cases hm
  · cases hm; exact hs _

theorem morrisConfFl_nonneg (o : MorrisOrders) {sqrt : ℚ → ℚ} (hs : ∀ t, 0 ≤ sqrt t) {z : ℚ} (hz : 0 ≤ z)
    (idx : List (List Nat)) (ee : List (Num ℚ)) : NonnegN (confFl F o sqrt z idx ee) := by
  intro m hm
  obtain ⟨w, hw, rfl⟩ := Option.map_eq_some_iff.mp hm
  exact fl_nonneg (mul_nonneg hz (std1FlN_nonnegN _ hs _ w hw))

/-! ### A sample variance -/

theorem std1Fl_rounded (hp : 1 ≤ F.p) {order : Nat → SumTree} (ho : SumOrder order) (sqrt : ℚ → ℚ) {N : Nat} (hN : 2 ≤ N)
    (x : Nat → ℚ) (hf : ∀ i < N, IsFloat F (x i)) :
    ∃ μ w, std1Fl F order sqrt (col N x) = some (sqrt w) ∧
      RoundedFrom F N 1 (avg N fun i => |x i|) (avg N x) μ ∧
      RoundedFrom F (N + 3) (N / (N - 1) + 1) (effectVar N x + N / (N - 1) * (μ - avg N x) ^ 2)
        (effectVar N x + N / (N - 1) * (μ - avg N x) ^ 2) w := by
  have hfl : ∀ y ∈ col N x, IsFloat F y := by
    intro y hy
    obtain ⟨i, hi, rfl⟩ := List.mem_map.mp hy
    exact hf i (List.mem_range.mp hi)
  have hl : (col N x).length = N := length_col N x
  obtain ⟨μ, hμ, hμf, hμr⟩ := meanFl_rounded hp ho (xs := col N x) (col_ne_nil (by omega) x) (n := 0) (c := 0) le_rfl
    (X := fun i => |x i|) (x := x) (fun i => le_rfl) hfl (fun i hi => by
      rw [col_getD x (by omega)]; exact RoundedFrom.refl _)
  rw [hl, zero_add, zero_add] at hμr
  have hdl : (devSqFl F μ (col N x)).length = N := by simp [devSqFl]
  have hget : ∀ i < N, (devSqFl F μ (col N x)).getD i 0 = fmul F (fsub F (x i) μ) (fsub F (x i) μ) := by
    intro i hi
    simp [devSqFl, List.getD, hi]
  have hperm := ho N (by omega)
  obtain ⟨-, hab, hs⟩ := sumFl_tree hp (xs := devSqFl F μ (col N x)) (n := 3) (c := 1) zero_le_one
    (X := fun i => (x i - μ) ^ 2) (x := fun i => (x i - μ) ^ 2) (fun i => by rw [abs_of_nonneg (sq_nonneg _)])
    (fun i => by
      rw [List.getD_eq_getElem?_getD]
      by_cases hi : i < (devSqFl F μ (col N x)).length
      · rw [List.getElem?_eq_getElem hi]; exact (devSqFl_spec hp μ _ _ (List.getElem_mem hi)).1
      · rw [List.getElem?_eq_none (by omega)]; exact isFloat_zero) (order N) (fun i hi => by
      have hi' : i < N := List.mem_range.mp (hperm.mem_iff.mp hi)
      rw [hget i hi']
      exact sq_fsub_rounded hp (hf i hi') hμf)
  have hlen : (order N).leaves.length = N := by rw [hperm.length_eq, List.length_range]
  rw [(hperm.map _).sum_eq, sum_range_list] at hab hs
  rw [hlen, mul_one, show 3 + (N - 1) = N + 2 by omega] at hs
  have hN' : (2 : ℚ) ≤ N := by exact_mod_cast hN
  have hq : (0 : ℚ) < ((N - 1 : Nat) : ℚ) := by exact_mod_cast (by omega : 0 < N - 1)
  have hcast : ((N - 1 : Nat) : ℚ) = N - 1 := by rw [Nat.cast_sub (by omega)]; simp
  refine ⟨μ, fdiv F (sumFl F (devSqFl F μ (col N x)) (order N)) ((N - 1 : Nat) : ℚ), ?_, hμr, ?_⟩
  · unfold std1Fl
    rw [hμ, hl]
    simp only [Option.bind_eq_bind, Option.bind_some]
    rw [if_neg (by omega)]
    rfl
  · have := hs.quot hab hq
    have e : (∑ i ∈ Finset.range N, (x i - μ) ^ 2) / ((N - 1 : Nat) : ℚ) =
        effectVar N x + N / (N - 1) * (μ - avg N x) ^ 2 := by
      have h1 := avg_sq_shift (n := N) (by omega) x μ
      unfold effectVar
      have hNz : (N : ℚ) ≠ 0 := by positivity
      have hN1 : (N : ℚ) - 1 ≠ 0 := by rw [← hcast]; exact hq.ne'
      have h2 : ∀ f : Nat → ℚ, ∑ i ∈ Finset.range N, f i = N * avg N f := by
        intro f; unfold avg; field_simp
      rw [h2 (fun i => (x i - μ) ^ 2), h1, h2 (fun i => (x i - avg N x) ^ 2), hcast]
      field_simp
    rw [e, hcast] at this
    rw [hcast]
    exact this

/-- A sum with one entry that is not 0. -/
theorem sumFl_single (hp : 1 ≤ F.p) {xs : List ℚ} {j : Nat} (h0 : ∀ i, i ≠ j → xs.getD i 0 = 0) (t : SumTree) :
    (t.leaves.count j = 0 → sumFl F xs t = 0) ∧ (t.leaves.count j = 1 → fl F (sumFl F xs t) = fl F (xs.getD j 0)) := by
  induction t with
  | leaf i =>
    simp only [sumFl, SumTree.leaves, List.count_singleton]
    by_cases h : i = j
    · subst h; simp
    · rw [h0 i h]; simp [h]
  | node l r ihl ihr =>
    simp only [sumFl, SumTree.leaves, List.count_append]
    refine ⟨fun h => ?_, fun h => ?_⟩
    · rw [ihl.1 (by omega), ihr.1 (by omega), fadd, add_zero, fl_zero]
    · rw [fadd, fl_eq hp (isFloat_fl hp _)]
      by_cases hl : l.leaves.count j = 0
      · rw [ihl.1 hl, zero_add, ihr.2 (by omega)]
      · rw [ihr.1 (by omega), add_zero, ihl.2 (by omega)]

/-! ### A group mean of rounded numbers -/

/-- A sum where the entries outside `S` are 0: only the others count. -/
theorem sumFl_supp (hp : 1 ≤ F.p) {xs : List ℚ} {n : Nat} {c : ℚ} (hc : 0 ≤ c) {X x : Nat → ℚ} (S : Nat → Bool)
    (hX : ∀ i, |x i| ≤ X i) (hf : ∀ i, IsFloat F (xs.getD i 0)) (h0 : ∀ i, S i = false → xs.getD i 0 = 0 ∧ X i = 0)
    (t : SumTree) (h : ∀ i ∈ t.leaves, S i = true → RoundedFrom F n c (X i) (x i) (xs.getD i 0)) :
    IsFloat F (sumFl F xs t) ∧ |(t.leaves.map x).sum| ≤ (t.leaves.map X).sum ∧
      (t.leaves.countP S = 0 → sumFl F xs t = 0 ∧ (t.leaves.map X).sum = 0 ∧ (t.leaves.map x).sum = 0) ∧
      RoundedFrom F (n + (t.leaves.countP S - 1)) (t.leaves.countP S * c) (t.leaves.map X).sum (t.leaves.map x).sum
        (sumFl F xs t) := by
  have hx0 : ∀ i, S i = false → x i = 0 := fun i hi => abs_nonpos_iff.mp ((hX i).trans_eq (h0 i hi).2)
  induction t with
  | leaf i =>
    simp only [sumFl, SumTree.leaves, List.map_cons, List.map_nil, List.sum_cons, List.sum_nil, add_zero,
      List.countP_singleton]
    refine ⟨hf i, hX i, ?_, ?_⟩
    · intro hcnt
      have hS : S i = false := by
        by_contra hne
        simp [Bool.not_eq_false _ ▸ hne] at hcnt
      exact ⟨(h0 i hS).1, (h0 i hS).2, hx0 i hS⟩
    · cases hS : S i with
      | true => simpa using h i (by simp [SumTree.leaves]) hS
      | false =>
        rw [(h0 i hS).1, (h0 i hS).2, hx0 i hS]
        simp [RoundedFrom]
  | node l r ihl ihr =>
    obtain ⟨f1, a1, z1, r1⟩ := ihl fun i hi => h i (by simp [SumTree.leaves, hi])
    obtain ⟨f2, a2, z2, r2⟩ := ihr fun i hi => h i (by simp [SumTree.leaves, hi])
    simp only [sumFl, SumTree.leaves, List.map_append, List.sum_append, List.countP_append]
    refine ⟨isFloat_fl hp _, (abs_add_le _ _).trans (add_le_add a1 a2), ?_, ?_⟩
    · intro hcnt
      obtain ⟨s1, X1, x1⟩ := z1 (by omega)
      obtain ⟨s2, X2, x2⟩ := z2 (by omega)
      rw [s1, s2, X1, X2, x1, x2, fadd, add_zero, fl_zero]
      exact ⟨rfl, rfl, rfl⟩
    · by_cases hl : l.leaves.countP S = 0
      · obtain ⟨s1, X1, x1⟩ := z1 hl
        rw [s1, X1, x1, hl, fadd, zero_add, zero_add, zero_add, zero_add, fl_eq hp f2]
        exact r2
      · by_cases hr : r.leaves.countP S = 0
        · obtain ⟨s2, X2, x2⟩ := z2 hr
          rw [s2, X2, x2, hr, fadd, add_zero, add_zero, add_zero, add_zero, fl_eq hp f1]
          exact r1
        · have m1 := r1.mono (m := n + (l.leaves.countP S + r.leaves.countP S - 2)) (by omega) le_rfl (by positivity)
            le_rfl ((abs_nonneg _).trans a1)
          have m2 := r2.mono (m := n + (l.leaves.countP S + r.leaves.countP S - 2)) (by omega) le_rfl (by positivity)
            le_rfl ((abs_nonneg _).trans a2)
          have := m1.plus hp m2 a1 a2 f1 f2
          rw [show n + (l.leaves.countP S + r.leaves.countP S - 2) + 1 =
              n + (l.leaves.countP S + r.leaves.countP S - 1) by omega,
            show (l.leaves.countP S : ℚ) * c + r.leaves.countP S * c =
              ((l.leaves.countP S + r.leaves.countP S : Nat) : ℚ) * c by push_cast; ring] at this
          exact this

theorem count_members (D : Nat) (groupOf : Nat → Nat) (c : Nat) :
    ((List.range D).map fun j => decide (groupOf j = c)).count true = (members D groupOf c).card := by
  unfold members
  rw [List.count_eq_countP, List.countP_map, List.countP_eq_length_filter, ← List.toFinset_card_of_nodup
    (List.nodup_range.filter _)]
  congr 1
  ext j
  simp

/-- The metric of a group from the metrics of its members. -/
theorem groupMeanFl_eq (order : Nat → SumTree) (D : Nat) (groupOf : Nat → Nat) (c : Nat) (M : Nat → Num ℚ)
    (v : Nat → ℚ) (h : ∀ j < D, groupOf j = c → M j = some (v j)) (hk : (members D groupOf c).card ≠ 0) :
    groupMeanFl F order ((List.range D).map M) ((List.range D).map fun j => decide (groupOf j = c)) =
      some (fdiv F (sumFl F ((List.range D).map fun j => if groupOf j = c then v j else 0) (order D))
        (members D groupOf c).card) := by
  unfold groupMeanFl
  rw [count_members, List.zipWith_map, List.zipWith_self]
  have e : ((List.range D).map fun j => if decide (groupOf j = c) = true then M j else some 0).mapM id =
      some ((List.range D).map fun j => if groupOf j = c then v j else 0) := by
    rw [optMapM_id, List.map_map]
    apply List.map_congr_left
    intro j hj
    rw [List.mem_range] at hj
    by_cases hc : groupOf j = c
    · simp [hc, h j hj hc]
    · simp [hc]
  rw [e]
  simp only [Option.bind_eq_bind, Option.bind_some, if_neg hk, List.length_map, List.length_range]

/-- Its accuracy. -/
theorem groupMeanFl_rounded (hp : 1 ≤ F.p) {order : Nat → SumTree} (ho : SumOrder order) (D : Nat)
    (groupOf : Nat → Nat) (c : Nat) (M : Nat → Num ℚ) (v : Nat → ℚ)
    (h : ∀ j < D, groupOf j = c → M j = some (v j)) (hf : ∀ j < D, groupOf j = c → IsFloat F (v j))
    (hk : (members D groupOf c).card ≠ 0) {n : Nat} {a : ℚ} (ha : 0 ≤ a) {X x : Nat → ℚ} (hX : ∀ i, |x i| ≤ X i)
    (hr : ∀ j < D, groupOf j = c → RoundedFrom F n a (X j) (x j) (v j)) :
    ∃ m, groupMeanFl F order ((List.range D).map M) ((List.range D).map fun j => decide (groupOf j = c)) = some m ∧
      IsFloat F m ∧ RoundedFrom F (n + (members D groupOf c).card) (a + 1) (memberAvg D groupOf c X)
        (memberAvg D groupOf c x) m := by
  refine ⟨_, groupMeanFl_eq order D groupOf c M v h hk, isFloat_fl hp _, ?_⟩
  have hD : 0 < D := by
    rcases Nat.eq_zero_or_pos D with rfl | h
    · exact absurd (by simp [members]) hk
    · exact h
  have hperm := ho D hD
  have hget : ∀ j, ((List.range D).map fun j => if groupOf j = c then v j else 0).getD j 0 =
      if j < D ∧ groupOf j = c then v j else 0 := by
    intro j
    rw [List.getD_eq_getElem?_getD, List.getElem?_map]
    by_cases hj : j < D
    · rw [List.getElem?_range hj]; simp [hj]
    · rw [List.getElem?_eq_none (by simp; omega)]; simp [hj]
  obtain ⟨-, hab, -, hs⟩ := sumFl_supp hp ha (n := n)
    (xs := (List.range D).map fun j => if groupOf j = c then v j else 0)
    (X := fun j => if j < D ∧ groupOf j = c then X j else 0) (x := fun j => if j < D ∧ groupOf j = c then x j else 0)
    (fun j => decide (j < D ∧ groupOf j = c)) (fun j => by beta_reduce; split <;> simp [hX]) (fun j => by
      rw [hget]
      split
      · rename_i hj; exact hf j hj.1 hj.2
      · exact isFloat_zero) (fun j hj => by
      have hj' : ¬ (j < D ∧ groupOf j = c) := by simpa using hj
      rw [hget]
      simp only [if_neg hj', and_self]) (order D) (fun j _ hj => by
      have hj' : j < D ∧ groupOf j = c := by simpa using hj
      rw [hget]
      simp only [if_pos hj']
      exact hr j hj'.1 hj'.2)
  have hsum : ∀ f : Nat → ℚ, ((order D).leaves.map fun j => if j < D ∧ groupOf j = c then f j else 0).sum =
      ∑ j ∈ members D groupOf c, f j := by
    intro f
    rw [(hperm.map _).sum_eq, sum_range_list]
    unfold members
    rw [Finset.sum_filter]
    apply Finset.sum_congr rfl
    intro j hj
    rw [Finset.mem_range] at hj
    simp [hj]
  have hcnt : (order D).leaves.countP (fun j => decide (j < D ∧ groupOf j = c)) = (members D groupOf c).card := by
    rw [hperm.countP_eq, ← count_members, List.count_eq_countP, List.countP_map]
    apply List.countP_congr
    intro j hj
    rw [List.mem_range] at hj
    simp [hj]
  rw [hsum, hsum, hcnt] at hs
  rw [hsum, hsum] at hab
  have hq : (0 : ℚ) < (members D groupOf c).card := by exact_mod_cast Nat.pos_of_ne_zero hk
  have := hs.quot hab hq
  rw [mul_div_cancel_left₀ _ hq.ne', show n + ((members D groupOf c).card - 1) + 1 = n + (members D groupOf c).card by
    omega] at this
  exact this

/-! ### The result, component by component -/

theorem groupedMetricFl_ok (o : Nat → SumTree) (metric : List (Num ℚ)) (G : Mat Nat) (g : Nat) (r : List (Num ℚ))
    (h : groupedMetricFl F o metric G g = .ok r) : metric.length = G.length ∧
      r = (List.range g).map fun c => groupMeanFl F o metric (G.map fun row => row.getD c 0 != 0) := by
  unfold groupedMetricFl at h
  split at h
  · cases h
  · rename_i hl
    cases h
    exact ⟨not_not.mp hl, rfl⟩

variable (o : MorrisOrders) (sqrt : ℚ → ℚ) (z conf : ℚ) (resample : Nat → List (List Nat))

/-- The tables that the statistics step returns. -/
def statTablesFl (F : Fmt) (o : MorrisOrders) (sqrt : ℚ → ℚ) (z : ℚ) (resample : Nat → List (List Nat))
    (EE : Mat (Num ℚ)) (numVars : Nat) (G : Mat Nat) (names : List String) : MorrisResult ℚ :=
  let member := fun c => G.map fun row => row.getD c 0 != 0
  { names := names
    mu := (List.range names.length).map fun c => groupMeanFl F o.groups (EE.map (meanFlN F o.effects)) (member c)
    muStar := (List.range names.length).map fun c =>
      groupMeanFl F o.groups (EE.map fun ee => meanFlN F o.effects (absN ee)) (member c)
    sigma := (List.range names.length).map fun c => if (G.map (·.getD c 0)).sum = 1 then
      groupMeanFl F o.groups (EE.map (std1FlN F o.effects sqrt)) (member c) else none
    muStarConf := (List.range names.length).map fun c => groupMeanFl F o.groups
      ((List.range numVars).map fun j => confFl F o sqrt z (resample j) (EE.getD j [])) (member c) }

theorem statisticalOutputsFl_ok (EE : Mat (Num ℚ)) (numVars : Nat) (G : Mat Nat) (names : List String)
    (hl : EE.length = numVars) (hG : G.length = numVars) (hc : 0 < conf ∧ conf < 1) :
    statisticalOutputsFl F o sqrt z conf resample EE numVars G names =
      .ok (statTablesFl F o sqrt z resample EE numVars G names) := by
  have h1 : (List.range numVars).mapM (confAtFl F o sqrt z resample EE) =
      .ok ((List.range numVars).map fun j => confFl F o sqrt z (resample j) (EE.getD j [])) := by
    apply mapM_ok_of
    intro j hj
    have hj' : j < EE.length := by rw [hl]; exact List.mem_range.mp hj
    unfold confAtFl
    simp [List.getElem?_eq_getElem hj', List.getD_eq_getElem?_getD]
  have hgm : ∀ (m : List (Num ℚ)), m.length = numVars → groupedMetricFl F o.groups m G names.length =
      .ok ((List.range names.length).map fun c => groupMeanFl F o.groups m (G.map fun row => row.getD c 0 != 0)) := by
    intro m hm
    unfold groupedMetricFl
    rw [if_neg (by omega)]
  unfold statisticalOutputsFl groupedSigmaFl muStarConfFl
  rw [if_neg (not_not.mpr hc)]
  simp only [h1, pyBind_ok]
  rw [hgm _ (by simpa using hl), hgm _ (by simpa using hl), hgm _ (by simpa using hl), hgm _ (by simp)]
  simp only [pyBind_ok, pyPure]
  unfold statTablesFl
  congr 2
  apply List.map_congr_left
  intro c hc
  rw [List.mem_range] at hc
  simp [List.getD_eq_getElem?_getD, hc]

/-- The step fails or returns these tables. -/
theorem statisticalOutputsFl_inv (EE : Mat (Num ℚ)) (numVars : Nat) (G : Mat Nat) (names : List String)
    (res : MorrisResult ℚ) (h : statisticalOutputsFl F o sqrt z conf resample EE numVars G names = .ok res) :
    EE.length = numVars ∧ G.length = numVars ∧ (0 < conf ∧ conf < 1) ∧
      res = statTablesFl F o sqrt z resample EE numVars G names := by
  suffices EE.length = numVars ∧ G.length = numVars ∧ (0 < conf ∧ conf < 1) by
    obtain ⟨a, b, c⟩ := this
    rw [statisticalOutputsFl_ok o sqrt z conf resample EE numVars G names a b c] at h
    exact ⟨a, b, c, (Except.ok.inj h).symm⟩
  unfold statisticalOutputsFl at h
  cases hmc : muStarConfFl F o sqrt z conf resample EE numVars with
  | error e => simp only [hmc, pyBind_error] at h; cases h
  | ok mc =>
    simp only [hmc, pyBind_ok] at h
    have hc : (0 < conf ∧ conf < 1) ∧ mc.length = numVars := by
      unfold muStarConfFl at hmc
      split at hmc
      · cases hmc
      · rename_i hn
        refine ⟨not_not.mp hn, ?_⟩
        have := ((mapM_ok_iff _ _ _).mp hmc).length_eq
        simpa using this.symm
    cases h1 : groupedMetricFl F o.groups (EE.map (meanFlN F o.effects)) G names.length with
    | error e => simp only [h1, pyBind_error] at h; cases h
    | ok mu =>
      simp only [h1, pyBind_ok] at h
      cases h2 : groupedMetricFl F o.groups (EE.map fun ee => meanFlN F o.effects (absN ee)) G names.length with
      | error e => simp only [h2, pyBind_error] at h; cases h
      | ok ms =>
        simp only [h2, pyBind_ok] at h
        cases h3 : groupedSigmaFl F o.groups (EE.map (std1FlN F o.effects sqrt)) G names.length with
        | error e => simp only [h3, pyBind_error] at h; cases h
        | ok sg =>
          simp only [h3, pyBind_ok] at h
          cases h4 : groupedMetricFl F o.groups mc G names.length with
          | error e => simp only [h4, pyBind_error] at h; cases h
          | ok cf =>
            have e1 := (groupedMetricFl_ok _ _ _ _ _ h1).1
            have e4 := (groupedMetricFl_ok _ _ _ _ _ h4).1
            rw [List.length_map] at e1
            exact ⟨by omega, by omega, hc.1⟩

end SALib
