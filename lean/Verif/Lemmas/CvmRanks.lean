import Verif.Lemmas.CvmIdentity
import Mathlib.Algebra.BigOperators.Group.Finset.Basic
import Mathlib.Tactic.FieldSimp
import Mathlib.Tactic.Positivity

/-! # The two-sample statistic by distribution functions -/

set_option linter.unusedSectionVars false

namespace SALib

variable {α : Type} [Field α] [LinearOrder α] [IsStrictOrderedRing α]

theorem avgRank_perm (z z' : List α) (h : z.Perm z') (v : α) : avgRank z v = avgRank z' v := by
  unfold avgRank
  rw [(h.filter _).length_eq, (h.filter _).length_eq]

theorem countP_le_split (z : List α) (v : α) :
    z.countP (fun w => decide (w ≤ v)) = (z.filter fun w => decide (w < v)).length + z.count v := by
  induction z with
  | nil => simp
  | cons w z ih =>
    rw [List.countP_cons, ih, List.filter_cons, List.count_cons]
    rcases lt_trichotomy w v with h | h | h
    · simp [h, h.le, h.ne]; omega
    · subst h; simp; omega
    · simp [not_le.mpr h, not_lt.mpr h.le, h.ne']

/-- Without ties the rank of a value counts the values up to it. -/
theorem avgRank_nodup (z : List α) (hz : z.Nodup) (v : α) (hv : v ∈ z) :
    avgRank z v = (z.countP (fun w => decide (w ≤ v)) : α) := by
  unfold avgRank
  have e : (z.filter fun w => decide (w = v)).length = 1 := by
    rw [← List.count_eq_one_of_mem hz hv, List.count, ← List.countP_eq_length_filter]
    apply List.countP_congr
    intro w _
    simp
  rw [countP_le_split, List.count_eq_one_of_mem hz hv, e]
  push_cast
  ring

theorem countP_sorted (l : List α) (hl : l.Pairwise (· < ·)) (i : Nat) (x : α) (hx : l[i]? = some x) :
    l.countP (fun w => decide (w ≤ x)) = i + 1 := by
  induction l generalizing i with
  | nil => simp at hx
  | cons a l ih =>
    rw [List.pairwise_cons] at hl
    rw [List.countP_cons]
    cases i with
    | zero =>
      simp only [List.getElem?_cons_zero, Option.some.injEq] at hx
      subst hx
      rw [List.countP_eq_zero.mpr (fun w hw => by simpa using hl.1 w hw)]
      simp
    | succ i =>
      rw [List.getElem?_cons_succ] at hx
      rw [ih hl.2 i hx, if_pos (by simpa using (hl.1 x (List.mem_of_getElem? hx)).le)]

/-- The gaps of the sorted values `l` against the other sample `r`. -/
theorem rankGap_value (z l r : List α) (hl : l.Pairwise (· < ·)) (hz : z.Nodup) (hp : z.Perm (l ++ r)) :
    rankGap z l = (l.map fun x => ((r.countP fun w => decide (w ≤ x) : Nat) : α) ^ 2).sum := by
  unfold rankGap
  have e : (l.map fun x => ((r.countP fun w => decide (w ≤ x) : Nat) : α) ^ 2) =
      l.zipIdx.map fun p => ((r.countP fun w => decide (w ≤ p.1) : Nat) : α) ^ 2 := by
    conv_lhs => rw [← List.zipIdx_map_fst 0 l]
    rw [List.map_map]
    rfl
  rw [e]
  congr 1
  apply List.map_congr_left
  intro p hpz
  have hx : l[p.2]? = some p.1 := List.mem_zipIdx_iff_getElem?.mp hpz
  have hm : p.1 ∈ z := hp.mem_iff.mpr (List.mem_append_left _ (List.mem_of_getElem? hx))
  rw [avgRank_nodup z hz p.1 hm, hp.countP_eq, List.countP_append, countP_sorted l hl p.2 p.1 hx]
  push_cast
  ring

theorem npSort_strict (l : List α) (hl : l.Nodup) : (npSort l).Pairwise (· < ·) := by
  have h1 := npSort_sorted l
  have h2 : (npSort l).Nodup := (npSort_perm l).nodup_iff.mpr hl
  exact (h1.and h2).imp fun {a b} h => lt_of_le_of_ne h.1 h.2

theorem sum_list_toFinset (l : List α) (hl : l.Nodup) (f : α → α) : ∑ t ∈ l.toFinset, f t = (l.map f).sum :=
  List.sum_toFinset f hl

theorem upTo_list (a b : List α) (hab : (a ++ b).Nodup) (t : α) :
    upTo (a ++ b).toFinset (· ∈ a) t = a.countP fun w => decide (w ≤ t) := by
  unfold upTo
  have ha : a.Nodup := (List.nodup_append.mp hab).1
  have e : (a ++ b).toFinset.filter (fun w => w ∈ a ∧ w ≤ t) = (a.filter fun w => decide (w ≤ t)).toFinset := by
    ext w
    simp only [Finset.mem_filter, List.mem_toFinset, List.mem_append, List.mem_filter, decide_eq_true_eq]
    tauto
  rw [e, List.toFinset_card_of_nodup (ha.filter _), List.countP_eq_length_filter]

theorem card_list (a b : List α) (hab : (a ++ b).Nodup) : ((a ++ b).toFinset.filter (· ∈ a)).card = a.length := by
  have ha : a.Nodup := (List.nodup_append.mp hab).1
  have e : (a ++ b).toFinset.filter (· ∈ a) = a.toFinset := by
    ext w
    simp only [Finset.mem_filter, List.mem_toFinset, List.mem_append]
    tauto
  rw [e, List.toFinset_card_of_nodup ha]

theorem sum_list_part (a b : List α) (hab : (a ++ b).Nodup) (f : α → α) :
    ∑ t ∈ (a ++ b).toFinset, (if t ∈ a then f t else 0) = (a.map f).sum := by
  have ha : a.Nodup := (List.nodup_append.mp hab).1
  rw [← Finset.sum_filter]
  have e : (a ++ b).toFinset.filter (· ∈ a) = a.toFinset := by
    ext w
    simp only [Finset.mem_filter, List.mem_toFinset, List.mem_append]
    tauto
  rw [e, List.sum_toFinset f ha]

/-- The statistic of two samples without ties. -/
theorem cvmStat_value (a b : List α) (ha : a ≠ []) (hb : b ≠ []) (hab : (a ++ b).Nodup) :
    cvmStat a b = (a.length : α) * b.length / (a.length + b.length) * Spec.meanSqDistance a b := by
  have hba : (b ++ a).Nodup := List.perm_append_comm.nodup_iff.mp hab
  have hna := (List.nodup_append.mp hab).1
  have hnb := (List.nodup_append.mp hba).1
  have hz : (npSort a ++ npSort b).Nodup := ((npSort_perm a).append (npSort_perm b)).nodup_iff.mpr hab
  have hn : (0 : α) < a.length := by exact_mod_cast List.length_pos_iff.mpr ha
  have hm : (0 : α) < b.length := by exact_mod_cast List.length_pos_iff.mpr hb
  have hpq : ∀ t ∈ (a ++ b).toFinset, t ∈ b ↔ ¬t ∈ a := by
    intro t ht
    have hd := (List.nodup_append.mp hab).2.2
    constructor
    · exact fun h h' => hd t h' t h rfl
    · intro h
      rcases List.mem_append.mp (List.mem_toFinset.mp ht) with h' | h'
      · exact absurd h' h
      · exact h'
  have hfb : (a ++ b).toFinset = (b ++ a).toFinset := by
    ext w; simp only [List.mem_toFinset, List.mem_append]; tauto
  have key := walk_identity (a ++ b).toFinset (· ∈ a) (· ∈ b) hpq (a.length : α) (b.length : α)
    (by rw [card_list a b hab]) (by rw [hfb, card_list b a hba])
  have ub : ∀ t, upTo (a ++ b).toFinset (· ∈ b) t = b.countP fun w => decide (w ≤ t) := fun t => by
    rw [hfb, upTo_list b a hba]
  have g1 : rankGap (npSort a ++ npSort b) (npSort a) =
      ∑ t ∈ (a ++ b).toFinset, (if t ∈ a then (upTo (a ++ b).toFinset (· ∈ b) t : α) ^ 2 else 0) := by
    rw [rankGap_value _ (npSort a) (npSort b) (npSort_strict a hna) hz (List.Perm.refl _),
      ((npSort_perm a).map _).sum_eq, sum_list_part a b hab]
    congr 1
    apply List.map_congr_left
    intro x _
    rw [ub, (npSort_perm b).countP_eq]
  have g2 : rankGap (npSort a ++ npSort b) (npSort b) =
      ∑ t ∈ (a ++ b).toFinset, (if t ∈ b then (upTo (a ++ b).toFinset (· ∈ a) t : α) ^ 2 else 0) := by
    rw [rankGap_value _ (npSort b) (npSort a) (npSort_strict b hnb) hz List.perm_append_comm,
      ((npSort_perm b).map _).sum_eq, hfb, sum_list_part b a hba, ← hfb]
    congr 1
    apply List.map_congr_left
    intro x _
    rw [upTo_list a b hab, (npSort_perm a).countP_eq]
  rw [← g1, ← g2] at key
  have hsum : ∑ t ∈ (a ++ b).toFinset, ((b.length : α) * upTo (a ++ b).toFinset (· ∈ a) t -
      a.length * upTo (a ++ b).toFinset (· ∈ b) t) ^ 2 =
      ((a.length : α) * b.length) ^ 2 * ((a ++ b).map fun t => (Spec.shareUpTo a t - Spec.shareUpTo b t) ^ 2).sum := by
    rw [← List.sum_toFinset _ hab, Finset.mul_sum]
    refine Finset.sum_congr rfl fun t _ => ?_
    rw [ub, upTo_list a b hab]
    unfold Spec.shareUpTo
    field_simp
  rw [hsum] at key
  have hN : (0 : α) < a.length + b.length := by positivity
  unfold cvmStat Spec.meanSqDistance
  simp only []
  rw [List.length_append]
  push_cast
  generalize ((a ++ b).map fun t => (Spec.shareUpTo a t - Spec.shareUpTo b t) ^ 2).sum = D at key ⊢
  generalize (a.length : α) * rankGap (npSort a ++ npSort b) (npSort a) +
    (b.length : α) * rankGap (npSort a ++ npSort b) (npSort b) = U at key ⊢
  generalize (a.length : α) = n at *
  generalize (b.length : α) = m at *
  have hU : U = ((n * m) ^ 2 * D + n * m * (n + m) * (4 * (n * m) - 1) / 6) / (n + m) := by
    rw [eq_div_iff hN.ne', mul_comm]; exact key
  rw [hU]
  field_simp
  ring

end SALib
