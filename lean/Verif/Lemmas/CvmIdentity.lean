import Verif.Model.Cvm
import Verif.Spec.RsaValue
import Verif.Props.Pawn
import Mathlib.Data.Finset.Max
import Mathlib.Algebra.BigOperators.Ring.Finset
import Mathlib.Tactic.LinearCombination

/-! # Ranks of two samples without ties -/

set_option linter.unusedSectionVars false

namespace SALib

variable {α : Type} [Field α] [LinearOrder α] [IsStrictOrderedRing α]

/-- How many points of `S` with `p` are at most `t`. -/
def upTo (S : Finset α) (p : α → Prop) [DecidablePred p] (t : α) : Nat := (S.filter fun w => p w ∧ w ≤ t).card

theorem upTo_insert_lt (S : Finset α) (p : α → Prop) [DecidablePred p] (m t : α) (ht : t < m) :
    upTo (insert m S) p t = upTo S p t := by
  unfold upTo
  rw [Finset.filter_insert, if_neg (fun h => absurd h.2 (not_le.mpr ht))]

theorem upTo_insert_self (S : Finset α) (p : α → Prop) [DecidablePred p] (m : α) (hm : ∀ x ∈ S, x < m) :
    upTo (insert m S) p m = (S.filter p).card + if p m then 1 else 0 := by
  unfold upTo
  have hmS : m ∉ S := fun h => lt_irrefl _ (hm m h)
  have e : (insert m S).filter (fun w => p w ∧ w ≤ m) = (insert m S).filter p := by
    apply Finset.filter_congr
    intro w hw
    constructor
    · exact fun h => h.1
    · intro h
      refine ⟨h, ?_⟩
      rcases Finset.mem_insert.mp hw with rfl | h'
      · exact le_refl _
      · exact (hm w h').le
  rw [e, Finset.filter_insert]
  split
  · rw [Finset.card_insert_of_notMem (fun h => hmS (Finset.mem_filter.mp h).1)]
  · rfl

/-- Sum of the squared positions of the points with `p`. -/
theorem sum_sq_upTo (S : Finset α) (p : α → Prop) [DecidablePred p] :
    6 * ∑ t ∈ S, (if p t then (upTo S p t : α) ^ 2 else 0) =
      ((S.filter p).card : α) * ((S.filter p).card + 1) * (2 * (S.filter p).card + 1) := by
  induction S using Finset.induction_on_max with
  | empty => simp
  | insert m S hm ih =>
    have hmS : m ∉ S := fun h => lt_irrefl _ (hm m h)
    rw [Finset.sum_insert hmS, upTo_insert_self S p m hm]
    have e : ∑ t ∈ S, (if p t then (upTo (insert m S) p t : α) ^ 2 else 0) =
        ∑ t ∈ S, (if p t then (upTo S p t : α) ^ 2 else 0) :=
      Finset.sum_congr rfl fun t ht => by rw [upTo_insert_lt S p m t (hm t ht)]
    rw [e, mul_add, ih, Finset.filter_insert]
    by_cases hp : p m
    · rw [if_pos hp, if_pos hp, if_pos hp, Finset.card_insert_of_notMem (fun h => hmS (Finset.mem_filter.mp h).1)]
      push_cast
      ring
    · rw [if_neg hp, if_neg hp]
      ring

/-- The walk through both samples in increasing order. -/
theorem sum_cross_upTo (S : Finset α) (p q : α → Prop) [DecidablePred p] [DecidablePred q] (hpq : ∀ t ∈ S, q t ↔ ¬p t) :
    ∑ t ∈ S, (if p t then (upTo S q t : α) ^ 2 else (upTo S p t : α) ^ 2) +
        2 * ∑ t ∈ S, (upTo S p t : α) * (upTo S q t : α) =
      ((S.filter p).card : α) * ((S.filter q).card : α) * ((S.filter p).card + (S.filter q).card + 1) := by
  induction S using Finset.induction_on_max with
  | empty => simp
  | insert m S hm ih =>
    have hmS : m ∉ S := fun h => lt_irrefl _ (hm m h)
    have ih := ih fun t ht => hpq t (Finset.mem_insert_of_mem ht)
    have hq := hpq m (Finset.mem_insert_self m S)
    rw [Finset.sum_insert hmS, Finset.sum_insert hmS, upTo_insert_self S p m hm, upTo_insert_self S q m hm]
    have e : ∑ t ∈ S, (if p t then (upTo (insert m S) q t : α) ^ 2 else (upTo (insert m S) p t : α) ^ 2) =
        ∑ t ∈ S, (if p t then (upTo S q t : α) ^ 2 else (upTo S p t : α) ^ 2) :=
      Finset.sum_congr rfl fun t ht => by rw [upTo_insert_lt S p m t (hm t ht), upTo_insert_lt S q m t (hm t ht)]
    have e2 : ∑ t ∈ S, (upTo (insert m S) p t : α) * (upTo (insert m S) q t : α) =
        ∑ t ∈ S, (upTo S p t : α) * (upTo S q t : α) :=
      Finset.sum_congr rfl fun t ht => by rw [upTo_insert_lt S p m t (hm t ht), upTo_insert_lt S q m t (hm t ht)]
    rw [e, e2, Finset.filter_insert, Finset.filter_insert]
    by_cases hp : p m
    · have hq' : ¬q m := fun h => (hq.mp h) hp
      rw [if_pos hp, if_pos hp, if_pos hp, if_neg hq', if_neg hq',
        Finset.card_insert_of_notMem (fun h => hmS (Finset.mem_filter.mp h).1)]
      push_cast
      linear_combination ih
    · have hq' : q m := hq.mpr hp
      rw [if_neg hp, if_neg hp, if_neg hp, if_pos hq', if_pos hq',
        Finset.card_insert_of_notMem (fun h => hmS (Finset.mem_filter.mp h).1)]
      push_cast
      linear_combination ih

/-- The sum of squared rank gaps of two samples without ties, by distribution functions. -/
theorem walk_identity (S : Finset α) (p q : α → Prop) [DecidablePred p] [DecidablePred q] (hpq : ∀ t ∈ S, q t ↔ ¬p t)
    (n m : α) (hn : ((S.filter p).card : α) = n) (hm : ((S.filter q).card : α) = m) :
    (n + m) * (n * ∑ t ∈ S, (if p t then (upTo S q t : α) ^ 2 else 0) +
        m * ∑ t ∈ S, (if q t then (upTo S p t : α) ^ 2 else 0)) =
      ∑ t ∈ S, (m * upTo S p t - n * upTo S q t) ^ 2 + n * m * (n + m) * (4 * (n * m) - 1) / 6 := by
  have h1 := sum_sq_upTo S p
  have h2 := sum_sq_upTo S q
  have h3 := sum_cross_upTo S p q hpq
  rw [hn, hm] at h3
  rw [hn] at h1
  rw [hm] at h2
  have s1 : ∑ t ∈ S, (if p t then (upTo S q t : α) ^ 2 else (upTo S p t : α) ^ 2) =
      ∑ t ∈ S, (if p t then (upTo S q t : α) ^ 2 else 0) + ∑ t ∈ S, (if q t then (upTo S p t : α) ^ 2 else 0) := by
    rw [← Finset.sum_add_distrib]
    refine Finset.sum_congr rfl fun t ht => ?_
    by_cases hp : p t
    · rw [if_pos hp, if_pos hp, if_neg (fun h => (hpq t ht).mp h hp), add_zero]
    · rw [if_neg hp, if_neg hp, if_pos ((hpq t ht).mpr hp), zero_add]
  have s2 : ∀ f : α → α, ∑ t ∈ S, f t = ∑ t ∈ S, (if p t then f t else 0) + ∑ t ∈ S, (if q t then f t else 0) := by
    intro f
    rw [← Finset.sum_add_distrib]
    refine Finset.sum_congr rfl fun t ht => ?_
    by_cases hp : p t
    · rw [if_pos hp, if_neg (fun h => (hpq t ht).mp h hp), add_zero]
    · rw [if_neg hp, if_pos ((hpq t ht).mpr hp), zero_add]
  have s3 : ∑ t ∈ S, (m * upTo S p t - n * upTo S q t) ^ 2 =
      m ^ 2 * ∑ t ∈ S, (upTo S p t : α) ^ 2 - 2 * (n * m) * ∑ t ∈ S, (upTo S p t : α) * (upTo S q t : α) +
        n ^ 2 * ∑ t ∈ S, (upTo S q t : α) ^ 2 := by
    rw [Finset.mul_sum, Finset.mul_sum, Finset.mul_sum, ← Finset.sum_sub_distrib, ← Finset.sum_add_distrib]
    exact Finset.sum_congr rfl fun t _ => by ring
  rw [s3, s2 fun t => (upTo S p t : α) ^ 2, s2 fun t => (upTo S q t : α) ^ 2]
  rw [s1] at h3
  linear_combination (n * m) * h3 - m ^ 2 / 6 * h1 - n ^ 2 / 6 * h2

end SALib
