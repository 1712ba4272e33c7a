import Verif.Model.TestFunctions
import Verif.Spec.TestFunctions
import Verif.Lemmas.ListAux
import Mathlib.Algebra.Order.BigOperators.Group.List
import Mathlib.Algebra.Field.GeomSum

/-!
# C93: the lake problem
-/

namespace SALib

open Spec

theorem lakeRows_eq (a q b : ℝ) (eps : List ℝ) (n t0 : Nat) :
    lakeRows a q b eps n (eps.map fun e => lakeState a q b e t0) =
      (List.range n).map fun t => eps.map fun e => lakeState a q b e (t0 + t + 1) := by
  induction n generalizing t0 with
  | zero => rfl
  | succ n ih =>
    have e : List.zipWith (lakeStep a q b) (eps.map fun e => lakeState a q b e t0) eps =
        eps.map fun e => lakeState a q b e (t0 + 1) := by
      rw [List.zipWith_map_left, List.zipWith_self]
      rfl
    rw [List.range_succ_eq_map, List.map_cons, List.map_map]
    rw [lakeRows]
    rw [e, ih (t0 + 1)]
    congr 1
    refine List.map_congr_left fun t _ => List.map_congr_left fun x _ => ?_
    show lakeState a q b x _ = lakeState a q b x _
    congr 1
    omega

theorem foldl_max_mem (y : ℝ) (ys : List ℝ) :
    ys.foldl max y ∈ y :: ys ∧ ∀ v ∈ y :: ys, v ≤ ys.foldl max y := by
  induction ys generalizing y with
  | nil => simp
  | cons z zs ih =>
    obtain ⟨h1, h2⟩ := ih (max y z)
    rw [List.foldl_cons]
    constructor
    · rcases List.mem_cons.mp h1 with h | h
      · rcases max_choice y z with hm | hm <;> rw [hm] at h <;> rw [hm, h] <;> simp
      · exact List.mem_cons_of_mem _ (List.mem_cons_of_mem _ h)
    · intro v hv
      rcases List.mem_cons.mp hv with rfl | hv
      · exact le_trans (le_max_left _ z) (h2 _ (List.mem_cons_self ..))
      · rcases List.mem_cons.mp hv with rfl | hv
        · exact le_trans (le_max_right y _) (h2 _ (List.mem_cons_self ..))
        · exact h2 v (List.mem_cons_of_mem _ hv)

/-- **C93** (partial).  For seven values, a positive `nvars`, a threshold found by the root finder and five inflows:
five steps of five lakes are simulated, whatever `nvars` is; the outputs are the largest simulated state, the
discounted benefit over `nvars` steps, and the number of simulated states below the threshold over `nvars`.  Missing,
because false: the reliability and the inertia are not the fractions of steps that they stand for; see
`C93_reliability_fails`. -/
theorem C93_lake_partial (draw : ℝ → ℝ → Nat → List ℝ) (root : ℝ → ℝ → Py ℝ) (nvars : Nat)
    (a q b mean stdev delta alpha pcrit : ℝ) (hn : 0 < nvars) (hroot : root q b = .ok pcrit)
    (hdraw : (draw mean stdev 5).length = 5) :
    ∃ m u i r, lakeRow draw root nvars [a, q, b, mean, stdev, delta, alpha] = .ok [m, u, i, r] ∧
      (∃ e ∈ draw mean stdev 5, ∃ t, 1 ≤ t ∧ t ≤ 5 ∧ m = lakeState a q b e t) ∧
      (∀ e ∈ draw mean stdev 5, ∀ t, 1 ≤ t → t ≤ 5 → lakeState a q b e t ≤ m) ∧
      u = ∑ t ∈ Finset.range nvars, alpha * a * delta ^ t ∧
      (delta ≠ 1 → u = alpha * a * (1 - delta ^ nvars) / (1 - delta)) ∧
      ((a < 2 / 100 → i = 1 / nvars) ∧ (2 / 100 ≤ a → i = 0)) ∧
      0 ≤ r ∧ r ≤ 25 / nvars ∧
      ((∀ e ∈ draw mean stdev 5, ∀ t, 1 ≤ t → t ≤ 5 → lakeState a q b e t < pcrit) → r = 25 / nvars) := by
  classical
  set eps := draw mean stdev 5 with heps
  have hn' : (nvars : ℝ) ≠ 0 := by exact_mod_cast hn.ne'
  have hz : List.replicate 5 (0 : ℝ) = eps.map fun e => lakeState a q b e 0 := by
    show _ = eps.map fun _ => (0 : ℝ)
    rw [List.map_const', hdraw]
  have htmp : evaluateLake draw [a, q, b, mean, stdev] =
      .ok ((List.range 5).map fun t => eps.map fun e => lakeState a q b e (t + 1)) := by
    show Except.ok (lakeRows a q b eps 5 (List.replicate 5 0)) = _
    rw [hz, lakeRows_eq]
    simp
  set tmp := (List.range 5).map fun t => eps.map fun e => lakeState a q b e (t + 1) with htm
  have hmem : ∀ v, v ∈ tmp.flatten ↔ ∃ e ∈ eps, ∃ t, 1 ≤ t ∧ t ≤ 5 ∧ v = lakeState a q b e t := by
    intro v
    rw [htm, List.mem_flatten]
    constructor
    · rintro ⟨l, hl, hv⟩
      obtain ⟨t, ht, rfl⟩ := List.mem_map.mp hl
      obtain ⟨e, he, rfl⟩ := List.mem_map.mp hv
      have := List.mem_range.mp ht
      exact ⟨e, he, t + 1, by omega, by omega, rfl⟩
    · rintro ⟨e, he, t, h1, h5, rfl⟩
      refine ⟨_, List.mem_map.mpr ⟨t - 1, List.mem_range.mpr (by omega), rfl⟩, List.mem_map.mpr ⟨e, he, ?_⟩⟩
      rw [Nat.sub_add_cancel h1]
  have hlen : tmp.flatten.length = 25 := by
    rw [List.length_flatten, htm, List.map_map]
    have : (List.length ∘ fun t => eps.map fun e => lakeState a q b e (t + 1)) = fun _ => 5 := by
      funext t; simp [hdraw]
    rw [this]
    rfl
  obtain ⟨y, ys, hys⟩ : ∃ y ys, tmp.flatten = y :: ys := by
    cases h : tmp.flatten with
    | nil => rw [h] at hlen; cases hlen
    | cons y ys => exact ⟨y, ys, rfl⟩
  obtain ⟨hmax1, hmax2⟩ := foldl_max_mem y ys
  rw [← hys] at hmax1 hmax2
  have hrun : lakeRow draw root nvars [a, q, b, mean, stdev, delta, alpha] =
      .ok [ys.foldl max y, ((List.range nvars).map fun t => alpha * a * delta ^ t).sum,
        (([a].filter fun v => v < 2 / 100).length : ℝ) / nvars,
        ((tmp.flatten.filter fun v => v < pcrit).length : ℝ) / nvars] := by
    have hp : ∀ c, perStep c nvars = .ok ((c : ℝ) / nvars) := fun c => if_neg hn.ne'
    have hm : arrayMax tmp.flatten = .ok (ys.foldl max y) := by rw [hys]; rfl
    simp only [lakeRow, List.take_succ_cons, List.take_zero]
    rw [htmp, pyBind_ok, hroot, pyBind_ok, hp, pyBind_ok, hm, pyBind_ok, hp, pyBind_ok]
    rfl
  have hu : ((List.range nvars).map fun t => alpha * a * delta ^ t).sum =
      ∑ t ∈ Finset.range nvars, alpha * a * delta ^ t := by
    rw [Finset.sum_range, ← List.sum_ofFn, List.ofFn_eq_map, ← List.map_coe_finRange_eq_range, List.map_map]
    rfl
  refine ⟨_, _, _, _, hrun, ?_, ?_, hu, ?_, ⟨?_, ?_⟩, by positivity, ?_, ?_⟩
  · exact (hmem _).mp hmax1
  · intro e he t h1 h5
    exact hmax2 _ ((hmem _).mpr ⟨e, he, t, h1, h5, rfl⟩)
  · intro hd
    have hd' : 1 - delta ≠ 0 := sub_ne_zero.mpr (Ne.symm hd)
    rw [hu, ← Finset.mul_sum, mul_div_assoc]
    congr 1
    rw [eq_div_iff hd', geom_sum_mul_neg]
  · intro ha
    simp [ha]
  · intro ha
    simp [not_lt.mpr ha]
  · refine div_le_div_of_nonneg_right ?_ (by positivity)
    have := List.length_filter_le (fun v => decide (v < pcrit)) tmp.flatten
    rw [hlen] at this
    exact_mod_cast this
  · intro hall
    rw [List.filter_eq_self.mpr, hlen]
    · norm_num
    · intro v hv
      obtain ⟨e, he, t, h1, h5, rfl⟩ := (hmem v).mp hv
      exact decide_eq_true (hall e he t h1 h5)

/-- **C93**, what fails.  With the default `nvars = 100` the reliability never exceeds one quarter, even when no state
ever crosses the threshold; and the inertia never exceeds one hundredth, even when the decision never changes. -/
theorem C93_reliability_fails (draw : ℝ → ℝ → Nat → List ℝ) (root : ℝ → ℝ → Py ℝ)
    (a q b mean stdev delta alpha : ℝ) (hdraw : (draw mean stdev 5).length = 5) (out : List ℝ)
    (h : lakeRow draw root 100 [a, q, b, mean, stdev, delta, alpha] = .ok out) :
    ∃ m u i r, out = [m, u, i, r] ∧ r ≤ 1 / 4 ∧ i ≤ 1 / 100 := by
  cases hroot : root q b with
  | error e =>
    simp only [lakeRow, List.take_succ_cons, List.take_zero] at h
    rw [show evaluateLake draw [a, q, b, mean, stdev] = .ok _ from rfl, pyBind_ok, hroot, pyBind_error] at h
    cases h
  | ok pcrit =>
    obtain ⟨m, u, i, r, hrun, -, -, -, -, ⟨h1, h2⟩, -, hr, -⟩ :=
      C93_lake_partial draw root 100 a q b mean stdev delta alpha pcrit (by norm_num) hroot hdraw
    rw [hrun] at h
    cases h
    refine ⟨m, u, i, r, rfl, by norm_num at hr ⊢; exact hr, ?_⟩
    rcases lt_or_ge a (2 / 100) with ha | ha
    · rw [h1 ha]; norm_num
    · rw [h2 ha]; norm_num

/-- **C93**, the states.  With nonnegative inflows and a loss rate between 0 and 1 no state is negative, so every power
is that of a nonnegative number. -/
theorem C93_states_nonneg (a q b e : ℝ) (ha : 0 ≤ a) (hb : b ≤ 1) (he : 0 ≤ e) (t : Nat) :
    0 ≤ lakeState a q b e t := by
  induction t with
  | zero => exact le_refl _
  | succ t ih =>
    rw [lakeState]
    have h1 : 0 ≤ lakeState a q b e t ^ q := Real.rpow_nonneg ih q
    have h2 : 0 ≤ lakeState a q b e t ^ q / (1 + lakeState a q b e t ^ q) := by positivity
    nlinarith [mul_nonneg (sub_nonneg.mpr hb) ih]

/-- The hypotheses are met: five equal inflows, a threshold of one half, 100 steps. -/
example : (fun _ _ (n : Nat) => List.replicate n (1 / 50 : ℝ)) (2 / 100 : ℝ) (1 / 1000 : ℝ) 5 =
    [1 / 50, 1 / 50, 1 / 50, 1 / 50, 1 / 50] ∧ (0 : Nat) < 100 := by
  refine ⟨rfl, by norm_num⟩

end SALib
