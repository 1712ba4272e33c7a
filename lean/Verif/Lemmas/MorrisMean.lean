import Verif.Spec.MorrisMean
import Verif.Lemmas.SobolExpect
import Mathlib.MeasureTheory.Integral.Bochner.SumMeasure

/-! The points visited by a random Morris trajectory. -/

namespace SALib

open MeasureTheory ProbabilityTheory Spec

variable {D g q : Nat}

/-- The turn of group `k`. -/
def turnOf (d : MorrisDraw D g q) (k : Nat) : Nat := (List.ofFn fun i => (d.order i : Nat)).getD k 0

theorem turnOf_eq (d : MorrisDraw D g q) (k : Nat) (hk : k < g) : turnOf d k = d.order ⟨k, hk⟩ := by
  simp [turnOf, List.getD_eq_getElem?_getD, hk]

theorem turnOf_lt (d : MorrisDraw D g q) (k : Nat) (hk : k < g) : turnOf d k < g := by
  rw [turnOf_eq d k hk]; exact Fin.is_lt _

theorem turnOf_inj (d : MorrisDraw D g q) (k l : Nat) (hk : k < g) (hl : l < g) (h : turnOf d k = turnOf d l) : k = l := by
  rw [turnOf_eq d k hk, turnOf_eq d l hl] at h
  have := d.order.injective (Fin.ext h)
  simpa using this

/-- The levels after `t` steps. -/
def levelAt (groupOf : Nat → Nat) (d : MorrisDraw D g q) (t : Nat) : Fin D → Fin (2 * q) := fun i =>
  ⟨d.pick i + if (turnOf d (groupOf i) < t ↔ d.up i = true) then q else 0, by have := (d.pick i).is_lt; split <;> omega⟩

theorem levelAt_val (groupOf : Nat → Nat) (d : MorrisDraw D g q) (t : Nat) (i : Fin D) :
    (levelAt groupOf d t i : Nat) = d.pick i + if (turnOf d (groupOf i) < t ↔ d.up i = true) then q else 0 := rfl

theorem opposite_val (i : Fin (2 * q)) : (opposite i : Nat) = if (i : Nat) < q then i + q else i - q := by
  unfold opposite
  split <;> rfl

theorem opposite_opposite (i : Fin (2 * q)) : opposite (opposite i) = i := by
  have hi := i.is_lt
  apply Fin.ext
  rw [opposite_val, opposite_val]
  split <;> split <;> omega

theorem groupStep_groupStep (groupOf : Nat → Nat) (k : Nat) (x : Fin D → Fin (2 * q)) :
    groupStep groupOf k (groupStep groupOf k x) = x := by
  funext j
  unfold groupStep
  split
  · exact opposite_opposite _
  · rfl

/-- At the turn of group `k` exactly its inputs move. -/
theorem levelAt_step (groupOf : Nat → Nat) (hgo : ∀ j < D, groupOf j < g) (d : MorrisDraw D g q) (k : Nat) (hk : k < g) :
    levelAt groupOf d (turnOf d k + 1) = groupStep groupOf k (levelAt groupOf d (turnOf d k)) := by
  funext i
  unfold groupStep
  apply Fin.ext
  by_cases h : groupOf i = k
  · rw [if_pos h, opposite_val, levelAt_val, levelAt_val, h]
    simp only [Nat.lt_succ_self, lt_irrefl, true_iff, false_iff]
    have hp := (d.pick i).is_lt
    cases hu : d.up i <;> simp [hp]
  · rw [if_neg h, levelAt_val, levelAt_val]
    have hne : turnOf d (groupOf i) ≠ turnOf d k := fun e => h (turnOf_inj d _ _ (hgo i i.is_lt) hk e)
    have : (turnOf d (groupOf i) < turnOf d k + 1) ↔ (turnOf d (groupOf i) < turnOf d k) := by omega
    simp only [this]

/-- The end of the move of input `j` at which `j` is low. -/
def lowPoint (groupOf : Nat → Nat) (j : Fin D) (d : MorrisDraw D g q) : Fin D → Fin (2 * q) :=
  levelAt groupOf d (turnOf d (groupOf j) + if d.up j then 0 else 1)

theorem lowPoint_mem (groupOf : Nat → Nat) (j : Fin D) (d : MorrisDraw D g q) : lowPoint groupOf j d ∈ starts j := by
  unfold starts lowPoint
  simp only [Finset.mem_filter, Finset.mem_univ, true_and]
  rw [levelAt_val]
  cases hu : d.up j <;> simp

/-- Summing over all draws is summing over all starting points, each met the same number of times. -/
theorem sum_lowPoint (groupOf : Nat → Nat) (j : Fin D) (h : (Fin D → Fin (2 * q)) → ℝ) :
    ∑ d : MorrisDraw D g q, h (lowPoint groupOf j d) =
      (Fintype.card (Equiv.Perm (Fin g) × Bool) : ℝ) * ∑ x ∈ starts j, h x := by
  have e : ∑ d : MorrisDraw D g q, h (lowPoint groupOf j d) =
      ∑ z ∈ (Finset.univ : Finset (Equiv.Perm (Fin g) × Bool)) ×ˢ starts (q := q) j, h z.2 := by
    refine Finset.sum_bij' (fun d _ => ((d.order, d.up j), lowPoint groupOf j d))
      (fun z hz => { order := z.1.1
                     up := fun i => decide
                      ((List.ofFn fun i => (z.1.1 i : Nat)).getD (groupOf i) 0 <
                        (List.ofFn fun i => (z.1.1 i : Nat)).getD (groupOf j) 0 + (if z.1.2 then 0 else 1) ↔ q ≤ (z.2 i : Nat))
                     pick := fun i => ⟨(z.2 i : Nat) % q, Nat.mod_lt _ (by have := (z.2 i).is_lt; omega)⟩ }) ?_ ?_ ?_ ?_ ?_
    · intro d _
      rw [Finset.mem_product]
      exact ⟨Finset.mem_univ _, lowPoint_mem groupOf j d⟩
    · intro z _; exact Finset.mem_univ _
    · rintro ⟨σ, up, pick⟩ _
      congr 1
      · funext i
        have hlt := (pick i).is_lt
        simp only [lowPoint, levelAt_val]
        rw [Bool.eq_iff_iff]
        refine decide_eq_true_iff.trans ?_
        by_cases hc : (turnOf (⟨σ, up, pick⟩ : MorrisDraw D g q) (groupOf i) <
            turnOf (⟨σ, up, pick⟩ : MorrisDraw D g q) (groupOf j) + (if up j = true then 0 else 1) ↔ up i = true)
        · rw [if_pos hc]
          have : q ≤ (pick i : Nat) + q := by omega
          simp only [this, iff_true]
          exact hc
        · rw [if_neg hc]
          have : ¬ q ≤ (pick i : Nat) + 0 := by omega
          simp only [this, iff_false]
          unfold turnOf at hc
          tauto
      · funext i
        have hlt := (pick i).is_lt
        apply Fin.ext
        simp only [lowPoint, levelAt_val]
        have key : ∀ (c : Prop) [Decidable c], ((pick i : Nat) + if c then q else 0) % q = pick i := by
          intro c _
          by_cases hc : c <;> simp [hc, Nat.mod_eq_of_lt hlt]
        exact key _
    · rintro ⟨⟨σ, b⟩, x⟩ hz
      have hxj : (x j : Nat) < q := by
        have := (Finset.mem_product.mp hz).2
        simpa [starts] using this
      have hup : decide ((List.ofFn fun i => (σ i : Nat)).getD (groupOf j) 0 <
          (List.ofFn fun i => (σ i : Nat)).getD (groupOf j) 0 + (if b then 0 else 1) ↔ q ≤ (x j : Nat)) = b := by
        have : ¬ q ≤ (x j : Nat) := by omega
        cases b <;> simp [this]
      refine Prod.ext (Prod.ext rfl hup) ?_
      funext i
      apply Fin.ext
      simp only [lowPoint, levelAt_val, turnOf, hup]
      have hi := (x i).is_lt
      simp only [decide_eq_true_eq]
      by_cases hq : q ≤ (x i : Nat)
      · have hm : (x i : Nat) % q = (x i : Nat) - q := by
          rw [Nat.mod_eq_sub_mod hq, Nat.mod_eq_of_lt (by omega)]
        simp only [hq, iff_true, if_true, hm]
        omega
      · have hm : (x i : Nat) % q = (x i : Nat) := Nat.mod_eq_of_lt (by omega)
        simp only [hq, iff_false]
        rw [if_neg (by tauto)]
        simpa using hm
    · intro d _; rfl
  rw [e, Finset.sum_product]
  simp only
  rw [Finset.sum_const, Finset.card_univ, nsmul_eq_mul]

/-- Averaging over the draws is averaging over the starting points. -/
theorem mean_lowPoint (groupOf : Nat → Nat) (j : Fin D) (h : (Fin D → Fin (2 * q)) → ℝ) :
    (∑ d : MorrisDraw D g q, h (lowPoint groupOf j d)) / Fintype.card (MorrisDraw D g q) = gridMean j h := by
  have h1 := sum_lowPoint (g := g) groupOf j h
  have h2 := sum_lowPoint (g := g) (q := q) groupOf j fun _ => 1
  simp only [Finset.sum_const, Finset.card_univ, nsmul_eq_mul, mul_one] at h2
  rw [h1, h2]
  unfold gridMean
  have : (Fintype.card (Equiv.Perm (Fin g) × Bool) : ℝ) ≠ 0 := by
    exact_mod_cast Fintype.card_ne_zero
  rw [mul_div_mul_left _ _ this]

section fair

variable {Ω : Type} [MeasurableSpace Ω] {P : Measure Ω} {Z : ℕ → Ω → MorrisDraw D g q}

theorem Spec.FairDraws.law (hZ : FairDraws P Z) (i : ℕ) : Measure.map (Z i) P = Measure.map (Z 0) P := by
  refine Measure.ext_of_singleton fun d => ?_
  rw [Measure.map_apply (hZ.meas i) (MeasurableSet.singleton d), Measure.map_apply (hZ.meas 0) (MeasurableSet.singleton d),
    hZ.fair, hZ.fair]

theorem Spec.FairDraws.integral (hZ : FairDraws P Z) [IsProbabilityMeasure P] (h : MorrisDraw D g q → ℝ) :
    ∫ d, h d ∂Measure.map (Z 0) P = (∑ d, h d) / Fintype.card (MorrisDraw D g q) := by
  have : IsProbabilityMeasure (Measure.map (Z 0) P) := Measure.isProbabilityMeasure_map (hZ.meas 0).aemeasurable
  rw [integral_fintype (Integrable.of_finite), Finset.sum_div]
  refine Finset.sum_congr rfl fun d _ => ?_
  rw [measureReal_def, Measure.map_apply (hZ.meas 0) (MeasurableSet.singleton d), hZ.fair]
  simp [div_eq_inv_mul]

end fair

end SALib
