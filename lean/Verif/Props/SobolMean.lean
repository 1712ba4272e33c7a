import Verif.Lemmas.SobolMean
import Verif.Lemmas.SobolExpect
import Mathlib.Probability.ProductMeasure
import Mathlib.Probability.Independence.InfinitePi

/-!
# C89: what the Sobol estimators estimate
-/

namespace SALib

open MeasureTheory ProbabilityTheory Spec

variable {d : Nat}

theorem firstOrder_norm (rows : List ((Fin d → ℝ) × (Fin d → ℝ))) (G : (Fin d → ℝ) → ℝ) (m σ v : ℝ) (s : Fin d → Bool)
    (hσ : σ ≠ 0) (hrows : rows ≠ [])
    (hp : ptpZero (rows.map (fun p => (G p.1 - m) / σ) ++ rows.map (fun p => (G p.2 - m) / σ)) = false)
    (hv : npVar (rows.map (fun p => (G p.1 - m) / σ) ++ rows.map (fun p => (G p.2 - m) / σ)) = some (v / σ ^ 2))
    (hv0 : v ≠ 0) :
    firstOrder (rows.map fun p => (G p.1 - m) / σ) (rows.map fun p => (G (mix s p.1 p.2) - m) / σ)
        (rows.map fun p => (G p.2 - m) / σ) =
      some ((rowMean rows (fun p => G p.2 * (G (mix s p.1 p.2) - G p.1)) -
        m * rowMean rows (fun p => G (mix s p.1 p.2) - G p.1)) / v) := by
  obtain ⟨w, hw, -, h⟩ := firstOrder_map rows (fun p => (G p.1 - m) / σ) (fun p => (G (mix s p.1 p.2) - m) / σ)
    (fun p => (G p.2 - m) / σ) hrows hp
  rw [hv] at hw
  cases hw
  rw [h, sum_map_eq_rowMean]
  have e : (fun p : (Fin d → ℝ) × (Fin d → ℝ) => (G p.2 - m) / σ * ((G (mix s p.1 p.2) - m) / σ - (G p.1 - m) / σ)) =
      fun p => (1 / σ ^ 2) * (G p.2 * (G (mix s p.1 p.2) - G p.1)) + (-m / σ ^ 2) * (G (mix s p.1 p.2) - G p.1) := by
    funext p; field_simp; ring
  rw [e, rowMean_lin rows (fun p => G p.2 * (G (mix s p.1 p.2) - G p.1)) (fun p => G (mix s p.1 p.2) - G p.1)]
  congr 1
  field_simp
  ring

/-- **C89**, the reported indices.  Each index is a numerator over the variance of the outputs at the points A and B;
the numerators are means over the base rows, taken after all outputs were centred at their mean. -/
theorem C89_formula (normPpf : ℝ → ℝ) (f : List ℝ → ℝ) (second : Bool) (g : Nat) (groupOf : Nat → Nat)
    (rows : List ((Fin d → ℝ) × (Fin d → ℝ))) (pb : Problem ℝ) (conf : ℝ) (r : List (List Nat)) (keep : Bool)
    (hg : (extractGroupNames pb).2 = g) (hconf : 0 < conf ∧ conf < 1) (hr : r ≠ [])
    (hv : sampleVar (fun x => f (List.ofFn x)) rows ≠ 0) :
    let G := fun x : Fin d → ℝ => f (List.ofFn x)
    let M := blockMean second g groupOf G
    ∃ res, sobolAnalyze Real.sqrt normPpf pb ((crossDesign second d g groupOf (rows.map pairRow)).map f) second conf r
        keep .serial = .ok res ∧
      (∀ k < g, res.S1[k]? = some (some (firstNum G M (inGroup groupOf k) rows / sampleVar G rows)) ∧
        res.ST[k]? = some (some (totalNum G (inGroup groupOf k) rows / sampleVar G rows))) ∧
      (second = true → ∃ S2, res.S2 = some S2 ∧ ∀ j k, j < k → k < g → entry S2 j k =
        some (some (secondNum G M (inGroup groupOf j) (inGroup groupOf k) rows / sampleVar G rows))) := by
  intro G M
  obtain ⟨m, σ, hm, hσ, hp, hnv, hrun⟩ := sobolAnalyze_design normPpf f second g groupOf rows pb conf r keep hg hconf hr hv
  have hrows : rows ≠ [] := by
    rintro rfl
    exact hv (sampleVar_nil _)
  have hv' : sampleVar G rows ≠ 0 := hv
  refine ⟨_, hrun, ?_, ?_⟩
  · intro k hk
    constructor
    · simp only [serialIndices, List.getElem?_map, List.getElem?_range hk, Option.map_some]
      rw [List.getD_eq_getElem?_getD, List.getElem?_map, List.getElem?_range hk]
      simp only [Option.map_some, Option.getD_some]
      rw [firstOrder_norm rows G m σ _ _ hσ hrows hp hnv hv', hm]
      rfl
    · simp only [serialIndices, List.getElem?_map, List.getElem?_range hk, Option.map_some]
      rw [List.getD_eq_getElem?_getD, List.getElem?_map, List.getElem?_range hk]
      simp only [Option.map_some, Option.getD_some]
      obtain ⟨w, hw, -, h⟩ := totalOrder_map rows (fun p => (G p.1 - m) / σ)
        (fun p => (G (mix (inGroup groupOf k) p.1 p.2) - m) / σ) (fun p => (G p.2 - m) / σ) hrows hp
      rw [hnv] at hw
      cases hw
      rw [h, sum_map_eq_rowMean]
      have e : (fun p : (Fin d → ℝ) × (Fin d → ℝ) =>
            ((G p.1 - m) / σ - (G (mix (inGroup groupOf k) p.1 p.2) - m) / σ) ^ 2) =
          fun p => (1 / σ ^ 2) * (G p.1 - G (mix (inGroup groupOf k) p.1 p.2)) ^ 2 + 0 * (0 : ℝ) := by
        funext p; field_simp; ring
      rw [e, rowMean_lin rows (fun p => (G p.1 - G (mix (inGroup groupOf k) p.1 p.2)) ^ 2) fun _ => 0]
      unfold totalNum
      congr 2
      simp only [G] at hv' ⊢
      field_simp
      ring
  · rintro rfl
    refine ⟨_, by simp only [serialIndices, if_true]; rfl, ?_⟩
    intro j k hjk hk
    have hj : j < g := by omega
    simp only [entry, List.getElem?_map, List.getElem?_range hk, List.getElem?_range hj,
      Option.map_some, Option.bind_some, if_pos hjk]
    simp only [List.getD_eq_getElem?_getD, List.getElem?_map, List.getElem?_range hk,
      List.getElem?_range hj, Option.map_some, Option.getD_some]
    obtain ⟨w, hw, hwpos, h⟩ := secondOrder_map rows (fun p => (G p.1 - m) / σ)
      (fun p => (G (mix (inGroup groupOf j) p.1 p.2) - m) / σ) (fun p => (G (mix (inGroup groupOf k) p.1 p.2) - m) / σ)
      (fun p => (G (mix (inGroup groupOf j) p.2 p.1) - m) / σ) (fun p => (G p.2 - m) / σ) hrows hp
    obtain ⟨w1, hw1, -, h1⟩ := firstOrder_map rows (fun p => (G p.1 - m) / σ)
      (fun p => (G (mix (inGroup groupOf j) p.1 p.2) - m) / σ) (fun p => (G p.2 - m) / σ) hrows hp
    obtain ⟨w2, hw2, -, h2⟩ := firstOrder_map rows (fun p => (G p.1 - m) / σ)
      (fun p => (G (mix (inGroup groupOf k) p.1 p.2) - m) / σ) (fun p => (G p.2 - m) / σ) hrows hp
    rw [firstOrder_norm rows G m σ _ _ hσ hrows hp hnv hv'] at h1 h2
    rw [hnv] at hw hw1 hw2
    cases hw; cases hw1; cases hw2
    rw [h, ← Option.some.inj h1, ← Option.some.inj h2, sum_map_eq_rowMean]
    have e : (fun p : (Fin d → ℝ) × (Fin d → ℝ) =>
          (G (mix (inGroup groupOf j) p.2 p.1) - m) / σ * ((G (mix (inGroup groupOf k) p.1 p.2) - m) / σ) -
            (G p.1 - m) / σ * ((G p.2 - m) / σ)) =
        fun p => (1 / σ ^ 2) * (G (mix (inGroup groupOf j) p.2 p.1) * G (mix (inGroup groupOf k) p.1 p.2) - G p.1 * G p.2) +
          (-m / σ ^ 2) * (G (mix (inGroup groupOf j) p.2 p.1) + G (mix (inGroup groupOf k) p.1 p.2) - G p.1 - G p.2) := by
      funext p; field_simp; ring
    rw [e, rowMean_lin rows (fun p => G (mix (inGroup groupOf j) p.2 p.1) * G (mix (inGroup groupOf k) p.1 p.2) - G p.1 * G p.2)
      fun p => G (mix (inGroup groupOf j) p.2 p.1) + G (mix (inGroup groupOf k) p.1 p.2) - G p.1 - G p.2]
    have e2 : rowMean rows (fun p => G (mix (inGroup groupOf j) p.2 p.1) + G (mix (inGroup groupOf k) p.1 p.2) - G p.1 - G p.2) =
        rowMean rows (fun p => G (mix (inGroup groupOf j) p.2 p.1) - G (mix (inGroup groupOf j) p.1 p.2) + G p.1 - G p.2) +
        rowMean rows (fun p => G (mix (inGroup groupOf j) p.1 p.2) - G p.1) +
        rowMean rows (fun p => G (mix (inGroup groupOf k) p.1 p.2) - G p.1) := by
      have a1 := rowMean_lin rows
        (fun p => G (mix (inGroup groupOf j) p.2 p.1) - G (mix (inGroup groupOf j) p.1 p.2) + G p.1 - G p.2)
        (fun p => G (mix (inGroup groupOf j) p.1 p.2) - G p.1) 1 1
      have a2 := rowMean_lin rows
        (fun p => 1 * (G (mix (inGroup groupOf j) p.2 p.1) - G (mix (inGroup groupOf j) p.1 p.2) + G p.1 - G p.2) +
          1 * (G (mix (inGroup groupOf j) p.1 p.2) - G p.1))
        (fun p => G (mix (inGroup groupOf k) p.1 p.2) - G p.1) 1 1
      rw [one_mul, one_mul] at a1 a2
      rw [← a1, ← a2]
      congr 1; funext p; ring
    rw [e2, hm]
    unfold secondNum
    congr 2
    simp only [G, M] at hv' ⊢
    field_simp
    ring

section means

variable {ν : Fin d → Measure ℝ} [∀ i, IsProbabilityMeasure (ν i)] {Ω : Type} [MeasurableSpace Ω] {P : Measure Ω}
  {Z : ℕ → Ω → (Fin d → ℝ) × (Fin d → ℝ)}

/-- The groups of a numbering are disjoint. -/
theorem inGroup_agree (groupOf : Nat → Nat) (j k : Nat) (h : j ≠ k) :
    (fun i : Fin d => inGroup groupOf j i == inGroup groupOf k i) =
      fun i => !(inGroup groupOf j i || inGroup groupOf k i) := by
  funext i
  unfold inGroup
  have : ¬ ((groupOf i == j) = true ∧ (groupOf i == k) = true) := by
    simp only [beq_iff_eq]
    exact fun h' => h (h'.1.symm.trans h'.2)
  revert this
  generalize (groupOf i == j) = a
  generalize (groupOf i == k) = b
  revert a b
  decide

theorem inGroup_agree_not (groupOf : Nat → Nat) (j k : Nat) (h : j ≠ k) :
    (fun i : Fin d => (!inGroup groupOf j i) == inGroup groupOf k i) =
      fun i => inGroup groupOf j i || inGroup groupOf k i := by
  funext i
  unfold inGroup
  have : ¬ ((groupOf i == j) = true ∧ (groupOf i == k) = true) := by
    simp only [beq_iff_eq]
    exact fun h' => h (h'.1.symm.trans h'.2)
  revert this
  generalize (groupOf i == j) = a
  generalize (groupOf i == k) = b
  revert a b
  decide

variable (G : (Fin d → ℝ) → ℝ) (hGm : Measurable G) (hG : MemLp G 2 (Measure.pi ν))
include hGm

theorem measurable_blockMean (second : Bool) (g : Nat) (groupOf : Nat → Nat) :
    Measurable (blockMean second g groupOf G) := by
  unfold blockMean
  refine Measurable.div_const ?_ _
  refine ((hGm.comp measurable_fst).add (hGm.comp measurable_snd)).add ?_
  refine Finset.measurable_sum _ fun k _ => ?_
  refine (hGm.comp (measurable_mix _)).add ?_
  cases second
  · exact measurable_const
  · exact hGm.comp ((measurable_mix (inGroup groupOf k)).comp measurable_swap)

include hG

theorem memLp_flip (s : Fin d → Bool) : MemLp (fun p : (Fin d → ℝ) × (Fin d → ℝ) => G (mix s p.2 p.1)) 2
    ((Measure.pi ν).prod (Measure.pi ν)) := by
  simp only [mix_flip s]
  exact memLp_mix ν G hG _

theorem memLp_blockMean (second : Bool) (g : Nat) (groupOf : Nat → Nat) :
    MemLp (blockMean second g groupOf G) 2 ((Measure.pi ν).prod (Measure.pi ν)) := by
  have h0 : MemLp (fun _ : (Fin d → ℝ) × (Fin d → ℝ) => (0 : ℝ)) 2 ((Measure.pi ν).prod (Measure.pi ν)) := memLp_const 0
  have h1 : ∀ k, MemLp (fun p : (Fin d → ℝ) × (Fin d → ℝ) => G (mix (inGroup groupOf k) p.1 p.2) +
      if second then G (mix (inGroup groupOf k) p.2 p.1) else 0) 2 ((Measure.pi ν).prod (Measure.pi ν)) := by
    intro k
    refine (memLp_mix ν G hG _).add ?_
    cases second
    · simpa using h0
    · simpa using memLp_flip G hGm hG (inGroup groupOf k)
  have h2 := ((memLp_fst ν G hG).add (memLp_snd ν G hG)).add (memLp_finsetSum (Finset.range g) fun k _ => h1 k)
  have h3 := h2.mul_const ((blockSize second g : ℝ)⁻¹)
  refine h3.ae_eq (Filter.Eventually.of_forall fun p => ?_)
  simp only [blockMean, div_eq_mul_inv, Pi.add_apply]

/-- The covariance of the mean of a block with the change of the output under a mixed selection. -/
theorem integral_blockMean_mul (second : Bool) (g : Nat) (groupOf : Nat → Nat) (t : Fin d → Bool) :
    ∫ p, blockMean second g groupOf G p * G (mix t p.1 p.2) ∂((Measure.pi ν).prod (Measure.pi ν)) =
      (closedEffect ν G (fun j => !t j) + closedEffect ν G t + 2 * (∫ x, G x ∂Measure.pi ν) ^ 2 +
        ∑ k ∈ Finset.range g, ((closedEffect ν G (fun j => inGroup groupOf k j == t j) + (∫ x, G x ∂Measure.pi ν) ^ 2) +
          if second then closedEffect ν G (fun j => (!inGroup groupOf k j) == t j) + (∫ x, G x ∂Measure.pi ν) ^ 2 else 0)) /
        (blockSize second g : ℝ) := by
  have cross : ∀ s : Fin d → Bool, Integrable (fun p : (Fin d → ℝ) × (Fin d → ℝ) =>
      G (mix s p.1 p.2) * G (mix t p.1 p.2)) ((Measure.pi ν).prod (Measure.pi ν)) := fun s =>
    (memLp_mix ν G hG s).integrable_mul (memLp_mix ν G hG t)
  have e : ∀ p : (Fin d → ℝ) × (Fin d → ℝ), blockMean second g groupOf G p * G (mix t p.1 p.2) =
      (G (mix (fun _ => false) p.1 p.2) * G (mix t p.1 p.2) + G (mix (fun _ => true) p.1 p.2) * G (mix t p.1 p.2) +
        ∑ k ∈ Finset.range g, (G (mix (inGroup groupOf k) p.1 p.2) * G (mix t p.1 p.2) +
          if second then G (mix (fun j => !inGroup groupOf k j) p.1 p.2) * G (mix t p.1 p.2) else 0)) /
        (blockSize second g : ℝ) := by
    intro p
    unfold blockMean
    rw [mix_none, mix_all, div_mul_eq_mul_div, add_mul, add_mul, Finset.sum_mul]
    congr 2
    refine Finset.sum_congr rfl fun k _ => ?_
    cases second
    · simp
    · simp only [if_true, add_mul, mix_flip (inGroup groupOf k) p.1 p.2]
  simp only [e]
  have hk : ∀ k, Integrable (fun p : (Fin d → ℝ) × (Fin d → ℝ) => G (mix (inGroup groupOf k) p.1 p.2) * G (mix t p.1 p.2) +
      if second then G (mix (fun j => !inGroup groupOf k j) p.1 p.2) * G (mix t p.1 p.2) else 0)
      ((Measure.pi ν).prod (Measure.pi ν)) := by
    intro k
    refine (cross _).add ?_
    cases second
    · simp
    · simpa using cross _
  have i12 : Integrable (fun p : (Fin d → ℝ) × (Fin d → ℝ) => G (mix (fun _ => false) p.1 p.2) * G (mix t p.1 p.2) +
      G (mix (fun _ => true) p.1 p.2) * G (mix t p.1 p.2)) ((Measure.pi ν).prod (Measure.pi ν)) :=
    (cross _).add (cross _)
  rw [integral_div, integral_add i12 (integrable_finsetSum _ fun k _ => hk k), integral_add (cross _) (cross _),
    integral_finsetSum _ fun k _ => hk k, integral_cross ν G hG, integral_cross ν G hG]
  have f1 : (fun j => false == t j) = fun j => !t j := by funext j; simp
  have f2 : (fun j => true == t j) = t := by funext j; simp
  rw [f1, f2]
  congr 1
  congr 1
  · ring
  · refine Finset.sum_congr rfl fun k _ => ?_
    cases second
    · simp only [Bool.false_eq_true, if_false, add_zero]
      exact integral_cross ν G hG _ _
    · simp only [if_true]
      rw [integral_add (cross _) (cross _), integral_cross ν G hG, integral_cross ν G hG]

/-- The deviation of the mean of the first-order numerator from the effect is this, divided by the number of outputs. -/
theorem integral_blockMean_diff (second : Bool) (g : Nat) (groupOf : Nat → Nat) (k : Nat) (hk : k < g) :
    ∫ p, blockMean second g groupOf G p * (G (mix (inGroup groupOf k) p.1 p.2) - G p.1)
        ∂((Measure.pi ν).prod (Measure.pi ν)) =
      ((if second then 0 else closedEffect ν G (inGroup groupOf k)) + ∑ j ∈ (Finset.range g).erase k,
        ((closedEffect ν G (fun i => !(inGroup groupOf j i || inGroup groupOf k i)) -
            closedEffect ν G (fun i => !inGroup groupOf j i)) +
          if second then closedEffect ν G (fun i => inGroup groupOf j i || inGroup groupOf k i) -
            closedEffect ν G (inGroup groupOf j) else 0)) / (blockSize second g : ℝ) := by
  have hM := memLp_blockMean G hGm hG second g groupOf
  have i1 : Integrable (fun p => blockMean second g groupOf G p * G (mix (inGroup groupOf k) p.1 p.2))
      ((Measure.pi ν).prod (Measure.pi ν)) := hM.integrable_mul (memLp_mix ν G hG _)
  have i2 : Integrable (fun p => blockMean second g groupOf G p * G (mix (fun _ => false) p.1 p.2))
      ((Measure.pi ν).prod (Measure.pi ν)) := hM.integrable_mul (memLp_mix ν G hG _)
  have e : ∀ p : (Fin d → ℝ) × (Fin d → ℝ), blockMean second g groupOf G p * (G (mix (inGroup groupOf k) p.1 p.2) - G p.1) =
      blockMean second g groupOf G p * G (mix (inGroup groupOf k) p.1 p.2) -
        blockMean second g groupOf G p * G (mix (fun _ => false) p.1 p.2) := by
    intro p; rw [mix_none, mul_sub]
  simp only [e]
  rw [integral_sub i1 i2, integral_blockMean_mul G hGm hG, integral_blockMean_mul G hGm hG, ← sub_div]
  congr 1
  have hk' : k ∈ Finset.range g := Finset.mem_range.mpr hk
  rw [← Finset.add_sum_erase _ _ hk', ← Finset.add_sum_erase _ _ hk', closedEffect_none ν G hG]
  have g1 : (fun j : Fin d => inGroup groupOf k j == inGroup groupOf k j) = fun _ => true := by funext j; simp
  have g2 : (fun j : Fin d => (!inGroup groupOf k j) == inGroup groupOf k j) = fun _ => false := by
    funext j; cases inGroup groupOf k j <;> rfl
  have g3 : ∀ j, (fun i : Fin d => inGroup groupOf j i == false) = fun i => !inGroup groupOf j i := by
    intro j; funext i; simp
  have g4 : ∀ j, (fun i : Fin d => (!inGroup groupOf j i) == false) = inGroup groupOf j := by
    intro j; funext i; simp
  simp only [g1, g2, g3, g4, closedEffect_none ν G hG, Bool.not_false]
  have hsum : ∀ A B : ℕ → ℝ, (∀ j ∈ (Finset.range g).erase k, A j - B j =
      (closedEffect ν G (fun i => !(inGroup groupOf j i || inGroup groupOf k i)) -
            closedEffect ν G (fun i => !inGroup groupOf j i)) +
          if second then closedEffect ν G (fun i => inGroup groupOf j i || inGroup groupOf k i) -
            closedEffect ν G (inGroup groupOf j) else 0) →
      ∑ j ∈ (Finset.range g).erase k, A j - ∑ j ∈ (Finset.range g).erase k, B j = ∑ j ∈ (Finset.range g).erase k,
        ((closedEffect ν G (fun i => !(inGroup groupOf j i || inGroup groupOf k i)) -
            closedEffect ν G (fun i => !inGroup groupOf j i)) +
          if second then closedEffect ν G (fun i => inGroup groupOf j i || inGroup groupOf k i) -
            closedEffect ν G (inGroup groupOf j) else 0) := by
    intro A B h
    rw [← Finset.sum_sub_distrib]
    exact Finset.sum_congr rfl h
  rw [← hsum (fun j => (closedEffect ν G (fun i => inGroup groupOf j i == inGroup groupOf k i) +
      (∫ x, G x ∂Measure.pi ν) ^ 2) + if second then closedEffect ν G (fun i => (!inGroup groupOf j i) == inGroup groupOf k i) +
        (∫ x, G x ∂Measure.pi ν) ^ 2 else 0)
    (fun j => (closedEffect ν G (fun i => !inGroup groupOf j i) + (∫ x, G x ∂Measure.pi ν) ^ 2) +
      if second then closedEffect ν G (inGroup groupOf j) + (∫ x, G x ∂Measure.pi ν) ^ 2 else 0)]
  · cases second
    · simp only [Bool.false_eq_true, if_false]; ring
    · simp only [if_true]; ring
  · intro j hj
    have hjk := Finset.ne_of_mem_erase hj
    simp only [inGroup_agree groupOf j k hjk, inGroup_agree_not groupOf j k hjk]
    cases second
    · simp only [Bool.false_eq_true, if_false]; ring
    · simp only [if_true]; ring

variable (hZ : BaseRows ν P Z)
include hZ

/-- **C89**, first order.  The mean of the numerator of S1 of group `k` is the closed effect of the group, up to a term
of order `1/N` which comes from centring the outputs at their sample mean and is given here exactly. -/
theorem C89_first_mean (second : Bool) (g : Nat) (groupOf : Nat → Nat) (k : Nat) (hk : k < g) (N : Nat) (hN : 0 < N) :
    Integrable (fun ω => firstNum G (blockMean second g groupOf G) (inGroup groupOf k) (firstRows Z N ω)) P ∧
    ∫ ω, firstNum G (blockMean second g groupOf G) (inGroup groupOf k) (firstRows Z N ω) ∂P =
      closedEffect ν G (inGroup groupOf k) -
      ((if second then 0 else closedEffect ν G (inGroup groupOf k)) + ∑ j ∈ (Finset.range g).erase k,
        ((closedEffect ν G (fun i => !(inGroup groupOf j i || inGroup groupOf k i)) -
            closedEffect ν G (fun i => !inGroup groupOf j i)) +
          if second then closedEffect ν G (fun i => inGroup groupOf j i || inGroup groupOf k i) -
            closedEffect ν G (inGroup groupOf j) else 0)) / ((N : ℝ) * blockSize second g) := by
  have hdM : MemLp (fun p : (Fin d → ℝ) × (Fin d → ℝ) => G (mix (inGroup groupOf k) p.1 p.2) - G p.1) 2
      ((Measure.pi ν).prod (Measure.pi ν)) := (memLp_mix ν G hG _).sub (memLp_fst ν G hG)
  have hdm : Measurable fun p : (Fin d → ℝ) × (Fin d → ℝ) => G (mix (inGroup groupOf k) p.1 p.2) - G p.1 :=
    (hGm.comp (measurable_mix _)).sub (hGm.comp measurable_fst)
  have hint : Integrable (fun p : (Fin d → ℝ) × (Fin d → ℝ) => G p.2 * (G (mix (inGroup groupOf k) p.1 p.2) - G p.1))
      ((Measure.pi ν).prod (Measure.pi ν)) := (memLp_snd ν G hG).integrable_mul hdM
  have j1 := integrable_rowMean hZ.meas hZ.law _ hint N
  have j2 := integrable_rowMean_mul hZ.meas hZ.law hZ.indep _ _ (memLp_blockMean G hGm hG second g groupOf) hdM N
  refine ⟨j1.sub j2, ?_⟩
  unfold firstNum
  rw [integral_sub j1 j2, integral_rowMean hZ.meas hZ.law _ hint N hN,
    integral_rowMean_mul hZ.meas hZ.law hZ.indep _ _ (measurable_blockMean G hGm second g groupOf) hdm
      (memLp_blockMean G hGm hG second g groupOf) hdM N hN, mean_first ν G hG,
    integral_blockMean_diff G hGm hG second g groupOf k hk]
  have h0 : ∫ p, G (mix (inGroup groupOf k) p.1 p.2) - G p.1 ∂((Measure.pi ν).prod (Measure.pi ν)) = 0 := by
    rw [integral_sub ((memLp_mix ν G hG _).integrable one_le_two) ((memLp_fst ν G hG).integrable one_le_two),
      integral_mix ν G hG]
    have := integral_mix ν G hG fun _ => false
    simp only [mix_none] at this
    rw [this, sub_self]
  rw [h0]
  have := blockSize_ne second g
  have hN' : (N : ℝ) ≠ 0 := by exact_mod_cast hN.ne'
  field_simp
  ring

/-- The deviation is at most the variance of the output divided by the number of base rows. -/
theorem C89_first_bias (second : Bool) (g : Nat) (groupOf : Nat → Nat) (k : Nat) (hk : k < g) (N : Nat) (hN : 0 < N) :
    |∫ ω, firstNum G (blockMean second g groupOf G) (inGroup groupOf k) (firstRows Z N ω) ∂P -
      closedEffect ν G (inGroup groupOf k)| ≤ Var[G; Measure.pi ν] / N := by
  rw [(C89_first_mean G hGm hG hZ second g groupOf k hk N hN).2]
  have hN' : (0 : ℝ) < N := by exact_mod_cast hN
  set V := Var[G; Measure.pi ν] with hV
  have nn := closedEffect_nonneg ν G hG
  have le := closedEffect_le ν G hG
  have hV0 : 0 ≤ V := variance_nonneg _ _
  have hd : ∀ s t : Fin d → Bool, |closedEffect ν G s - closedEffect ν G t| ≤ V := by
    intro s t
    rw [abs_le]
    constructor <;> linarith [nn s, nn t, le s, le t]
  rw [sub_sub_cancel_left, abs_neg, abs_div, abs_of_pos (a := (N : ℝ) * blockSize second g), ← div_div, div_div,
    div_le_div_iff₀]
  rotate_left
  · exact mul_pos hN' (lt_of_le_of_ne (Nat.cast_nonneg _) (blockSize_ne second g).symm)
  · exact hN'
  · exact mul_pos hN' (lt_of_le_of_ne (Nat.cast_nonneg _) (blockSize_ne second g).symm)
  have hcard : ((Finset.range g).erase k).card = g - 1 := by
    rw [Finset.card_erase_of_mem (Finset.mem_range.mpr hk), Finset.card_range]
  have hg : ((g - 1 : ℕ) : ℝ) = g - 1 := by
    rw [Nat.cast_sub (by omega)]; simp
  have key : |(if second then 0 else closedEffect ν G (inGroup groupOf k)) + ∑ j ∈ (Finset.range g).erase k,
        ((closedEffect ν G (fun i => !(inGroup groupOf j i || inGroup groupOf k i)) -
            closedEffect ν G (fun i => !inGroup groupOf j i)) +
          if second then closedEffect ν G (fun i => inGroup groupOf j i || inGroup groupOf k i) -
            closedEffect ν G (inGroup groupOf j) else 0)| ≤ V * blockSize second g := by
    refine (abs_add_le _ _).trans ?_
    cases second
    · simp only [Bool.false_eq_true, if_false, add_zero]
      have h1 := Finset.abs_sum_le_sum_abs (fun j => closedEffect ν G (fun i => !(inGroup groupOf j i || inGroup groupOf k i)) -
            closedEffect ν G (fun i => !inGroup groupOf j i)) ((Finset.range g).erase k)
      have h2 := Finset.sum_le_card_nsmul ((Finset.range g).erase k)
        (fun j => |closedEffect ν G (fun i => !(inGroup groupOf j i || inGroup groupOf k i)) -
            closedEffect ν G (fun i => !inGroup groupOf j i)|) V fun j _ => hd _ _
      rw [hcard, nsmul_eq_mul, hg] at h2
      have h3 : |closedEffect ν G (inGroup groupOf k)| ≤ V := by rw [abs_of_nonneg (nn _)]; exact le _
      simp only [blockSize, Bool.false_eq_true, if_false]
      push_cast
      nlinarith
    · simp only [if_true]
      have h1 := Finset.abs_sum_le_sum_abs (fun j => closedEffect ν G (fun i => !(inGroup groupOf j i || inGroup groupOf k i)) -
            closedEffect ν G (fun i => !inGroup groupOf j i) + (closedEffect ν G (fun i => inGroup groupOf j i || inGroup groupOf k i) -
            closedEffect ν G (inGroup groupOf j))) ((Finset.range g).erase k)
      have h2 := Finset.sum_le_card_nsmul ((Finset.range g).erase k)
        (fun j => |closedEffect ν G (fun i => !(inGroup groupOf j i || inGroup groupOf k i)) -
            closedEffect ν G (fun i => !inGroup groupOf j i) + (closedEffect ν G (fun i => inGroup groupOf j i || inGroup groupOf k i) -
            closedEffect ν G (inGroup groupOf j))|) (V + V) fun j _ => (abs_add_le _ _).trans (add_le_add (hd _ _) (hd _ _))
      rw [hcard, nsmul_eq_mul, hg] at h2
      simp only [blockSize, if_true]
      push_cast
      rw [abs_zero]
      nlinarith
  nlinarith

/-- **C89**, total order.  The mean of the numerator of ST of group `k` is the total effect of the group. -/
theorem C89_total_mean (s : Fin d → Bool) (N : Nat) (hN : 0 < N) :
    Integrable (fun ω => totalNum G s (firstRows Z N ω)) P ∧
    ∫ ω, totalNum G s (firstRows Z N ω) ∂P = totalEffect ν G s := by
  have hint : Integrable (fun p : (Fin d → ℝ) × (Fin d → ℝ) => (G p.1 - G (mix s p.1 p.2)) ^ 2)
      ((Measure.pi ν).prod (Measure.pi ν)) := ((memLp_fst ν G hG).sub (memLp_mix ν G hG s)).integrable_sq
  refine ⟨(integrable_rowMean hZ.meas hZ.law _ hint N).const_mul _, ?_⟩
  unfold totalNum
  rw [integral_const_mul, integral_rowMean hZ.meas hZ.law _ hint N hN, mean_total ν G hG]

omit hZ in
theorem integral_blockMean_anti (g : Nat) (groupOf : Nat → Nat) (s : Fin d → Bool) :
    ∫ p, blockMean true g groupOf G p * (G (mix s p.2 p.1) - G (mix s p.1 p.2) + G p.1 - G p.2)
      ∂((Measure.pi ν).prod (Measure.pi ν)) = 0 := by
  have h := integral_prod_swap (μ := Measure.pi ν) (ν := Measure.pi ν) fun p : (Fin d → ℝ) × (Fin d → ℝ) =>
    blockMean true g groupOf G p * (G (mix s p.2 p.1) - G (mix s p.1 p.2) + G p.1 - G p.2)
  have e : ∀ p : (Fin d → ℝ) × (Fin d → ℝ), blockMean true g groupOf G p.swap *
      (G (mix s p.swap.2 p.swap.1) - G (mix s p.swap.1 p.swap.2) + G p.swap.1 - G p.swap.2) =
      -(blockMean true g groupOf G p * (G (mix s p.2 p.1) - G (mix s p.1 p.2) + G p.1 - G p.2)) := by
    intro p
    have : blockMean true g groupOf G p.swap = blockMean true g groupOf G p := by
      unfold blockMean
      simp only [Prod.fst_swap, Prod.snd_swap, if_true]
      congr 1
      congr 1
      · ring
      · exact Finset.sum_congr rfl fun k _ => by ring
    rw [this]
    simp only [Prod.fst_swap, Prod.snd_swap]
    ring
  simp only [e, integral_neg] at h
  linarith

omit hZ in
theorem integral_anti (s : Fin d → Bool) :
    ∫ p, (G (mix s p.2 p.1) - G (mix s p.1 p.2) + G p.1 - G p.2) ∂((Measure.pi ν).prod (Measure.pi ν)) = 0 := by
  have h := integral_prod_swap (μ := Measure.pi ν) (ν := Measure.pi ν) fun p : (Fin d → ℝ) × (Fin d → ℝ) =>
    (G (mix s p.2 p.1) - G (mix s p.1 p.2) + G p.1 - G p.2)
  have e : ∀ p : (Fin d → ℝ) × (Fin d → ℝ),
      (G (mix s p.swap.2 p.swap.1) - G (mix s p.swap.1 p.swap.2) + G p.swap.1 - G p.swap.2) =
      -(G (mix s p.2 p.1) - G (mix s p.1 p.2) + G p.1 - G p.2) := by
    intro p
    simp only [Prod.fst_swap, Prod.snd_swap]
    ring
  simp only [e, integral_neg] at h
  linarith

/-- **C89**, second order.  The mean of the numerator of S2 of two groups is exactly their interaction: the closed effect
of the two together, less the closed effects of each. -/
theorem C89_second_mean (g : Nat) (groupOf : Nat → Nat) (j k : Nat) (hjk : j ≠ k) (N : Nat) (hN : 0 < N) :
    Integrable (fun ω => secondNum G (blockMean true g groupOf G) (inGroup groupOf j) (inGroup groupOf k) (firstRows Z N ω)) P ∧
    ∫ ω, secondNum G (blockMean true g groupOf G) (inGroup groupOf j) (inGroup groupOf k) (firstRows Z N ω) ∂P =
      closedEffect ν G (fun i => inGroup groupOf j i || inGroup groupOf k i) -
        closedEffect ν G (inGroup groupOf j) - closedEffect ν G (inGroup groupOf k) := by
  have hst : ∀ i : Fin d, ¬(inGroup groupOf j i = true ∧ inGroup groupOf k i = true) := by
    intro i h
    simp only [inGroup, beq_iff_eq] at h
    exact hjk (h.1.symm.trans h.2)
  have hf : ∀ s : Fin d → Bool, Integrable (fun p : (Fin d → ℝ) × (Fin d → ℝ) => G p.2 * (G (mix s p.1 p.2) - G p.1))
      ((Measure.pi ν).prod (Measure.pi ν)) := fun s =>
    (memLp_snd ν G hG).integrable_mul ((memLp_mix ν G hG s).sub (memLp_fst ν G hG))
  have hc : Integrable (fun p : (Fin d → ℝ) × (Fin d → ℝ) =>
      G (mix (inGroup groupOf j) p.2 p.1) * G (mix (inGroup groupOf k) p.1 p.2) - G p.1 * G p.2)
      ((Measure.pi ν).prod (Measure.pi ν)) := by
    have a1 : Integrable (fun p : (Fin d → ℝ) × (Fin d → ℝ) =>
      G (mix (inGroup groupOf j) p.2 p.1) * G (mix (inGroup groupOf k) p.1 p.2))
      ((Measure.pi ν).prod (Measure.pi ν)) := (memLp_flip G hGm hG _).integrable_mul (memLp_mix ν G hG _)
    have a2 : Integrable (fun p : (Fin d → ℝ) × (Fin d → ℝ) => G p.1 * G p.2)
      ((Measure.pi ν).prod (Measure.pi ν)) := (memLp_fst ν G hG).integrable_mul (memLp_snd ν G hG)
    exact a1.sub a2
  have hdM : MemLp (fun p : (Fin d → ℝ) × (Fin d → ℝ) =>
      G (mix (inGroup groupOf j) p.2 p.1) - G (mix (inGroup groupOf j) p.1 p.2) + G p.1 - G p.2) 2
      ((Measure.pi ν).prod (Measure.pi ν)) :=
    (((memLp_flip G hGm hG _).sub (memLp_mix ν G hG _)).add (memLp_fst ν G hG)).sub (memLp_snd ν G hG)
  have hdm : Measurable fun p : (Fin d → ℝ) × (Fin d → ℝ) =>
      G (mix (inGroup groupOf j) p.2 p.1) - G (mix (inGroup groupOf j) p.1 p.2) + G p.1 - G p.2 :=
    (((hGm.comp ((measurable_mix (inGroup groupOf j)).comp measurable_swap)).sub (hGm.comp (measurable_mix _))).add
      (hGm.comp measurable_fst)).sub (hGm.comp measurable_snd)
  have j1 := integrable_rowMean hZ.meas hZ.law _ hc N
  have j2 := integrable_rowMean hZ.meas hZ.law _ (hf (inGroup groupOf j)) N
  have j3 := integrable_rowMean hZ.meas hZ.law _ (hf (inGroup groupOf k)) N
  have j4 := integrable_rowMean_mul hZ.meas hZ.law hZ.indep _ _ (memLp_blockMean G hGm hG true g groupOf) hdM N
  refine ⟨((j1.sub j2).sub j3).sub j4, ?_⟩
  unfold secondNum
  have j12 : Integrable (fun ω => rowMean (firstRows Z N ω) (fun p =>
      G (mix (inGroup groupOf j) p.2 p.1) * G (mix (inGroup groupOf k) p.1 p.2) - G p.1 * G p.2) -
      rowMean (firstRows Z N ω) (fun p => G p.2 * (G (mix (inGroup groupOf j) p.1 p.2) - G p.1))) P := j1.sub j2
  have j123 : Integrable (fun ω => rowMean (firstRows Z N ω) (fun p =>
      G (mix (inGroup groupOf j) p.2 p.1) * G (mix (inGroup groupOf k) p.1 p.2) - G p.1 * G p.2) -
      rowMean (firstRows Z N ω) (fun p => G p.2 * (G (mix (inGroup groupOf j) p.1 p.2) - G p.1)) -
      rowMean (firstRows Z N ω) (fun p => G p.2 * (G (mix (inGroup groupOf k) p.1 p.2) - G p.1))) P := j12.sub j3
  rw [integral_sub j123 j4, integral_sub j12 j3, integral_sub j1 j2, integral_rowMean hZ.meas hZ.law _ hc N hN,
    integral_rowMean hZ.meas hZ.law _ (hf _) N hN, integral_rowMean hZ.meas hZ.law _ (hf _) N hN,
    integral_rowMean_mul hZ.meas hZ.law hZ.indep _ _ (measurable_blockMean G hGm true g groupOf) hdm
      (memLp_blockMean G hGm hG true g groupOf) hdM N hN, mean_first ν G hG, mean_first ν G hG,
    mean_second ν G hG _ _ hst, integral_blockMean_anti G hGm hG, integral_anti G hGm hG]
  ring

/-- **C89**, the common denominator.  Its mean is the variance of the output, with the usual factor of a variance over
`2N` points. -/
theorem C89_denominator_mean (N : Nat) (hN : 0 < N) :
    Integrable (fun ω => sampleVar G (firstRows Z N ω)) P ∧
    ∫ ω, sampleVar G (firstRows Z N ω) ∂P = (2 * N - 1) / (2 * N) * Var[G; Measure.pi ν] := by
  have hq : Integrable (fun p : (Fin d → ℝ) × (Fin d → ℝ) => (G p.1 ^ 2 + G p.2 ^ 2) / 2)
      ((Measure.pi ν).prod (Measure.pi ν)) :=
    ((memLp_fst ν G hG).integrable_sq.add (memLp_snd ν G hG).integrable_sq).div_const 2
  have huM : MemLp (fun p : (Fin d → ℝ) × (Fin d → ℝ) => (G p.1 + G p.2) / 2) 2
      ((Measure.pi ν).prod (Measure.pi ν)) := by
    have := ((memLp_fst ν G hG).add (memLp_snd ν G hG)).mul_const (2⁻¹ : ℝ)
    simpa only [div_eq_mul_inv, Pi.add_apply] using this
  have hum : Measurable fun p : (Fin d → ℝ) × (Fin d → ℝ) => (G p.1 + G p.2) / 2 :=
    ((hGm.comp measurable_fst).add (hGm.comp measurable_snd)).div_const 2
  have j1 := integrable_rowMean hZ.meas hZ.law _ hq N
  have j2 := integrable_rowMean_mul hZ.meas hZ.law hZ.indep _ _ huM huM N
  have e : ∀ ω, sampleVar G (firstRows Z N ω) = rowMean (firstRows Z N ω) (fun p => (G p.1 ^ 2 + G p.2 ^ 2) / 2) -
      rowMean (firstRows Z N ω) (fun p => (G p.1 + G p.2) / 2) * rowMean (firstRows Z N ω) (fun p => (G p.1 + G p.2) / 2) := by
    intro ω; unfold sampleVar; rw [sq]
  simp only [e]
  refine ⟨j1.sub j2, ?_⟩
  rw [integral_sub j1 j2, integral_rowMean hZ.meas hZ.law _ hq N hN,
    integral_rowMean_mul hZ.meas hZ.law hZ.indep _ _ hum hum huM huM N hN]
  have a1 : ∫ p, G p.1 ^ 2 ∂((Measure.pi ν).prod (Measure.pi ν)) = ∫ x, G x ^ 2 ∂Measure.pi ν := by
    have := integral_sq_mix ν G hG fun _ => false
    simpa only [mix_none] using this
  have a2 : ∫ p, G p.2 ^ 2 ∂((Measure.pi ν).prod (Measure.pi ν)) = ∫ x, G x ^ 2 ∂Measure.pi ν := by
    have := integral_sq_mix ν G hG fun _ => true
    simpa only [mix_all] using this
  have a3 : ∫ p, G p.1 ∂((Measure.pi ν).prod (Measure.pi ν)) = ∫ x, G x ∂Measure.pi ν := by
    have := integral_mix ν G hG fun _ => false
    simpa only [mix_none] using this
  have a4 : ∫ p, G p.2 ∂((Measure.pi ν).prod (Measure.pi ν)) = ∫ x, G x ∂Measure.pi ν := by
    have := integral_mix ν G hG fun _ => true
    simpa only [mix_all] using this
  have i1 := (memLp_fst ν G hG).integrable_sq
  have i2 := (memLp_snd ν G hG).integrable_sq
  have i3 : Integrable (fun p : (Fin d → ℝ) × (Fin d → ℝ) => G p.2 * G p.1)
      ((Measure.pi ν).prod (Measure.pi ν)) := (memLp_snd ν G hG).integrable_mul (memLp_fst ν G hG)
  have b1 : ∫ p, (G p.1 ^ 2 + G p.2 ^ 2) / 2 ∂((Measure.pi ν).prod (Measure.pi ν)) = ∫ x, G x ^ 2 ∂Measure.pi ν := by
    rw [integral_div, integral_add i1 i2, a1, a2]; ring
  have b2 : ∫ p, (G p.1 + G p.2) / 2 ∂((Measure.pi ν).prod (Measure.pi ν)) = ∫ x, G x ∂Measure.pi ν := by
    rw [integral_div, integral_add ((memLp_fst ν G hG).integrable one_le_two)
      ((memLp_snd ν G hG).integrable one_le_two), a3, a4]
    ring
  have b3 : ∫ p, (G p.1 + G p.2) / 2 * ((G p.1 + G p.2) / 2) ∂((Measure.pi ν).prod (Measure.pi ν)) =
      (∫ x, G x ^ 2 ∂Measure.pi ν + (∫ x, G x ∂Measure.pi ν) ^ 2) / 2 := by
    have e : ∀ p : (Fin d → ℝ) × (Fin d → ℝ), (G p.1 + G p.2) / 2 * ((G p.1 + G p.2) / 2) =
        1 / 2 * ((G p.1 ^ 2 + G p.2 ^ 2) / 2) + 1 / 2 * (G p.2 * G p.1) := fun p => by ring
    simp only [e]
    rw [integral_add (hq.const_mul _) (i3.const_mul _), integral_const_mul, integral_const_mul, b1, integral_indep ν G hG]
    ring
  rw [b1, b2, b3, variance_eq_sub hG]
  simp only [Pi.pow_apply]
  have hN' : (N : ℝ) ≠ 0 := by exact_mod_cast hN.ne'
  field_simp
  ring

theorem tendsto_numerators (second : Bool) (g : Nat) (groupOf : Nat → Nat) :
    ∀ᵐ ω ∂P, Filter.Tendsto (fun N => sampleVar G (firstRows Z N ω)) Filter.atTop (nhds Var[G; Measure.pi ν]) ∧
      (∀ k, Filter.Tendsto (fun N => firstNum G (blockMean second g groupOf G) (inGroup groupOf k) (firstRows Z N ω))
        Filter.atTop (nhds (closedEffect ν G (inGroup groupOf k)))) ∧
      (∀ k, Filter.Tendsto (fun N => totalNum G (inGroup groupOf k) (firstRows Z N ω))
        Filter.atTop (nhds (totalEffect ν G (inGroup groupOf k)))) ∧
      (∀ j k, j ≠ k → Filter.Tendsto (fun N => secondNum G (blockMean second g groupOf G) (inGroup groupOf j)
          (inGroup groupOf k) (firstRows Z N ω))
        Filter.atTop (nhds (closedEffect ν G (fun i => inGroup groupOf j i || inGroup groupOf k i) -
          closedEffect ν G (inGroup groupOf j) - closedEffect ν G (inGroup groupOf k)))) := by
  have SL := fun h mh hh => tendsto_rowMean hZ.meas hZ.law hZ.indep h mh hh
  have m1 : Measurable fun p : (Fin d → ℝ) × (Fin d → ℝ) => G p.1 := hGm.comp measurable_fst
  have m2 : Measurable fun p : (Fin d → ℝ) × (Fin d → ℝ) => G p.2 := hGm.comp measurable_snd
  have mx : ∀ s, Measurable fun p : (Fin d → ℝ) × (Fin d → ℝ) => G (mix s p.1 p.2) := fun s => hGm.comp (measurable_mix s)
  have mf : ∀ s, Measurable fun p : (Fin d → ℝ) × (Fin d → ℝ) => G (mix s p.2 p.1) := fun s =>
    hGm.comp ((measurable_mix s).comp measurable_swap)
  have l1 := memLp_fst ν G hG
  have l2 := memLp_snd ν G hG
  have lx := memLp_mix ν G hG
  have lf := memLp_flip G hGm hG
  have hq : Integrable (fun p : (Fin d → ℝ) × (Fin d → ℝ) => (G p.1 ^ 2 + G p.2 ^ 2) / 2)
      ((Measure.pi ν).prod (Measure.pi ν)) := (l1.integrable_sq.add l2.integrable_sq).div_const 2
  have hu : Integrable (fun p : (Fin d → ℝ) × (Fin d → ℝ) => (G p.1 + G p.2) / 2)
      ((Measure.pi ν).prod (Measure.pi ν)) := ((l1.integrable one_le_two).add (l2.integrable one_le_two)).div_const 2
  have t1 := SL (fun p => (G p.1 ^ 2 + G p.2 ^ 2) / 2) (((m1.pow_const 2).add (m2.pow_const 2)).div_const 2) hq
  have t2 := SL (fun p => (G p.1 + G p.2) / 2) ((m1.add m2).div_const 2) hu
  have t3 := SL _ (measurable_blockMean G hGm second g groupOf)
    ((memLp_blockMean G hGm hG second g groupOf).integrable one_le_two)
  have hc : ∀ j k, Integrable (fun p : (Fin d → ℝ) × (Fin d → ℝ) =>
      G (mix (inGroup groupOf j) p.2 p.1) * G (mix (inGroup groupOf k) p.1 p.2) - G p.1 * G p.2)
      ((Measure.pi ν).prod (Measure.pi ν)) := by
    intro j k
    have a1 : Integrable (fun p : (Fin d → ℝ) × (Fin d → ℝ) =>
      G (mix (inGroup groupOf j) p.2 p.1) * G (mix (inGroup groupOf k) p.1 p.2))
      ((Measure.pi ν).prod (Measure.pi ν)) := (lf _).integrable_mul (lx _)
    have a2 : Integrable (fun p : (Fin d → ℝ) × (Fin d → ℝ) => G p.1 * G p.2)
      ((Measure.pi ν).prod (Measure.pi ν)) := l1.integrable_mul l2
    exact a1.sub a2
  have t4 := ae_all_iff.mpr fun k => SL (fun p => G p.2 * (G (mix (inGroup groupOf k) p.1 p.2) - G p.1))
    (m2.mul ((mx _).sub m1)) (l2.integrable_mul ((lx _).sub l1))
  have t5 := ae_all_iff.mpr fun k => SL (fun p => G (mix (inGroup groupOf k) p.1 p.2) - G p.1)
    ((mx _).sub m1) (((lx _).sub l1).integrable one_le_two)
  have t6 := ae_all_iff.mpr fun k => SL (fun p => (G p.1 - G (mix (inGroup groupOf k) p.1 p.2)) ^ 2)
    ((m1.sub (mx _)).pow_const 2) (l1.sub (lx _)).integrable_sq
  have t7 := ae_all_iff.mpr fun j => ae_all_iff.mpr fun k => SL (fun p =>
      G (mix (inGroup groupOf j) p.2 p.1) * G (mix (inGroup groupOf k) p.1 p.2) - G p.1 * G p.2)
    (((mf _).mul (mx _)).sub (m1.mul m2)) (hc j k)
  have t8 := ae_all_iff.mpr fun k => SL (fun p =>
      G (mix (inGroup groupOf k) p.2 p.1) - G (mix (inGroup groupOf k) p.1 p.2) + G p.1 - G p.2)
    ((((mf _).sub (mx _)).add m1).sub m2) (((((lf _).sub (lx _)).add l1).sub l2).integrable one_le_two)
  have a1 : ∫ p, G p.1 ^ 2 ∂((Measure.pi ν).prod (Measure.pi ν)) = ∫ x, G x ^ 2 ∂Measure.pi ν := by
    have := integral_sq_mix ν G hG fun _ => false
    simpa only [mix_none] using this
  have a2 : ∫ p, G p.2 ^ 2 ∂((Measure.pi ν).prod (Measure.pi ν)) = ∫ x, G x ^ 2 ∂Measure.pi ν := by
    have := integral_sq_mix ν G hG fun _ => true
    simpa only [mix_all] using this
  have a3 : ∫ p, G p.1 ∂((Measure.pi ν).prod (Measure.pi ν)) = ∫ x, G x ∂Measure.pi ν := by
    have := integral_mix ν G hG fun _ => false
    simpa only [mix_none] using this
  have a4 : ∫ p, G p.2 ∂((Measure.pi ν).prod (Measure.pi ν)) = ∫ x, G x ∂Measure.pi ν := by
    have := integral_mix ν G hG fun _ => true
    simpa only [mix_all] using this
  have b1 : ∫ p, (G p.1 ^ 2 + G p.2 ^ 2) / 2 ∂((Measure.pi ν).prod (Measure.pi ν)) = ∫ x, G x ^ 2 ∂Measure.pi ν := by
    rw [integral_div, integral_add l1.integrable_sq l2.integrable_sq, a1, a2]; ring
  have b2 : ∫ p, (G p.1 + G p.2) / 2 ∂((Measure.pi ν).prod (Measure.pi ν)) = ∫ x, G x ∂Measure.pi ν := by
    rw [integral_div, integral_add (l1.integrable one_le_two) (l2.integrable one_le_two), a3, a4]
    ring
  have b5 : ∀ k, ∫ p, (G (mix (inGroup groupOf k) p.1 p.2) - G p.1) ∂((Measure.pi ν).prod (Measure.pi ν)) = 0 := by
    intro k
    rw [integral_sub ((lx _).integrable one_le_two) (l1.integrable one_le_two), integral_mix ν G hG, a3, sub_self]
  filter_upwards [t1, t2, t3, t4, t5, t6, t7, t8] with ω h1 h2 h3 h4 h5 h6 h7 h8
  rw [b1] at h1
  rw [b2] at h2
  refine ⟨?_, ?_, ?_, ?_⟩
  · rw [variance_eq_sub hG]
    exact h1.sub (h2.pow 2)
  · intro k
    have h4' := h4 k
    have h5' := h5 k
    rw [mean_first ν G hG] at h4'
    rw [b5] at h5'
    have := h4'.sub (h3.mul h5')
    rwa [mul_zero, sub_zero] at this
  · intro k
    have := (h6 k).const_mul (1 / 2)
    rwa [mean_total ν G hG] at this
  · intro j k hjk
    have hst : ∀ i : Fin d, ¬(inGroup groupOf j i = true ∧ inGroup groupOf k i = true) := by
      intro i h
      simp only [inGroup, beq_iff_eq] at h
      exact hjk (h.1.symm.trans h.2)
    have h4j := h4 j
    have h4k := h4 k
    have h7' := h7 j k
    have h8' := h8 j
    rw [mean_first ν G hG] at h4j h4k
    rw [mean_second ν G hG _ _ hst] at h7'
    rw [integral_anti G hGm hG] at h8'
    have := ((h7'.sub h4j).sub h4k).sub (h3.mul h8')
    rwa [mul_zero, sub_zero] at this

end means

/-- **C90.** With independent base rows the Sobol analysis is strongly consistent: with probability one, for every
`ε` there is a size from which on every run of `analyze` on the outputs of the design succeeds and each reported S1, ST and S2 is
within `ε` of the true index (closed effect, total effect, interaction, over the variance of the output). -/
theorem C90_consistent (normPpf : ℝ → ℝ) (f : List ℝ → ℝ) (second : Bool) (g : Nat) (groupOf : Nat → Nat)
    (pb : Problem ℝ) (conf : ℝ) (keep : Bool) (hg : (extractGroupNames pb).2 = g) (hconf : 0 < conf ∧ conf < 1)
    (ν : Fin d → Measure ℝ) [∀ i, IsProbabilityMeasure (ν i)] {Ω : Type} [MeasurableSpace Ω] (P : Measure Ω)
    (Z : ℕ → Ω → (Fin d → ℝ) × (Fin d → ℝ)) (hZ : BaseRows ν P Z)
    (G : (Fin d → ℝ) → ℝ) (hf : ∀ x, f (List.ofFn x) = G x)
    (hGm : Measurable G) (hG : MemLp G 2 (Measure.pi ν)) (hV : 0 < Var[G; Measure.pi ν]) :
    ∀ᵐ ω ∂P, ∀ ε > 0, ∃ N0, ∀ N ≥ N0, ∀ r : List (List Nat), r ≠ [] → ∃ res,
      sobolAnalyze Real.sqrt normPpf pb
        ((crossDesign second d g groupOf ((firstRows Z N ω).map pairRow)).map f) second conf r keep .serial = .ok res ∧
      (∀ k < g, (∃ v, res.S1[k]? = some (some v) ∧
          |v - closedEffect ν G (inGroup groupOf k) / Var[G; Measure.pi ν]| < ε) ∧
        (∃ v, res.ST[k]? = some (some v) ∧
          |v - totalEffect ν G (inGroup groupOf k) / Var[G; Measure.pi ν]| < ε)) ∧
      (second = true → ∃ S2, res.S2 = some S2 ∧ ∀ j k, j < k → k < g → ∃ v, entry S2 j k = some (some v) ∧
        |v - (closedEffect ν G (fun i => inGroup groupOf j i || inGroup groupOf k i) -
          closedEffect ν G (inGroup groupOf j) - closedEffect ν G (inGroup groupOf k)) / Var[G; Measure.pi ν]| < ε) := by
  have hGf : (fun x : Fin d → ℝ => f (List.ofFn x)) = G := funext hf
  filter_upwards [tendsto_numerators G hGm hG hZ second g groupOf] with ω hω
  obtain ⟨h0, h1, hT, h2⟩ := hω
  intro ε hε
  have near : ∀ (u : ℕ → ℝ) (l : ℝ), Filter.Tendsto u Filter.atTop (nhds l) →
      ∀ᶠ N in Filter.atTop, |u N - l| < ε := by
    intro u l h
    have := Metric.tendsto_nhds.mp h ε hε
    simpa only [Real.dist_eq] using this
  have e0 : ∀ᶠ N in Filter.atTop, sampleVar G (firstRows Z N ω) ≠ 0 := h0.eventually_ne hV.ne'
  have e1 := (Filter.eventually_all_finset (Finset.range g)).mpr fun k _ => near _ _ ((h1 k).div h0 hV.ne')
  have eT := (Filter.eventually_all_finset (Finset.range g)).mpr fun k _ => near _ _ ((hT k).div h0 hV.ne')
  have e2 : ∀ᶠ N in Filter.atTop, ∀ k ∈ Finset.range g, ∀ j ∈ Finset.range k,
      |secondNum G (blockMean second g groupOf G) (inGroup groupOf j) (inGroup groupOf k) (firstRows Z N ω) /
          sampleVar G (firstRows Z N ω) - (closedEffect ν G (fun i => inGroup groupOf j i || inGroup groupOf k i) -
          closedEffect ν G (inGroup groupOf j) - closedEffect ν G (inGroup groupOf k)) / Var[G; Measure.pi ν]| < ε :=
    (Filter.eventually_all_finset (Finset.range g)).mpr fun k _ =>
      (Filter.eventually_all_finset (Finset.range k)).mpr fun j hj =>
        near _ _ ((h2 j k (Finset.mem_range.mp hj).ne).div h0 hV.ne')
  obtain ⟨N0, hN0⟩ := Filter.eventually_atTop.mp (((e0.and e1).and eT).and e2)
  refine ⟨N0, fun N hN r hr => ?_⟩
  obtain ⟨⟨⟨n0, n1⟩, nT⟩, n2⟩ := hN0 N hN
  have key := C89_formula normPpf f second g groupOf (firstRows Z N ω) pb conf r keep hg hconf hr (by rw [hGf]; exact n0)
  simp only [hGf] at key
  obtain ⟨res, hrun, hS, hS2⟩ := key
  refine ⟨res, hrun, fun k hk => ?_, fun hs => ?_⟩
  · obtain ⟨q1, q2⟩ := hS k hk
    exact ⟨⟨_, q1, n1 k (Finset.mem_range.mpr hk)⟩, ⟨_, q2, nT k (Finset.mem_range.mpr hk)⟩⟩
  · obtain ⟨S2, hs2, he⟩ := hS2 hs
    exact ⟨S2, hs2, fun j k hjk hk => ⟨_, he j k hjk hk,
      n2 k (Finset.mem_range.mpr hk) j (Finset.mem_range.mpr hjk)⟩⟩

/-- Base rows with these properties exist for all distributions of the inputs. -/
theorem baseRows_exist (ν : Fin d → Measure ℝ) [∀ i, IsProbabilityMeasure (ν i)] :
    BaseRows ν (Measure.infinitePi fun _ : ℕ => (Measure.pi ν).prod (Measure.pi ν)) fun i ω => ω i where
  meas := fun i => measurable_pi_apply i
  indep := iIndepFun_infinitePi (X := fun _ ω => ω) fun _ => measurable_id
  law := fun i => Measure.infinitePi_map_eval _ i

end SALib
