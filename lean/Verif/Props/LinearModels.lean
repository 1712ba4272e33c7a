import Verif.Model.TestFunctions
import Verif.Lemmas.DesignEval
import Verif.Props.SobolMean
import Verif.Props.SobolGConv

/-!
# C92: the linear test models
-/

namespace SALib

open MeasureTheory ProbabilityTheory Spec

variable {d : Nat}

section effects

variable (ν : Fin d → Measure ℝ) [∀ i, IsProbabilityMeasure (ν i)] (hν : ∀ i, MemLp (fun t : ℝ => t) 2 (ν i))
include hν

theorem memLp_linear (c : Fin d → ℝ) : MemLp (fun x : Fin d → ℝ => ∑ j, c j * x j) 2 (Measure.pi ν) := by
  refine memLp_finsetSum _ fun j _ => ?_
  have : MemLp (fun x : Fin d → ℝ => x j) 2 (Measure.pi ν) := (hν j).comp_measurePreserving (measurePreserving_eval ν j)
  exact this.const_mul (c j)

/-- **C92**, the effects.  For independent inputs with finite variances and any linear function, the closed effect and
the total effect of a set of inputs are both the sum of the squared coefficients times the variances of these inputs. -/
theorem C92_effects (c : Fin d → ℝ) (s : Fin d → Bool) :
    closedEffect ν (fun x => ∑ j, c j * x j) s = ∑ j, (if s j then c j ^ 2 * Var[fun t => t; ν j] else 0) ∧
    totalEffect ν (fun x => ∑ j, c j * x j) s = ∑ j, (if s j then c j ^ 2 * Var[fun t => t; ν j] else 0) ∧
    Var[fun x => ∑ j, c j * x j; Measure.pi ν] = ∑ j, c j ^ 2 * Var[fun t => t; ν j] := by
  have hint : ∀ j, Integrable (fun x : Fin d → ℝ => x j) (Measure.pi ν) := fun j =>
    ((hν j).comp_measurePreserving (measurePreserving_eval ν j)).integrable one_le_two
  have closed : ∀ s : Fin d → Bool, closedEffect ν (fun x => ∑ j, c j * x j) s =
      ∑ j, (if s j then c j ^ 2 * Var[fun t => t; ν j] else 0) := by
    intro s
    have hc : condMean ν (fun x => ∑ j, c j * x j) s =
        ∑ j, fun y : Fin d → ℝ => (fun t => if s j then c j * t else c j * ∫ u, u ∂ν j) (y j) := by
      funext y
      rw [Finset.sum_apply]
      unfold condMean mix
      rw [integral_finsetSum]
      · refine Finset.sum_congr rfl fun j _ => ?_
        by_cases h : s j = true
        · simp [h]
        · simp only [h]
          rw [integral_const_mul]
          congr 1
          exact integral_comp_eval (μ := ν) (i := j) (f := fun t : ℝ => t) measurable_id.aestronglyMeasurable
      · intro j _
        by_cases h : s j = true
        · simp only [h, if_true]; exact integrable_const _
        · simp only [h]; exact (hint j).const_mul _
    unfold closedEffect
    rw [hc, variance_sum_pi (X := fun j t => if s j then c j * t else c j * ∫ u, u ∂ν j)]
    · refine Finset.sum_congr rfl fun j _ => ?_
      by_cases h : s j = true
      · simp only [h, if_true]
        exact variance_const_mul _ _ _
      · simp only [h, Bool.false_eq_true, if_false]
        rw [variance_eq_sub (memLp_const _)]
        simp
    · intro j
      by_cases h : s j = true
      · simp only [h, if_true]; exact (hν j).const_mul _
      · simp only [h]; exact memLp_const _
  have hvar : Var[fun x => ∑ j, c j * x j; Measure.pi ν] = ∑ j, c j ^ 2 * Var[fun t => t; ν j] := by
    rw [← closedEffect_all ν _ (memLp_linear ν hν c), closed]
    simp
  refine ⟨closed s, ?_, hvar⟩
  rw [totalEffect_eq_sub ν _ (memLp_linear ν hν c), closed, hvar, ← Finset.sum_sub_distrib]
  refine Finset.sum_congr rfl fun j _ => ?_
  by_cases h : s j = true <;> simp [h]

/-- Indices of a linear function of the rows, for groups of inputs. -/
theorem linear_converges (c : Fin d → ℝ) (normPpf : ℝ → ℝ) (f : List ℝ → ℝ) (hf : ∀ x, f (List.ofFn x) = ∑ j, c j * x j)
    (second : Bool) (g : Nat) (groupOf : Nat → Nat) (pb : Problem ℝ) (conf : ℝ) (keep : Bool)
    (hg : (extractGroupNames pb).2 = g) (hconf : 0 < conf ∧ conf < 1)
    (hV : ∃ j, c j ≠ 0 ∧ Var[fun t => t; ν j] ≠ 0)
    {Ω : Type} [MeasurableSpace Ω] (P : Measure Ω)
    (Z : ℕ → Ω → (Fin d → ℝ) × (Fin d → ℝ)) (hZ : BaseRows ν P Z) :
    ∀ᵐ ω ∂P, ∀ ε > 0, ∃ N0, ∀ N ≥ N0, ∀ r : List (List Nat), r ≠ [] → ∃ res,
      sobolAnalyze Real.sqrt normPpf pb ((crossDesign second d g groupOf ((firstRows Z N ω).map pairRow)).map f)
        second conf r keep .serial = .ok res ∧
      (∀ k < g, (∃ v, res.S1[k]? = some (some v) ∧
          |v - (∑ j : Fin d, if groupOf j = k then c j ^ 2 * Var[fun t => t; ν j] else 0) /
            ∑ j, c j ^ 2 * Var[fun t => t; ν j]| < ε) ∧
        ∃ v, res.ST[k]? = some (some v) ∧
          |v - (∑ j : Fin d, if groupOf j = k then c j ^ 2 * Var[fun t => t; ν j] else 0) /
            ∑ j, c j ^ 2 * Var[fun t => t; ν j]| < ε) ∧
      (second = true → ∃ S2, res.S2 = some S2 ∧ ∀ j k, j < k → k < g → ∃ v, entry S2 j k = some (some v) ∧ |v| < ε) := by
  have hvar := (C92_effects ν hν c (fun _ => true)).2.2
  have hpos : 0 < Var[fun x => ∑ j, c j * x j; Measure.pi ν] := by
    obtain ⟨j, h1, h2⟩ := hV
    rw [hvar]
    refine Finset.sum_pos' (fun j _ => mul_nonneg (sq_nonneg _) (variance_nonneg _ _)) ⟨j, Finset.mem_univ _, ?_⟩
    exact mul_pos (by positivity) (lt_of_le_of_ne (variance_nonneg _ _) (Ne.symm h2))
  have hm : Measurable fun x : Fin d → ℝ => ∑ j, c j * x j :=
    Finset.measurable_sum _ fun j _ => (measurable_pi_apply j).const_mul _
  filter_upwards [C90_consistent normPpf f second g groupOf pb conf keep hg hconf ν P Z hZ _ hf hm
    (memLp_linear ν hν c) hpos] with ω hω
  intro ε hε
  obtain ⟨N0, hN0⟩ := hω ε hε
  refine ⟨N0, fun N hN r hr => ?_⟩
  obtain ⟨res, hrun, h1, h2⟩ := hN0 N hN r hr
  rw [hvar] at h1 h2
  have hc := fun s => (C92_effects ν hν c s).1
  have ht := fun s => (C92_effects ν hν c s).2.1
  simp only [hc, ht] at h1 h2
  refine ⟨res, hrun, ?_, fun hs => ?_⟩
  · intro k hk
    have := h1 k hk
    simpa only [inGroup, beq_iff_eq] using this
  · obtain ⟨S2, hS2, h⟩ := h2 hs
    refine ⟨S2, hS2, fun j k hjk hk => ?_⟩
    obtain ⟨v, hv, hb⟩ := h j k hjk hk
    refine ⟨v, hv, ?_⟩
    have e : (∑ i, (if (inGroup groupOf j i || inGroup groupOf k i) = true then c i ^ 2 * Var[fun t => t; ν i] else 0)) -
        (∑ i, (if inGroup groupOf j i = true then c i ^ 2 * Var[fun t => t; ν i] else 0)) -
        (∑ i, (if inGroup groupOf k i = true then c i ^ 2 * Var[fun t => t; ν i] else 0)) = 0 := by
      rw [← Finset.sum_sub_distrib, ← Finset.sum_sub_distrib]
      refine Finset.sum_eq_zero fun i _ => ?_
      unfold inGroup
      by_cases h1 : groupOf i = j
      · have h2 : groupOf i ≠ k := by omega
        simp [h1]
        intro h3
        omega
      · by_cases h2 : groupOf i = k
        · simp [h2, show k ≠ j by omega]
        · simp [h1, h2]
    rw [e] at hb
    simpa using hb

/-- **C92**, linear model 1, for any number of inputs and any groups.  The reported S1 and ST of a group converge to its
share of the variance, the sum of the variances of its inputs over the sum of all variances; S2 converges to zero. -/
theorem C92_model1 (normPpf : ℝ → ℝ) (second : Bool) (g : Nat) (groupOf : Nat → Nat) (pb : Problem ℝ) (conf : ℝ)
    (keep : Bool) (hg : (extractGroupNames pb).2 = g) (hconf : 0 < conf ∧ conf < 1)
    (hV : ∃ j, Var[fun t => t; ν j] ≠ 0) {Ω : Type} [MeasurableSpace Ω] (P : Measure Ω)
    (Z : ℕ → Ω → (Fin d → ℝ) × (Fin d → ℝ)) (hZ : BaseRows ν P Z) :
    ∀ᵐ ω ∂P, ∀ ε > 0, ∃ N0, ∀ N ≥ N0, ∀ r : List (List Nat), r ≠ [] → ∃ res,
      sobolAnalyze Real.sqrt normPpf pb
        (linearModel1 (crossDesign second d g groupOf ((firstRows Z N ω).map pairRow))) second conf r keep .serial =
        .ok res ∧
      (∀ k < g, (∃ v, res.S1[k]? = some (some v) ∧
          |v - (∑ j : Fin d, if groupOf j = k then Var[fun t => t; ν j] else 0) / ∑ j, Var[fun t => t; ν j]| < ε) ∧
        ∃ v, res.ST[k]? = some (some v) ∧
          |v - (∑ j : Fin d, if groupOf j = k then Var[fun t => t; ν j] else 0) / ∑ j, Var[fun t => t; ν j]| < ε) ∧
      (second = true → ∃ S2, res.S2 = some S2 ∧ ∀ j k, j < k → k < g → ∃ v, entry S2 j k = some (some v) ∧ |v| < ε) := by
  obtain ⟨j, hj⟩ := hV
  have := linear_converges ν hν (fun _ => 1) normPpf List.sum (by intro x; simp [List.sum_ofFn]) second g groupOf pb conf
    keep hg hconf ⟨j, one_ne_zero, hj⟩ P Z hZ
  simp only [one_pow, one_mul] at this
  exact this

end effects

/-- **C92**, linear model 2.  The evaluation of the design succeeds, and the reported S1 and ST of input `i` converge to
`(5 - i)² Var_i` over the sum of these; S2 converges to zero. -/
theorem C92_model2 (ν : Fin 5 → Measure ℝ) [∀ i, IsProbabilityMeasure (ν i)] (hν : ∀ i, MemLp (fun t : ℝ => t) 2 (ν i))
    (normPpf : ℝ → ℝ) (second : Bool) (pb : Problem ℝ) (conf : ℝ)
    (keep : Bool) (hg : (extractGroupNames pb).2 = 5) (hconf : 0 < conf ∧ conf < 1)
    (hV : ∃ j, Var[fun t => t; ν j] ≠ 0) {Ω : Type} [MeasurableSpace Ω] (P : Measure Ω)
    (Z : ℕ → Ω → (Fin 5 → ℝ) × (Fin 5 → ℝ)) (hZ : BaseRows ν P Z) :
    ∀ᵐ ω ∂P, ∀ ε > 0, ∃ N0, ∀ N ≥ N0, ∀ r : List (List Nat), r ≠ [] → ∃ Y res,
      linearModel2 (crossDesign second 5 5 id ((firstRows Z N ω).map pairRow)) = .ok Y ∧
      sobolAnalyze Real.sqrt normPpf pb Y second conf r keep .serial = .ok res ∧
      (∀ i : Fin 5, (∃ v, res.S1[i.1]? = some (some v) ∧
          |v - (5 - i.1) ^ 2 * Var[fun t => t; ν i] / ∑ j : Fin 5, (5 - j.1) ^ 2 * Var[fun t => t; ν j]| < ε) ∧
        ∃ v, res.ST[i.1]? = some (some v) ∧
          |v - (5 - i.1) ^ 2 * Var[fun t => t; ν i] / ∑ j : Fin 5, (5 - j.1) ^ 2 * Var[fun t => t; ν j]| < ε) ∧
      (second = true → ∃ S2, res.S2 = some S2 ∧ ∀ j k, j < k → k < 5 → ∃ v, entry S2 j k = some (some v) ∧ |v| < ε) := by
  obtain ⟨j, hj⟩ := hV
  let f : List ℝ → ℝ := fun l => 5 * l.getD 0 0 + 4 * l.getD 1 0 + 3 * l.getD 2 0 + 2 * l.getD 3 0 + l.getD 4 0
  have hf : ∀ x : Fin 5 → ℝ, f (List.ofFn x) = ∑ j : Fin 5, (5 - (j.1 : ℝ)) * x j := by
    intro x
    simp [f, Fin.sum_univ_five]
    ring
  have hF : ∀ x : Fin 5 → ℝ, linearRow2 (List.ofFn x) = .ok (f (List.ofFn x)) := by
    intro x
    simp only [List.ofFn_succ, f]
    rfl
  have hc : (5 - (j.1 : ℝ)) ≠ 0 := by
    have : (j.1 : ℝ) < 5 := by exact_mod_cast j.2
    linarith
  filter_upwards [linear_converges ν hν (fun j => 5 - (j.1 : ℝ)) normPpf f hf second 5 id pb conf keep hg hconf
    ⟨j, hc, hj⟩ P Z hZ] with ω hω
  intro ε hε
  obtain ⟨N0, hN0⟩ := hω ε hε
  refine ⟨N0, fun N hN r hr => ?_⟩
  obtain ⟨res, hrun, h1, h2⟩ := hN0 N hN r hr
  refine ⟨_, res, mapM_design _ f hF second 5 id _, hrun, fun i => ?_, h2⟩
  have := h1 i.1 i.2
  simpa only [id, Fin.val_inj, Finset.sum_ite_eq', Finset.mem_univ, if_true] using this

/-- The hypotheses are met: five inputs, uniform on the unit interval, and rows drawn from this distribution. -/
example : (∀ _ : Fin 5, MemLp (fun t : ℝ => t) 2 unif) ∧ Var[fun t => t; unif] ≠ 0 ∧
    (extractGroupNames
      ({ names := ["x1", "x2", "x3", "x4", "x5"], bounds := List.replicate 5 [0, 1] } : Problem ℝ)).2 = 5 ∧
    BaseRows (d := 5) (fun _ => unif) (Measure.infinitePi fun _ : ℕ => (unifs 5).prod (unifs 5)) fun i ω => ω i := by
  have hm : MemLp (fun t : ℝ => t) 2 unif := by
    refine (memLp_two_iff_integrable_sq measurable_id.aestronglyMeasurable).mpr ?_
    exact (continuous_pow 2).continuousOn.integrableOn_compact isCompact_Icc
  refine ⟨fun _ => hm, ?_, rfl, baseRows_exist _⟩
  rw [variance_eq_sub hm]
  simp only [Pi.pow_apply]
  unfold unif
  rw [integral_Icc_eq_integral_Ioc, integral_Icc_eq_integral_Ioc, ← intervalIntegral.integral_of_le zero_le_one,
    ← intervalIntegral.integral_of_le zero_le_one, integral_pow, integral_id]
  norm_num

end SALib
