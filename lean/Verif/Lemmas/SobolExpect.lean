import Verif.Lemmas.SobolMean
import Verif.Lemmas.SobolRows
import Mathlib.Probability.Independence.Integration
import Mathlib.Probability.StrongLaw

/-! Expectations and limits of means over independent rows. -/

namespace SALib

open MeasureTheory ProbabilityTheory Spec

variable {d : Nat}

section rows

variable {Ω β : Type} [MeasurableSpace Ω] [MeasurableSpace β] {P : Measure Ω} {law : Measure β} {Z : ℕ → Ω → β}

theorem rowMean_firstRows (N : Nat) (ω : Ω) (h : β → ℝ) :
    rowMean (firstRows Z N ω) h = (∑ i ∈ Finset.range N, h (Z i ω)) / N := by
  unfold rowMean firstRows
  rw [List.map_map, List.length_map, List.length_range, ← list_sum_range]
  rfl

variable (hm : ∀ i, Measurable (Z i)) (hlaw : ∀ i, Measure.map (Z i) P = law)
include hm hlaw

theorem integral_row (h : β → ℝ) (hh : AEStronglyMeasurable h law) (i : Nat) :
    ∫ ω, h (Z i ω) ∂P = ∫ p, h p ∂law := by
  rw [← hlaw i] at hh ⊢
  rw [integral_map (hm i).aemeasurable hh]

theorem integrable_row (h : β → ℝ) (hh : Integrable h law) (i : Nat) : Integrable (fun ω => h (Z i ω)) P := by
  rw [← hlaw i] at hh
  exact hh.comp_measurable (hm i)

theorem integrable_rowMean (h : β → ℝ) (hh : Integrable h law) (N : Nat) :
    Integrable (fun ω => rowMean (firstRows Z N ω) h) P := by
  simp only [rowMean_firstRows]
  exact (integrable_finsetSum _ fun i _ => integrable_row hm hlaw h hh i).div_const _

theorem integral_rowMean (h : β → ℝ) (hh : Integrable h law) (N : Nat) (hN : 0 < N) :
    ∫ ω, rowMean (firstRows Z N ω) h ∂P = ∫ p, h p ∂law := by
  simp only [rowMean_firstRows]
  rw [integral_div, integral_finsetSum _ fun i _ => integrable_row hm hlaw h hh i]
  simp only [integral_row hm hlaw h hh.aestronglyMeasurable]
  have : (N : ℝ) ≠ 0 := by exact_mod_cast hN.ne'
  rw [Finset.sum_const, Finset.card_range, nsmul_eq_mul]
  field_simp

variable (hind : iIndepFun Z P)
include hind

theorem integral_row_mul (h h' : β → ℝ) (hh : Measurable h) (hh' : Measurable h') (i j : Nat) :
    ∫ ω, h (Z i ω) * h' (Z j ω) ∂P =
      if i = j then ∫ p, h p * h' p ∂law else (∫ p, h p ∂law) * ∫ p, h' p ∂law := by
  by_cases hij : i = j
  · subst hij
    rw [if_pos rfl]
    exact integral_row hm hlaw (fun p => h p * h' p) (hh.mul hh').aestronglyMeasurable i
  · rw [if_neg hij, ← integral_row hm hlaw h hh.aestronglyMeasurable i,
      ← integral_row hm hlaw h' hh'.aestronglyMeasurable j]
    exact ((hind.indepFun hij).comp hh hh').integral_mul_eq_mul_integral
      (hh.comp (hm i)).aestronglyMeasurable (hh'.comp (hm j)).aestronglyMeasurable

theorem integrable_row_mul (h h' : β → ℝ) (hh : MemLp h 2 law) (hh' : MemLp h' 2 law) (i j : Nat) :
    Integrable (fun ω => h (Z i ω) * h' (Z j ω)) P := by
  have m1 : MemLp (fun ω => h (Z i ω)) 2 P := by
    rw [← hlaw i] at hh
    exact (memLp_map_measure_iff hh.aestronglyMeasurable (hm i).aemeasurable).mp hh
  have m2 : MemLp (fun ω => h' (Z j ω)) 2 P := by
    rw [← hlaw j] at hh'
    exact (memLp_map_measure_iff hh'.aestronglyMeasurable (hm j).aemeasurable).mp hh'
  exact m1.integrable_mul m2

theorem rowMean_mul (h h' : β → ℝ) (N : Nat) (ω : Ω) :
    rowMean (firstRows Z N ω) h * rowMean (firstRows Z N ω) h' =
      (∑ i ∈ Finset.range N, ∑ j ∈ Finset.range N, h (Z i ω) * h' (Z j ω)) / ((N : ℝ) * N) := by
  rw [rowMean_firstRows, rowMean_firstRows, div_mul_div_comm, Finset.sum_mul_sum]

theorem integrable_rowMean_mul (h h' : β → ℝ) (hh : MemLp h 2 law) (hh' : MemLp h' 2 law) (N : Nat) :
    Integrable (fun ω => rowMean (firstRows Z N ω) h * rowMean (firstRows Z N ω) h') P := by
  simp only [rowMean_mul hm hlaw hind]
  exact (integrable_finsetSum _ fun i _ => integrable_finsetSum _ fun j _ =>
    integrable_row_mul hm hlaw hind h h' hh hh' i j).div_const _

/-- The expectation of a product of two means. -/
theorem integral_rowMean_mul (h h' : β → ℝ) (mh : Measurable h) (mh' : Measurable h') (hh : MemLp h 2 law)
    (hh' : MemLp h' 2 law) (N : Nat) (hN : 0 < N) :
    ∫ ω, rowMean (firstRows Z N ω) h * rowMean (firstRows Z N ω) h' ∂P =
      1 / N * ∫ p, h p * h' p ∂law + (1 - 1 / N) * ((∫ p, h p ∂law) * ∫ p, h' p ∂law) := by
  simp only [rowMean_mul hm hlaw hind]
  rw [integral_div, integral_finsetSum _ fun i _ => integrable_finsetSum _ fun j _ =>
    integrable_row_mul hm hlaw hind h h' hh hh' i j]
  have h1 : ∀ i ∈ Finset.range N, ∫ ω, ∑ j ∈ Finset.range N, h (Z i ω) * h' (Z j ω) ∂P =
      (∫ p, h p * h' p ∂law - (∫ p, h p ∂law) * ∫ p, h' p ∂law) + N * ((∫ p, h p ∂law) * ∫ p, h' p ∂law) := by
    intro i hi
    rw [integral_finsetSum _ fun j _ => integrable_row_mul hm hlaw hind h h' hh hh' i j]
    simp only [integral_row_mul hm hlaw hind h h' mh mh']
    have : ∀ j, (if i = j then ∫ p, h p * h' p ∂law else (∫ p, h p ∂law) * ∫ p, h' p ∂law) =
        (if i = j then (∫ p, h p * h' p ∂law - (∫ p, h p ∂law) * ∫ p, h' p ∂law) else 0) +
          (∫ p, h p ∂law) * ∫ p, h' p ∂law := by
      intro j; split <;> ring
    simp only [this]
    rw [Finset.sum_add_distrib, Finset.sum_ite_eq, if_pos hi, Finset.sum_const, Finset.card_range, nsmul_eq_mul]
  rw [Finset.sum_congr rfl h1, Finset.sum_const, Finset.card_range, nsmul_eq_mul]
  have : (N : ℝ) ≠ 0 := by exact_mod_cast hN.ne'
  field_simp
  ring

/-- Strong law for row means. -/
theorem tendsto_rowMean (h : β → ℝ) (mh : Measurable h) (hh : Integrable h law) :
    ∀ᵐ ω ∂P, Filter.Tendsto (fun N => rowMean (firstRows Z N ω) h) Filter.atTop (nhds (∫ p, h p ∂law)) := by
  have := strong_law_ae_real (fun i ω => h (Z i ω)) (integrable_row hm hlaw h hh 0)
    (fun i j hij => (hind.indepFun hij).comp mh mh)
    (fun i => {
      aemeasurable_fst := (mh.comp (hm i)).aemeasurable
      aemeasurable_snd := (mh.comp (hm 0)).aemeasurable
      map_eq := by
        have : ∀ i, Measure.map (fun ω => h (Z i ω)) P = Measure.map h law := by
          intro i
          rw [← hlaw i, Measure.map_map mh (hm i)]
          rfl
        rw [this, this] })
  rw [integral_row hm hlaw h hh.aestronglyMeasurable 0] at this
  filter_upwards [this] with ω hω
  simpa only [rowMean_firstRows] using hω

end rows

section effects

variable (ν : Fin d → Measure ℝ) [∀ i, IsProbabilityMeasure (ν i)]

theorem measurable_mix (s : Fin d → Bool) :
    Measurable fun p : (Fin d → ℝ) × (Fin d → ℝ) => mix s p.1 p.2 := by
  refine measurable_pi_lambda _ fun j => ?_
  unfold mix
  cases s j
  · simpa [Function.comp_def] using (measurable_pi_apply j).comp (measurable_fst (α := Fin d → ℝ) (β := Fin d → ℝ))
  · simpa [Function.comp_def] using (measurable_pi_apply j).comp (measurable_snd (α := Fin d → ℝ) (β := Fin d → ℝ))

theorem mix_none (x y : Fin d → ℝ) : mix (fun _ => false) x y = x := by funext j; simp [mix]

theorem mix_all (x y : Fin d → ℝ) : mix (fun _ => true) x y = y := by funext j; simp [mix]

theorem mix_flip (s : Fin d → Bool) (x y : Fin d → ℝ) : mix s y x = mix (fun j => !s j) x y := by
  rw [mix_not]

variable (G : (Fin d → ℝ) → ℝ) (hG : MemLp G 2 (Measure.pi ν))
include hG

/-- Two points mixed from the same pair share the inputs on which the selections agree. -/
theorem integral_cross (s t : Fin d → Bool) :
    ∫ p, G (mix s p.1 p.2) * G (mix t p.1 p.2) ∂((Measure.pi ν).prod (Measure.pi ν)) =
      closedEffect ν G (fun j => s j == t j) + (∫ x, G x ∂Measure.pi ν) ^ 2 := by
  have hmp : MeasurePreserving (fun p : (Fin d → ℝ) × (Fin d → ℝ) => (mix s p.2 p.1, mix s p.1 p.2))
      ((Measure.pi ν).prod (Measure.pi ν)) ((Measure.pi ν).prod (Measure.pi ν)) :=
    Measure.measurePreserving_swap.comp (mix_swap_preserving ν s)
  rw [closedEffect_eq ν G hG, ← integral_shared ν G hG, sub_add_cancel]
  conv_rhs => rw [← hmp.map_eq]
  rw [integral_map hmp.measurable.aemeasurable]
  · refine integral_congr_ae (Filter.Eventually.of_forall fun p => ?_)
    simp only []
    congr 2
    funext j
    simp only [mix]
    by_cases hs : s j = true <;> by_cases ht : t j = true <;> simp [hs, ht]
  · rw [hmp.map_eq]
    exact (integrable_snd_mix ν G hG _).aestronglyMeasurable

theorem closedEffect_none : closedEffect ν G (fun _ => false) = 0 := by
  unfold closedEffect condMean
  have : (fun y => ∫ x, G (mix (fun _ => false) x y) ∂Measure.pi ν) = fun _ => ∫ x, G x ∂Measure.pi ν := by
    funext y; simp only [mix_none]
  rw [this]
  rw [variance_eq_sub (memLp_const _)]
  simp

theorem closedEffect_all : closedEffect ν G (fun _ => true) = Var[G; Measure.pi ν] := by
  unfold closedEffect condMean
  have : (fun y => ∫ x, G (mix (fun _ => true) x y) ∂Measure.pi ν) = G := by
    funext y; simp only [mix_all, integral_const]; simp
  rw [this]

theorem totalEffect_eq_sub (s : Fin d → Bool) :
    totalEffect ν G s = Var[G; Measure.pi ν] - closedEffect ν G fun j => !s j := by
  rw [totalEffect_eq ν G hG, closedEffect_eq ν G hG, variance_eq_sub hG]
  simp only [Pi.pow_apply]
  ring

theorem closedEffect_nonneg (s : Fin d → Bool) : 0 ≤ closedEffect ν G s := variance_nonneg _ _

theorem closedEffect_le (s : Fin d → Bool) : closedEffect ν G s ≤ Var[G; Measure.pi ν] := by
  have h := totalEffect_eq_sub ν G hG fun j => !s j
  simp only [Bool.not_not] at h
  have : 0 ≤ totalEffect ν G fun j => !s j := integral_nonneg fun _ => variance_nonneg _ _
  linarith

end effects

end SALib
