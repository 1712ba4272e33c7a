import Verif.Spec.DiscMeaning
import Verif.Model.Discrepancy
import Mathlib.MeasureTheory.Integral.Prod
import Mathlib.MeasureTheory.Integral.IntervalIntegral.FundThmCalculus
import Mathlib.Analysis.SpecialFunctions.Integrals.Basic

/-! Discrepancies of boxes as double integrals of a kernel. -/

namespace SALib
open Spec MeasureTheory Set

instance : IsProbabilityMeasure unitLine := ⟨by simp [unitLine]⟩
instance : IsProbabilityMeasure unitSquare := by unfold unitSquare; infer_instance

/-- Joint measurability of a family of sides. -/
def MeasSide (J : ℝ × ℝ → Set ℝ) : Prop := MeasurableSet {q : (ℝ × ℝ) × ℝ | q.2 ∈ J q.1}

/-- The probability that a random side contains both points. -/
noncomputable def overlap (J : ℝ × ℝ → Set ℝ) (x y : ℝ) : ℝ := unitSquare.real {s | x ∈ J s ∧ y ∈ J s}

noncomputable def overlap1 (J : ℝ × ℝ → Set ℝ) (x : ℝ) : ℝ := ∫ y, overlap J x y ∂unitLine
noncomputable def overlap2 (J : ℝ × ℝ → Set ℝ) : ℝ := ∫ x, overlap1 J x ∂unitLine

/-- Sections of a set, integrated in either order. -/
theorem real_sections {A B : Type} [MeasurableSpace A] [MeasurableSpace B] (ρ : Measure A) (σ : Measure B)
    [IsFiniteMeasure ρ] [IsFiniteMeasure σ] (T : Set (A × B)) (hT : MeasurableSet T) :
    ∫ a, σ.real {b | (a, b) ∈ T} ∂ρ = ∫ b, ρ.real {a | (a, b) ∈ T} ∂σ := by
  have hint : Integrable (T.indicator fun _ => (1 : ℝ)) (ρ.prod σ) := (integrable_const _).indicator hT
  have h1 := integral_integral_swap (μ := ρ) (ν := σ) (f := fun a b => T.indicator (fun _ => (1 : ℝ)) (a, b)) hint
  have e1 : ∀ a, ∫ b, T.indicator (fun _ => (1 : ℝ)) (a, b) ∂σ = σ.real {b | (a, b) ∈ T} := by
    intro a
    have hm : MeasurableSet {b | (a, b) ∈ T} := measurable_prodMk_left hT
    have : (fun b => T.indicator (fun _ => (1 : ℝ)) (a, b)) = {b | (a, b) ∈ T}.indicator fun _ => 1 := by
      funext b
      by_cases h : (a, b) ∈ T
      · rw [indicator_of_mem h, indicator_of_mem (by exact h)]
      · rw [indicator_of_notMem h, indicator_of_notMem (by exact h)]
    rw [this, integral_indicator_const _ hm, smul_eq_mul, mul_one]
  have e2 : ∀ b, ∫ a, T.indicator (fun _ => (1 : ℝ)) (a, b) ∂ρ = ρ.real {a | (a, b) ∈ T} := by
    intro b
    have hm : MeasurableSet {a | (a, b) ∈ T} := measurable_prodMk_right hT
    have : (fun a => T.indicator (fun _ => (1 : ℝ)) (a, b)) = {a | (a, b) ∈ T}.indicator fun _ => 1 := by
      funext a
      by_cases h : (a, b) ∈ T
      · rw [indicator_of_mem h, indicator_of_mem (by exact h)]
      · rw [indicator_of_notMem h, indicator_of_notMem (by exact h)]
    rw [this, integral_indicator_const _ hm, smul_eq_mul, mul_one]
  simp only [e1, e2] at h1
  exact h1

section

variable {Ja Jb : ℝ × ℝ → Set ℝ} (ha : MeasSide Ja) (hb : MeasSide Jb)

include ha hb in
theorem measurable_boxes :
    MeasurableSet {q : ((ℝ × ℝ) × (ℝ × ℝ)) × (ℝ × ℝ) | q.2 ∈ Ja q.1.1 ×ˢ Jb q.1.2} := by
  have h1 : Measurable fun q : ((ℝ × ℝ) × (ℝ × ℝ)) × (ℝ × ℝ) => (q.1.1, q.2.1) := by fun_prop
  have h2 : Measurable fun q : ((ℝ × ℝ) × (ℝ × ℝ)) × (ℝ × ℝ) => (q.1.2, q.2.2) := by fun_prop
  exact (h1 ha).inter (h2 hb)

include ha hb in
theorem box_bilin (α β : Measure (ℝ × ℝ)) [IsFiniteMeasure α] [IsFiniteMeasure β] :
    ∫ z, α.real (Ja z.1 ×ˢ Jb z.2) * β.real (Ja z.1 ×ˢ Jb z.2) ∂unitSquare.prod unitSquare =
      ∫ r, overlap Ja r.1.1 r.2.1 * overlap Jb r.1.2 r.2.2 ∂α.prod β := by
  have hT : MeasurableSet {q : ((ℝ × ℝ) × (ℝ × ℝ)) × ((ℝ × ℝ) × (ℝ × ℝ)) |
      q.2.1 ∈ Ja q.1.1 ×ˢ Jb q.1.2 ∧ q.2.2 ∈ Ja q.1.1 ×ˢ Jb q.1.2} := by
    have h1 : Measurable fun q : ((ℝ × ℝ) × (ℝ × ℝ)) × ((ℝ × ℝ) × (ℝ × ℝ)) => (q.1, q.2.1) := by fun_prop
    have h2 : Measurable fun q : ((ℝ × ℝ) × (ℝ × ℝ)) × ((ℝ × ℝ) × (ℝ × ℝ)) => (q.1, q.2.2) := by fun_prop
    exact (h1 (measurable_boxes ha hb)).inter (h2 (measurable_boxes ha hb))
  have key := real_sections (unitSquare.prod unitSquare) (α.prod β) _ hT
  have e1 : ∀ z : (ℝ × ℝ) × (ℝ × ℝ), (α.prod β).real {r | (z, r) ∈ {q : ((ℝ × ℝ) × (ℝ × ℝ)) × ((ℝ × ℝ) × (ℝ × ℝ)) |
      q.2.1 ∈ Ja q.1.1 ×ˢ Jb q.1.2 ∧ q.2.2 ∈ Ja q.1.1 ×ˢ Jb q.1.2}} =
      α.real (Ja z.1 ×ˢ Jb z.2) * β.real (Ja z.1 ×ˢ Jb z.2) := by
    intro z
    rw [← measureReal_prod_prod]
    rfl
  have e2 : ∀ r : (ℝ × ℝ) × (ℝ × ℝ), (unitSquare.prod unitSquare).real {z | (z, r) ∈
      {q : ((ℝ × ℝ) × (ℝ × ℝ)) × ((ℝ × ℝ) × (ℝ × ℝ)) | q.2.1 ∈ Ja q.1.1 ×ˢ Jb q.1.2 ∧ q.2.2 ∈ Ja q.1.1 ×ˢ Jb q.1.2}} =
      overlap Ja r.1.1 r.2.1 * overlap Jb r.1.2 r.2.2 := by
    intro r
    unfold overlap
    rw [← measureReal_prod_prod]
    congr 1
    ext z
    simp only [mem_setOf_eq, mem_prod]
    tauto
  simp only [e1, e2] at key
  exact key

theorem overlap_range (J : ℝ × ℝ → Set ℝ) (x y : ℝ) : 0 ≤ overlap J x y ∧ overlap J x y ≤ 1 :=
  ⟨measureReal_nonneg, measureReal_le_one⟩

include ha in
theorem measurable_overlap : Measurable fun r : ℝ × ℝ => overlap Ja r.1 r.2 := by
  have hT : MeasurableSet {q : (ℝ × ℝ) × (ℝ × ℝ) | q.1.1 ∈ Ja q.2 ∧ q.1.2 ∈ Ja q.2} := by
    have h1 : Measurable fun q : (ℝ × ℝ) × (ℝ × ℝ) => (q.2, q.1.1) := by fun_prop
    have h2 : Measurable fun q : (ℝ × ℝ) × (ℝ × ℝ) => (q.2, q.1.2) := by fun_prop
    exact (h1 ha).inter (h2 ha)
  exact (measurable_measure_prodMk_left hT).ennreal_toReal

include ha in
theorem integrable_overlap (x : ℝ) : Integrable (fun y => overlap Ja x y) unitLine := by
  refine Integrable.of_bound ((measurable_overlap ha).comp measurable_prodMk_left).aestronglyMeasurable 1 (ae_of_all _ fun y => ?_)
  rw [Real.norm_of_nonneg (overlap_range Ja x y).1]
  exact (overlap_range Ja x y).2

include ha in
theorem measurable_overlap1 : Measurable (overlap1 Ja) := by
  have : StronglyMeasurable fun x => ∫ y, overlap Ja x y ∂unitLine :=
    StronglyMeasurable.integral_prod_right (f := fun x y => overlap Ja x y) (measurable_overlap ha).stronglyMeasurable
  exact this.measurable

theorem overlap1_range (J : ℝ × ℝ → Set ℝ) (h : MeasSide J) (x : ℝ) : 0 ≤ overlap1 J x ∧ overlap1 J x ≤ 1 := by
  refine ⟨integral_nonneg fun y => (overlap_range J x y).1, ?_⟩
  have := integral_mono (integrable_overlap h x) (integrable_const (1 : ℝ)) fun y => (overlap_range J x y).2
  unfold overlap1
  simpa using this

include ha hb in
/-- The mean squared difference for one pair of sides. -/
theorem box_square (μ : Measure (ℝ × ℝ)) [IsProbabilityMeasure μ] :
    ∫ z, (μ.real (Ja z.1 ×ˢ Jb z.2) - unitLine.real (Ja z.1) * unitLine.real (Jb z.2)) ^ 2 ∂unitSquare.prod unitSquare =
      ∫ r, (overlap Ja r.1.1 r.2.1 * overlap Jb r.1.2 r.2.2 - overlap1 Ja r.1.1 * overlap1 Jb r.1.2 -
        overlap1 Ja r.2.1 * overlap1 Jb r.2.2 + overlap2 Ja * overlap2 Jb) ∂μ.prod μ := by
  have hν : ∀ z : (ℝ × ℝ) × (ℝ × ℝ), unitLine.real (Ja z.1) * unitLine.real (Jb z.2) =
      (unitLine.prod unitLine).real (Ja z.1 ×ˢ Jb z.2) := fun z => by rw [measureReal_prod_prod]
  simp only [hν]
  have hmeas : ∀ (α : Measure (ℝ × ℝ)) [IsProbabilityMeasure α],
      Measurable fun z : (ℝ × ℝ) × (ℝ × ℝ) => α.real (Ja z.1 ×ˢ Jb z.2) := by
    intro α _
    exact (measurable_measure_prodMk_left (measurable_boxes ha hb)).ennreal_toReal
  have hint : ∀ (α β : Measure (ℝ × ℝ)) [IsProbabilityMeasure α] [IsProbabilityMeasure β],
      Integrable (fun z : (ℝ × ℝ) × (ℝ × ℝ) => α.real (Ja z.1 ×ˢ Jb z.2) * β.real (Ja z.1 ×ˢ Jb z.2))
        (unitSquare.prod unitSquare) := by
    intro α β _ _
    refine Integrable.of_bound ((hmeas α).mul (hmeas β)).aestronglyMeasurable 1 (ae_of_all _ fun z => ?_)
    rw [Real.norm_of_nonneg (mul_nonneg measureReal_nonneg measureReal_nonneg)]
    exact mul_le_one₀ measureReal_le_one measureReal_nonneg measureReal_le_one
  have e : ∀ z : (ℝ × ℝ) × (ℝ × ℝ), (μ.real (Ja z.1 ×ˢ Jb z.2) - (unitLine.prod unitLine).real (Ja z.1 ×ˢ Jb z.2)) ^ 2 =
      μ.real (Ja z.1 ×ˢ Jb z.2) * μ.real (Ja z.1 ×ˢ Jb z.2) -
      2 * (μ.real (Ja z.1 ×ˢ Jb z.2) * (unitLine.prod unitLine).real (Ja z.1 ×ˢ Jb z.2)) +
      (unitLine.prod unitLine).real (Ja z.1 ×ˢ Jb z.2) * (unitLine.prod unitLine).real (Ja z.1 ×ˢ Jb z.2) := fun z => by ring
  simp only [e]
  have i1 := hint μ μ
  have i2 := hint μ (unitLine.prod unitLine)
  have i3 := hint (unitLine.prod unitLine) (unitLine.prod unitLine)
  have s1 := integral_add (μ := unitSquare.prod unitSquare) (i1.sub (i2.const_mul 2)) i3
  have s2 := integral_sub (μ := unitSquare.prod unitSquare) i1 (i2.const_mul 2)
  simp only [Pi.sub_apply] at s1
  rw [s1, s2, integral_const_mul, box_bilin ha hb, box_bilin ha hb, box_bilin ha hb]
  -- the kernels
  have hbd : ∀ r : (ℝ × ℝ) × (ℝ × ℝ), ‖overlap Ja r.1.1 r.2.1 * overlap Jb r.1.2 r.2.2‖ ≤ 1 := by
    intro r
    rw [Real.norm_of_nonneg (mul_nonneg (overlap_range _ _ _).1 (overlap_range _ _ _).1)]
    exact mul_le_one₀ (overlap_range _ _ _).2 (overlap_range _ _ _).1 (overlap_range _ _ _).2
  have hkm : Measurable fun r : (ℝ × ℝ) × (ℝ × ℝ) => overlap Ja r.1.1 r.2.1 * overlap Jb r.1.2 r.2.2 := by
    have h1 : Measurable fun r : (ℝ × ℝ) × (ℝ × ℝ) => (r.1.1, r.2.1) := by fun_prop
    have h2 : Measurable fun r : (ℝ × ℝ) × (ℝ × ℝ) => (r.1.2, r.2.2) := by fun_prop
    exact ((measurable_overlap ha).comp h1).mul ((measurable_overlap hb).comp h2)
  have hk : ∀ (α β : Measure (ℝ × ℝ)) [IsProbabilityMeasure α] [IsProbabilityMeasure β],
      Integrable (fun r : (ℝ × ℝ) × (ℝ × ℝ) => overlap Ja r.1.1 r.2.1 * overlap Jb r.1.2 r.2.2) (α.prod β) := by
    intro α β _ _
    exact Integrable.of_bound hkm.aestronglyMeasurable 1 (ae_of_all _ hbd)
  have hone : ∀ (α : Measure (ℝ × ℝ)) [IsProbabilityMeasure α],
      ∫ r, overlap Ja r.1.1 r.2.1 * overlap Jb r.1.2 r.2.2 ∂α.prod (unitLine.prod unitLine) =
        ∫ p, overlap1 Ja p.1 * overlap1 Jb p.2 ∂α := by
    intro α _
    rw [integral_prod _ (hk α (unitLine.prod unitLine))]
    apply integral_congr_ae
    refine ae_of_all _ fun p => ?_
    exact integral_prod_mul (fun y => overlap Ja p.1 y) fun y => overlap Jb p.2 y
  have hone' : ∫ p, overlap1 Ja p.1 * overlap1 Jb p.2 ∂unitLine.prod unitLine = overlap2 Ja * overlap2 Jb :=
    integral_prod_mul (overlap1 Ja) (overlap1 Jb)
  rw [hone μ, hone (unitLine.prod unitLine), hone']
  have hi1 : Integrable (fun p : ℝ × ℝ => overlap1 Ja p.1 * overlap1 Jb p.2) μ := by
    refine Integrable.of_bound (((measurable_overlap1 ha).comp measurable_fst).mul
      ((measurable_overlap1 hb).comp measurable_snd)).aestronglyMeasurable 1 (ae_of_all _ fun p => ?_)
    have a1 := overlap1_range Ja ha p.1
    have a2 := overlap1_range Jb hb p.2
    rw [Real.norm_of_nonneg (mul_nonneg a1.1 a2.1)]
    exact mul_le_one₀ a1.2 a2.1 a2.2
  have j1 : Integrable (fun r : (ℝ × ℝ) × (ℝ × ℝ) => overlap1 Ja r.1.1 * overlap1 Jb r.1.2) (μ.prod μ) := hi1.comp_fst μ
  have j2 : Integrable (fun r : (ℝ × ℝ) × (ℝ × ℝ) => overlap1 Ja r.2.1 * overlap1 Jb r.2.2) (μ.prod μ) := hi1.comp_snd μ
  have t1 := integral_add (μ := μ.prod μ) (((hk μ μ).sub j1).sub j2) (integrable_const (overlap2 Ja * overlap2 Jb))
  have t2 := integral_sub (μ := μ.prod μ) ((hk μ μ).sub j1) j2
  have t3 := integral_sub (μ := μ.prod μ) (hk μ μ) j1
  simp only [Pi.sub_apply] at t1 t2
  rw [t1, t2, t3]
  have f1 : ∫ r : (ℝ × ℝ) × (ℝ × ℝ), overlap1 Ja r.1.1 * overlap1 Jb r.1.2 ∂μ.prod μ = ∫ p, overlap1 Ja p.1 * overlap1 Jb p.2 ∂μ := by
    have := integral_fun_fst (μ := μ) (ν := μ) (fun p : ℝ × ℝ => overlap1 Ja p.1 * overlap1 Jb p.2)
    simpa using this
  have f2 : ∫ r : (ℝ × ℝ) × (ℝ × ℝ), overlap1 Ja r.2.1 * overlap1 Jb r.2.2 ∂μ.prod μ = ∫ p, overlap1 Ja p.1 * overlap1 Jb p.2 ∂μ := by
    have := integral_fun_snd (μ := μ) (ν := μ) (fun p : ℝ × ℝ => overlap1 Ja p.1 * overlap1 Jb p.2)
    simpa using this
  rw [f1, f2]
  simp
  ring

end

/-- Sums over the sides. -/
noncomputable def sideSum (L : List Side) (f : (ℝ × ℝ → Set ℝ) → ℝ) : ℝ := ∑ a : Fin L.length, (L.get a).weight * f (L.get a).region

/-- The kernel of a method. -/
noncomputable def boxKernel (k : ℝ → ℝ → ℝ) (k1 : ℝ → ℝ) (k2 : ℝ) (p q : ℝ × ℝ) : ℝ :=
  k p.1 q.1 * k p.2 q.2 - k1 p.1 * k1 p.2 - k1 q.1 * k1 q.2 + k2 ^ 2

theorem boxDiscrepancy_eq (L : List Side) (hL : ∀ a ∈ L, MeasSide a.region) (μ : Measure (ℝ × ℝ)) [IsProbabilityMeasure μ] :
    boxDiscrepancy L μ = ∫ r, boxKernel (fun x y => sideSum L fun J => overlap J x y) (fun x => sideSum L fun J => overlap1 J x)
      (sideSum L overlap2) r.1 r.2 ∂μ.prod μ := by
  have hm : ∀ a : Fin L.length, MeasSide (L.get a).region := fun a => hL _ (List.get_mem L a)
  unfold boxDiscrepancy
  have hterm : ∀ a b : Fin L.length, Integrable (fun r : (ℝ × ℝ) × (ℝ × ℝ) => (L.get a).weight * (L.get b).weight *
      (overlap (L.get a).region r.1.1 r.2.1 * overlap (L.get b).region r.1.2 r.2.2 -
        overlap1 (L.get a).region r.1.1 * overlap1 (L.get b).region r.1.2 -
        overlap1 (L.get a).region r.2.1 * overlap1 (L.get b).region r.2.2 +
        overlap2 (L.get a).region * overlap2 (L.get b).region)) (μ.prod μ) := by
    intro a b
    have m1 : Measurable fun r : (ℝ × ℝ) × (ℝ × ℝ) => (r.1.1, r.2.1) := by fun_prop
    have m2 : Measurable fun r : (ℝ × ℝ) × (ℝ × ℝ) => (r.1.2, r.2.2) := by fun_prop
    have m3 : Measurable fun r : (ℝ × ℝ) × (ℝ × ℝ) => r.1.1 := by fun_prop
    have m4 : Measurable fun r : (ℝ × ℝ) × (ℝ × ℝ) => r.1.2 := by fun_prop
    have m5 : Measurable fun r : (ℝ × ℝ) × (ℝ × ℝ) => r.2.1 := by fun_prop
    have m6 : Measurable fun r : (ℝ × ℝ) × (ℝ × ℝ) => r.2.2 := by fun_prop
    refine Integrable.const_mul ?_ _
    refine Integrable.of_bound (((((measurable_overlap (hm a)).comp m1).mul ((measurable_overlap (hm b)).comp m2)).sub
      (((measurable_overlap1 (hm a)).comp m3).mul ((measurable_overlap1 (hm b)).comp m4))).sub
      (((measurable_overlap1 (hm a)).comp m5).mul ((measurable_overlap1 (hm b)).comp m6)) |>.add
        measurable_const).aestronglyMeasurable (3 + |overlap2 (L.get a).region * overlap2 (L.get b).region|)
      (ae_of_all _ fun r => ?_)
    have b1 : ∀ u v : ℝ, 0 ≤ u ∧ u ≤ 1 → 0 ≤ v ∧ v ≤ 1 → |u * v| ≤ 1 := by
      rintro u v ⟨h1, h2⟩ ⟨h3, h4⟩
      rw [abs_of_nonneg (mul_nonneg h1 h3)]
      exact mul_le_one₀ h2 h3 h4
    have c1 := b1 _ _ (overlap_range (L.get a).region r.1.1 r.2.1) (overlap_range (L.get b).region r.1.2 r.2.2)
    have c2 := b1 _ _ (overlap1_range (L.get a).region (hm a) r.1.1) (overlap1_range (L.get b).region (hm b) r.1.2)
    have c3 := b1 _ _ (overlap1_range (L.get a).region (hm a) r.2.1) (overlap1_range (L.get b).region (hm b) r.2.2)
    rw [Real.norm_eq_abs]
    refine (abs_add_le _ _).trans (add_le_add_left ?_ _)
    refine (abs_sub _ _).trans ?_
    have := abs_sub (overlap (L.get a).region r.1.1 r.2.1 * overlap (L.get b).region r.1.2 r.2.2)
      (overlap1 (L.get a).region r.1.1 * overlap1 (L.get b).region r.1.2)
    linarith
  have hsq : ∀ a b : Fin L.length, (L.get a).weight * (L.get b).weight *
      ∫ z, (μ.real ((L.get a).region z.1 ×ˢ (L.get b).region z.2) -
      unitLine.real ((L.get a).region z.1) * unitLine.real ((L.get b).region z.2)) ^ 2 ∂unitSquare.prod unitSquare =
      ∫ r, (L.get a).weight * (L.get b).weight *
      (overlap (L.get a).region r.1.1 r.2.1 * overlap (L.get b).region r.1.2 r.2.2 -
        overlap1 (L.get a).region r.1.1 * overlap1 (L.get b).region r.1.2 -
        overlap1 (L.get a).region r.2.1 * overlap1 (L.get b).region r.2.2 +
        overlap2 (L.get a).region * overlap2 (L.get b).region) ∂μ.prod μ := by
    intro a b
    rw [box_square (hm a) (hm b), integral_const_mul]
  simp only [hsq]
  have h1 : ∀ a : Fin L.length, _ := fun a => (integral_finset_sum (μ := μ.prod μ) Finset.univ fun b _ => hterm a b).symm
  rw [Finset.sum_congr rfl fun a _ => h1 a, ← integral_finset_sum _ fun a _ => integrable_finset_sum _ fun b _ => hterm a b]
  congr 1
  funext r
  unfold boxKernel sideSum
  rw [Finset.sum_mul_sum, Finset.sum_mul_sum, Finset.sum_mul_sum, sq, Finset.sum_mul_sum]
  simp only [← Finset.sum_sub_distrib, ← Finset.sum_add_distrib]
  apply Finset.sum_congr rfl
  intro a _
  apply Finset.sum_congr rfl
  intro b _
  ring

end SALib
