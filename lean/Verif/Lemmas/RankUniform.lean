import Verif.Lemmas.HarmonicLimit
import Verif.Lemmas.DiscPositive

/-! The rank of an input without values of positive probability is uniform, and determines the input. -/

namespace SALib
open Spec MeasureTheory Set

variable {β : Type} [MeasurableSpace β] (law : Measure β) [IsProbabilityMeasure law] (X : β → ℝ) (hX : Measurable X)
  (hna : ∀ a, law.real {z | X z = a} = 0)

include hX hna

theorem exists_rank (t : ℝ) (h0 : 0 < t) (h1 : t < 1) : ∃ q, law.real {w | X w ≤ q} = t := by
  have hprob : IsProbabilityMeasure (Measure.map X law) := Measure.isProbabilityMeasure_map hX.aemeasurable
  obtain ⟨q, h2, h3⟩ := exists_freq_quantile (Measure.map X law) t h0 h1
  rw [map_measureReal_apply hX measurableSet_Iio] at h2
  rw [map_measureReal_apply hX measurableSet_Iic] at h3
  refine ⟨q, le_antisymm ?_ h3⟩
  have : {w | X w ≤ q} ⊆ X ⁻¹' Iio q ∪ {w | X w = q} := fun w hw =>
    (lt_or_eq_of_le (show X w ≤ q from hw)).imp id id
  have h4 := (measureReal_mono this).trans (measureReal_union_le (μ := law) _ _)
  rw [hna q] at h4
  linarith

/-- The rank is uniform on `[0, 1]`. -/
theorem rank_law : Measure.map (fun z => law.real {w | X w ≤ X z}) law = unitLine := by
  have mF := measurable_rank law X hX
  have hprob : IsProbabilityMeasure (Measure.map (fun z => law.real {w | X w ≤ X z}) law) :=
    Measure.isProbabilityMeasure_map mF.aemeasurable
  refine eq_unitLine _ ?_ ?_ ?_
  · exact (ae_map_iff mF.aemeasurable (p := fun y => y ∈ Icc (0 : ℝ) 1) measurableSet_Icc).mpr
      (ae_of_all _ fun z => ⟨measureReal_nonneg, measureReal_le_one⟩)
  · intro u v η h0 huv h1 hη
    obtain ⟨q, hq⟩ := exists_rank law X hX hna ((u + v) / 2) (by linarith) (by linarith)
    refine ⟨(u + v) / 2, ⟨by linarith, by linarith⟩, ?_⟩
    rw [map_measureReal_apply mF measurableSet_Iic]
    have : law.real {w | X w ≤ q} ≤ law.real ((fun z => law.real {w | X w ≤ X z}) ⁻¹' Iic ((u + v) / 2)) := by
      refine measureReal_mono fun z hz => ?_
      show law.real {w | X w ≤ X z} ≤ (u + v) / 2
      rw [← hq]
      exact measureReal_mono fun w hw => le_trans (show X w ≤ X z from hw) hz
    linarith
  · intro u v η h0 huv h1 hη
    obtain ⟨q, hq⟩ := exists_rank law X hX hna ((u + v) / 2) (by linarith) (by linarith)
    refine ⟨(u + v) / 2, ⟨by linarith, by linarith⟩, ?_⟩
    rw [map_measureReal_apply mF measurableSet_Iio]
    have : law.real ((fun z => law.real {w | X w ≤ X z}) ⁻¹' Iio ((u + v) / 2)) ≤ law.real {w | X w ≤ q} := by
      refine measureReal_mono fun z hz => ?_
      by_contra hc
      have hc : q < X z := not_le.mp hc
      have hz : law.real {w | X w ≤ X z} < (u + v) / 2 := hz
      rw [← hq] at hz
      refine absurd hz (not_lt.mpr (measureReal_mono fun w hw => le_trans (show X w ≤ q from hw) hc.le))
    linarith

/-- The rank takes no value with positive probability. -/
theorem rank_noAtom (u : ℝ) : law.real {z | law.real {w | X w ≤ X z} = u} = 0 := by
  have mF := measurable_rank law X hX
  have := map_measureReal_apply (μ := law) mF (measurableSet_singleton u)
  rw [rank_law law X hX hna] at this
  have h0 : unitLine.real {u} = 0 := by
    rw [measureReal_def]
    unfold unitLine
    rw [measure_singleton]; rfl
  rw [h0] at this
  exact this.symm

/-- The input is a measurable function of its rank, except on a set of probability 0. -/
theorem rank_inverse : ∃ Q : ℝ → ℝ, Measurable Q ∧ ∀ᵐ z ∂law, Q (law.real {w | X w ≤ X z}) = X z := by
  set A : β → ℝ := fun z => Real.arctan (X z) with hA
  set F : ℝ → ℝ := fun a => law.real {w | A w ≤ a} with hF
  have hFm : Monotone F := fun a b hab => measureReal_mono fun w hw => le_trans (show A w ≤ a from hw) hab
  have hFX : ∀ z, law.real {w | X w ≤ X z} = F (A z) := by
    intro z
    have : {w | X w ≤ X z} = {w | A w ≤ A z} := by
      ext w
      exact (Real.arctan_strictMono.le_iff_le).symm
    rw [this]
  set S : ℝ → Set ℝ := fun u => insert (-2) {a | a ≤ 2 ∧ F a < u} with hS
  have hb : ∀ u, BddAbove (S u) := fun u => ⟨2, by
    rintro a (rfl | ha)
    · norm_num
    · exact ha.1⟩
  have hQ : Monotone fun u => sSup (S u) := by
    intro u v huv
    refine csSup_le_csSup (hb v) ⟨-2, .inl rfl⟩ ?_
    rintro a (rfl | ha)
    · exact .inl rfl
    · exact .inr ⟨ha.1, ha.2.trans_le huv⟩
  have mtan : Measurable Real.tan := by
    have : Real.tan = fun x => Real.sin x / Real.cos x := by funext x; exact Real.tan_eq_sin_div_cos x
    rw [this]
    exact Real.measurable_sin.div Real.measurable_cos
  refine ⟨fun u => Real.tan (sSup (S u)), mtan.comp hQ.measurable, ?_⟩
  have hq : ∀ᵐ z ∂law, ∀ q : ℚ, F (A z) ≠ F q := by
    rw [ae_all_iff]
    intro q
    have := rank_noAtom law X hX hna (F q)
    rw [measureReal_eq_zero_iff] at this
    rw [ae_iff]
    refine measure_mono_null (fun z hz => ?_) this
    show law.real {w | X w ≤ X z} = F q
    rw [hFX]
    exact not_not.mp hz
  filter_upwards [hq] with z hz
  rw [hFX]
  have hlt : ∀ y < A z, F y < F (A z) := by
    intro y hy
    refine lt_of_le_of_ne (hFm hy.le) fun he => ?_
    obtain ⟨q, h1, h2⟩ := exists_rat_btwn hy
    refine hz q (le_antisymm ?_ (hFm h2.le))
    rw [← he]
    exact hFm h1.le
  have hp2 : Real.pi / 2 ≤ 2 := by linarith [Real.pi_le_four]
  have hlo : -2 < A z := by have := Real.neg_pi_div_two_lt_arctan (X z); simp only [hA]; linarith
  have hhi : A z < 2 := by have := Real.arctan_lt_pi_div_two (X z); simp only [hA]; linarith
  have hs : sSup (S (F (A z))) = A z := by
    apply le_antisymm
    · refine csSup_le ⟨-2, .inl rfl⟩ ?_
      rintro a (rfl | ha)
      · exact hlo.le
      · by_contra hc
        exact absurd ha.2 (not_lt.mpr (hFm (not_le.mp hc).le))
    · refine le_of_forall_lt_imp_le_of_dense fun y hy => ?_
      exact le_csSup (hb _) (.inr ⟨hy.le.trans hhi.le, hlt y hy⟩)
  rw [hs]
  exact Real.tan_arctan _

end SALib
