import Verif.Lemmas.LatinDesign
import Mathlib.MeasureTheory.Function.LpSpace.DomAct.Continuous
import Mathlib.MeasureTheory.Function.L1Space.AEEqFun
import Mathlib.MeasureTheory.Measure.Haar.OfBasis
import Mathlib.MeasureTheory.Group.Integral
import Mathlib.MeasureTheory.Function.Floor

/-! Integrals against a sign that alternates between thin layers of the cube. -/

namespace SALib

open MeasureTheory ProbabilityTheory Spec Filter Topology

variable {g : Nat}

/-- The sign of the layer of thickness `1 / n`. -/
noncomputable def layerSign (n : Nat) (t : ℝ) : ℝ := if Even ⌊(n : ℝ) * t⌋ then 1 else -1

theorem layerSign_shift (n : Nat) (hn : 0 < n) (t : ℝ) : layerSign n (1 / n + t) = -layerSign n t := by
  unfold layerSign
  have hnr : (n : ℝ) ≠ 0 := by exact_mod_cast hn.ne'
  rw [mul_add, mul_one_div_cancel hnr, add_comm, Int.floor_add_one]
  by_cases h : Even ⌊(n : ℝ) * t⌋
  · rw [if_pos h, if_neg (by rw [Int.even_add_one]; exact not_not.mpr h)]
  · rw [if_neg h, if_pos (Int.even_add_one.mpr h), neg_neg]

theorem abs_layerSign (n : Nat) (t : ℝ) : |layerSign n t| = 1 := by
  unfold layerSign
  split <;> simp

theorem measurable_layerSign (n : Nat) : Measurable (layerSign n) := by
  have h : Measurable fun t : ℝ => ⌊(n : ℝ) * t⌋ :=
    Int.measurable_floor.comp (measurable_const.mul measurable_id)
  exact Measurable.ite (h (MeasurableSet.of_discrete (s := {z : ℤ | Even z}))) measurable_const measurable_const

theorem layerSign_nat (n r : Nat) (t : ℝ) (h : ⌊(n : ℝ) * t⌋ = r) : layerSign n t = (-1) ^ r := by
  unfold layerSign
  rw [h]
  rcases Nat.even_or_odd r with hr | hr
  · rw [if_pos (by exact_mod_cast hr), hr.neg_one_pow]
  · rw [if_neg (by rw [Int.even_coe_nat]; exact Nat.not_even_iff_odd.mpr hr), hr.neg_one_pow]

theorem cube_restrict (g : Nat) :
    cube g = (volume : Measure (Fin g → ℝ)).restrict (Set.univ.pi fun _ => Set.Icc 0 1) := by
  have h1 : unifOn 0 1 = volume.restrict (Set.Icc 0 1) := by
    unfold unifOn ProbabilityTheory.cond
    simp
  unfold cube
  rw [h1, volume_pi, Measure.restrict_pi_pi]

/-- An integrable function against the alternating sign of the layers: the integral tends to zero. -/
theorem alternate_cube (ψ : (Fin g → ℝ) → ℝ) (hψ : Integrable ψ (cube g)) (k : Fin g) :
    Tendsto (fun n : ℕ => ∫ u, ψ u * layerSign n (u k) ∂cube g) atTop (𝓝 0) := by
  set B : Set (Fin g → ℝ) := Set.univ.pi fun _ => Set.Icc 0 1 with hB
  have hBm : MeasurableSet B := MeasurableSet.univ_pi fun _ => measurableSet_Icc
  set φ : (Fin g → ℝ) → ℝ := B.indicator ψ with hφ
  have hφi : Integrable φ volume := by
    rw [hφ, integrable_indicator_iff hBm]
    rw [cube_restrict] at hψ
    exact hψ
  have hI : ∀ n : ℕ, ∫ u, ψ u * layerSign n (u k) ∂cube g = ∫ u, φ u * layerSign n (u k) := by
    intro n
    rw [cube_restrict, ← integral_indicator hBm]
    refine integral_congr_ae (ae_of_all _ fun u => ?_)
    by_cases hu : u ∈ B <;> simp [hφ, hu]
  have hL : MemLp φ 1 volume := memLp_one_iff_integrable.mpr hφi
  let e : ℕ → (Fin g → ℝ) := fun n => Pi.single k (1 / (n : ℝ))
  have he : Tendsto e atTop (𝓝 0) := by
    refine tendsto_pi_nhds.mpr fun i => ?_
    by_cases hi : i = k
    · subst hi
      simpa [e] using tendsto_one_div_atTop_nhds_zero_nat (𝕜 := ℝ)
    · simp [e, hi]
  have : Fact ((1 : ENNReal) ≠ ⊤) := ⟨by simp⟩
  have hc : Tendsto (fun n => DomAddAct.mk (e n) +ᵥ hL.toLp φ) atTop (𝓝 (DomAddAct.mk (0 : Fin g → ℝ) +ᵥ hL.toLp φ)) := by
    have h1 : Continuous fun c : (Fin g → ℝ) => DomAddAct.mk c +ᵥ hL.toLp φ :=
      (continuous_id.vadd continuous_const).comp DomAddAct.continuous_mk
    exact (h1.tendsto 0).comp he
  have hnorm : ∀ c : Fin g → ℝ, ‖(DomAddAct.mk c +ᵥ hL.toLp φ) - hL.toLp φ‖ = ∫ u, |φ (c + u) - φ u| := by
    intro c
    rw [DomAddAct.mk_vadd_toLp, ← MemLp.toLp_sub, L1.norm_eq_integral_norm]
    refine integral_congr_ae ?_
    filter_upwards [MemLp.coeFn_toLp ((hL.comp_measurePreserving (measurePreserving_vadd c volume)).sub hL)] with u hu
    exact congrArg norm hu
  have h0 : DomAddAct.mk (0 : Fin g → ℝ) +ᵥ hL.toLp φ = hL.toLp φ := by
    rw [show DomAddAct.mk (0 : Fin g → ℝ) = 0 from rfl, zero_vadd]
  rw [h0] at hc
  have hd : Tendsto (fun n => ∫ u, |φ (e n + u) - φ u|) atTop (𝓝 0) := by
    have := (tendsto_iff_norm_sub_tendsto_zero.mp hc)
    simpa only [hnorm] using this
  refine squeeze_zero_norm' ?_ hd
  filter_upwards [eventually_gt_atTop 0] with n hn
  rw [hI, Real.norm_eq_abs]
  have hbdd : ∀ f : (Fin g → ℝ) → ℝ, Integrable f volume → Integrable (fun u => f u * layerSign n (u k)) volume := by
    intro f hf
    exact hf.mul_bdd (c := 1) ((measurable_layerSign n).comp (measurable_pi_apply k)).aestronglyMeasurable
      (ae_of_all _ fun u => by rw [Real.norm_eq_abs, abs_layerSign])
  have hφt : Integrable (fun u => φ (e n + u)) volume := hφi.comp_add_left (e n)
  have h1 : ∫ u, φ u * layerSign n (u k) = -∫ u, φ (e n + u) * layerSign n (u k) := by
    rw [← integral_add_left_eq_self (fun u => φ u * layerSign n (u k)) (e n), ← integral_neg]
    refine integral_congr_ae (ae_of_all _ fun u => ?_)
    have : (e n + u) k = 1 / n + u k := by simp [e]
    beta_reduce
    rw [this, layerSign_shift n hn]
    ring
  have h2 : 2 * ∫ u, φ u * layerSign n (u k) = -∫ u, (φ (e n + u) - φ u) * layerSign n (u k) := by
    simp only [sub_mul]
    rw [integral_sub (hbdd _ hφt) (hbdd _ hφi)]
    linarith
  have h3 : |∫ u, (φ (e n + u) - φ u) * layerSign n (u k)| ≤ ∫ u, |φ (e n + u) - φ u| := by
    refine (abs_integral_le_integral_abs).trans (le_of_eq ?_)
    refine integral_congr_ae (ae_of_all _ fun u => ?_)
    beta_reduce
    rw [abs_mul, abs_layerSign, mul_one]
  have h4 : |2 * ∫ u, φ u * layerSign n (u k)| ≤ ∫ u, |φ (e n + u) - φ u| := by rw [h2, abs_neg]; exact h3
  rw [abs_mul, abs_two] at h4
  linarith [abs_nonneg (∫ u, φ u * layerSign n (u k))]

end SALib
