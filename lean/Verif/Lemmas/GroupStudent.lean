import Verif.Lemmas.StudentLimit

/-! # Half widths which are means of several bootstrap standard deviations -/

namespace SALib
open MeasureTheory ProbabilityTheory Filter Topology Spec

/-- The probability that a standard normal variable is in absolute value at most `z` times the mean of the sample standard deviations
(`ddof=1`) of `m` sets of `R` other independent standard normal variables. -/
noncomputable def Spec.studentGroup (m R : Nat) (z : ℝ) : ℝ :=
  ((gaussianReal 0 1).prod (Measure.pi fun _ : Fin m × Fin R => gaussianReal 0 1)).real
    {p | |p.1| ≤ z * ((∑ i, √(drawVar fun r => p.2 (i, r))) / m)}

/-- Some of several independent standard normal numbers are independent standard normal numbers. -/
theorem normals_precomp {ι κ : Type} [Fintype ι] [Fintype κ] (g : ι → κ) (hg : g.Injective) :
    Measure.map (fun (b : κ → ℝ) i => b (g i)) (Measure.pi fun _ : κ => gaussianReal 0 1) = Measure.pi fun _ : ι => gaussianReal 0 1 := by
  have h1 : iIndepFun (fun (k : κ) (b : κ → ℝ) => b k) (Measure.pi fun _ : κ => gaussianReal 0 1) :=
    iIndepFun_pi (X := fun _ t => t) fun _ => aemeasurable_id
  have h2 := h1.precomp hg
  rw [iIndepFun_iff_map_fun_eq_pi_map fun i => (measurable_pi_apply (g i)).aemeasurable] at h2
  rw [h2]
  congr 1
  funext i
  exact (measurePreserving_eval (fun _ : κ => gaussianReal 0 1) (g i)).map_eq

/-- The width of the group, the numbers of its sets being chosen by `g`. -/
noncomputable def groupWidth {K m R : Nat} (g : Fin m × Fin R → Fin K) (z : ℝ) (b : Fin K → ℝ) : ℝ :=
  z * ((∑ i, √(drawVar fun r => b (g (i, r)))) / m)

theorem continuous_groupWidth {K m R : Nat} (g : Fin m × Fin R → Fin K) (z : ℝ) : Continuous (groupWidth g z) := by
  have : ∀ i, Continuous fun b : Fin K → ℝ => √(drawVar fun r => b (g (i, r))) := fun i =>
    ((continuous_drawVar (R := R)).comp (by fun_prop)).sqrt
  unfold groupWidth
  fun_prop

theorem normalWidth_group {K m R : Nat} (g : Fin m × Fin R → Fin K) (hg : g.Injective) (z : ℝ) :
    normalWidth (groupWidth g z) = studentGroup m R z := by
  have mg : Measurable fun (b : Fin K → ℝ) i => b (g i) := measurable_pi_lambda _ fun i => measurable_pi_apply _
  have hms : MeasurableSet {p : ℝ × (Fin m × Fin R → ℝ) | |p.1| ≤ z * ((∑ i, √(drawVar fun r => p.2 (i, r))) / m)} := by
    have : ∀ i, Continuous fun b : Fin m × Fin R → ℝ => √(drawVar fun r => b (i, r)) := fun i =>
      ((continuous_drawVar (R := R)).comp (by fun_prop)).sqrt
    exact measurableSet_le (by fun_prop) (by
      have h : Continuous fun b : Fin m × Fin R → ℝ => z * ((∑ i, √(drawVar fun r => b (i, r))) / m) := by fun_prop
      exact h.measurable.comp measurable_snd)
  unfold studentGroup normalWidth
  have e : (gaussianReal 0 1).prod (Measure.pi fun _ : Fin m × Fin R => gaussianReal 0 1) =
      Measure.map (Prod.map id fun (b : Fin K → ℝ) i => b (g i)) ((gaussianReal 0 1).prod (Measure.pi fun _ : Fin K => gaussianReal 0 1)) := by
    rw [← Measure.map_prod_map _ _ measurable_id mg, Measure.map_id, normals_precomp g hg]
  rw [e, map_measureReal_apply (measurable_id.prodMap mg) hms]
  rfl

/-- The probability is below the normal one. -/
theorem studentGroup_lt {m R : Nat} (hm : 0 < m) (hR : 2 ≤ R) (z : ℝ) (hz : 0 < z) : studentGroup m R z < normalWithin z := by
  have hmr : (0 : ℝ) < m := by exact_mod_cast hm
  let g : Fin m × Fin R → Fin (m * R) := finProdFinEquiv
  have hg : g.Injective := finProdFinEquiv.injective
  rw [← normalWidth_group g hg z, normalWidth_eq (continuous_groupWidth g z)]
  set π := Measure.pi fun _ : Fin (m * R) => gaussianReal 0 1 with hπ
  have mblock : ∀ i, Measurable fun (b : Fin (m * R) → ℝ) (r : Fin R) => b (g (i, r)) := fun i =>
    measurable_pi_lambda _ fun r => measurable_pi_apply _
  have hblock : ∀ i, Measure.map (fun (b : Fin (m * R) → ℝ) (r : Fin R) => b (g (i, r))) π = Measure.pi fun _ : Fin R => gaussianReal 0 1 :=
    fun i => normals_precomp (fun r => g (i, r)) fun r r' h => (Prod.ext_iff.mp (hg h)).2
  have hci : Measurable fun b : Fin R → ℝ => √(drawVar b) := (continuous_drawVar (R := R)).sqrt.measurable
  have iblock : ∀ i, Integrable (fun b : Fin (m * R) → ℝ => √(drawVar fun r => b (g (i, r)))) π := by
    intro i
    have := integrable_sqrt_drawVar hR
    rw [← hblock i] at this
    exact this.comp_measurable (mblock i)
  have hless : ∀ i, ∫ b : Fin (m * R) → ℝ, √(drawVar fun r => b (g (i, r))) ∂π < 1 := by
    intro i
    have := mean_sqrt_drawVar hR
    rw [← hblock i, integral_map (mblock i).aemeasurable hci.aestronglyMeasurable] at this
    exact this
  set φ := gaussianPDFReal 0 1 z with hφ
  have hφ0 : 0 < φ := gaussianPDFReal_pos 0 1 z (by norm_num)
  have isum : Integrable (fun b : Fin (m * R) → ℝ => ∑ i, √(drawVar fun r => b (g (i, r)))) π := integrable_finsetSum _ fun i _ => iblock i
  have iW : Integrable (groupWidth g z) π := (isum.div_const m).const_mul z
  have hi : Integrable (fun b => normalWithin z + 2 * φ * (groupWidth g z b - z)) π :=
    (integrable_const _).add ((iW.sub (integrable_const z)).const_mul _)
  have hi2 : Integrable (fun b => normalWithin (groupWidth g z b)) π := by
    refine Integrable.of_bound (normalWithin_mono.measurable.comp (continuous_groupWidth g z).measurable).aestronglyMeasurable 1
      (Eventually.of_forall fun b => ?_)
    unfold normalWithin
    rw [Real.norm_of_nonneg measureReal_nonneg]
    exact measureReal_le_one
  have h1 := integral_mono hi2 hi fun b => normalWithin_tangent (groupWidth g z b) z
    (mul_nonneg hz.le (div_nonneg (Finset.sum_nonneg fun _ _ => Real.sqrt_nonneg _) hmr.le)) hz.le
  have hmean : ∫ b, groupWidth g z b ∂π < z := by
    have e : ∫ b, groupWidth g z b ∂π = z * ((∑ i, ∫ b : Fin (m * R) → ℝ, √(drawVar fun r => b (g (i, r))) ∂π) / m) := by
      unfold groupWidth
      rw [integral_const_mul, integral_div, integral_finsetSum _ fun i _ => iblock i]
    rw [e]
    have hs : ∑ i, ∫ b : Fin (m * R) → ℝ, √(drawVar fun r => b (g (i, r))) ∂π < m := by
      have hne : (Finset.univ : Finset (Fin m)).Nonempty := ⟨⟨0, hm⟩, Finset.mem_univ _⟩
      refine (Finset.sum_lt_sum_of_nonempty hne fun i _ => hless i).trans_eq ?_
      simp
    have := (div_lt_one hmr).mpr hs
    nlinarith
  have h2 : ∫ b, (normalWithin z + 2 * φ * (groupWidth g z b - z)) ∂π = normalWithin z + 2 * φ * ((∫ b, groupWidth g z b ∂π) - z) := by
    have i2 : Integrable (fun b => groupWidth g z b - z) π := iW.sub (integrable_const z)
    rw [integral_add (integrable_const _) (i2.const_mul _), integral_const_mul, integral_sub iW (integrable_const z)]
    simp
  rw [h2] at h1
  have : 0 < φ * (z - ∫ b, groupWidth g z b ∂π) := mul_pos hφ0 (by linarith)
  nlinarith

end SALib
