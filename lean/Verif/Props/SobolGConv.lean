import Verif.Props.SobolMean
import Verif.Props.SobolG

/-!
# C90 for the G-function: the analyser finds the reference indices of the test function
-/

namespace SALib

open MeasureTheory ProbabilityTheory Spec

variable {d : Nat}

theorem mix_single (i : Fin d) (x y : Fin d → ℝ) : mix (inGroup id i) x y = Function.update x i (y i) := by
  funext j
  unfold mix inGroup
  by_cases h : j = i
  · subst h; simp
  · have : ¬ (j : Nat) = i := fun h' => h (Fin.ext h')
    simp [h, this]

/-- The closed effect of one input is its first-order effect. -/
theorem closedEffect_single (G : (Fin d → ℝ) → ℝ) (hGm : Measurable G) (i : Fin d) :
    closedEffect (fun _ => unif) G (inGroup id i) = firstVar G i := by
  unfold closedEffect condMean firstVar
  simp only [mix_single]
  have hmp : MeasurePreserving (fun y : Fin d → ℝ => y i) (unifs d) unif := measurePreserving_eval _ i
  have hm : Measurable fun q : ℝ × (Fin d → ℝ) => G (Function.update q.2 i q.1) := by
    refine hGm.comp (measurable_pi_lambda _ fun j => ?_)
    by_cases h : j = i
    · subst h; simpa using measurable_fst
    · simp only [Function.update_of_ne h]
      exact (measurable_pi_apply j).comp measurable_snd
  have : Measurable fun t => ∫ x, G (Function.update x i t) ∂unifs d :=
    (hm.stronglyMeasurable.integral_prod_right' (ν := unifs d)).measurable
  exact hmp.variance_fun_comp this.aemeasurable

theorem totalEffect_single (G : (Fin d → ℝ) → ℝ) (hGm : Measurable G) (i : Fin d) :
    totalEffect (fun _ => unif) G (inGroup id i) = totalVar G i := by
  unfold totalEffect totalVar
  simp only [mix_single]
  refine integral_congr_ae (Filter.Eventually.of_forall fun x => ?_)
  have hmp : MeasurePreserving (fun y : Fin d → ℝ => y i) (unifs d) unif := measurePreserving_eval _ i
  have hm : Measurable fun t => G (Function.update x i t) := hGm.comp (measurable_update x)
  exact hmp.variance_fun_comp hm.aemeasurable

theorem measurable_gFactor (a delta alpha : ℝ) : Measurable (gFactor a delta alpha) := by
  have hmod : Measurable modfInt := by
    unfold modfInt
    refine Measurable.ite measurableSet_Ici ?_ ?_
    · exact (measurable_from_top (f := fun z : ℤ => (z : ℝ))).comp Int.measurable_floor
    · exact (measurable_from_top (f := fun z : ℤ => (z : ℝ))).comp Int.measurable_ceil
  unfold gFactor
  have hs : Measurable fun x : ℝ => x + delta := measurable_id.add_const delta
  have h1 : Measurable fun x : ℝ => |2 * (x + delta - modfInt (x + delta)) - 1| :=
    continuous_abs.measurable.comp (((hs.sub (hmod.comp hs)).const_mul 2).sub_const 1)
  exact (((h1.pow_const alpha).const_mul (1 + alpha)).add_const a).div_const _

theorem measurable_gRow (a delta alpha : Fin d → ℝ) : Measurable (gRow a delta alpha) := by
  unfold gRow
  exact Finset.measurable_prod _ fun i _ => (measurable_gFactor _ _ _).comp (measurable_pi_apply i)

theorem memLp_gRow (a delta alpha : Fin d → ℝ) (hd : ∀ i, 0 ≤ delta i) (hal : ∀ i, 0 < alpha i) :
    MemLp (gRow a delta alpha) 2 (unifs d) := by
  have hsq : ∀ i, Integrable (fun x => gFactor (a i) (delta i) (alpha i) x ^ 2) unif := fun i =>
    (memLp_two_iff_integrable_sq (gFactor_memLp _ _ _ (hd i) (hal i)).1).mp (gFactor_memLp _ _ _ (hd i) (hal i))
  have e2 : (fun x => gRow a delta alpha x ^ 2) = fun x => ∏ i, gFactor (a i) (delta i) (alpha i) (x i) ^ 2 := by
    funext x
    unfold gRow
    rw [Finset.prod_pow]
  have hG2 : Integrable (fun x => gRow a delta alpha x ^ 2) (unifs d) := by
    rw [e2]
    exact Integrable.fintype_prod (f := fun i x => gFactor (a i) (delta i) (alpha i) x ^ 2) hsq
  exact (memLp_two_iff_integrable_sq (measurable_gRow a delta alpha).aestronglyMeasurable).mpr hG2

theorem gTotal_pos (a alpha : Fin d → ℝ) (hd : 0 < d) (ha : ∀ i, a i ≠ -1) (hal : ∀ i, 0 < alpha i) :
    0 < gTotal a (some alpha) := by
  have hp : ∀ i, 0 < gPartial a (some alpha) i := by
    intro i
    rw [gPartial_eq]
    have := hal i
    have : 1 + a i ≠ 0 := fun h => ha i (by linarith)
    positivity
  have h1 := one_add_sum_le_prod Finset.univ (gPartial a (some alpha)) fun i _ => (hp i).le
  have h2 : 0 < ∑ i, gPartial a (some alpha) i := Finset.sum_pos (fun i _ => hp i) ⟨⟨0, hd⟩, Finset.mem_univ _⟩
  unfold gTotal
  linarith

/-- **C90**, the G-function.  Take the G-function of the library with any accepted shifts and exponents, independent
uniform base rows and the cross-sampling design; the reported S1 and ST converge, with probability one, to the values
that `sensitivity_index` and `total_sensitivity_index` return. -/
theorem C90_g_function (normPpf : ℝ → ℝ) (f : List ℝ → ℝ) (second : Bool) (pb : Problem ℝ) (conf : ℝ) (keep : Bool)
    (hg : (extractGroupNames pb).2 = d) (hconf : 0 < conf ∧ conf < 1) (hd : 0 < d)
    (a : Fin d → ℝ) (delta alpha : Option (Fin d → ℝ)) (dl al : Fin d → ℝ)
    (hdl : gDelta delta = .ok dl) (hal : gAlpha alpha = .ok al) (ha : ∀ i, a i ≠ -1)
    (hf : ∀ x, f (List.ofFn x) = gRow a dl al x)
    {Ω : Type} [MeasurableSpace Ω] (P : Measure Ω)
    (Z : ℕ → Ω → (Fin d → ℝ) × (Fin d → ℝ)) (hZ : BaseRows (fun _ => unif) P Z) :
    ∀ᵐ ω ∂P, ∀ ε > 0, ∃ N0, ∀ N ≥ N0, ∀ r : List (List Nat), r ≠ [] → ∃ res,
      sobolAnalyze Real.sqrt normPpf pb
        ((crossDesign second d d id ((firstRows Z N ω).map pairRow)).map f) second conf r keep .serial = .ok res ∧
      ∀ i : Fin d, (∃ v, res.S1[i.1]? = some (some v) ∧ |v - gIndex a alpha i| < ε) ∧
        (∃ v, res.ST[i.1]? = some (some v) ∧ |v - gTotalIndex a alpha i| < ε) := by
  have hdl' : ∀ i, 0 ≤ dl i := by
    cases delta with
    | none => cases hdl; intro i; exact le_refl _
    | some δ =>
      simp only [gDelta] at hdl
      split at hdl
      · cases hdl
      · rename_i h
        cases hdl
        intro i
        by_contra hi
        exact h ⟨i, Or.inl (not_le.mp hi), fun h0 => hi h0.ge⟩
  have hal' : ∀ i, 0 < al i := by
    cases alpha with
    | none => cases hal; exact fun i => one_pos
    | some β =>
      simp only [gAlpha] at hal
      split at hal
      · cases hal
      · rename_i h
        cases hal
        exact fun i => by_contra fun hi => h ⟨i, not_lt.mp hi⟩
  have hV : Var[gRow a dl al; Measure.pi fun _ => unif] = outVar (gRow a dl al) := rfl
  have hpos : 0 < Var[gRow a dl al; Measure.pi fun _ => unif] := by
    rw [hV, outVar_gRow a dl al ha hdl' hal']
    exact gTotal_pos a al hd ha hal'
  have hm := measurable_gRow a dl al
  filter_upwards [C90_consistent normPpf f second d id pb conf keep hg hconf (fun _ => unif) P Z hZ (gRow a dl al) hf hm
    (memLp_gRow a dl al hdl' hal') hpos] with ω hω
  intro ε hε
  obtain ⟨N0, hN0⟩ := hω ε hε
  refine ⟨N0, fun N hN r hr => ?_⟩
  obtain ⟨res, hrun, h, -⟩ := hN0 N hN r hr
  refine ⟨res, hrun, fun i => ?_⟩
  have := h i.1 i.2
  rw [closedEffect_single _ hm, totalEffect_single _ hm, hV] at this
  obtain ⟨t1, t2, -⟩ := C65_true_indices a delta alpha dl al hdl hal ha i
  rw [t1, t2]
  exact this

/-- The hypotheses are met: three inputs, default shifts and exponents, rows drawn from the uniform distribution. -/
example : ∃ (f : List ℝ → ℝ) (pb : Problem ℝ), (extractGroupNames pb).2 = 3 ∧
    (∀ x : Fin 3 → ℝ, f (List.ofFn x) = gRow ![0, 1, 9] (fun _ => 0) (fun _ => 1) x) ∧
    BaseRows (d := 3) (fun _ => unif) (Measure.infinitePi fun _ : ℕ => (unifs 3).prod (unifs 3)) fun i ω => ω i := by
  refine ⟨fun l => gRow ![0, 1, 9] (fun _ => 0) (fun _ => 1) fun i => l.getD i 0,
    { names := ["x", "y", "z"], bounds := [[0, 1], [0, 1], [0, 1]] }, ?_, ?_, baseRows_exist _⟩
  · rfl
  · intro x
    have : (fun i : Fin 3 => (List.ofFn x).getD i 0) = x := by
      funext i
      fin_cases i <;> simp
    show gRow _ _ _ (fun i : Fin 3 => (List.ofFn x).getD i 0) = _
    rw [this]

/-- `C89_formula`: one base row, two inputs, the model is the first input; the variance over the points A and B is 1/4. -/
example : sampleVar (fun x : Fin 2 → ℝ => (fun l : List ℝ => l.headD 0) (List.ofFn x)) [(![0, 5], ![1, 7])] ≠ 0 := by
  simp [sampleVar, rowMean]
  norm_num

/-- The means of C89: rows exist, and the G-function is measurable and square integrable. -/
example : BaseRows (d := 2) (fun _ => unif) (Measure.infinitePi fun _ : ℕ => (unifs 2).prod (unifs 2)) (fun i ω => ω i) ∧
    Measurable (gRow (![0, 9] : Fin 2 → ℝ) (fun _ => 0) fun _ => 1) ∧
    MemLp (gRow (![0, 9] : Fin 2 → ℝ) (fun _ => 0) fun _ => 1) 2 (unifs 2) :=
  ⟨baseRows_exist _, measurable_gRow _ _ _, memLp_gRow _ _ _ (fun _ => le_refl _) fun _ => one_pos⟩

end SALib
