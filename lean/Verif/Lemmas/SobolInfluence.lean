import Verif.Lemmas.QuotientCoverage
import Verif.Lemmas.SobolExpect
import Mathlib.MeasureTheory.Measure.Support

/-! # The numerator terms of influential inputs are not proportional to the variance terms -/

namespace SALib
open MeasureTheory ProbabilityTheory Spec

/-- Independent events: one of them is certain. -/
theorem ae_prod_imp {β γ : Type} [MeasurableSpace β] [MeasurableSpace γ] {μ : Measure β} {ρ : Measure γ} [SFinite ρ]
    {p : β → Prop} {q : γ → Prop} (h : ∀ᵐ z ∂μ.prod ρ, p z.1 → q z.2) : (∀ᵐ x ∂μ, ¬ p x) ∨ ∀ᵐ y ∂ρ, q y := by
  have h1 := Measure.ae_ae_of_ae_prod h
  by_cases hp : ∀ᵐ x ∂μ, ¬ p x
  · exact Or.inl hp
  · right
    have hf : ∃ᵐ x ∂μ, p x := (Filter.not_eventually.mp hp).mono fun _ => not_not.mp
    obtain ⟨x, hx, hy⟩ := (hf.and_eventually h1).exists
    exact hy.mono fun y hq => hq hx

variable {d : Nat} {ν : Fin d → Measure ℝ} [∀ i, IsProbabilityMeasure (ν i)]

theorem mix_choose (s : Fin d → Bool) (x y z : Fin d → ℝ) : mix s x (mix (fun j => !s j) y z) = mix s x y := by
  funext j
  cases h : s j <;> simp [mix, h]

/-- A statement about two independent points, for the pairs of three of them. -/
theorem ae_three {T : (Fin d → ℝ) → (Fin d → ℝ) → Prop} (h : ∀ᵐ p ∂(Measure.pi ν).prod (Measure.pi ν), T p.1 p.2) :
    (∀ᵐ t ∂(Measure.pi ν).prod ((Measure.pi ν).prod (Measure.pi ν)), T t.1 t.2.1) ∧
    (∀ᵐ t ∂(Measure.pi ν).prod ((Measure.pi ν).prod (Measure.pi ν)), T t.1 t.2.2) ∧
    (∀ᵐ t ∂(Measure.pi ν).prod ((Measure.pi ν).prod (Measure.pi ν)), T t.2.1 t.2.2) ∧
    ∀ s, ∀ᵐ t ∂(Measure.pi ν).prod ((Measure.pi ν).prod (Measure.pi ν)), T t.1 (mix s t.2.1 t.2.2) := by
  refine ⟨?_, ?_, ?_, fun s => ?_⟩
  · exact ((MeasurePreserving.id (Measure.pi ν)).prod
      (measurePreserving_fst (μ := Measure.pi ν) (ν := Measure.pi ν))).quasiMeasurePreserving.ae h
  · exact ((MeasurePreserving.id (Measure.pi ν)).prod
      (measurePreserving_snd (μ := Measure.pi ν) (ν := Measure.pi ν))).quasiMeasurePreserving.ae h
  · exact (measurePreserving_snd (μ := Measure.pi ν) (ν := (Measure.pi ν).prod (Measure.pi ν))).quasiMeasurePreserving.ae h
  · exact ((MeasurePreserving.id (Measure.pi ν)).prod (mix_preserving ν s)).quasiMeasurePreserving.ae h

theorem ae_swap {T : (Fin d → ℝ) → (Fin d → ℝ) → Prop} (h : ∀ᵐ p ∂(Measure.pi ν).prod (Measure.pi ν), T p.1 p.2) :
    ∀ᵐ p ∂(Measure.pi ν).prod (Measure.pi ν), T p.2 p.1 :=
  (Measure.measurePreserving_swap (μ := Measure.pi ν) (ν := Measure.pi ν)).quasiMeasurePreserving.ae h

theorem ae_drop_fst {T : (Fin d → ℝ) × (Fin d → ℝ) → Prop}
    (h : ∀ᵐ t ∂(Measure.pi ν).prod ((Measure.pi ν).prod (Measure.pi ν)), T t.2) : ∀ᵐ p ∂(Measure.pi ν).prod (Measure.pi ν), T p :=
  (Measure.ae_ae_of_ae_prod h).exists.choose_spec

theorem ratio_three {k u v w : ℝ} (hk : k ≠ 1) (h1 : k * (u + v) ^ 2 = 4 * (u * v)) (h2 : k * (u + w) ^ 2 = 4 * (u * w))
    (h3 : k * (v + w) ^ 2 = 4 * (v * w)) (hu : u ≠ 0) (hv : v ≠ 0) : w = 0 := by
  by_contra hw
  have same : ∀ a : ℝ, a ≠ 0 → k * (a + a) ^ 2 = 4 * (a * a) → False := by
    intro a ha h
    have : (k - 1) * (4 * (a * a)) = 0 := by linear_combination h
    rcases mul_eq_zero.mp this with h | h
    · exact hk (by linarith)
    · exact ha (by simpa using h)
  have hk0 : k ≠ 0 := by
    rintro rfl
    have : u * v = 0 := by linarith
    rcases mul_eq_zero.mp this with h | h
    exacts [hu h, hv h]
  have prod : ∀ a b c : ℝ, k * (a + b) ^ 2 = 4 * (a * b) → k * (a + c) ^ 2 = 4 * (a * c) → b ≠ c → b * c = a ^ 2 := by
    intro a b c q1 q2 hne
    have e1 : (b - c) * (k * (b + c) + 2 * k * a - 4 * a) = 0 := by linear_combination q1 - q2
    have e2 : k * (b + c) + 2 * k * a - 4 * a = 0 := (mul_eq_zero.mp e1).resolve_left (sub_ne_zero.mpr hne)
    have e3 : k * (a ^ 2 - b * c) = 0 := by linear_combination q1 - b * e2
    have := (mul_eq_zero.mp e3).resolve_left hk0
    linarith
  have hvw : v ≠ w := by rintro rfl; exact same v hv h3
  have huw : u ≠ w := by rintro rfl; exact same u hu h2
  have p1 := prod u v w h1 h2 hvw
  have p2 := prod v u w (by rw [add_comm, mul_comm v u]; exact h1) h3 huw
  have p3 : (u - v) * (u ^ 2 + u * v + v ^ 2) = 0 := by linear_combination -u * p1 + v * p2
  rcases mul_eq_zero.mp p3 with h | h
  · have : u = v := by linarith
    subst this
    exact same u hu h1
  · have : 0 < u ^ 2 := by positivity
    nlinarith [sq_nonneg (u + 2 * v), sq_nonneg (u + v), sq_nonneg v]

/-- The terms of a total index between 0 and 1 are proportional to the variance terms only if there is no variance. -/
theorem total_proportional (g : (Fin d → ℝ) → ℝ) (s : Fin d → Bool) (θ : ℝ) (h0 : 0 < θ) (h1 : θ ≤ 1)
    (h : ∀ᵐ p ∂(Measure.pi ν).prod (Measure.pi ν), (g p.1 - g (mix s p.1 p.2)) ^ 2 = θ * (g p.1 ^ 2 + g p.2 ^ 2)) :
    ∀ᵐ x ∂Measure.pi ν, g x = 0 := by
  obtain ⟨t1, -, -, t4⟩ := ae_three (T := fun a b => (g a - g (mix s a b)) ^ 2 = θ * (g a ^ 2 + g b ^ 2)) h
  have hs : ∀ᵐ p ∂(Measure.pi ν).prod (Measure.pi ν), g p.1 ^ 2 = g (mix (fun j => !s j) p.1 p.2) ^ 2 := by
    refine ae_drop_fst (T := fun p => g p.1 ^ 2 = g (mix (fun j => !s j) p.1 p.2) ^ 2) ?_
    filter_upwards [t1, t4 fun j => !s j] with t q1 q2
    rw [mix_choose, q1] at q2
    have := mul_left_cancel₀ h0.ne' q2
    linarith
  have hs2 := ae_swap (T := fun a b => g a ^ 2 = g (mix (fun j => !s j) a b) ^ 2) hs
  have hr : ∀ᵐ p ∂(Measure.pi ν).prod (Measure.pi ν),
      (1 - θ) ^ 2 * (g p.1 ^ 2 + g p.2 ^ 2) ^ 2 = 4 * (g p.1 ^ 2 * g p.2 ^ 2) := by
    filter_upwards [h, hs2] with p q1 q2
    rw [mix_not] at q2
    have e : (1 - θ) * (g p.1 ^ 2 + g p.2 ^ 2) = 2 * (g p.1 * g (mix s p.1 p.2)) := by linear_combination q1 + q2
    rw [← mul_pow, e, q2]
    ring
  obtain ⟨r1, r2, r3, -⟩ := ae_three (T := fun a b => (1 - θ) ^ 2 * (g a ^ 2 + g b ^ 2) ^ 2 = 4 * (g a ^ 2 * g b ^ 2)) hr
  have hk : (1 - θ) ^ 2 ≠ 1 := by nlinarith
  have h3 : ∀ᵐ t ∂(Measure.pi ν).prod ((Measure.pi ν).prod (Measure.pi ν)), g t.1 ≠ 0 → (g t.2.1 ≠ 0 → g t.2.2 = 0) := by
    filter_upwards [r1, r2, r3] with t q1 q2 q3 n1 n2
    have := ratio_three hk q1 q2 q3 (pow_ne_zero 2 n1) (pow_ne_zero 2 n2)
    exact pow_eq_zero_iff (by norm_num) |>.mp this
  rcases ae_prod_imp (p := fun x => g x ≠ 0) (q := fun p : (Fin d → ℝ) × (Fin d → ℝ) => g p.1 ≠ 0 → g p.2 = 0) h3 with h4 | h4
  · exact h4.mono fun x hx => not_not.mp hx
  · rcases ae_prod_imp (p := fun x => g x ≠ 0) (q := fun x => g x = 0) h4 with h5 | h5
    · exact h5.mono fun x hx => not_not.mp hx
    · exact h5

/-- The terms of a first-order index are proportional to the variance terms only if the inputs have no influence. -/
theorem first_proportional (g : (Fin d → ℝ) → ℝ) (s : Fin d → Bool) (θ : ℝ) (h0 : 0 ≤ θ) (h1 : θ ≤ 1)
    (hg : ¬ ∀ᵐ x ∂Measure.pi ν, g x = 0)
    (h : ∀ᵐ p ∂(Measure.pi ν).prod (Measure.pi ν), g p.2 * (g (mix s p.1 p.2) - g p.1) = θ * ((g p.1 ^ 2 + g p.2 ^ 2) / 2)) :
    ∀ᵐ p ∂(Measure.pi ν).prod (Measure.pi ν), g (mix s p.1 p.2) = g p.1 := by
  rcases h0.eq_or_lt with e | hpos
  · have hz : ∀ᵐ p ∂(Measure.pi ν).prod (Measure.pi ν), g p.1 * (g (mix s p.2 p.1) - g p.2) = 0 :=
      (ae_swap (T := fun a b => g b * (g (mix s a b) - g a) = θ * ((g a ^ 2 + g b ^ 2) / 2)) h).mono fun p q => by
        rw [q, ← e, zero_mul]
    obtain ⟨t1, -, -, t4⟩ := ae_three (T := fun a b => g a * (g (mix s b a) - g b) = 0) hz
    have key : ∀ᵐ t ∂(Measure.pi ν).prod ((Measure.pi ν).prod (Measure.pi ν)), g t.1 ≠ 0 → g (mix s t.2.1 t.2.2) = g t.2.1 := by
      filter_upwards [t1, t4 s] with t q1 q2 hne
      have e1 := (mul_eq_zero.mp q1).resolve_left hne
      have e2 := (mul_eq_zero.mp q2).resolve_left hne
      have e3 : mix s (mix s t.2.1 t.2.2) t.1 = mix s t.2.1 t.1 := by
        funext j
        cases h : s j <;> simp [mix, h]
      rw [e3] at e2
      linarith
    rcases ae_prod_imp (p := fun x => g x ≠ 0) (q := fun p : (Fin d → ℝ) × (Fin d → ℝ) => g (mix s p.1 p.2) = g p.1) key with h4 | h4
    · exact absurd (h4.mono fun x hx => not_not.mp hx) hg
    · exact h4
  · exfalso
    obtain ⟨t1, -, -, t4⟩ := ae_three (T := fun a b => g b * (g (mix s a b) - g a) = θ * ((g a ^ 2 + g b ^ 2) / 2)) h
    have hE : ∀ᵐ t ∂(Measure.pi ν).prod ((Measure.pi ν).prod (Measure.pi ν)),
        g t.2.1 ≠ g (mix (fun j => !s j) t.2.1 t.2.2) → g t.2.1 * g (mix (fun j => !s j) t.2.1 t.2.2) = g t.1 ^ 2 := by
      filter_upwards [t1, t4 fun j => !s j] with t q1 q2 hne
      rw [mix_choose] at q2
      have e1 : (g t.2.1 - g (mix (fun j => !s j) t.2.1 t.2.2)) *
          (g (mix s t.1 t.2.1) - g t.1 - θ / 2 * (g t.2.1 + g (mix (fun j => !s j) t.2.1 t.2.2))) = 0 := by
        linear_combination q1 - q2
      have e2 := (mul_eq_zero.mp e1).resolve_left (sub_ne_zero.mpr hne)
      have e3 : θ * (g t.2.1 * g (mix (fun j => !s j) t.2.1 t.2.2) - g t.1 ^ 2) = 0 := by
        linear_combination 2 * q1 - 2 * g t.2.1 * e2
      have := (mul_eq_zero.mp e3).resolve_left hpos.ne'
      linarith
    have hfour : ∀ᵐ t ∂((Measure.pi ν).prod (Measure.pi ν)).prod ((Measure.pi ν).prod (Measure.pi ν)),
        g t.1.1 ^ 2 ≠ g t.1.2 ^ 2 → ¬ g t.2.1 ≠ g (mix (fun j => !s j) t.2.1 t.2.2) := by
      have a1 := ((measurePreserving_fst (μ := Measure.pi ν) (ν := Measure.pi ν)).prod
        (MeasurePreserving.id ((Measure.pi ν).prod (Measure.pi ν)))).quasiMeasurePreserving.ae hE
      have a2 := ((measurePreserving_snd (μ := Measure.pi ν) (ν := Measure.pi ν)).prod
        (MeasurePreserving.id ((Measure.pi ν).prod (Measure.pi ν)))).quasiMeasurePreserving.ae hE
      filter_upwards [a1, a2] with t q1 q2 hne hn
      exact hne ((q1 hn).symm.trans (q2 hn))
    have hB : ∀ᵐ p ∂(Measure.pi ν).prod (Measure.pi ν), g p.1 = g (mix (fun j => !s j) p.1 p.2) := by
      rcases ae_prod_imp (p := fun p : (Fin d → ℝ) × (Fin d → ℝ) => g p.1 ^ 2 ≠ g p.2 ^ 2)
        (q := fun p : (Fin d → ℝ) × (Fin d → ℝ) => ¬ g p.1 ≠ g (mix (fun j => !s j) p.1 p.2)) hfour with h4 | h4
      · obtain ⟨u1, -, -, u4⟩ := ae_three (T := fun a b => g a ^ 2 = g b ^ 2) (h4.mono fun x hx => not_not.mp hx)
        refine ae_drop_fst (T := fun p => g p.1 = g (mix (fun j => !s j) p.1 p.2)) ?_
        filter_upwards [u1, u4 fun j => !s j, hE] with t q1 q2 q3
        by_contra hne
        have q4 := q3 hne
        have e1 : (g t.2.1 - g (mix (fun j => !s j) t.2.1 t.2.2)) ^ 2 = 0 := by
          linear_combination -q1 - q2 - 2 * q4
        exact hne (by have := pow_eq_zero_iff (two_ne_zero) |>.mp e1; linarith)
      · exact h4.mono fun x hx => not_not.mp hx
    have hB2 := ae_swap (T := fun a b => g a = g (mix (fun j => !s j) a b)) hB
    have hone : ∀ᵐ p ∂(Measure.pi ν).prod (Measure.pi ν), g p.2 * (g p.2 - g p.1) = θ * ((g p.1 ^ 2 + g p.2 ^ 2) / 2) := by
      filter_upwards [h, hB2] with p q1 q2
      rw [mix_not] at q2
      rw [← q2] at q1
      exact q1
    have hone2 := ae_swap (T := fun a b => g b * (g b - g a) = θ * ((g a ^ 2 + g b ^ 2) / 2)) hone
    have hlast : ∀ᵐ p ∂(Measure.pi ν).prod (Measure.pi ν), g p.2 = 0 := by
      filter_upwards [hone, hone2] with p q1 q2
      have e1 : g p.2 ^ 2 = g p.1 ^ 2 := by linear_combination q1 - q2
      have e2 : g p.1 * g p.2 = g p.2 ^ 2 * (1 - θ) := by linear_combination -q1 + θ / 2 * e1
      have e3 : g p.2 ^ 4 * (θ * (2 - θ)) = 0 := by
        have : (g p.1 * g p.2) ^ 2 = (g p.2 ^ 2 * (1 - θ)) ^ 2 := by rw [e2]
        linear_combination this + g p.2 ^ 2 * e1
      rcases mul_eq_zero.mp e3 with q | q
      · exact pow_eq_zero_iff (by norm_num) |>.mp q
      · exact absurd q (mul_pos hpos (by linarith)).ne'
    exact hg ((Measure.ae_ae_of_ae_prod hlast).exists.choose_spec)

/-- An equation which holds on almost all independent pairs holds on almost all pairs of a point with itself. -/
theorem ae_diagonal {β γ : Type} [MeasurableSpace β] [TopologicalSpace γ] [SecondCountableTopology γ] [MeasurableSpace γ] [BorelSpace γ]
    {μ : Measure β} [IsProbabilityMeasure μ] (q : β → γ) (hq : Measurable q) (Φ : γ × γ → ℝ) (hΦ : Continuous Φ)
    (h : ∀ᵐ z ∂μ.prod μ, Φ (q z.1, q z.2) = 0) : ∀ᵐ x ∂μ, Φ (q x, q x) = 0 := by
  have hs : ∀ᵐ y ∂μ.map q, y ∈ (μ.map q).support := Measure.support_mem_ae
  filter_upwards [ae_of_ae_map hq.aemeasurable hs] with x hx
  by_contra hne
  have hU : {z : γ × γ | Φ z ≠ 0} ∈ nhds (q x, q x) := (isOpen_ne_fun hΦ continuous_const).mem_nhds hne
  rw [nhds_prod_eq, Filter.mem_prod_iff] at hU
  obtain ⟨u, hu, v, hv, huv⟩ := hU
  have ht : interior (u ∩ v) ∈ nhds (q x) := interior_mem_nhds.mpr (Filter.inter_mem hu hv)
  have hpos := Measure.mem_support_iff_forall (q x) |>.mp hx _ ht
  rw [Measure.map_apply hq isOpen_interior.measurableSet] at hpos
  have hz : (μ.prod μ) ((q ⁻¹' interior (u ∩ v)) ×ˢ (q ⁻¹' interior (u ∩ v))) ≠ 0 := by
    rw [Measure.prod_prod]
    exact mul_ne_zero hpos.ne' hpos.ne'
  obtain ⟨z, hzA, hz0⟩ := ((frequently_ae_mem_iff.mpr hz).and_eventually h).exists
  exact huv ⟨(interior_subset hzA.1).1, (interior_subset hzA.2).2⟩ hz0

/-- Two independent pairs, taken crosswise. -/
theorem preserving_cross {β : Type} [MeasurableSpace β] (μ : Measure β) [IsProbabilityMeasure μ] :
    MeasurePreserving (fun z : (β × β) × (β × β) => ((z.1.1, z.2.1), (z.1.2, z.2.2))) ((μ.prod μ).prod (μ.prod μ))
      ((μ.prod μ).prod (μ.prod μ)) := by
  have a1 := measurePreserving_prodAssoc μ μ (μ.prod μ)
  have a2 := (MeasurePreserving.id μ).prod (measurePreserving_prodAssoc μ μ μ).symm
  have a3 := (MeasurePreserving.id μ).prod ((Measure.measurePreserving_swap (μ := μ) (ν := μ)).prod (MeasurePreserving.id μ))
  have a4 := (MeasurePreserving.id μ).prod (measurePreserving_prodAssoc μ μ μ)
  have a5 := (measurePreserving_prodAssoc μ μ (μ.prod μ)).symm
  exact a5.comp (a4.comp (a3.comp (a2.comp a1)))

/-- The terms of a second-order index other than 0 are proportional to the variance terms only if there is no variance. -/
theorem second_proportional (g : (Fin d → ℝ) → ℝ) (hg : Measurable g) (s t : Fin d → Bool) (hst : ∀ i, ¬(s i = true ∧ t i = true))
    (θ : ℝ) (h0 : θ ≠ 0)
    (h : ∀ᵐ p ∂(Measure.pi ν).prod (Measure.pi ν), g (mix s p.2 p.1) * g (mix t p.1 p.2) + g p.1 * g p.2 -
      g p.2 * g (mix s p.1 p.2) - g p.2 * g (mix t p.1 p.2) = θ * ((g p.1 ^ 2 + g p.2 ^ 2) / 2)) :
    ∀ᵐ x ∂Measure.pi ν, g x = 0 := by
  have hmp : MeasurePreserving (fun z : ((Fin d → ℝ) × (Fin d → ℝ)) × ((Fin d → ℝ) × (Fin d → ℝ)) =>
      (mix s z.1.1 z.2.1, mix s z.1.2 z.2.2))
      (((Measure.pi ν).prod (Measure.pi ν)).prod ((Measure.pi ν).prod (Measure.pi ν))) ((Measure.pi ν).prod (Measure.pi ν)) :=
    ((mix_preserving ν s).prod (mix_preserving ν s)).comp
      (preserving_cross (Measure.pi ν))
  have h1 := hmp.quasiMeasurePreserving.ae h
  have h2 := Measure.ae_ae_of_ae_prod h1
  have mm : Measurable fun z : (Fin d → ℝ) × (Fin d → ℝ) => g (mix s z.1 z.2) := hg.comp (mix_preserving ν s).measurable
  have h3 : ∀ᵐ z ∂(Measure.pi ν).prod (Measure.pi ν), ∀ᵐ c ∂Measure.pi ν, g (mix s z.1 c) = 0 := by
    filter_upwards [h2] with z hz
    let q : (Fin d → ℝ) → ℝ × ℝ × ℝ := fun c => (g (mix s z.2 c), g (mix s (mix t z.1 z.2) c), g (mix s z.1 c))
    have mc : ∀ y, Measurable fun c => g (mix s y c) := fun y => mm.comp measurable_prodMk_left
    have hq : Measurable q := (mc _).prodMk ((mc _).prodMk (mc _))
    have h4 := ae_diagonal (μ := Measure.pi ν) q hq
      (fun k => k.1.1 * k.1.2.1 + k.1.2.2 * k.2.1 - k.2.1 * k.2.2.2 - k.2.1 * k.1.2.1 - θ * ((k.1.2.2 ^ 2 + k.2.1 ^ 2) / 2))
      (by fun_prop) (hz.mono fun w hw => by
        have e1 : mix s (mix s z.2 w.2) (mix s z.1 w.1) = mix s z.2 w.1 := by
          funext j; cases hj : s j <;> simp [mix, hj]
        have e2 : mix t (mix s z.1 w.1) (mix s z.2 w.2) = mix s (mix t z.1 z.2) w.1 := by
          funext j
          have := hst j
          cases hj : s j <;> cases ht : t j <;> simp_all [mix]
        have e3 : mix s (mix s z.1 w.1) (mix s z.2 w.2) = mix s z.1 w.2 := by
          funext j; cases hj : s j <;> simp [mix, hj]
        rw [e1, e2, e3] at hw
        show g (mix s z.2 w.1) * g (mix s (mix t z.1 z.2) w.1) + g (mix s z.1 w.1) * g (mix s z.2 w.2) -
          g (mix s z.2 w.2) * g (mix s z.1 w.2) - g (mix s z.2 w.2) * g (mix s (mix t z.1 z.2) w.1) -
          θ * ((g (mix s z.1 w.1) ^ 2 + g (mix s z.2 w.2) ^ 2) / 2) = 0
        linarith)
    filter_upwards [h4] with c hc
    have hc' : g (mix s z.2 c) * g (mix s (mix t z.1 z.2) c) + g (mix s z.1 c) * g (mix s z.2 c) -
          g (mix s z.2 c) * g (mix s z.1 c) - g (mix s z.2 c) * g (mix s (mix t z.1 z.2) c) -
          θ * ((g (mix s z.1 c) ^ 2 + g (mix s z.2 c) ^ 2) / 2) = 0 := hc
    have e : θ * (g (mix s z.1 c) ^ 2 + g (mix s z.2 c) ^ 2) = 0 := by linear_combination -2 * hc'
    have := (mul_eq_zero.mp e).resolve_left h0
    have hsq : g (mix s z.1 c) ^ 2 = 0 := by nlinarith [sq_nonneg (g (mix s z.1 c)), sq_nonneg (g (mix s z.2 c))]
    exact pow_eq_zero_iff two_ne_zero |>.mp hsq
  have h5 : ∀ᵐ z ∂(Measure.pi ν).prod (Measure.pi ν), g (mix s z.1 z.2) = 0 := by
    refine (Measure.ae_prod_iff_ae_ae (mm (measurableSet_singleton 0))).mpr ?_
    exact (Measure.ae_ae_of_ae_prod h3).mono fun x hx => hx.exists.choose_spec
  have h6 := (mix_preserving ν s).map_eq
  rw [← h6]
  exact (ae_map_iff (mix_preserving ν s).measurable.aemeasurable (hg (measurableSet_singleton 0))).mpr h5

section rows

variable {β Ω : Type} [MeasurableSpace β] [MeasurableSpace Ω] {P : Measure Ω} {law : Measure β} {Z : ℕ → Ω → β}
  (hm : ∀ i, Measurable (Z i)) (hlaw : ∀ i, Measure.map (Z i) P = law) (hind : iIndepFun Z P)
include hm hlaw hind

/-- Denominators of the rows and of all resamples are positive except with small probability. -/
theorem variances_kept (F : Fin 5 → β → ℝ) (mF : ∀ a, Measurable (F a)) (F0 : ∀ a, ∫ p, F a p ∂law = 0) (H : ℝ)
    (hb : ∀ a, ∀ᵐ p ∂law, |F a p| ≤ H) (V : ℝ) (hV : 0 < V) (ε : ℝ) (hε : 0 < ε) :
    ∃ N0, ∀ N ≥ N0, ∀ R ≥ 2, R ≤ N → ∀ w : Ω → Fin R → Fin N → Fin N, FreshResample P Z N R w → ∃ bad : Set Ω, P.real bad < ε ∧
      ∀ ω ∉ bad, 0 < V + rowMean (firstRows Z N ω) (F 3) - rowMean (firstRows Z N ω) (F 2) ^ 2 ∧
        ∀ r, 0 < V + (∑ i, F 3 (Z (w ω r i) ω)) / N - ((∑ i, F 2 (Z (w ω r i) ω)) / N) ^ 2 := by
  have hP : IsProbabilityMeasure P := hind.isProbabilityMeasure
  obtain ⟨ηd, hηd, hdet⟩ := ratio_det V 0 1 hV one_pos
  have hη3 : 0 < min ηd (ε / 20) := by positivity
  choose Nx hNx using fun a => mean_four_rare hm hlaw hind (F a) (mF a) (F0 a) H (hb a) _ hη3
  choose Ny hNy using fun a => boot_four_rows hm hlaw hind (F a) (mF a) H (hb a) _ hη3
  refine ⟨max (Finset.univ.sup Nx) (Finset.univ.sup Ny), fun N hN R hR hRN w hw => ?_⟩
  have hx := fun a => hNx a N ((Finset.le_sup (Finset.mem_univ a)).trans (le_of_max_le_left hN))
  have hy := fun a => hNy a N ((Finset.le_sup (Finset.mem_univ a)).trans (le_of_max_le_right hN)) R (by omega) w hw
  let bx : Set Ω := ⋃ a ∈ (Finset.univ : Finset (Fin 5)), {ω | min ηd (ε / 20) ≤ N * rowMean (firstRows Z N ω) (F a) ^ 4}
  let bY : Set Ω := ⋃ a ∈ (Finset.univ : Finset (Fin 5)), {ω | min ηd (ε / 20) ≤
    (∑ r, N * ((∑ i, F a (Z (w ω r i) ω)) / N - rowMean (firstRows Z N ω) (F a)) ^ 4) / R}
  have hbx : P.real bx ≤ 5 * (ε / 20) := by
    refine (measureReal_biUnion_finset_le _ _).trans ((Finset.sum_le_card_nsmul _ _ _ fun a _ =>
      (hx a).trans (min_le_right _ _)).trans (le_of_eq ?_))
    rw [nsmul_eq_mul, Finset.card_univ, Fintype.card_fin]
    norm_num
  have hbY : P.real bY ≤ 5 * (ε / 20) := by
    refine (measureReal_biUnion_finset_le _ _).trans ((Finset.sum_le_card_nsmul _ _ _ fun a _ =>
      (hy a).trans (min_le_right _ _)).trans (le_of_eq ?_))
    rw [nsmul_eq_mul, Finset.card_univ, Fintype.card_fin]
    norm_num
  refine ⟨bx ∪ bY, ?_, fun ω hω => ?_⟩
  · have h2 := measureReal_union_le (μ := P) bx bY
    linarith
  · rw [Set.mem_union, not_or] at hω
    obtain ⟨d1, d2, -, -⟩ := hdet N R hR hRN (fun a => rowMean (firstRows Z N ω) (F a))
      (fun a r => (∑ i, F a (Z (w ω r i) ω)) / N)
      (fun a => lt_of_lt_of_le (lt_of_not_ge fun h => hω.1 (Set.mem_biUnion (Finset.mem_univ a) h)) (min_le_left ηd (ε / 20)))
      (fun a => lt_of_lt_of_le (lt_of_not_ge fun h => hω.2 (Set.mem_biUnion (Finset.mem_univ a) h)) (min_le_left ηd (ε / 20)))
    exact ⟨d1, d2⟩

end rows

end SALib
