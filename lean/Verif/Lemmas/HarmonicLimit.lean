import Verif.Lemmas.RankAlternate
import Verif.Props.RbdFast
import Mathlib.Data.List.GetD
import Mathlib.Analysis.SpecialFunctions.Trigonometric.Bounds

/-! # Fourier coefficients of outputs reordered by one input -/

namespace SALib

open MeasureTheory ProbabilityTheory Finset Spec

/-- The position of rank `r` in the reordering of RBD-FAST. -/
def rbdPos (N r : ℕ) : ℕ := if r % 2 = 0 then r / 2 else N - 1 - r / 2

theorem sum_even_odd (f : ℕ → ℝ) (N : ℕ) :
    ∑ r ∈ range N, f r = ∑ k ∈ range ((N + 1) / 2), f (2 * k) + ∑ k ∈ range (N / 2), f (2 * k + 1) := by
  induction N with
  | zero => simp
  | succ n ih =>
    rw [Finset.sum_range_succ, ih]
    rcases Nat.even_or_odd' n with ⟨m, rfl | rfl⟩
    · rw [show (2 * m + 1) / 2 = m by omega, show (2 * m + 1 + 1) / 2 = m + 1 by omega, show 2 * m / 2 = m by omega,
        Finset.sum_range_succ]
      ring
    · rw [show (2 * m + 1 + 1) / 2 = m + 1 by omega, show (2 * m + 1 + 1 + 1) / 2 = m + 1 by omega,
        show (2 * m + 1) / 2 = m by omega, Finset.sum_range_succ (fun k => f (2 * k + 1))]
      ring

/-- Sums over the reordered outputs, as sums over the ranks. -/
theorem permuted_sum (argsort : List ℝ → List ℕ) (X Y : List ℝ) (N : ℕ) (hX : X.length = N) (hY : Y.length = N)
    (hp : IsArgsort X (argsort X)) :
    ∃ y, permuteOutputs argsort X Y = .ok y ∧ y.Perm Y ∧
      ∀ φ : ℕ → ℝ, ∑ n ∈ range N, y.getD n 0 * φ n =
        ∑ r ∈ range N, Y.getD ((argsort X).getD r 0) 0 * φ (rbdPos N r) := by
  obtain ⟨h1, h2, h3, h4, h5, h6, h7⟩ := strided_two_facts (argsort X)
  have hlen : (argsort X).length = N := by rw [hp.perm.length_eq, List.length_range, hX]
  rw [hlen] at h6 h7
  set up := strided (argsort X) 0 2 with hup
  set down := strided (argsort X) 1 2 with hdown
  have hperm : (up ++ down.reverse).Perm (List.range X.length) :=
    ((List.Perm.append_left _ (List.reverse_perm _)).trans h1).trans hp.perm
  have hmem : ∀ i ∈ up ++ down.reverse, i < Y.length := by
    intro i hi
    have := hperm.mem_iff.mp hi
    rw [List.mem_range] at this
    omega
  refine ⟨(up ++ down.reverse).map fun i => Y.getD i 0, ?_, map_getD_perm 0 Y _ (by rw [hY, ← hX]; exact hperm), fun φ => ?_⟩
  · unfold permuteOutputs
    apply mapM_ok_of
    intro i hi
    rw [pyGet_ok _ _ (hmem i hi)]
    simp [List.getD, List.getElem?_eq_getElem (hmem i hi)]
  · rw [sum_even_odd (fun r => Y.getD ((argsort X).getD r 0) 0 * φ (rbdPos N r)),
      show N = (N + 1) / 2 + N / 2 by omega, Finset.sum_range_add, ← show N = (N + 1) / 2 + N / 2 by omega]
    congr 1
    · refine Finset.sum_congr rfl fun k hk => ?_
      have hk := mem_range.mp hk
      have e1 : (up ++ down.reverse)[k]? = (argsort X)[2 * k]? := by
        rw [List.getElem?_append_left (by omega), h4]
      have e2 : rbdPos N (2 * k) = k := by unfold rbdPos; rw [if_pos (by omega)]; omega
      rw [e2]
      congr 1
      have hk2 : 2 * k < (argsort X).length := by omega
      simp only [List.getD, List.getElem?_map, e1, List.getElem?_eq_getElem hk2, Option.map_some, Option.getD_some]
    · rw [← Finset.sum_range_reflect]
      refine Finset.sum_congr rfl fun k hk => ?_
      have hk := mem_range.mp hk
      have e1 : (up ++ down.reverse)[(N + 1) / 2 + (N / 2 - 1 - k)]? = (argsort X)[2 * k + 1]? := by
        rw [List.getElem?_append_right (by omega), h6, Nat.add_sub_cancel_left, List.getElem?_reverse (by omega), h7,
          show N / 2 - 1 - (N / 2 - 1 - k) = k by omega, h5]
      have e2 : rbdPos N (2 * k + 1) = (N + 1) / 2 + (N / 2 - 1 - k) := by
        unfold rbdPos
        rw [if_neg (by omega)]
        omega
      rw [e2]
      congr 1
      have hk2 : 2 * k + 1 < (argsort X).length := by omega
      simp only [List.getD, List.getElem?_map, e1, List.getElem?_eq_getElem hk2, Option.map_some, Option.getD_some]

/-- The same, as a sum over the rows. -/
theorem permuted_rows {N : ℕ} (argsort : List ℝ → List ℕ) (x : Fin N → ℝ) (hx : Function.Injective x) (u : Fin N → ℝ)
    (hp : IsArgsort (List.ofFn x) (argsort (List.ofFn x))) :
    ∃ y, permuteOutputs argsort (List.ofFn x) (List.ofFn u) = .ok y ∧ y.Perm (List.ofFn u) ∧
      ∀ φ : ℕ → ℝ, ∑ n ∈ range N, y.getD n 0 * φ n = ∑ t, u t * φ (rbdPos N (rankIn x t)) := by
  obtain ⟨y, h1, h2, h3⟩ := permuted_sum argsort (List.ofFn x) (List.ofFn u) N (by simp) (by simp) hp
  refine ⟨y, h1, h2, fun φ => ?_⟩
  rw [h3]
  set p := argsort (List.ofFn x) with hpdef
  have hlen : p.length = N := by rw [hp.perm.length_eq]; simp
  have hlt : ∀ r : Fin N, p.getD r 0 < N := by
    intro r
    have hm : p.getD r 0 ∈ p := by
      rw [List.getD_eq_getElem p _ (by rw [hlen]; exact r.2)]
      exact List.getElem_mem _
    simpa using hp.perm.mem_iff.mp hm
  have hinj : Function.Injective fun r : Fin N => (⟨p.getD r 0, hlt r⟩ : Fin N) := by
    intro a b hab
    have hnd : p.Nodup := hp.perm.nodup_iff.mpr List.nodup_range
    have e : p.getD a 0 = p.getD b 0 := by simpa using hab
    rw [List.getD_eq_getElem p _ (by rw [hlen]; exact a.2), List.getD_eq_getElem p _ (by rw [hlen]; exact b.2)] at e
    exact Fin.ext ((List.Nodup.getElem_inj_iff hnd).mp e)
  set σ : Equiv.Perm (Fin N) := Equiv.ofBijective _ (Finite.injective_iff_bijective.mp hinj) with hσdef
  have hσ : ∀ r, (σ r).1 = p.getD r 0 := fun r => rfl
  have hmono : StrictMono (x ∘ σ) := by
    refine Monotone.strictMono_of_injective ?_ (hx.comp σ.injective)
    intro a b hab
    rcases eq_or_lt_of_le hab with rfl | hlt'
    · exact le_rfl
    have hs := List.pairwise_iff_getElem.mp hp.sorted a b (by simp [hlen]) (by simp [hlen]) hlt'
    have e : ∀ r : Fin N, x (σ r) = (List.ofFn x).getD (p.getD r 0) 0 := by
      intro r
      rw [List.getD_eq_getElem (List.ofFn x) _ (by simpa using hlt r), List.getElem_ofFn]
      rfl
    show x (σ a) ≤ x (σ b)
    rw [e, e]
    simp only [List.getElem_map] at hs
    rw [List.getD_eq_getElem p _ (show a.1 < p.length by rw [hlen]; exact a.2),
      List.getD_eq_getElem p _ (show b.1 < p.length by rw [hlen]; exact b.2)]
    exact hs
  rw [← Equiv.sum_comp σ, ← Fin.sum_univ_eq_sum_range (fun r => (List.ofFn u).getD (p.getD r 0) 0 * φ (rbdPos N r))]
  refine Finset.sum_congr rfl fun r _ => ?_
  rw [rankIn_sort x σ hmono, List.getD_eq_getElem (List.ofFn u) _ (by simpa using hlt r), List.getElem_ofFn]
  rfl

/-- The angles of the reordering. -/
theorem rbdPos_cos (N k r : ℕ) (hr : r < N) :
    |Real.cos (2 * Real.pi * k * (rbdPos N r : ℕ) / N) - Real.cos (k * Real.pi * (((r : ℝ) + 1) / N))| ≤ k * Real.pi / N ∧
    |Real.sin (2 * Real.pi * k * (rbdPos N r : ℕ) / N) - (-1) ^ r * Real.sin (k * Real.pi * (((r : ℝ) + 1) / N))| ≤
      k * Real.pi / N := by
  have hN : (0 : ℝ) < N := by exact_mod_cast (Nat.zero_le r).trans_lt hr
  have hπ := Real.pi_pos
  unfold rbdPos
  rcases Nat.even_or_odd' r with ⟨m, rfl | rfl⟩
  · rw [if_pos (by omega), show 2 * m / 2 = m by omega, pow_mul]
    have hd : |2 * Real.pi * k * (m : ℝ) / N - k * Real.pi * ((((2 * m : ℕ) : ℝ) + 1) / N)| = k * Real.pi / N := by
      rw [show 2 * Real.pi * k * (m : ℝ) / N - k * Real.pi * ((((2 * m : ℕ) : ℝ) + 1) / N) = -(k * Real.pi / N) by
        push_cast; ring, abs_neg, abs_of_nonneg (by positivity)]
    constructor
    · rw [← hd]
      exact Real.abs_cos_sub_cos_le _ _
    · rw [← hd, neg_one_sq, one_pow, one_mul]
      exact Real.abs_sin_sub_sin_le _ _
  · rw [if_neg (by omega), show (2 * m + 1) / 2 = m by omega]
    have hcast : ((N - 1 - m : ℕ) : ℝ) = N - 1 - m := by
      rw [Nat.cast_sub (by omega), Nat.cast_sub (by omega)]
      push_cast
      ring
    have e : 2 * Real.pi * k * ((N - 1 - m : ℕ) : ℝ) / N =
        (k : ℕ) * (2 * Real.pi) - k * Real.pi * ((((2 * m + 1 : ℕ) : ℝ) + 1) / N) := by
      rw [hcast]
      push_cast
      field_simp
      ring
    rw [e, Real.cos_nat_mul_two_pi_sub, Real.sin_nat_mul_two_pi_sub]
    constructor
    · rw [sub_self, abs_zero]; positivity
    · rw [pow_succ, pow_mul, neg_one_sq, one_pow, one_mul, neg_one_mul, sub_self, abs_zero]; positivity

section

variable {β : Type} [MeasurableSpace β] (law : Measure β) [IsProbabilityMeasure law] (X : β → ℝ) (hX : Measurable X)
  (hna : ∀ a, law.real {z | X z = a} = 0) {Ω : Type} [MeasurableSpace Ω] {P : Measure Ω} {Z : ℕ → Ω → β}
  (hm : ∀ i, Measurable (Z i)) (hlaw : ∀ i, Measure.map (Z i) P = law) (hind : iIndepFun Z P)

/-- The share of rows up to a row, from its rank. -/
theorem rank_freq {N : ℕ} (Z : ℕ → Ω → β) (ω : Ω) (t : Fin N)
    (hinj : Function.Injective fun s : Fin N => X (Z s ω)) :
    ((rankIn (fun s : Fin N => X (Z s ω)) t : ℝ) + 1) / N = freq (firstRows Z N ω) {z | X z ≤ X (Z t ω)} := by
  unfold freq rowMean firstRows
  rw [List.length_map, List.length_range, List.map_map, ← range_list_sum, ← Fin.sum_univ_eq_sum_range]
  congr 1
  unfold rankIn
  have e : ∀ s : Fin N, (({z | X z ≤ X (Z t ω)} : Set β).indicator (fun _ => (1 : ℝ)) ∘ fun i => Z i ω) s =
      (if X (Z s ω) < X (Z t ω) then 1 else 0) + if s = t then 1 else 0 := by
    intro s
    simp only [Function.comp]
    by_cases hst : s = t
    · subst hst
      rw [Set.indicator_of_mem (show Z s ω ∈ {z | X z ≤ X (Z s ω)} from le_refl (X (Z s ω)))]
      simp
    · rw [if_neg hst, add_zero]
      by_cases hlt : X (Z s ω) < X (Z t ω)
      · rw [if_pos hlt, Set.indicator_of_mem (show Z s ω ∈ {z | X z ≤ X (Z t ω)} from hlt.le)]
      · rw [if_neg hlt, Set.indicator_of_notMem]
        intro hle
        exact hst (hinj (le_antisymm hle (not_lt.mp hlt)))
  rw [Finset.sum_congr rfl fun s _ => e s, Finset.sum_add_distrib]
  simp

include hX hm hlaw hind

/-- The share of rows up to a value tends to the probability, for all values at once. -/
theorem freq_uniform : ∀ᵐ ω ∂P, ∀ ε > 0, ∀ᶠ N : ℕ in Filter.atTop, ∀ a : ℝ,
    |freq (firstRows Z N ω) {z | X z ≤ a} - law.real {z | X z ≤ a}| ≤ ε := by
  have hprob : IsProbabilityMeasure (Measure.map X law) := Measure.isProbabilityMeasure_map hX.aemeasurable
  have hone : ∀ n : ℕ, ∀ᵐ ω ∂P, ∀ᶠ N : ℕ in Filter.atTop, ∀ a : ℝ,
      |freq (firstRows Z N ω) {z | X z ≤ a} - law.real {z | X z ≤ a}| ≤ 1 / ((n : ℝ) + 1) + 1 / ((n : ℝ) + 1) := by
    intro n
    have hε : (0 : ℝ) < 1 / ((n : ℝ) + 1) := by positivity
    generalize 1 / ((n : ℝ) + 1) = ε at hε
    obtain ⟨F, hF, hb⟩ := exists_brackets (Measure.map X law) ε hε
    have hall : ∀ᵐ ω ∂P, ∀ A ∈ F, Filter.Tendsto (fun N => freq (firstRows Z N ω) (X ⁻¹' A)) Filter.atTop
        (nhds (law.real (X ⁻¹' A))) := by
      rw [Filter.eventually_all_finset]
      intro A hA
      exact tendsto_freq hm hlaw hind _ (hX (hF A hA))
    filter_upwards [hall] with ω hω
    have hev : ∀ᶠ N : ℕ in Filter.atTop, ∀ A ∈ F, |freq (firstRows Z N ω) (X ⁻¹' A) - law.real (X ⁻¹' A)| ≤ ε := by
      rw [Filter.eventually_all_finset]
      intro A hA
      filter_upwards [(hω A hA).eventually (Metric.ball_mem_nhds _ hε)] with N hN
      rw [Real.dist_eq] at hN
      exact hN.le
    filter_upwards [hev] with N hN a
    obtain ⟨L, hL, U, hU, h1, h2, h3⟩ := hb a
    rw [map_measureReal_apply hX (hF U hU), map_measureReal_apply hX (hF L hL)] at h3
    exact freq_bracket law _ (X ⁻¹' L) (X ⁻¹' U) {z | X z ≤ a} {z | X z ≤ a} (fun r _ h => h1 h) (fun r _ h => h2 h)
      (fun r h => h1 h) (fun r h => h2 h) ε ε h3 (hN L hL) (hN U hU)
  filter_upwards [ae_all_iff.mpr hone] with ω hω ε hε
  obtain ⟨n, hn⟩ := exists_nat_one_div_lt (half_pos hε)
  filter_upwards [hω n] with N hN a
  have := hN a
  linarith

omit hm hlaw hind in
theorem measurable_rank : Measurable fun z => law.real {w | X w ≤ X z} := by
  have : Monotone fun a : ℝ => law.real {w | X w ≤ a} := fun a b hab =>
    measureReal_mono fun w hw => le_trans (show X w ≤ a from hw) hab
  exact this.measurable.comp hX

include hna in
/-- The Fourier coefficients of the outputs in the order of the input: the cosines tend to those of the output as a
function of the rank, the sines to zero. -/
theorem harmonic_ae (G : β → ℝ) (mG : Measurable G) (hG : Integrable G law) (k : ℕ) :
    ∀ᵐ ω ∂P,
      Filter.Tendsto (fun N : ℕ => (∑ t : Fin N, G (Z t ω) *
        Real.cos (2 * Real.pi * k * (rbdPos N (rankIn (fun s : Fin N => X (Z s ω)) t) : ℕ) / N)) / N) Filter.atTop
        (nhds (∫ z, G z * Real.cos (k * Real.pi * law.real {w | X w ≤ X z}) ∂law)) ∧
      Filter.Tendsto (fun N : ℕ => (∑ t : Fin N, G (Z t ω) *
        Real.sin (2 * Real.pi * k * (rbdPos N (rankIn (fun s : Fin N => X (Z s ω)) t) : ℕ) / N)) / N) Filter.atTop
        (nhds 0) := by
  have mF := measurable_rank law X hX
  set F : β → ℝ := fun z => law.real {w | X w ≤ X z} with hF
  have mc : Measurable fun z => Real.cos (k * Real.pi * F z) := Real.measurable_cos.comp (mF.const_mul _)
  have ms : Measurable fun z => Real.sin (k * Real.pi * F z) := Real.measurable_sin.comp (mF.const_mul _)
  have ic : Integrable (fun z => G z * Real.cos (k * Real.pi * F z)) law :=
    hG.mul_bdd (c := 1) mc.aestronglyMeasurable (ae_of_all _ fun z => Real.abs_cos_le_one _)
  have is : Integrable (fun z => G z * Real.sin (k * Real.pi * F z)) law :=
    hG.mul_bdd (c := 1) ms.aestronglyMeasurable (ae_of_all _ fun z => Real.abs_sin_le_one _)
  filter_upwards [ae_distinct law X hX hna hm hlaw hind, freq_uniform law X hX hm hlaw hind,
    tendsto_rowMean hm hlaw hind _ (mG.mul mc) ic, alternate_ae law X hX hna hm hlaw hind _ (mG.mul ms) is,
    tendsto_rowMean hm hlaw hind _ (continuous_abs.measurable.comp mG) hG.abs] with ω hd hu hc hs ha
  have hπ := Real.pi_pos
  set A := ∫ z, |G z| ∂law with hA
  have hA0 : 0 ≤ A := integral_nonneg fun z => abs_nonneg _
  have hsum : ∀ (N : ℕ) (f : β → ℝ), rowMean (firstRows Z N ω) f = (∑ t : Fin N, f (Z t ω)) / N := by
    intro N f
    unfold rowMean firstRows
    rw [List.length_map, List.length_range, List.map_map, ← range_list_sum, ← Fin.sum_univ_eq_sum_range]
    rfl
  -- replacing the weight of a row by a nearby one
  have hrep : ∀ ε > 0, ∀ᶠ N : ℕ in Filter.atTop, ∀ p q : Fin N → ℝ,
      (∀ t, |p t - q t| ≤ k * Real.pi / N + k * Real.pi *
        |freq (firstRows Z N ω) {z | X z ≤ X (Z t ω)} - F (Z t ω)|) →
      |(∑ t : Fin N, G (Z t ω) * p t) / N - (∑ t : Fin N, G (Z t ω) * q t) / N| < ε := by
    intro ε hε
    set K := k * Real.pi with hK
    have hK0 : 0 ≤ K := by positivity
    have hη : 0 < ε / (2 * (K + 1) * (A + 1)) := by positivity
    set η := ε / (2 * (K + 1) * (A + 1)) with hηdef
    have hKlim : Filter.Tendsto (fun N : ℕ => K / N) Filter.atTop (nhds 0) := tendsto_const_div_atTop_nhds_zero_nat _
    filter_upwards [hu η hη, ha.eventually (gt_mem_nhds (lt_add_one A)), hKlim.eventually (gt_mem_nhds hη),
      Filter.eventually_gt_atTop 0] with N h1 h2 h3 hN p q hpq
    have hNpos : (0 : ℝ) < N := by exact_mod_cast hN
    rw [hsum] at h2
    have hb : ∀ t, |p t - q t| ≤ η + K * η := fun t =>
      (hpq t).trans (add_le_add h3.le (mul_le_mul_of_nonneg_left (h1 _) hK0))
    rw [← sub_div, ← Finset.sum_sub_distrib, abs_div, abs_of_pos hNpos]
    calc |∑ t : Fin N, (G (Z t ω) * p t - G (Z t ω) * q t)| / N
        ≤ (∑ t : Fin N, |G (Z t ω)| * (η + K * η)) / N := by
          refine div_le_div_of_nonneg_right ((Finset.abs_sum_le_sum_abs _ _).trans (Finset.sum_le_sum fun t _ => ?_)) hNpos.le
          rw [← mul_sub, abs_mul]
          exact mul_le_mul_of_nonneg_left (hb t) (abs_nonneg _)
      _ = (∑ t : Fin N, |G (Z t ω)|) / N * (η * (1 + K)) := by rw [← Finset.sum_mul]; ring
      _ ≤ (A + 1) * (η * (1 + K)) := mul_le_mul_of_nonneg_right h2.le (by positivity)
      _ = ε / 2 := by rw [hηdef]; field_simp; ring
      _ < ε := by linarith
  have hinj : ∀ N : ℕ, Function.Injective fun s : Fin N => X (Z s ω) := fun N s t hst => Fin.ext (hd s t hst)
  have hrank : ∀ (N : ℕ) (t : Fin N), rankIn (fun s : Fin N => X (Z s ω)) t < N := by
    intro N t
    obtain ⟨σ, hσ⟩ := exists_sort _ (hinj N)
    have := rankIn_sort _ σ hσ (σ.symm t)
    rw [Equiv.apply_symm_apply] at this
    rw [this]
    exact (σ.symm t).2
  constructor
  · rw [Metric.tendsto_atTop]
    intro ε hε
    rw [← Filter.eventually_atTop]
    filter_upwards [hrep (ε / 2) (half_pos hε), hc.eventually (Metric.ball_mem_nhds _ (half_pos hε))] with N h1 h2
    have h3 := h1 (fun t => Real.cos (2 * Real.pi * k * (rbdPos N (rankIn (fun s : Fin N => X (Z s ω)) t) : ℕ) / N))
      (fun t => Real.cos (k * Real.pi * F (Z t ω))) (fun t => by
        have a1 := (rbdPos_cos N k _ (hrank N t)).1
        rw [rank_freq X Z ω t (hinj N)] at a1
        have a2 := Real.abs_cos_sub_cos_le (k * Real.pi * freq (firstRows Z N ω) {z | X z ≤ X (Z t ω)}) (k * Real.pi * F (Z t ω))
        rw [← mul_sub, abs_mul, abs_of_nonneg (show 0 ≤ k * Real.pi by positivity)] at a2
        refine (abs_sub_le _ (Real.cos (k * Real.pi * freq (firstRows Z N ω) {z | X z ≤ X (Z t ω)})) _).trans ?_
        exact add_le_add a1 a2)
    rw [hsum, Real.dist_eq] at h2
    rw [Real.dist_eq]
    refine (abs_sub_le _ ((∑ t : Fin N, G (Z t ω) * Real.cos (k * Real.pi * F (Z t ω))) / N) _).trans_lt ?_
    have h2' : |(∑ t : Fin N, G (Z t ω) * Real.cos (k * Real.pi * F (Z t ω))) / N -
      ∫ z, G z * Real.cos (k * Real.pi * F z) ∂law| < ε / 2 := h2
    linarith
  · rw [Metric.tendsto_atTop]
    intro ε hε
    rw [← Filter.eventually_atTop]
    filter_upwards [hrep (ε / 2) (half_pos hε), hs.eventually (Metric.ball_mem_nhds _ (half_pos hε))] with N h1 h2
    have h3 := h1 (fun t => Real.sin (2 * Real.pi * k * (rbdPos N (rankIn (fun s : Fin N => X (Z s ω)) t) : ℕ) / N))
      (fun t => rankSign (fun s : Fin N => X (Z s ω)) t * Real.sin (k * Real.pi * F (Z t ω))) (fun t => by
        have a1 := (rbdPos_cos N k _ (hrank N t)).2
        rw [rank_freq X Z ω t (hinj N)] at a1
        have a2 := Real.abs_sin_sub_sin_le (k * Real.pi * freq (firstRows Z N ω) {z | X z ≤ X (Z t ω)}) (k * Real.pi * F (Z t ω))
        rw [← mul_sub, abs_mul, abs_of_nonneg (show 0 ≤ k * Real.pi by positivity)] at a2
        refine (abs_sub_le _ (rankSign (fun s : Fin N => X (Z s ω)) t *
          Real.sin (k * Real.pi * freq (firstRows Z N ω) {z | X z ≤ X (Z t ω)})) _).trans ?_
        refine add_le_add a1 ?_
        rw [← mul_sub, abs_mul, abs_rankSign, one_mul]
        exact a2)
    rw [Real.dist_eq, sub_zero] at h2
    rw [Real.dist_eq, sub_zero]
    have h2' : |(∑ t : Fin N, G (Z t ω) * (rankSign (fun s : Fin N => X (Z s ω)) t * Real.sin (k * Real.pi * F (Z t ω)))) / N| < ε / 2 := by
      refine lt_of_eq_of_lt ?_ h2
      congr 2
      refine Finset.sum_congr rfl fun t _ => ?_
      simp only [Pi.mul_apply]
      ring
    have := abs_sub_abs_le_abs_sub ((∑ t : Fin N, G (Z t ω) *
        Real.sin (2 * Real.pi * k * (rbdPos N (rankIn (fun s : Fin N => X (Z s ω)) t) : ℕ) / N)) / N)
      ((∑ t : Fin N, G (Z t ω) * (rankSign (fun s : Fin N => X (Z s ω)) t * Real.sin (k * Real.pi * F (Z t ω)))) / N)
    linarith

end

end SALib
