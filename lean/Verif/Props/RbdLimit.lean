import Verif.Spec.RbdLimit
import Verif.Lemmas.HarmonicLimit
import Verif.Lemmas.RankUniform
import Verif.Lemmas.CosineBasis
import Verif.Props.FastConf
import Verif.Props.DeltaLimit
import Mathlib.MeasureTheory.Function.FactorsThrough
import Mathlib.MeasureTheory.Function.ConditionalExpectation.PullOut
import Verif.Props.DgsmBound
import Verif.Props.Tables

/-! # C127: what RBD-FAST estimates -/

namespace SALib
open Spec MeasureTheory ProbabilityTheory Filter Topology

variable {d : Nat}

theorem firstRows_ofFn {Ω β : Type} (Z : ℕ → Ω → β) (N : Nat) (ω : Ω) (f : β → ℝ) :
    (firstRows Z N ω).map f = List.ofFn fun t : Fin N => f (Z t ω) := by
  unfold firstRows
  rw [List.map_map, List.ofFn_eq_map, ← List.map_coe_finRange_eq_range, List.map_map]
  rfl

/-- The corrected index of a permuted sample in terms of sums over the rows. -/
theorem rbdIndex_rows {N : ℕ} (argsort : List ℝ → List ℕ) (x : Fin N → ℝ) (hx : Function.Injective x) (u : Fin N → ℝ)
    (hp : IsArgsort (List.ofFn x) (argsort (List.ofFn x))) (M : ℕ) (hM : 2 * M < N) (v : ℝ)
    (hv : npVar (List.ofFn u) = some v) (hv0 : v ≠ 0) :
    ∀ s, s = (∑ k ∈ Finset.Icc 1 M, 2 *
      (((∑ t, u t * Real.cos (2 * Real.pi * k * (rbdPos N (rankIn x t) : ℕ) / N)) / N) ^ 2 +
        ((∑ t, u t * Real.sin (2 * Real.pi * k * (rbdPos N (rankIn x t) : ℕ) / N)) / N) ^ 2)) / v →
      rbdIndex argsort (List.ofFn x) (List.ofFn u) M =
        .ok (some (s - 2 * M / N / (1 - 2 * M / N) * (1 - s))) := by
  intro s hs
  obtain ⟨y, h1, h2, h3⟩ := permuted_rows argsort x hx u hp
  have hyl : y.length = N := by rw [h2.length_eq]; simp
  have hN : 0 < N := by omega
  have hNr : (N : ℝ) ≠ 0 := by exact_mod_cast hN.ne'
  have hraw := C43_raw_value y (by omega) M v (by rw [npVar_perm _ _ h2]; exact hv) hv0
  rw [hyl, min_eq_left (by omega)] at hraw
  have e : rbdFirstOrder y M = some s := by
    rw [hraw, hs]
    congr 1
    rw [mul_comm, ← div_div, div_right_comm, Finset.sum_div]
    congr 1
    refine Finset.sum_congr rfl fun k hk => ?_
    rw [Finset.mem_Icc] at hk
    rw [if_neg (by omega)]
    unfold power
    rw [h3 fun n => Real.cos (2 * Real.pi * k * n / N), h3 fun n => Real.sin (2 * Real.pi * k * n / N)]
    field_simp
  unfold rbdIndex
  rw [h1, pyBind_ok, e]
  unfold unskewS1
  rw [if_neg (by simp; omega), if_neg (by simp; omega), List.length_ofFn]
  rfl

/-- **C127.**  Rows drawn independently from any distribution of the inputs, in which input `j` has no value of positive
probability; an output with a variance that is not 0.  With probability one the index comes close, for all large samples,
to the share of the variance in the first `M` harmonics of the rank of the input. -/
theorem C127_limit (law : Measure (Fin d → ℝ)) [IsProbabilityMeasure law] (j : Fin d)
    (hna : ∀ a, law.real {x | x j = a} = 0) (G : (Fin d → ℝ) → ℝ) (hG : Measurable G) (hG2 : MemLp G 2 law)
    (hv : 0 < Var[G; law]) (M : Nat) {Ω : Type} [MeasurableSpace Ω] (P : Measure Ω) (Z : ℕ → Ω → (Fin d → ℝ))
    (hZ : RandomRows law P Z) :
    ∀ᵐ ω ∂P, ∀ ε > 0, ∃ N0, ∀ N ≥ N0, ∀ X Y : List ℝ, X = (firstRows Z N ω).map (fun x => x j) →
      Y = (firstRows Z N ω).map G → ∀ argsort : List ℝ → List Nat, IsArgsort X (argsort X) →
      ∃ s, rbdIndex argsort X Y M = .ok (some s) ∧ |s - harmonicShare law G j M| < ε := by
  have hG1 : Integrable G law := hG2.integrable (by norm_num)
  have hX : Measurable fun x : Fin d → ℝ => x j := measurable_pi_apply j
  have hall : ∀ᵐ ω ∂P, ∀ k : ℕ, _ := ae_all_iff.mpr fun k =>
    harmonic_ae law (fun x => x j) hX hna hZ.meas hZ.law hZ.indep G hG hG1 k
  filter_upwards [hall, ae_distinct law (fun x => x j) hX hna hZ.meas hZ.law hZ.indep,
    tendsto_rowMean hZ.meas hZ.law hZ.indep G hG hG1,
    tendsto_rowMean hZ.meas hZ.law hZ.indep (fun x => G x ^ 2) (hG.pow_const 2) hG2.integrable_sq] with ω hk hd h1 h2 ε hε
  have hvar : Var[G; law] = (∫ x, G x ^ 2 ∂law) - (∫ x, G x ∂law) ^ 2 := by
    rw [variance_eq_sub hG2]; rfl
  have hvl : Tendsto (fun N => rowMean (firstRows Z N ω) (fun x => G x ^ 2) - rowMean (firstRows Z N ω) G ^ 2) atTop
      (𝓝 Var[G; law]) := by
    rw [hvar]; exact h2.sub (h1.pow 2)
  have hnum : Tendsto (fun N : ℕ => ∑ k ∈ Finset.Icc 1 M, 2 *
      (((∑ t : Fin N, G (Z t ω) * Real.cos (2 * Real.pi * k * (rbdPos N (rankIn (fun s : Fin N => Z s ω j) t) : ℕ) / N)) / N) ^ 2 +
      ((∑ t : Fin N, G (Z t ω) * Real.sin (2 * Real.pi * k * (rbdPos N (rankIn (fun s : Fin N => Z s ω j) t) : ℕ) / N)) / N) ^ 2))
      atTop (𝓝 (∑ k ∈ Finset.Icc 1 M, 2 * harmonic law G j k ^ 2)) := by
    refine tendsto_finsetSum _ fun k _ => ?_
    have := ((((hk k).1.pow 2).add ((hk k).2.pow 2)).const_mul (2 : ℝ))
    rw [show harmonic law G j k ^ 2 = (∫ z, G z * Real.cos (k * Real.pi * law.real {w | w j ≤ z j}) ∂law) ^ 2 + 0 ^ 2 by
      unfold harmonic rankOf; ring]
    exact this
  have hs := hnum.div hvl hv.ne'
  have hlam : Tendsto (fun N : ℕ => 2 * (M : ℝ) / N) atTop (𝓝 0) := tendsto_const_div_atTop_nhds_zero_nat _
  have hcor := hs.sub ((hlam.div ((tendsto_const_nhds (x := (1 : ℝ))).sub hlam) (by norm_num)).mul
    ((tendsto_const_nhds (x := (1 : ℝ))).sub hs))
  rw [sub_zero, zero_div, zero_mul, sub_zero] at hcor
  have hev := (hcor.eventually (Metric.ball_mem_nhds _ hε)).and ((hvl.eventually (lt_mem_nhds hv)).and
    (eventually_gt_atTop (2 * M)))
  obtain ⟨N0, hN0⟩ := eventually_atTop.mp hev
  refine ⟨N0, fun N hN X Y hXe hYe argsort hp => ?_⟩
  obtain ⟨c1, c2, c3⟩ := hN0 N hN
  have hr0 : firstRows Z N ω ≠ [] := by
    apply List.ne_nil_of_length_pos; simp [firstRows]; omega
  have hvv := npVar_rows (firstRows Z N ω) hr0 G
  rw [firstRows_ofFn] at hXe
  rw [firstRows_ofFn] at hYe hvv
  subst hXe hYe
  exact ⟨_, rbdIndex_rows argsort _ (fun s t hst => Fin.ext (hd s t hst)) _ hp M c3 _ hvv c2.ne' _ rfl, c1⟩

/-- The reported index of a parameter is that of its column. -/
theorem rbdAnalyze_entry (argsort : List ℝ → List Nat) (bnd : ℝ) (draws : Nat → List (List Nat)) (pb : Problem ℝ)
    (X : Mat ℝ) (Y : List ℝ) (M : Nat) (hX : ∀ row ∈ X, row.length = pb.numVars) (res : RbdResult)
    (h : rbdAnalyze argsort bnd draws pb X Y M = .ok res) (i : Nat) (hi : i < pb.numVars) :
    ∃ s, rbdIndex argsort (column X i) Y M = .ok s ∧ res.S1[i]? = some s := by
  unfold rbdAnalyze at h
  obtain ⟨rows, hrows, h⟩ := pyBind_inv _ _ _ h
  cases h
  obtain ⟨b, hb, hf⟩ := mapM_range_get _ _ _ hrows i hi
  rw [column_ok X _ i hX hi, pyBind_ok] at hf
  obtain ⟨s, hs, hf⟩ := pyBind_inv _ _ _ hf
  obtain ⟨c, hc, hf⟩ := pyBind_inv _ _ _ hf
  cases hf
  exact ⟨s, hs, by rw [List.getElem?_map, hb]; rfl⟩

/-- The whole analysis, from the indices of the columns. -/
theorem rbd_report (rows : List (Fin d → ℝ)) (G : (Fin d → ℝ) → ℝ) (M : Nat) (hN : 4 * M + 3 ≤ rows.length) (pb : Problem ℝ)
    (bnd : ℝ) (draws : Nat → List (List Nat)) (argsort : List ℝ → List Nat) (hd : pb.numVars = d)
    (hs : ∀ X, IsArgsort X (argsort X))
    (hdr : ∀ i < d, ∀ idx ∈ draws i, idx.length = rows.length / 2 ∧ ∀ t ∈ idx, t < rows.length) (j0 : Fin d) (s0 : ℝ)
    (h0 : rbdIndex argsort (rows.map fun x => x j0) (rows.map G) M = .ok (some s0)) :
    ∃ res, rbdAnalyze argsort bnd draws pb (rows.map List.ofFn) (rows.map G) M = .ok res ∧
      ∀ j : Fin d, ∃ s, rbdIndex argsort (rows.map fun x => x j) (rows.map G) M = .ok s ∧ res.S1[(j : Nat)]? = some s := by
  have hcol : ∀ j : Fin d, column (rows.map List.ofFn) j = rows.map fun x => x j := by
    intro j
    unfold column
    rw [List.map_map]
    refine List.map_congr_left fun x _ => ?_
    show (List.ofFn x).getD j 0 = x j
    rw [List.getD_eq_getElem (List.ofFn x) _ (by simp)]
    simp
  have hvar : ¬∃ c, ∀ y ∈ rows.map G, y = c := by
    rintro ⟨c, hc⟩
    unfold rbdIndex at h0
    obtain ⟨up, down, -, -, -, -, -, h⟩ := C42_reorder argsort (rows.map fun x => x j0) (hs _)
    obtain ⟨y, hy, hperm, -⟩ := h ℝ (rows.map G) (by simp)
    rw [hy, pyBind_ok, (C43_raw_range y (by rw [hperm.length_eq]; simp; omega) M).1.mpr
      ⟨c, fun x hx => hc x (hperm.mem_iff.mp hx)⟩] at h0
    unfold unskewS1 at h0
    rw [if_neg (by rw [List.length_map]; omega), if_neg (by rw [List.length_map]; omega)] at h0
    cases h0
  have hX : ∀ row ∈ rows.map List.ofFn, row.length = pb.numVars := by
    intro row hrow
    obtain ⟨x, -, rfl⟩ := List.mem_map.mp hrow
    simp [hd]
  obtain ⟨res, hres, -⟩ := C43_analysis argsort hs bnd draws pb (rows.map List.ofFn) (rows.map G) M hX (by simp)
    (by simp; omega) (by simp; omega) (by simp; omega) (by
      intro i hi idx hidx
      simpa using hdr i (by omega) idx hidx) hvar
  refine ⟨res, hres, fun j => ?_⟩
  obtain ⟨s', e1, e2⟩ := rbdAnalyze_entry argsort bnd draws pb _ _ M hX res hres j (by rw [hd]; exact j.2)
  rw [hcol] at e1
  exact ⟨s', e1, e2⟩

/-- **C127** (reported values).  The same for the entry of the parameter in the table of a whole analysis. -/
theorem C127_reported (law : Measure (Fin d → ℝ)) [IsProbabilityMeasure law] (j : Fin d)
    (hna : ∀ a, law.real {x | x j = a} = 0) (G : (Fin d → ℝ) → ℝ) (hG : Measurable G) (hG2 : MemLp G 2 law)
    (hv : 0 < Var[G; law]) (M : Nat) {Ω : Type} [MeasurableSpace Ω] (P : Measure Ω) (Z : ℕ → Ω → (Fin d → ℝ))
    (hZ : RandomRows law P Z) :
    ∀ᵐ ω ∂P, ∀ ε > 0, ∃ N0, ∀ N ≥ N0, ∀ (pb : Problem ℝ) (bnd : ℝ) (draws : Nat → List (List Nat))
      (argsort : List ℝ → List Nat), pb.numVars = d → (∀ X, IsArgsort X (argsort X)) →
      (∀ i < d, ∀ idx ∈ draws i, idx.length = N / 2 ∧ ∀ t ∈ idx, t < N) →
      ∃ res s, rbdAnalyze argsort bnd draws pb ((firstRows Z N ω).map List.ofFn) ((firstRows Z N ω).map G) M = .ok res ∧
        res.S1[(j : Nat)]? = some (some s) ∧ |s - harmonicShare law G j M| < ε := by
  filter_upwards [C127_limit law j hna G hG hG2 hv M P Z hZ] with ω hω ε hε
  obtain ⟨N0, hN0⟩ := hω ε hε
  refine ⟨N0 + 4 * M + 3, fun N hN pb bnd draws argsort hd hs hdr => ?_⟩
  have hlen : (firstRows Z N ω).length = N := by simp [firstRows]
  obtain ⟨s, h1, h2⟩ := hN0 N (by omega) _ _ rfl rfl argsort (hs _)
  obtain ⟨res, hres, hall⟩ := rbd_report (firstRows Z N ω) G M (by omega) pb bnd draws argsort hd hs
    (by rw [hlen]; exact hdr) j s h1
  obtain ⟨s', e1, e2⟩ := hall j
  rw [h1] at e1
  cases e1
  exact ⟨res, s, hres, e2, h2⟩

/-! ### The limit compared with the first-order index -/

section

variable (law : Measure (Fin d → ℝ)) [IsProbabilityMeasure law] (j : Fin d)

/-- The harmonics of the output are those of its mean given the input. -/
theorem harmonic_given (G : (Fin d → ℝ) → ℝ) (hG : Integrable G law) (k : Nat) :
    harmonic law G j k = ∫ x, meanGiven law G j x * Real.cos (k * Real.pi * rankOf law j x) ∂law := by
  have hmono : Monotone fun a : ℝ => law.real {w | w j ≤ a} := fun a b hab =>
    measureReal_mono fun w hw => le_trans (show w j ≤ a from hw) hab
  have mc : Measurable[MeasurableSpace.comap (fun x : Fin d → ℝ => x j) inferInstance]
      fun x => Real.cos (k * Real.pi * rankOf law j x) :=
    (Real.measurable_cos.comp (hmono.measurable.const_mul (k * Real.pi))).comp (comap_measurable fun x : Fin d → ℝ => x j)
  have hi : Integrable (fun x => G x * Real.cos (k * Real.pi * rankOf law j x)) law :=
    hG.mul_bdd (c := 1) (mc.mono (comap_le_inputs j) le_rfl).aestronglyMeasurable
      (ae_of_all _ fun z => Real.abs_cos_le_one _)
  have h := condExp_mul_of_stronglyMeasurable_right (μ := law) mc.stronglyMeasurable hi hG
  unfold harmonic
  rw [← integral_condExp (comap_le_inputs j)]
  exact integral_congr_ae h

/-- **C127** (never above).  The limit is nonnegative, grows with `M`, and is at most the first-order index, the variance of
the mean output given the input divided by the variance of the output.  The inputs may be dependent. -/
theorem C127_below (hna : ∀ a, law.real {x | x j = a} = 0) (G : (Fin d → ℝ) → ℝ) (hG : MemLp G 2 law) :
    (∀ M, 0 ≤ harmonicShare law G j M ∧ harmonicShare law G j M ≤ Var[meanGiven law G j; law] / Var[G; law]) ∧
      Monotone (harmonicShare law G j) := by
  have hv : 0 ≤ Var[G; law] := variance_nonneg _ _
  have hX : Measurable fun x : Fin d → ℝ => x j := measurable_pi_apply j
  refine ⟨fun M => ⟨div_nonneg (Finset.sum_nonneg fun k _ => by positivity) hv, div_le_div_of_nonneg_right ?_ hv⟩, ?_⟩
  · have := cos_bessel law (rankOf law j) (measurable_rank law (fun x => x j) hX) (rank_law law (fun x => x j) hX hna)
      (meanGiven law G j) (MemLp.condExp (by norm_num) hG) M
    refine le_trans (le_of_eq (Finset.sum_congr rfl fun k _ => ?_)) this
    rw [harmonic_given law j G (hG.integrable (by norm_num))]
  · intro M M' hM
    exact div_le_div_of_nonneg_right (Finset.sum_le_sum_of_subset_of_nonneg (Finset.Icc_subset_Icc_right hM)
      fun k _ _ => by positivity) hv

/-- **C127** (many harmonics).  As `M` grows the limit tends to the first-order index. -/
theorem C127_harmonics (hna : ∀ a, law.real {x | x j = a} = 0) (G : (Fin d → ℝ) → ℝ) (hG : MemLp G 2 law) :
    Tendsto (harmonicShare law G j) atTop (𝓝 (Var[meanGiven law G j; law] / Var[G; law])) := by
  have hX : Measurable fun x : Fin d → ℝ => x j := measurable_pi_apply j
  obtain ⟨Q, mQ, hQ⟩ := rank_inverse law (fun x => x j) hX hna
  obtain ⟨g0, mg0, hg0⟩ := (stronglyMeasurable_condExp (μ := law) (f := G)
    (m := MeasurableSpace.comap (fun x : Fin d → ℝ => x j) inferInstance)).exists_eq_measurable_comp
  have := cos_parseval law (rankOf law j) (measurable_rank law (fun x => x j) hX) (rank_law law (fun x => x j) hX hna)
    (meanGiven law G j) (MemLp.condExp (by norm_num) hG) (fun u => g0 (Q u)) (mg0.measurable.comp mQ) (by
      filter_upwards [hQ] with x hx
      have hx : Q (rankOf law j x) = x j := hx
      rw [hx]
      exact congrFun hg0 x)
  have h := this.div_const Var[G; law]
  refine h.congr fun M => ?_
  unfold harmonicShare
  congr 1
  refine Finset.sum_congr rfl fun k _ => ?_
  rw [harmonic_given law j G (hG.integrable (by norm_num))]

/-- **C127** (no influence).  If the output is independent of the input, the limit is 0 for every `M`. -/
theorem C127_independent (hna : ∀ a, law.real {x | x j = a} = 0) (G : (Fin d → ℝ) → ℝ) (hG : Measurable G)
    (hG2 : MemLp G 2 law) (hind : IndepFun G (fun x => x j) law) (M : Nat) : harmonicShare law G j M = 0 := by
  have hc : meanGiven law G j =ᵐ[law] fun _ => ∫ x, G x ∂law :=
    condExp_indep_eq hG.comap_le (comap_le_inputs j) (comap_measurable G).stronglyMeasurable hind
  obtain ⟨h1, -⟩ := C127_below law j hna G hG2
  have hv : Var[meanGiven law G j; law] = 0 := by
    rw [variance_congr hc, variance_eq_integral aemeasurable_const]
    simp
  have := h1 M
  rw [hv, zero_div] at this
  exact le_antisymm this.2 this.1

theorem integral_straight_cos (A B : ℝ) (k : Nat) (hk : k ≠ 0) :
    ∫ u, (A + B * u) * Real.cos (k * Real.pi * u) ∂unitLine = B * ((-1) ^ k - 1) / (k * Real.pi) ^ 2 := by
  have hc : (k : ℝ) * Real.pi ≠ 0 := mul_ne_zero (by exact_mod_cast hk) Real.pi_ne_zero
  set c := (k : ℝ) * Real.pi with hcd
  rw [integral_unitLine]
  have hder : ∀ u ∈ Set.uIcc (0 : ℝ) 1, HasDerivAt (fun u => (A + B * u) * (Real.sin (c * u) / c) + B * (Real.cos (c * u) / c ^ 2))
      ((A + B * u) * Real.cos (c * u)) u := by
    intro u _
    have h1 : HasDerivAt (fun u : ℝ => c * u) c u := by simpa using (hasDerivAt_id u).const_mul c
    have h2 : HasDerivAt (fun u : ℝ => A + B * u) B u := by simpa using ((hasDerivAt_id u).const_mul B).const_add A
    have h3 := (h2.mul (h1.sin.div_const c)).add ((h1.cos.div_const (c ^ 2)).const_mul B)
    refine h3.congr_deriv ?_
    field_simp
    ring
  rw [intervalIntegral.integral_eq_sub_of_hasDerivAt hder (by apply Continuous.intervalIntegrable; fun_prop)]
  simp only [mul_one, mul_zero, Real.sin_zero, Real.cos_zero]
  rw [hcd, Real.sin_nat_mul_pi, Real.cos_nat_mul_pi]
  field_simp
  ring

/-- **C127** (size of the gap).  For a uniform input on which the mean output depends linearly, the limit is the sum of
`96 / (k π)⁴` over the odd `k ≤ M` times the first-order index. -/
theorem C127_linear (lo hi : ℝ) (h : lo < hi) (hlaw : Measure.map (fun x => x j) law = unifOn lo hi)
    (G : (Fin d → ℝ) → ℝ) (hG : MemLp G 2 law) (a b : ℝ) (hlin : meanGiven law G j =ᵐ[law] fun x => a + b * x j) (M : Nat) :
    harmonicShare law G j M = (∑ k ∈ (Finset.Icc 1 M).filter Odd, 96 / ((k : ℝ) * Real.pi) ^ 4) *
      (Var[meanGiven law G j; law] / Var[G; law]) := by
  have hw : 0 < hi - lo := by linarith
  have hX : Measurable fun x : Fin d → ℝ => x j := measurable_pi_apply j
  have hna := (evenCuts_equal law j 1 lo hi h hlaw one_pos).noAtom
  have hvar : Var[meanGiven law G j; law] = b ^ 2 * (hi - lo) ^ 2 / 12 := by
    have e := variance_map (μ := law) (Y := fun x : Fin d → ℝ => x j) (X := fun t => a + b * t)
      (Measurable.aemeasurable (by fun_prop)) (measurable_pi_apply j).aemeasurable
    rw [hlaw, variance_unifOn h] at e
    rw [variance_congr hlin, e]
    rfl
  have hrank : ∀ᵐ x ∂law, x j = lo + (hi - lo) * rankOf law j x := by
    have hmem : ∀ᵐ x ∂law, x j ∈ Set.Icc lo hi := by
      have := ae_unifOn_mem (lo := lo) (hi := hi)
      rw [← hlaw] at this
      exact ae_of_ae_map hX.aemeasurable this
    filter_upwards [hmem] with x hx
    have h1 : rankOf law j x = (unifOn lo hi).real (Set.Iic (x j)) := by
      rw [← hlaw, map_measureReal_apply hX measurableSet_Iic]
      rfl
    rw [h1, real_unifOn_Iic lo hi h _ hx.1 hx.2]
    field_simp
    ring
  have hk : ∀ k : ℕ, k ≠ 0 → harmonic law G j k = b * (hi - lo) * ((-1) ^ k - 1) / (k * Real.pi) ^ 2 := by
    intro k hk
    rw [harmonic_given law j G (hG.integrable (by norm_num)), ← integral_straight_cos (a + b * lo) (b * (hi - lo)) k hk,
      ← integral_rank law (rankOf law j) (measurable_rank law (fun x => x j) hX) (rank_law law (fun x => x j) hX hna)
        (fun u => (a + b * lo + b * (hi - lo) * u) * Real.cos (k * Real.pi * u)) (by fun_prop)]
    refine integral_congr_ae ?_
    filter_upwards [hlin, hrank] with x h1 h2
    rw [h1]
    congr 1
    conv_lhs => rw [h2]
    ring
  unfold harmonicShare
  rw [← mul_div_assoc, hvar, Finset.sum_mul, Finset.sum_filter]
  congr 1
  refine Finset.sum_congr rfl fun k hk1 => ?_
  rw [Finset.mem_Icc] at hk1
  have hc : (k : ℝ) * Real.pi ≠ 0 := mul_ne_zero (by exact_mod_cast (by omega : k ≠ 0)) Real.pi_ne_zero
  rw [hk k (by omega)]
  by_cases ho : Odd k
  · rw [if_pos ho, ho.neg_one_pow]
    field_simp
    ring
  · rw [if_neg ho, (Nat.not_odd_iff_even.mp ho).neg_one_pow]
    simp

end

/-- One uniform input on [0, 1] and the output `2 x`: the hypotheses hold, the first-order index is 1 and the limit of the
reported index with one harmonic is `96 / π⁴`, about 0.986. -/
example : (∀ a, (Measure.pi fun _ : Fin 1 => unifOn 0 1).real {x : Fin 1 → ℝ | x 0 = a} = 0) ∧
    Measurable (fun x : Fin 1 → ℝ => 2 * x 0) ∧
    MemLp (fun x : Fin 1 → ℝ => 2 * x 0) 2 (Measure.pi fun _ : Fin 1 => unifOn 0 1) ∧
    0 < Var[fun x : Fin 1 → ℝ => 2 * x 0; Measure.pi fun _ : Fin 1 => unifOn 0 1] ∧
    harmonicShare (Measure.pi fun _ : Fin 1 => unifOn 0 1) (fun x => 2 * x 0) 0 1 = 96 / Real.pi ^ 4 := by
  have := isProb_unifOn (lo := 0) (hi := 1) (by norm_num)
  have hlaw : Measure.map (fun x : Fin 1 → ℝ => x 0) (Measure.pi fun _ : Fin 1 => unifOn 0 1) = unifOn 0 1 := by
    have h := Measure.pi_map_eval (fun _ : Fin 1 => unifOn 0 1) 0
    simpa using h
  have hmp : MeasurePreserving (fun x : Fin 1 → ℝ => x 0) (Measure.pi fun _ : Fin 1 => unifOn 0 1) (unifOn 0 1) :=
    ⟨measurable_pi_apply 0, hlaw⟩
  have hL : MemLp (fun x : Fin 1 → ℝ => 2 * x 0) 2 (Measure.pi fun _ : Fin 1 => unifOn 0 1) :=
    (memLp_unifOn (lo := 0) (hi := 1) (by norm_num) (fun t => 2 * t) (by fun_prop)).comp_measurePreserving hmp
  have hvar : Var[fun x : Fin 1 → ℝ => 2 * x 0; Measure.pi fun _ : Fin 1 => unifOn 0 1] = 1 / 3 := by
    have e := variance_map (μ := Measure.pi fun _ : Fin 1 => unifOn 0 1) (Y := fun x : Fin 1 → ℝ => x 0)
      (X := fun t => 0 + 2 * t) (Measurable.aemeasurable (by fun_prop)) (measurable_pi_apply 0).aemeasurable
    rw [hlaw, variance_unifOn (by norm_num)] at e
    have e2 : (fun x : Fin 1 → ℝ => 2 * x 0) = (fun t => 0 + 2 * t) ∘ fun x : Fin 1 → ℝ => x 0 := by
      funext x; simp
    rw [e2, ← e]; norm_num
  have hlin : meanGiven (Measure.pi fun _ : Fin 1 => unifOn 0 1) (fun x => 2 * x 0) 0 = fun x => 2 * x 0 := by
    unfold meanGiven
    refine condExp_of_stronglyMeasurable (comap_le_inputs 0) ?_ (hL.integrable (by norm_num))
    exact (Measurable.const_mul (comap_measurable fun x : Fin 1 → ℝ => x 0) 2).stronglyMeasurable
  have h2 := C127_linear (Measure.pi fun _ : Fin 1 => unifOn 0 1) 0 0 1 (by norm_num) hlaw (fun x => 2 * x 0) hL 0 2
    (by rw [hlin]; exact ae_of_all _ fun x => by simp) 1
  refine ⟨(evenCuts_equal _ 0 1 0 1 (by norm_num) hlaw one_pos).noAtom, by fun_prop, hL, by rw [hvar]; norm_num, ?_⟩
  rw [h2, hlin, hvar, show (Finset.Icc 1 1).filter Odd = {1} from by decide, Finset.sum_singleton]
  norm_num

end SALib
