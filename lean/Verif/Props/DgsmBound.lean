import Verif.Props.Dgsm
import Verif.Lemmas.DerivMeasure
import Verif.Lemmas.SobolRows
import Mathlib.Probability.Independence.InfinitePi

/-! # The DGSM index and the total index (C98) -/

namespace SALib

open MeasureTheory ProbabilityTheory Spec

variable {d : Nat}

/-- The point of the unit cube that is scaled to `x`. -/
noncomputable def unitPoint (lo hi : Fin d → ℝ) (x : Fin d → ℝ) : List ℝ :=
  List.ofFn fun i => (x i - lo i) / (hi i - lo i)

/-- Every run of sampling, model and analysis whose base points are `rows` succeeds, with a result that satisfies
`Q`: for every problem with these bounds and no distributions, every base sequence that leads to these points after
the skipped ones, every resampling. -/
def EveryRun (lo hi : Fin d → ℝ) (delta : ℝ) (f : List ℝ → ℝ) (rows : List (Fin d → ℝ))
    (Q : DgsmResult ℝ → Prop) : Prop :=
  ∀ (F : Ppf ℝ) (gen : Nat → Nat → Py (Mat ℝ)) (junk : Num ℝ) (pb : Problem ℝ) (skip : Nat) (pre : Mat ℝ)
    (z conf : ℝ) (draws : Nat → List (List Nat)),
    pb.numVars = d → pb.bounds = boundsTable (List.ofFn fun i => (lo i, hi i)) → pb.dists = none →
    gen (rows.length + skip) d = .ok (pre ++ rows.map (unitPoint lo hi)) → pre.length = skip → HasCols d pre →
    0 < conf ∧ conf < 1 → (∀ j < d, ∀ r ∈ draws j, ∀ i ∈ r, i < rows.length) →
    ∃ Xs pb' res, finiteDiffSample F gen junk pb rows.length delta skip = .ok (Xs.map (·.map some), pb') ∧
      dgsmAnalyze Real.sqrt (Real.pi ^ 2) z conf pb' Xs (Xs.map f) draws = .ok res ∧ Q res

theorem EveryRun.mono {lo hi : Fin d → ℝ} {delta : ℝ} {f : List ℝ → ℝ} {rows : List (Fin d → ℝ)}
    {Q Q' : DgsmResult ℝ → Prop} (h : EveryRun lo hi delta f rows Q) (hQ : ∀ res, Q res → Q' res) :
    EveryRun lo hi delta f rows Q' := by
  intro F gen junk pb skip pre z conf draws h1 h2 h3 h4 h5 h6 h7 h8
  obtain ⟨Xs, pb', res, e1, e2, e3⟩ := h F gen junk pb skip pre z conf draws h1 h2 h3 h4 h5 h6 h7 h8
  exact ⟨Xs, pb', res, e1, e2, hQ res e3⟩

theorem npVar_rows {β : Type} (rows : List β) (hr : rows ≠ []) (a : β → ℝ) :
    npVar (rows.map a) = some (rowMean rows (fun r => a r ^ 2) - rowMean rows a ^ 2) := by
  have := npVar_pair rows hr a a
  have hl : (rows.length : ℝ) ≠ 0 := by simpa using hr
  rw [npVar_some _ (by simpa using hr)]
  congr 1
  have h1 : ∀ m : ℝ, ((rows.map a).map fun x => (x - m) ^ 2).sum =
      (rows.map fun r => a r ^ 2).sum - 2 * m * (rows.map a).sum + rows.length * m ^ 2 := by
    intro m
    rw [List.map_map]
    clear hr hl this
    induction rows with
    | nil => simp
    | cons r rs ih =>
      simp only [List.map_cons, List.sum_cons, Function.comp, List.length_cons, Nat.cast_add, Nat.cast_one] at ih ⊢
      linear_combination ih
  rw [h1]
  unfold rowMean
  rw [List.length_map]
  field_simp
  ring

theorem ofFn_set (x : Fin d → ℝ) (j : Fin d) (v : ℝ) : (List.ofFn x).set j v = List.ofFn (setInput x j v) := by
  apply List.ext_getElem
  · simp
  · intro i h1 h2
    simp only [List.length_ofFn] at h2
    rw [List.getElem_set, List.getElem_ofFn, List.getElem_ofFn]
    unfold setInput
    by_cases h : (j : Nat) = i
    · rw [if_pos h, if_pos (Fin.ext h.symm)]
    · rw [if_neg h, if_neg (fun e => h (by rw [← e]))]

theorem ofFn_getD (x : Fin d → ℝ) (j : Fin d) : (List.ofFn x).getD j 0 = x j := by
  simp [List.getD]

theorem applyCols_unitPoint (lo hi : Fin d → ℝ) (h : ∀ i, lo i < hi i) (x : Fin d → ℝ) :
    applyCols ((List.ofFn fun i => (lo i, hi i)).map fun p x => x * (p.2 - p.1) + p.1) (unitPoint lo hi x) =
      List.ofFn x := by
  unfold applyCols unitPoint
  apply List.ext_getElem
  · simp
  · intro i h1 h2
    simp only [List.length_ofFn] at h2
    have hw : hi ⟨i, h2⟩ - lo ⟨i, h2⟩ ≠ 0 := by linarith [h ⟨i, h2⟩]
    simp only [List.getElem_zipWith, List.getElem_map, List.getElem_ofFn]
    field_simp
    ring

/-- The reported numbers in terms of the points. -/
theorem dgsm_run (lo hi : Fin d → ℝ) (h : ∀ i, lo i < hi i) (delta : ℝ) (f : List ℝ → ℝ) (G : (Fin d → ℝ) → ℝ)
    (hf : ∀ x, f (List.ofFn x) = G x) (rows : List (Fin d → ℝ)) (hr : rows ≠ []) (j : Fin d)
    (hstep : ∀ x ∈ rows, stepped (lo j) (hi j) delta (x j) ≠ x j)
    (F : Ppf ℝ) (gen : Nat → Nat → Py (Mat ℝ)) (junk : Num ℝ) (pb : Problem ℝ) (skip : Nat) (pre : Mat ℝ)
    (z conf : ℝ) (draws : Nat → List (List Nat)) (hn : pb.numVars = d)
    (hb : pb.bounds = boundsTable (List.ofFn fun i => (lo i, hi i))) (hd : pb.dists = none)
    (hgen : gen (rows.length + skip) d = .ok (pre ++ rows.map (unitPoint lo hi))) (hpre : pre.length = skip) (hcols : HasCols d pre)
    (hconf : 0 < conf ∧ conf < 1) (hdraws : ∀ j < d, ∀ r ∈ draws j, ∀ i ∈ r, i < rows.length) :
    ∃ Xs pb' res, finiteDiffSample F gen junk pb rows.length delta skip = .ok (Xs.map (·.map some), pb') ∧
      dgsmAnalyze Real.sqrt (Real.pi ^ 2) z conf pb' Xs (Xs.map f) draws = .ok res ∧
      res.vi[(j : Nat)]? = some (some (rowMean rows fun x => stepQuot lo hi delta j G x ^ 2)) ∧
      (rowMean rows (fun x => G x ^ 2) - rowMean rows G ^ 2 ≠ 0 → res.dgsm[(j : Nat)]? =
        some (some ((rowMean rows fun x => stepQuot lo hi delta j G x ^ 2) * (hi j - lo j) ^ 2 /
          ((rowMean rows (fun x => G x ^ 2) - rowMean rows G ^ 2) * Real.pi ^ 2)))) ∧
      res.dgsmConf[(j : Nat)]? = some ((npStd1N Real.sqrt ((draws j).map fun r =>
        npMeanN (r.map fun i => (rows[i]?).map fun x => stepQuot lo hi delta j G x ^ 2))).map (z * ·)) := by
  set bs : List (ℝ × ℝ) := List.ofFn fun i => (lo i, hi i) with hbs
  have hbl : bs.length = d := by simp [hbs]
  have hbne : bs ≠ [] := by
    intro e; rw [e] at hbl; have := j.2; simp at hbl; omega
  have hlegal : ∀ p ∈ bs, p.1 < p.2 := by
    intro p hp
    obtain ⟨i, rfl⟩ := (List.mem_ofFn).mp hp
    exact h i
  set U := pre ++ rows.map (unitPoint lo hi) with hU
  set X := U.map (applyCols (bs.map fun p x => x * (p.2 - p.1) + p.1)) with hX
  have hUc : HasCols d U := by
    intro r hr
    rcases List.mem_append.mp hr with hr | hr
    · exact hcols r hr
    · obtain ⟨x, -, rfl⟩ := List.mem_map.mp hr
      simp [unitPoint]
  have hXc : HasCols d X := by
    intro r hr
    obtain ⟨u, hu, rfl⟩ := List.mem_map.mp hr
    simp [applyCols, hUc u hu, hbl]
  have hXl : X.length = rows.length + skip := by
    rw [hX, hU]; simp [hpre]; omega
  have hdrop : X.drop skip = rows.map List.ofFn := by
    rw [hX, hU, List.map_append, List.drop_append, List.drop_eq_nil_of_le (by simp [hpre]), List.nil_append,
      List.length_map, hpre, Nat.sub_self, List.drop_zero, List.map_map]
    apply List.map_congr_left
    intro x _
    exact applyCols_unitPoint lo hi h x
  have hsc := scaleSamples_legal F pb bs U hb hd hbne hlegal
  rw [hbl] at hsc
  set lo' : Nat → ℝ := fun k => if hk : k < d then lo ⟨k, hk⟩ else 0 with hlo'
  set hi' : Nat → ℝ := fun k => if hk : k < d then hi ⟨k, hk⟩ else 0 with hhi'
  have hlo : lo' j = lo j := by simp [hlo']
  have hhi : hi' j = hi j := by simp [hhi']
  obtain ⟨Xs, res, hs, ha, hval⟩ := dgsm_sampled_full F gen junk pb _ rows.length delta skip U X lo' hi'
    (by rw [hn]; exact hgen) (by rw [hn]; exact hsc) hXl (by rw [hn]; exact hXc)
    (by
      intro k hk
      rw [hn] at hk
      refine ⟨[], ?_⟩
      rw [hb, boundsTable, List.getElem?_map, hbs, List.getElem?_eq_getElem (by simpa using hk), List.getElem_ofFn]
      simp [hlo', hhi', hk])
    Real.sqrt (Real.pi ^ 2) z conf hconf draws (by rw [hn]; exact hdraws) f
  refine ⟨Xs, _, res, hs, ha, ?_⟩
  obtain ⟨h1, -, h3, h4⟩ := hval j (by rw [hn]; exact j.2)
  have hqx : ∀ x ∈ rows, fdQuot lo' hi' delta f j (List.ofFn x) = some (stepQuot lo hi delta j G x ^ 2) := by
    intro x hx
    have hne := sub_ne_zero.mpr (hstep x hx)
    unfold fdQuot
    rw [hlo, hhi, ofFn_getD, ofFn_set, hf, hf]
    have e : clip (lo j) (hi j) (x j * (1 + delta)) = stepped (lo j) (hi j) delta (x j) := rfl
    rw [e, npDiv_some _ _ hne]
    rfl
  have hq : (X.drop skip).map (fdQuot lo' hi' delta f j) =
      (rows.map fun x => stepQuot lo hi delta j G x ^ 2).map some := by
    rw [hdrop, List.map_map, List.map_map]
    exact List.map_congr_left hqx
  have hy : (X.drop skip).map f = rows.map G := by
    rw [hdrop, List.map_map]
    exact List.map_congr_left fun x _ => hf x
  have hm : npMeanN ((X.drop skip).map (fdQuot lo' hi' delta f j)) =
      some (rowMean rows fun x => stepQuot lo hi delta j G x ^ 2) := by
    rw [hq, npMeanN_some _ (by simpa using hr), List.length_map]
    rfl
  rw [hm] at h1 h3
  rw [hy, npVar_rows rows hr G] at h3
  refine ⟨h1, ?_, ?_⟩
  · intro hvar
    rw [h3, hlo, hhi]
    simp only [Option.bind_some]
    rw [npDiv_some _ _ (mul_ne_zero hvar (by positivity))]
  · rw [h4]
    congr 3
    apply List.map_congr_left
    intro r hr
    congr 1
    apply List.map_congr_left
    intro i hi
    have hlt := hdraws j j.2 r hr i hi
    rw [hdrop, List.getD, List.getElem?_map, List.getElem?_eq_getElem hlt]
    exact hqx _ (List.getElem_mem hlt)

/-- The reported numbers in terms of the points. -/
theorem dgsm_points (lo hi : Fin d → ℝ) (h : ∀ i, lo i < hi i) (delta : ℝ) (f : List ℝ → ℝ) (G : (Fin d → ℝ) → ℝ)
    (hf : ∀ x, f (List.ofFn x) = G x) (rows : List (Fin d → ℝ)) (hr : rows ≠ []) (j : Fin d)
    (hstep : ∀ x ∈ rows, stepped (lo j) (hi j) delta (x j) ≠ x j)
    (hvar : rowMean rows (fun x => G x ^ 2) - rowMean rows G ^ 2 ≠ 0) :
    EveryRun lo hi delta f rows fun res =>
      res.vi[(j : Nat)]? = some (some (rowMean rows fun x => stepQuot lo hi delta j G x ^ 2)) ∧
      res.dgsm[(j : Nat)]? = some (some ((rowMean rows fun x => stepQuot lo hi delta j G x ^ 2) * (hi j - lo j) ^ 2 /
        ((rowMean rows (fun x => G x ^ 2) - rowMean rows G ^ 2) * Real.pi ^ 2))) := by
  intro F gen junk pb skip pre z conf draws hn hb hd hgen hpre hcols hconf hdraws
  obtain ⟨Xs, pb', res, h1, h2, h3, h4, -⟩ := dgsm_run lo hi h delta f G hf rows hr j hstep F gen junk pb skip pre z conf draws hn hb
    hd hgen hpre hcols hconf hdraws
  exact ⟨Xs, pb', res, h1, h2, h3, h4 hvar⟩

/-- **C98**, what the analysis estimates.  With independent uniform base points and a step that is not zero, `vi` and
`dgsm` converge, with probability one, to the values of the difference quotients over the steps. -/
theorem C98_estimates (lo hi : Fin d → ℝ) (h : ∀ i, lo i < hi i) (delta : ℝ) (hdelta : delta ≠ 0)
    (f : List ℝ → ℝ) (G : (Fin d → ℝ) → ℝ) (hf : ∀ x, f (List.ofFn x) = G x) (hGm : Measurable G)
    (hG : MemLp G 2 (Measure.pi fun i => unifOn (lo i) (hi i)))
    (hV : 0 < Var[G; Measure.pi fun i => unifOn (lo i) (hi i)]) (j : Fin d)
    (hint : Integrable (fun x => stepQuot lo hi delta j G x ^ 2) (Measure.pi fun i => unifOn (lo i) (hi i)))
    {Ω : Type} [MeasurableSpace Ω] (P : Measure Ω) (Z : ℕ → Ω → Fin d → ℝ) (hZ : UniformPoints lo hi P Z) :
    ∀ᵐ ω ∂P, ∀ ε > 0, ∃ N0, ∀ N ≥ N0, EveryRun lo hi delta f (firstRows Z N ω) fun res =>
      (∃ v, res.vi[(j : Nat)]? = some (some v) ∧
        |v - ∫ x, stepQuot lo hi delta j G x ^ 2 ∂Measure.pi fun i => unifOn (lo i) (hi i)| < ε) ∧
      ∃ v, res.dgsm[(j : Nat)]? = some (some v) ∧ |v - derivIndex lo hi j G (stepQuot lo hi delta j G)| < ε := by
  have := fun i => isProb_unifOn (h i)
  have hgood : ∀ᵐ ω ∂P, ∀ i, stepped (lo j) (hi j) delta (Z i ω j) ≠ Z i ω j := by
    refine ae_all_iff.mpr fun i => ?_
    have hbox : ∀ᵐ x ∂Measure.pi fun i => unifOn (lo i) (hi i), stepped (lo j) (hi j) delta (x j) ≠ x j := by
      filter_upwards [ae_inBox h, ae_pi_ne j h 0, ae_pi_ne j h (lo j), ae_pi_ne j h (hi j)] with x hx h0 h1 h2
      exact stepped_ne ⟨lt_of_le_of_ne (hx j).1 (Ne.symm h1), lt_of_le_of_ne (hx j).2 h2⟩ h0 hdelta
    rw [← hZ.law i] at hbox
    exact ae_of_ae_map (hZ.meas i).aemeasurable hbox
  have t1 := tendsto_rowMean hZ.meas hZ.law hZ.indep (fun x => stepQuot lo hi delta j G x ^ 2)
    ((measurable_stepQuot j delta G hGm).pow_const 2) hint
  have t2 := tendsto_rowMean hZ.meas hZ.law hZ.indep (fun x => G x ^ 2) (hGm.pow_const 2) hG.integrable_sq
  have t3 := tendsto_rowMean hZ.meas hZ.law hZ.indep G hGm (hG.integrable one_le_two)
  filter_upwards [hgood, t1, t2, t3] with ω hg h1 h2 h3
  have hvar : Filter.Tendsto (fun N => rowMean (firstRows Z N ω) (fun x => G x ^ 2) - rowMean (firstRows Z N ω) G ^ 2)
      Filter.atTop (nhds (Var[G; Measure.pi fun i => unifOn (lo i) (hi i)])) := by
    rw [variance_eq_sub hG]
    exact h2.sub (h3.pow 2)
  have hidx := (h1.mul_const ((hi j - lo j) ^ 2)).div (hvar.mul_const (Real.pi ^ 2))
    (mul_ne_zero hV.ne' (by positivity))
  intro ε hε
  have near : ∀ (u : ℕ → ℝ) (l : ℝ), Filter.Tendsto u Filter.atTop (nhds l) →
      ∀ᶠ N in Filter.atTop, |u N - l| < ε := by
    intro u l h
    have := Metric.tendsto_nhds.mp h ε hε
    simpa only [Real.dist_eq] using this
  obtain ⟨N0, hN0⟩ := Filter.eventually_atTop.mp
    (((hvar.eventually_ne hV.ne').and (near _ _ h1)).and ((near _ _ hidx).and (Filter.eventually_gt_atTop 0)))
  refine ⟨N0, fun N hN => ?_⟩
  obtain ⟨⟨n1, n2⟩, n3, n4⟩ := hN0 N hN
  refine (dgsm_points lo hi h delta f G hf (firstRows Z N ω)
    (by intro e; have := congrArg List.length e; simp [firstRows] at this; omega) j ?_ n1).mono ?_
  · intro x hx
    obtain ⟨i, -, rfl⟩ := List.mem_map.mp hx
    exact hg i
  · rintro res ⟨r1, r2⟩
    exact ⟨⟨_, r1, n2⟩, _, r2, n3⟩

/-- The total index is at most the derivative-based index of the derivative. -/
theorem C98_derivative (lo hi : Fin d → ℝ) (h : ∀ i, lo i < hi i) (G G' : (Fin d → ℝ) → ℝ) (hGm : Measurable G)
    (hG' : Measurable G') (hG'2 : MemLp G' 2 (Measure.pi fun i => unifOn (lo i) (hi i))) (j : Fin d)
    (hP : PartialDeriv lo hi j G G') : totalIndex lo hi j G ≤ derivIndex lo hi j G G' := by
  have key := totalEffect_le_deriv j h G G' hGm hG' hG'2 hP
  unfold totalIndex derivIndex
  have hv : 0 ≤ Var[G; Measure.pi fun i => unifOn (lo i) (hi i)] := variance_nonneg _ _
  calc _ ≤ _ := div_le_div_of_nonneg_right key hv
    _ = _ := by
      rw [mul_comm (Var[G; Measure.pi fun i => unifOn (lo i) (hi i)]), ← div_div]
      congr 1
      ring

/-- The index of the quotients converges to the index of the derivative as the step shrinks. -/
theorem tendsto_derivIndex (lo hi : Fin d → ℝ) (h : ∀ i, lo i < hi i) (G G' : (Fin d → ℝ) → ℝ) (hGm : Measurable G)
    (j : Fin d) (hP : PartialDeriv lo hi j G G') (K : ℝ) (hK : ∀ x, InBox lo hi x → |G' x| ≤ K) :
    Filter.Tendsto (fun delta => derivIndex lo hi j G (stepQuot lo hi delta j G)) (nhdsWithin 0 {0}ᶜ)
      (nhds (derivIndex lo hi j G G')) := by
  unfold derivIndex
  exact ((tendsto_mean_stepQuot j h G G' hP hGm K hK).mul_const _).div_const _

/-- **C98 (partial).** If the derivative of the model with respect to input `j` is bounded, and continuous in input
`j`, then for every `ε` and every step that is small enough and not zero: with independent uniform base points, with
probability one, from some size on every run reports a `dgsm` above the total index less `ε`.
Missing: the bound for the step that is used (`C98_step_fail`). -/
theorem C98_partial (lo hi : Fin d → ℝ) (h : ∀ i, lo i < hi i)
    (f : List ℝ → ℝ) (G G' : (Fin d → ℝ) → ℝ) (hf : ∀ x, f (List.ofFn x) = G x) (hGm : Measurable G)
    (hG'm : Measurable G') (hG : MemLp G 2 (Measure.pi fun i => unifOn (lo i) (hi i)))
    (hV : 0 < Var[G; Measure.pi fun i => unifOn (lo i) (hi i)]) (j : Fin d)
    (hP : PartialDeriv lo hi j G G') (K : ℝ) (hK : ∀ x, InBox lo hi x → |G' x| ≤ K)
    {Ω : Type} [MeasurableSpace Ω] (P : Measure Ω) (Z : ℕ → Ω → Fin d → ℝ) (hZ : UniformPoints lo hi P Z) :
    ∀ ε > 0, ∃ delta0 > 0, ∀ delta, delta ≠ 0 → |delta| < delta0 →
      ∀ᵐ ω ∂P, ∃ N0, ∀ N ≥ N0, EveryRun lo hi delta f (firstRows Z N ω) fun res =>
        ∃ v, res.dgsm[(j : Nat)]? = some (some v) ∧ totalIndex lo hi j G - ε < v := by
  have := fun i => isProb_unifOn (h i)
  intro ε hε
  have hbd : ∀ (u : (Fin d → ℝ) → ℝ), Measurable u → (∀ x, InBox lo hi x → |u x| ≤ K) →
      MemLp u 2 (Measure.pi fun i => unifOn (lo i) (hi i)) := by
    intro u hu hb
    refine MemLp.of_bound hu.aestronglyMeasurable K ?_
    filter_upwards [ae_inBox h] with x hx
    exact hb x hx
  have hle := C98_derivative lo hi h G G' hGm hG'm (hbd G' hG'm hK) j hP
  have ht := tendsto_derivIndex lo hi h G G' hGm j hP K hK
  have hev := Metric.tendsto_nhds.mp ht (ε / 2) (by linarith)
  obtain ⟨delta0, hd0, hball⟩ := Metric.mem_nhdsWithin_iff.mp hev
  refine ⟨delta0, hd0, fun delta hne hlt => ?_⟩
  have hclose : dist (derivIndex lo hi j G (stepQuot lo hi delta j G)) (derivIndex lo hi j G G') < ε / 2 :=
    hball ⟨by simpa [Real.dist_eq] using hlt, hne⟩
  rw [Real.dist_eq, abs_lt] at hclose
  have hint := (hbd _ (measurable_stepQuot j delta G hGm) fun x hx => abs_stepQuot_le j G G' hP K hK delta x hx).integrable_sq
  filter_upwards [C98_estimates lo hi h delta hne f G hf hGm hG hV j hint P Z hZ] with ω hω
  obtain ⟨N0, hN0⟩ := hω (ε / 2) (by linarith)
  refine ⟨N0, fun N hN => (hN0 N hN).mono ?_⟩
  rintro res ⟨-, v, hv, hvε⟩
  rw [abs_lt] at hvε
  exact ⟨v, hv, by linarith [hvε.1, hclose.1]⟩

/-- **C98**, models that are affine in an input, whatever the step: `dgsm` converges to 12/π² times the total index;
so, if the total index is not zero, it is above the total index from some size on. -/
theorem C98_affine (lo hi : Fin d → ℝ) (h : ∀ i, lo i < hi i) (delta : ℝ) (hdelta : delta ≠ 0)
    (f : List ℝ → ℝ) (G : (Fin d → ℝ) → ℝ) (hf : ∀ x, f (List.ofFn x) = G x) (hGm : Measurable G)
    (hG : MemLp G 2 (Measure.pi fun i => unifOn (lo i) (hi i)))
    (hV : 0 < Var[G; Measure.pi fun i => unifOn (lo i) (hi i)]) (j : Fin d)
    (a b : (Fin d → ℝ) → ℝ) (hb : Measurable b) (hb2 : MemLp b 2 (Measure.pi fun i => unifOn (lo i) (hi i)))
    (hform : ∀ x, G x = a x + b x * x j) (hai : ∀ x t, a (setInput x j t) = a x)
    (hbi : ∀ x t, b (setInput x j t) = b x)
    {Ω : Type} [MeasurableSpace Ω] (P : Measure Ω) (Z : ℕ → Ω → Fin d → ℝ) (hZ : UniformPoints lo hi P Z) :
    (∀ᵐ ω ∂P, ∀ ε > 0, ∃ N0, ∀ N ≥ N0, EveryRun lo hi delta f (firstRows Z N ω) fun res =>
      ∃ v, res.dgsm[(j : Nat)]? = some (some v) ∧ |v - 12 / Real.pi ^ 2 * totalIndex lo hi j G| < ε) ∧
    (0 < totalIndex lo hi j G → ∀ᵐ ω ∂P, ∃ N0, ∀ N ≥ N0, EveryRun lo hi delta f (firstRows Z N ω) fun res =>
      ∃ v, res.dgsm[(j : Nat)]? = some (some v) ∧ totalIndex lo hi j G < v) := by
  have := fun i => isProb_unifOn (h i)
  have hq : ∀ᵐ x ∂Measure.pi fun i => unifOn (lo i) (hi i), stepQuot lo hi delta j G x ^ 2 = b x ^ 2 := by
    filter_upwards [ae_inBox h, ae_pi_ne j h 0, ae_pi_ne j h (lo j), ae_pi_ne j h (hi j)] with x hx h0 h1 h2
    have hne := sub_ne_zero.mpr
      (stepped_ne ⟨lt_of_le_of_ne (hx j).1 (Ne.symm h1), lt_of_le_of_ne (hx j).2 h2⟩ h0 hdelta)
    unfold stepQuot
    rw [hform, hform x, hai, hbi, setInput_at]
    congr 1
    rw [div_eq_iff hne]
    ring
  have hidx : derivIndex lo hi j G (stepQuot lo hi delta j G) = 12 / Real.pi ^ 2 * totalIndex lo hi j G := by
    unfold derivIndex totalIndex
    rw [integral_congr_ae hq, totalEffect_affine j h G hGm a b hb hform hai hbi]
    have := hV.ne'
    field_simp
  have hint : Integrable (fun x => stepQuot lo hi delta j G x ^ 2) (Measure.pi fun i => unifOn (lo i) (hi i)) :=
    hb2.integrable_sq.congr (hq.mono fun x hx => hx.symm)
  have key := C98_estimates lo hi h delta hdelta f G hf hGm hG hV j hint P Z hZ
  rw [hidx] at key
  constructor
  · filter_upwards [key] with ω hω ε hε
    obtain ⟨N0, hN0⟩ := hω ε hε
    exact ⟨N0, fun N hN => (hN0 N hN).mono fun res hr => hr.2⟩
  · intro hpos
    have h12 : 1 < 12 / Real.pi ^ 2 := by
      rw [lt_div_iff₀ (by positivity)]
      nlinarith [Real.pi_lt_d2, Real.pi_pos]
    filter_upwards [key] with ω hω
    obtain ⟨N0, hN0⟩ := hω ((12 / Real.pi ^ 2 - 1) * totalIndex lo hi j G) (mul_pos (by linarith) hpos)
    refine ⟨N0, fun N hN => (hN0 N hN).mono ?_⟩
    rintro res ⟨-, v, hv, hvε⟩
    rw [abs_lt] at hvε
    exact ⟨v, hv, by linarith [hvε.1]⟩

/-- Independent uniform points exist. -/
theorem uniformPoints_exist (lo hi : Fin d → ℝ) (h : ∀ i, lo i < hi i) :
    UniformPoints lo hi (Measure.infinitePi fun _ : ℕ => Measure.pi fun i => unifOn (lo i) (hi i)) fun i ω => ω i := by
  have := fun i => isProb_unifOn (h i)
  exact {
    meas := fun i => measurable_pi_apply i
    indep := iIndepFun_infinitePi (X := fun _ ω => ω) fun _ => measurable_id
    law := fun i => Measure.infinitePi_map_eval _ i }

/-! ### The default step on a narrow range -/

/-- The squared distance of the only input from 101. -/
def parabola (x : Fin 1 → ℝ) : ℝ := (x 0 - 101) ^ 2

theorem measurable_parabola : Measurable parabola :=
  ((measurable_pi_apply 0).sub_const 101).pow_const 2

theorem integral_one (g : ℝ → ℝ) (hg : Measurable g) :
    ∫ x, g (x 0) ∂(Measure.pi fun _ : Fin 1 => unifOn 100 101) = ∫ t in (100 : ℝ)..101, g t := by
  have := isProb_unifOn (show (100 : ℝ) < 101 by norm_num)
  have hmp := measurePreserving_eval (fun _ : Fin 1 => unifOn (100 : ℝ) 101) 0
  have e := integral_map (μ := Measure.pi fun _ : Fin 1 => unifOn 100 101) hmp.measurable.aemeasurable
    (f := g) hg.aestronglyMeasurable
  rw [hmp.map_eq, integral_unifOn (by norm_num)] at e
  rw [show (101 - 100 : ℝ)⁻¹ = 1 by norm_num, one_mul] at e
  exact e.symm

theorem integral_distance (n : Nat) : ∫ t in (100 : ℝ)..101, (t - 101) ^ n = -(-1) ^ (n + 1) / (n + 1) := by
  have := intervalIntegral.integral_comp_sub_right (fun t : ℝ => t ^ n) (101 : ℝ) (a := 100) (b := 101)
  rw [this, integral_pow]
  norm_num

theorem memLp_parabola : MemLp parabola 2 (Measure.pi fun _ : Fin 1 => unifOn 100 101) := by
  have := isProb_unifOn (show (100 : ℝ) < 101 by norm_num)
  refine MemLp.of_bound measurable_parabola.aestronglyMeasurable 1 ?_
  filter_upwards [ae_inBox (lo := fun _ : Fin 1 => 100) (hi := fun _ => 101) (fun _ => by norm_num)] with x hx
  have := hx 0
  unfold parabola
  rw [Real.norm_eq_abs, abs_of_nonneg (sq_nonneg _)]
  nlinarith [this.1, this.2]

theorem variance_parabola : Var[parabola; Measure.pi fun _ : Fin 1 => unifOn 100 101] = 4 / 45 := by
  have := isProb_unifOn (show (100 : ℝ) < 101 by norm_num)
  rw [variance_eq_sub memLp_parabola]
  have e1 : ∫ x, (parabola ^ 2) x ∂(Measure.pi fun _ : Fin 1 => unifOn 100 101) = 1 / 5 := by
    have : ∀ x, (parabola ^ 2) x = (x 0 - 101) ^ 4 := by
      intro x; simp only [Pi.pow_apply, parabola]; ring
    simp only [this]
    rw [integral_one (fun t => (t - 101) ^ 4) (by fun_prop), integral_distance]
    norm_num
  have e2 : ∫ x, parabola x ∂(Measure.pi fun _ : Fin 1 => unifOn 100 101) = 1 / 3 := by
    unfold parabola
    rw [integral_one (fun t => (t - 101) ^ 2) (by fun_prop), integral_distance]
    norm_num
  rw [e1, e2]
  norm_num

/-- The only input is responsible for all of the variance. -/
theorem totalIndex_parabola : totalIndex (fun _ : Fin 1 => 100) (fun _ => 101) 0 parabola = 1 := by
  have := isProb_unifOn (show (100 : ℝ) < 101 by norm_num)
  unfold totalIndex totalEffect
  have e : ∀ x y : Fin 1 → ℝ, mix (onlyInput 0) x y = y := by
    intro x y
    funext i
    rw [mix_onlyInput, Fin.fin_one_eq_zero i]
    simp [setInput]
  simp only [e]
  have : (fun y => parabola y) = parabola := rfl
  rw [this, integral_const, variance_parabola]
  norm_num

/-- All steps end at the upper bound. -/
theorem stepQuot_parabola (x : Fin 1 → ℝ) (hx : InBox (fun _ : Fin 1 => 100) (fun _ => 101) x) (hne : x 0 ≠ 101) :
    stepQuot (fun _ => 100) (fun _ => 101) (1 / 100) 0 parabola x ^ 2 = (x 0 - 101) ^ 2 := by
  have h0 := (hx 0).1
  have e : stepped 100 101 (1 / 100) (x 0) = 101 := by
    unfold stepped
    rw [min_eq_right (by linarith), max_eq_left (by norm_num)]
  have hd : (101 : ℝ) - x 0 ≠ 0 := sub_ne_zero.mpr (Ne.symm hne)
  unfold stepQuot
  rw [e]
  unfold parabola
  rw [setInput_at]
  have : ((101 - 101) ^ 2 - (x 0 - 101) ^ 2) / (101 - x 0) = -(101 - x 0) := by
    rw [div_eq_iff hd]; ring
  rw [this]
  ring

/-- **C98**, the default step.  One input between 100 and 101 and a parabola, sampled with the default step: every step
ends at the upper bound, and with probability one `dgsm` stays below 1/2 from some size on, although the total index
is 1. -/
theorem C98_step_fail :
    totalIndex (fun _ : Fin 1 => 100) (fun _ => 101) 0 parabola = 1 ∧
    ∀ {Ω : Type} [MeasurableSpace Ω] (P : Measure Ω) (Z : ℕ → Ω → Fin 1 → ℝ),
      UniformPoints (fun _ => 100) (fun _ => 101) P Z →
      ∀ᵐ ω ∂P, ∃ N0, ∀ N ≥ N0, EveryRun (fun _ => 100) (fun _ => 101) (1 / 100)
        (fun xs => (xs.getD 0 0 - 101) ^ 2) (firstRows Z N ω) fun res =>
          ∃ v, res.dgsm[0]? = some (some v) ∧ v < 1 / 2 := by
  refine ⟨totalIndex_parabola, ?_⟩
  intro Ω _ P Z hZ
  have := isProb_unifOn (show (100 : ℝ) < 101 by norm_num)
  have hlt : ∀ _ : Fin 1, (100 : ℝ) < 101 := fun _ => by norm_num
  have hq : ∀ᵐ x ∂Measure.pi fun _ : Fin 1 => unifOn 100 101,
      stepQuot (fun _ => 100) (fun _ => 101) (1 / 100) 0 parabola x ^ 2 = parabola x := by
    filter_upwards [ae_inBox hlt, ae_pi_ne 0 hlt 101] with x hx hne
    exact stepQuot_parabola x hx hne
  have hm : ∫ x, stepQuot (fun _ => 100) (fun _ => 101) (1 / 100) 0 parabola x ^ 2
      ∂(Measure.pi fun _ : Fin 1 => unifOn 100 101) = 1 / 3 := by
    rw [integral_congr_ae hq]
    unfold parabola
    rw [integral_one (fun t => (t - 101) ^ 2) (by fun_prop), integral_distance]
    norm_num
  have hint : Integrable (fun x => stepQuot (fun _ : Fin 1 => 100) (fun _ => 101) (1 / 100) 0 parabola x ^ 2)
      (Measure.pi fun _ : Fin 1 => unifOn 100 101) :=
    (memLp_parabola.integrable one_le_two).congr (hq.mono fun x hx => hx.symm)
  have hidx : derivIndex (fun _ : Fin 1 => 100) (fun _ => 101) 0 parabola
      (stepQuot (fun _ => 100) (fun _ => 101) (1 / 100) 0 parabola) < 2 / 5 := by
    unfold derivIndex
    rw [hm, variance_parabola, div_lt_iff₀ (by positivity)]
    nlinarith [Real.pi_gt_d2]
  filter_upwards [C98_estimates (fun _ => 100) (fun _ => 101) hlt (1 / 100) (by norm_num)
    (fun xs => (xs.getD 0 0 - 101) ^ 2) parabola (by intro x; simp [parabola]) measurable_parabola memLp_parabola
    (by rw [variance_parabola]; norm_num) 0 hint P Z hZ] with ω hω
  obtain ⟨N0, hN0⟩ := hω (1 / 10) (by norm_num)
  refine ⟨N0, fun N hN => (hN0 N hN).mono ?_⟩
  rintro res ⟨-, v, hv, hvε⟩
  rw [abs_lt] at hvε
  exact ⟨v, hv, by linarith [hvε.2]⟩

/-- The hypotheses of `C98_partial` hold for the parabola: a step that is small enough gives a `dgsm` above 1 - ε. -/
example : ∀ ε > 0, ∃ delta0 > 0, ∀ delta : ℝ, delta ≠ 0 → |delta| < delta0 →
    ∀ᵐ ω ∂(Measure.infinitePi fun _ : ℕ => Measure.pi fun _ : Fin 1 => unifOn 100 101), ∃ N0, ∀ N ≥ N0,
      EveryRun (fun _ => 100) (fun _ => 101) delta (fun xs => (xs.getD 0 0 - 101) ^ 2)
        (firstRows (fun i ω => ω i) N ω) fun res => ∃ v, res.dgsm[(0 : Nat)]? = some (some v) ∧ 1 - ε < v := by
  have := C98_partial (fun _ : Fin 1 => 100) (fun _ => 101) (fun _ => by norm_num)
    (fun xs => (xs.getD 0 0 - 101) ^ 2) parabola (fun x => 2 * (x 0 - 101)) (by intro x; simp [parabola])
    measurable_parabola (((measurable_pi_apply 0).sub_const 101).const_mul 2) memLp_parabola
    (by rw [variance_parabola]; norm_num) 0
    { deriv := by
        intro x _
        have : (fun t => parabola (setInput x 0 t)) = fun t => (t - 101) ^ 2 := by
          funext t; simp [parabola, setInput]
        rw [this]
        have h := (((hasDerivAt_id (x 0)).sub_const 101).pow 2).hasDerivWithinAt (s := Set.Icc 100 101)
        refine h.congr_deriv ?_
        norm_num
      cont := by
        intro x _
        have : (fun t : ℝ => 2 * (setInput x 0 t 0 - 101)) = fun t => 2 * (t - 101) := by
          funext t; simp [setInput]
        rw [this]
        fun_prop }
    2 (by
      intro x hx
      have := hx 0
      rw [abs_le]
      constructor <;> linarith [this.1, this.2])
    _ _ (uniformPoints_exist _ _ fun _ => by norm_num)
  rw [totalIndex_parabola] at this
  exact this

/-- The hypotheses of `C98_affine` hold for a linear model with two inputs of which one matters, and runs as in
`EveryRun` exist. -/
example (F : Ppf ℝ) : ∀ᵐ ω ∂(Measure.infinitePi fun _ : ℕ => Measure.pi fun _ : Fin 2 => unifOn 1 3), ∃ N0, ∀ N ≥ N0,
    ∃ Xs pb' res, finiteDiffSample F
        (fun _ _ => .ok ((firstRows (fun i ω => ω i) N ω).map (unitPoint (fun _ => 1) (fun _ => 3)))) none
        { names := ["x", "y"], bounds := [[1, 3], [1, 3]] } N (1 / 100) 0 = .ok (Xs.map (·.map some), pb') ∧
      dgsmAnalyze Real.sqrt (Real.pi ^ 2) 2 (19 / 20) pb' Xs (Xs.map fun xs => 5 * xs.getD 0 0)
        (fun _ => []) = .ok res ∧
      ∃ v, res.dgsm[(0 : Nat)]? = some (some v) ∧
        |v - 12 / Real.pi ^ 2 * totalIndex (fun _ : Fin 2 => 1) (fun _ => 3) 0 (fun x => 5 * x 0)| < 1 / 100 := by
  have hlt : ∀ _ : Fin 2, (1 : ℝ) < 3 := fun _ => by norm_num
  have := isProb_unifOn (hlt 0)
  have hm : Measurable fun x : Fin 2 → ℝ => 5 * x 0 := (measurable_pi_apply 0).const_mul 5
  have hvar : Var[fun x : Fin 2 → ℝ => 5 * x 0; Measure.pi fun _ : Fin 2 => unifOn (1 : ℝ) 3] = 25 / 3 := by
    have hmp := measurePreserving_eval (fun _ : Fin 2 => unifOn (1 : ℝ) 3) 0
    have e := hmp.variance_fun_comp (f := fun t : ℝ => 0 + 5 * t) (by fun_prop)
    rw [variance_unifOn (hlt 0)] at e
    simp only [Function.eval, zero_add] at e
    rw [e]
    norm_num
  have key := (C98_affine (fun _ : Fin 2 => 1) (fun _ => 3) hlt (1 / 100) (by norm_num)
    (fun xs => 5 * xs.getD 0 0) (fun x => 5 * x 0) (by intro x; simp) hm
    (by
      refine MemLp.of_bound hm.aestronglyMeasurable 15 ?_
      filter_upwards [ae_inBox (lo := fun _ : Fin 2 => 1) (hi := fun _ => 3) hlt] with x hx
      have := hx 0
      rw [Real.norm_eq_abs, abs_le]
      constructor <;> linarith [this.1, this.2])
    (by rw [hvar]; norm_num) 0 (fun _ => 0) (fun _ => 5) measurable_const (memLp_const _) (by intro x; ring)
    (fun _ _ => rfl) (fun _ _ => rfl) _ _ (uniformPoints_exist _ _ hlt)).1
  filter_upwards [key] with ω hω
  obtain ⟨N0, hN0⟩ := hω (1 / 100) (by norm_num)
  refine ⟨N0, fun N hN => ?_⟩
  have hlen : (firstRows (fun i (ω : ℕ → Fin 2 → ℝ) => ω i) N ω).length = N := by simp [firstRows]
  have run := hN0 N hN F
    (fun _ _ => .ok ((firstRows (fun i ω => ω i) N ω).map (unitPoint (fun _ => 1) (fun _ => 3)))) none
    { names := ["x", "y"], bounds := [[1, 3], [1, 3]] } 0 [] 2 (19 / 20) (fun _ => []) rfl
    (by simp [boundsTable]) rfl rfl rfl (by simp [HasCols]) (by norm_num) (by simp)
  rw [hlen] at run
  exact run

end SALib
