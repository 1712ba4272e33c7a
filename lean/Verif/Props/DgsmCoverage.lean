import Verif.Lemmas.WidthLimits
import Verif.Props.DgsmBound
import Verif.Props.MorrisCoverage
import Verif.Props.SobolCoverage

/-!
# C143: how often the DGSM confidence intervals contain what they are about
-/

namespace SALib

open MeasureTheory ProbabilityTheory Spec Filter Topology

variable {d : Nat}

/-- The variance of the squared difference quotients. -/
noncomputable def Spec.quotVar (lo hi : Fin d → ℝ) (delta : ℝ) (j : Fin d) (G : (Fin d → ℝ) → ℝ) : ℝ :=
  Var[fun x => stepQuot lo hi delta j G x ^ 2; Measure.pi fun i => unifOn (lo i) (hi i)]

/-- What one point contributes to the error of the derivative-based index, to first order. -/
noncomputable def Spec.indexTerm (lo hi : Fin d → ℝ) (delta : ℝ) (j : Fin d) (G : (Fin d → ℝ) → ℝ) (x : Fin d → ℝ) : ℝ :=
  (stepQuot lo hi delta j G x ^ 2 * (hi j - lo j) ^ 2 / Real.pi ^ 2 -
    derivIndex lo hi j G (stepQuot lo hi delta j G) * (G x - ∫ y, G y ∂Measure.pi fun i => unifOn (lo i) (hi i)) ^ 2) /
      Var[G; Measure.pi fun i => unifOn (lo i) (hi i)]

/-- `1 / N` times this is the variance of the estimated index, to first order. -/
noncomputable def Spec.indexVar (lo hi : Fin d → ℝ) (delta : ℝ) (j : Fin d) (G : (Fin d → ℝ) → ℝ) : ℝ :=
  ∫ x, indexTerm lo hi delta j G x ^ 2 ∂Measure.pi fun i => unifOn (lo i) (hi i)

/-- Sampling `N` points and their steps, running the model and analysing the outputs succeeds, and the reported number of input `j` chosen by
`value`, with the reported half width of input `j`, covers `v`. -/
def Spec.RunCovers (lo hi : Fin d → ℝ) (delta : ℝ) (f : List ℝ → ℝ) (j : Fin d) (z conf : ℝ) (N skip : Nat) (F : Ppf ℝ) (junk : Num ℝ)
    (pb : Problem ℝ) (gen : Nat → Nat → Py (Mat ℝ)) (draws : Nat → List (List Nat)) (value : DgsmResult ℝ → List (Num ℝ)) (v : ℝ) : Prop :=
  ∃ Xs pb' res, finiteDiffSample F gen junk pb N delta skip = .ok (Xs.map (·.map some), pb') ∧
    dgsmAnalyze Real.sqrt (Real.pi ^ 2) z conf pb' Xs (Xs.map f) draws = .ok res ∧
    Covers (value res)[(j : Nat)]? res.dgsmConf[(j : Nat)]? v

theorem dgsm_err (b V θ μ : ℝ) (hV : V ≠ 0) (rows : List (Fin d → ℝ)) (hr : rows ≠ []) (G q : (Fin d → ℝ) → ℝ) :
    let x0 := rowMean rows fun x => (q x ^ 2 * b ^ 2 / Real.pi ^ 2 - θ * (G x - μ) ^ 2) / V
    let x2 := rowMean rows fun x => G x - μ
    let x3 := rowMean rows fun x => (G x - μ) ^ 2 - V
    rowMean rows (fun x => G x ^ 2) - rowMean rows G ^ 2 = V + x3 - x2 ^ 2 ∧
      (V + x3 - x2 ^ 2 ≠ 0 →
        rowMean rows (fun x => q x ^ 2) * b ^ 2 / ((rowMean rows (fun x => G x ^ 2) - rowMean rows G ^ 2) * Real.pi ^ 2) - θ =
          ratioErr V θ x0 0 x2 x3 0) := by
  intro x0 x2 x3
  have c1 := rowMean_const rows hr
  have e2 : x2 = rowMean rows G - μ := by
    have := rowMean_lin rows G (fun _ => μ) 1 (-1)
    rw [c1] at this
    rw [show rowMean rows G - μ = 1 * rowMean rows G + -1 * μ by ring, ← this]
    show rowMean rows _ = _
    congr 1; funext p; ring
  have ed : rowMean rows (fun x => (G x - μ) ^ 2) = rowMean rows (fun x => G x ^ 2) - 2 * μ * rowMean rows G + μ ^ 2 := by
    have a1 := rowMean_lin rows G (fun _ => μ ^ 2) (-2 * μ) 1
    rw [c1] at a1
    have a2 := rowMean_lin rows (fun x => G x ^ 2) (fun x => -2 * μ * G x + 1 * μ ^ 2) 1 1
    rw [a1] at a2
    rw [show ∀ a b : ℝ, a - 2 * μ * b + μ ^ 2 = 1 * a + 1 * (-2 * μ * b + 1 * μ ^ 2) from fun a b => by ring, ← a2]
    congr 1; funext p; ring
  have e3 : x3 = rowMean rows (fun x => (G x - μ) ^ 2) - V := by
    have := rowMean_lin rows (fun x => (G x - μ) ^ 2) (fun _ => V) 1 (-1)
    rw [c1, one_mul] at this
    rw [show ∀ a : ℝ, a - V = a + -1 * V from fun a => by ring, ← this]
    show rowMean rows _ = _
    congr 1; funext p; ring
  have e0 : x0 = (rowMean rows (fun x => q x ^ 2) * b ^ 2 / Real.pi ^ 2 - θ * rowMean rows (fun x => (G x - μ) ^ 2)) / V := by
    have a1 := rowMean_lin rows (fun x => q x ^ 2) (fun x => (G x - μ) ^ 2) (b ^ 2 / Real.pi ^ 2 / V) (-θ / V)
    rw [show ∀ a e : ℝ, (a * b ^ 2 / Real.pi ^ 2 - θ * e) / V = b ^ 2 / Real.pi ^ 2 / V * a + -θ / V * e from fun a e => by ring, ← a1]
    show rowMean rows _ = _
    congr 1; funext p; ring
  have ev : rowMean rows (fun x => G x ^ 2) - rowMean rows G ^ 2 = V + x3 - x2 ^ 2 := by
    rw [e3, e2, ed]; ring
  refine ⟨ev, fun hne => ?_⟩
  rw [ev]
  unfold ratioErr
  have en : V * x0 - 0 * 0 + θ * x2 ^ 2 = rowMean rows (fun x => q x ^ 2) * b ^ 2 / Real.pi ^ 2 - θ * (V + x3 - x2 ^ 2) := by
    rw [e0, mul_div_cancel₀ _ hV, e3]; ring
  rw [en]
  have hpi := Real.pi_pos.ne'
  field_simp

theorem steps_kept {lo hi : Fin d → ℝ} (h : ∀ i, lo i < hi i) {delta : ℝ} (hdelta : delta ≠ 0) (j : Fin d)
    {Ω : Type} [MeasurableSpace Ω] {P : Measure Ω} {Z : ℕ → Ω → Fin d → ℝ} (hZ : UniformPoints lo hi P Z) :
    P.real {ω | ¬ ∀ i, stepped (lo j) (hi j) delta (Z i ω j) ≠ Z i ω j} = 0 := by
  have hgood : ∀ᵐ ω ∂P, ∀ i, stepped (lo j) (hi j) delta (Z i ω j) ≠ Z i ω j := by
    refine ae_all_iff.mpr fun i => ?_
    have hbox : ∀ᵐ x ∂Measure.pi fun i => unifOn (lo i) (hi i), stepped (lo j) (hi j) delta (x j) ≠ x j := by
      filter_upwards [ae_inBox h, ae_pi_ne j h 0, ae_pi_ne j h (lo j), ae_pi_ne j h (hi j)] with x hx h0 h1 h2
      exact stepped_ne ⟨lt_of_le_of_ne (hx j).1 (Ne.symm h1), lt_of_le_of_ne (hx j).2 h2⟩ h0 hdelta
    rw [← hZ.law i] at hbox
    exact ae_of_ae_map (hZ.meas i).aemeasurable hbox
  rw [measureReal_def, ae_iff.mp hgood]
  rfl

/-- The reported half width. -/
theorem dgsm_width {N R : Nat} (hN : 0 < N) (hR : 2 ≤ R) (z m : ℝ) (rows : Fin N → Fin d → ℝ) (u : (Fin d → ℝ) → ℝ)
    (w : Fin d → Fin R → Fin N → Fin N) (j : Fin d) :
    (npStd1N Real.sqrt ((resampleOf w j).map fun r => npMeanN (r.map fun i => ((List.ofFn rows)[i]?).map u))).map (z * ·) =
      some (z * √(drawVar fun r => (∑ i, (u (rows (w j r i)) - m)) / N)) := by
  have hNr : (N : ℝ) ≠ 0 := by exact_mod_cast hN.ne'
  have hms : ∀ e : Fin N → Fin N, npMeanN ((List.ofFn fun i => (e i : Nat)).map fun i => ((List.ofFn rows)[i]?).map u) =
      some ((∑ i, u (rows (e i))) / N) := by
    intro e
    rw [List.map_ofFn, ← npMeanN_ofFn hN]
    congr 1
    congr 1
    funext i
    simp
  have e1 : resampleOf w j = drawLists (w j) := by
    unfold resampleOf
    rw [dif_pos j.2]
  rw [e1]
  unfold drawLists
  rw [List.map_ofFn]
  have : ((fun r => npMeanN (r.map fun i => ((List.ofFn rows)[i]?).map u)) ∘
      fun r => List.ofFn fun i => (w j r i : Nat)) = fun r => some ((∑ i, u (rows (w j r i))) / N) := by
    funext r
    exact hms (w j r)
  rw [this, npStd1N_ofFn hR, ← drawVar_shift (by omega) (fun r => (∑ i, u (rows (w j r i))) / N) (-m)]
  have e2 : (fun r => (∑ i, u (rows (w j r i))) / N + -m) = fun r => (∑ i, (u (rows (w j r i)) - m)) / N := by
    funext r
    rw [Finset.sum_sub_distrib, Finset.sum_const, Finset.card_univ, Fintype.card_fin, nsmul_eq_mul]
    field_simp
    ring
  rw [e2]
  rfl

theorem resampleOf_lt {N R : Nat} (w : Fin d → Fin R → Fin N → Fin N) : ∀ j < d, ∀ r ∈ resampleOf w j, ∀ i ∈ r, i < N := by
  intro j hj r hr i hi
  unfold resampleOf at hr
  rw [dif_pos hj] at hr
  unfold drawLists at hr
  obtain ⟨k, rfl⟩ := List.mem_ofFn.mp hr
  obtain ⟨e, rfl⟩ := List.mem_ofFn.mp hi
  exact Fin.is_lt _

section coverage

variable (lo hi : Fin d → ℝ) (h : ∀ i, lo i < hi i) (delta : ℝ) (hdelta : delta ≠ 0) (f : List ℝ → ℝ) (G : (Fin d → ℝ) → ℝ)
  (hf : ∀ x, f (List.ofFn x) = G x) (hGm : Measurable G) (j : Fin d)

/-- Whether a run covers a value, in terms of the points. -/
theorem runCovers_iff (h : ∀ i, lo i < hi i) (hf : ∀ x, f (List.ofFn x) = G x) {N R : Nat} (hN : 0 < N) (hR : 2 ≤ R)
    (rows : Fin N → Fin d → ℝ)
    (hstep : ∀ i, stepped (lo j) (hi j) delta (rows i j) ≠ rows i j) (z conf : ℝ) (hc : 0 < conf ∧ conf < 1)
    (w : Fin d → Fin R → Fin N → Fin N) (m : ℝ) (skip : Nat) (F : Ppf ℝ) (junk : Num ℝ) (pb : Problem ℝ)
    (hn : pb.numVars = d) (hb : pb.bounds = boundsTable (List.ofFn fun i => (lo i, hi i))) (hd : pb.dists = none)
    (gen : Nat → Nat → Py (Mat ℝ)) (pre : Mat ℝ) (hgen : gen (N + skip) d = .ok (pre ++ (List.ofFn rows).map (unitPoint lo hi)))
    (hpre : pre.length = skip) (hcols : HasCols d pre) :
    (∀ v, RunCovers lo hi delta f j z conf N skip F junk pb gen (resampleOf w) (·.vi) v ↔
      |rowMean (List.ofFn rows) (fun x => stepQuot lo hi delta j G x ^ 2) - v| ≤
        z * √(drawVar fun r => (∑ i, (stepQuot lo hi delta j G (rows (w j r i)) ^ 2 - m)) / N)) ∧
    (rowMean (List.ofFn rows) (fun x => G x ^ 2) - rowMean (List.ofFn rows) G ^ 2 ≠ 0 → ∀ v,
      RunCovers lo hi delta f j z conf N skip F junk pb gen (resampleOf w) (·.dgsm) v ↔
      |rowMean (List.ofFn rows) (fun x => stepQuot lo hi delta j G x ^ 2) * (hi j - lo j) ^ 2 /
          ((rowMean (List.ofFn rows) (fun x => G x ^ 2) - rowMean (List.ofFn rows) G ^ 2) * Real.pi ^ 2) - v| ≤
        z * √(drawVar fun r => (∑ i, (stepQuot lo hi delta j G (rows (w j r i)) ^ 2 - m)) / N)) := by
  have hl : (List.ofFn rows).length = N := by simp
  obtain ⟨Xs, pb', res, h1, h2, h3, h4, h5⟩ := dgsm_run lo hi h delta f G hf (List.ofFn rows)
    (by intro e; rw [e] at hl; simp at hl; omega) j
    (by intro x hx; obtain ⟨i, rfl⟩ := List.mem_ofFn.mp hx; exact hstep i) F gen junk pb skip pre z conf (resampleOf w) hn hb hd
    (by rw [hl]; exact hgen) hpre hcols hc (by rw [hl]; exact resampleOf_lt w)
  rw [hl] at h1
  rw [dgsm_width hN hR z m rows (fun x => stepQuot lo hi delta j G x ^ 2) w j] at h5
  have key : ∀ value v, RunCovers lo hi delta f j z conf N skip F junk pb gen (resampleOf w) value v ↔
      Covers (value res)[(j : Nat)]? res.dgsmConf[(j : Nat)]? v := by
    intro value v
    constructor
    · rintro ⟨X', pb2, res', b1, b2, b3⟩
      rw [h1] at b1
      injection b1 with b1
      have hX : X' = Xs :=
        (List.map_injective_iff.mpr (List.map_injective_iff.mpr (Option.some_injective _)) (congrArg Prod.fst b1)).symm
      have hp : pb2 = pb' := (congrArg Prod.snd b1).symm
      rw [hX, hp, h2] at b2
      cases b2
      exact b3
    · exact fun hv => ⟨Xs, pb', res, h1, h2, hv⟩
  refine ⟨fun v => ?_, fun hvar v => ?_⟩
  · rw [key, covers_iff h3 h5]
  · rw [key, covers_iff (h4 hvar) h5]

variable {Ω : Type} [MeasurableSpace Ω] (P : Measure Ω) (Z : ℕ → Ω → Fin d → ℝ) (hZ : UniformPoints lo hi P Z)
  (Q : ℝ) (hQ : ∀ᵐ x ∂Measure.pi fun i => unifOn (lo i) (hi i), |stepQuot lo hi delta j G x| ≤ Q)
  (pb : Problem ℝ) (hn : pb.numVars = d) (hb : pb.bounds = boundsTable (List.ofFn fun i => (lo i, hi i))) (hd : pb.dists = none)
  (z conf : ℝ) (hc : 0 < conf ∧ conf < 1) (hz : stdNormalCDF z = 1 / 2 + conf / 2)
  (hq : 0 < quotVar lo hi delta j G)
include h hf hdelta hGm hZ hQ hn hb hd hc hz hq

/-- The limits of the coverage of `vi ± dgsm_conf`. -/
theorem vi_limits (ε : ℝ) (hε : 0 < ε) :
    WidthLimits P Z z ε fun N R v cov => ∃ (w : Ω → Fin d → Fin R → Fin N → Fin N) (F : Ppf ℝ) (junk : Num ℝ) (skip : Nat)
      (gen : Ω → Nat → Nat → Py (Mat ℝ)) (pre : Ω → Mat ℝ), v = (fun ω => w ω j) ∧
      (∀ ω, gen ω (N + skip) d = .ok (pre ω ++ (firstRows Z N ω).map (unitPoint lo hi)) ∧ (pre ω).length = skip ∧ HasCols d (pre ω)) ∧
      cov = {ω | RunCovers lo hi delta f j z conf N skip F junk pb (gen ω) (resampleOf (w ω)) (·.vi)
        (∫ x, stepQuot lo hi delta j G x ^ 2 ∂Measure.pi fun i => unifOn (lo i) (hi i))} := by
  have hpr := fun i => isProb_unifOn (h i)
  obtain ⟨hz0, hlev⟩ := normalWithin_level z conf hc.1 hz
  set law := Measure.pi fun i => unifOn (lo i) (hi i) with hlaw
  set q : (Fin d → ℝ) → ℝ := fun x => stepQuot lo hi delta j G x ^ 2 with hqd
  have mq : Measurable q := (measurable_stepQuot j delta G hGm).pow_const 2
  have hqb : ∀ᵐ x ∂law, |q x| ≤ Q ^ 2 := by
    filter_upwards [hQ] with x hx
    rw [hqd, abs_pow]
    exact pow_le_pow_left₀ (abs_nonneg _) hx 2
  have iq : Integrable q law := Integrable.of_bound mq.aestronglyMeasurable _ hqb
  set m := ∫ x, q x ∂law with hm
  have u0 : ∫ x, (q x - m) ∂law = 0 := by
    rw [integral_sub iq (integrable_const _), integral_const]
    simp [hm]
  have hub : ∀ᵐ x ∂law, |q x - m| ≤ Q ^ 2 + |m| := by
    filter_upwards [hqb] with x hx
    exact (abs_sub _ _).trans (by linarith)
  have hu : 0 < ∫ x, (q x - m) ^ 2 ∂law := by
    have := hq
    rw [quotVar, variance_eq_integral mq.aemeasurable] at this
    exact this
  let Fs : Fin 5 → (Fin d → ℝ) → ℝ := fun a x => if a = 0 then q x - m else 0
  have hF0 : Fs 0 = fun x => q x - m := by funext x; simp [Fs]
  have hFa : ∀ a, a ≠ 0 → Fs a = fun _ => 0 := by intro a ha; funext x; simp [Fs, ha]
  have hcase : ∀ (p : ((Fin d → ℝ) → ℝ) → Prop), p (fun x => q x - m) → p (fun _ => 0) → ∀ a, p (Fs a) := by
    intro p p0 p1 a
    by_cases ha : a = 0
    · rw [ha, hF0]; exact p0
    · rw [hFa a ha]; exact p1
  have hcov := width_limits hZ.meas hZ.law hZ.indep Fs
    (hcase _ (mq.sub_const m) measurable_const) (hcase (fun F => ∫ x, F x ∂law = 0) u0 (by simp)) (Q ^ 2 + |m|)
    (hcase (fun F => ∀ᵐ x ∂law, |F x| ≤ Q ^ 2 + |m|) hub (by simp; positivity)) 1 0 one_pos (by rw [hF0]; exact hu)
    (fun x => q x - m) (mq.sub_const m) u0 _ hub hu z hz0 ε hε
  have hs : √(∫ x, (q x - m) ^ 2 ∂law) ≠ 0 := (Real.sqrt_pos.mpr hu).ne'
  rw [hF0, mul_div_assoc, div_self hs, mul_one] at hcov
  refine hcov.mono fun N R hN hR v cov ⟨w, F, junk, skip, gen, pre, hv, hgen, hcov⟩ => ?_
  refine ⟨{ω | ¬ ∀ i, stepped (lo j) (hi j) delta (Z i ω j) ≠ Z i ω j}, steps_kept h hdelta j hZ, ?_⟩
  intro ω hω x hx _
  subst hv hcov
  have hω' : ∀ i, stepped (lo j) (hi j) delta (Z i ω j) ≠ Z i ω j := not_not.mp hω
  have hg := hgen ω
  rw [firstRows_eq_ofFn] at hg
  have := (runCovers_iff lo hi delta f G j h hf hN hR (fun i : Fin N => Z i ω)
    (fun i => hω' i) z conf hc (w ω) m skip F junk pb hn hb hd (gen ω) (pre ω) hg.1 hg.2.1 hg.2.2).1 m
  show RunCovers lo hi delta f j z conf N skip F junk pb (gen ω) (resampleOf (w ω)) (·.vi) m ↔ _
  rw [this]
  have hne : List.ofFn (fun i : Fin N => Z i ω) ≠ [] := by
    intro e
    have := congrArg List.length e
    simp at this
    omega
  have e0 : x 0 = rowMean (List.ofFn fun i : Fin N => Z i ω) q - m := by
    rw [hx, hF0, firstRows_eq_ofFn]
    have := rowMean_lin (List.ofFn fun i : Fin N => Z i ω) q (fun _ => m) 1 (-1)
    rw [rowMean_const _ hne] at this
    rw [show ∀ a : ℝ, a - m = 1 * a + -1 * m from fun a => by ring, ← this]
    congr 1; funext p; ring
  have ea : ∀ a, a ≠ 0 → x a = 0 := by
    intro a ha
    rw [hx, hFa a ha]
    simp [rowMean]
  rw [ea 1 (by decide), ea 2 (by decide), ea 3 (by decide), ea 4 (by decide), e0]
  have e1 : ∀ a : ℝ, ratioErr 1 0 a 0 0 0 0 = a := by intro a; simp [ratioErr]
  rw [e1]

/-- **C143 (partial).**  Sample `N` independent uniform points and their steps, run a model with bounded difference quotients, analyse with
`R` fair resamples at confidence level `conf`: the probability that `vi ± dgsm_conf` contains the mean squared difference quotient is as
near to `conf` as desired once `N` and `R` are large, unless the squared quotient is constant.
Missing: the same for `dgsm ± dgsm_conf` (`C143_dgsm`, `C143_units_fail`). -/
theorem C143_vi_partial (ε : ℝ) (hε : 0 < ε) :
    ∃ N0 R0, ∀ N ≥ N0, ∀ R ≥ R0, ∀ w : Ω → Fin d → Fin R → Fin N → Fin N, FreshResample P Z N R (fun ω => w ω j) →
      ∀ (F : Ppf ℝ) (junk : Num ℝ) (skip : Nat) (gen : Ω → Nat → Nat → Py (Mat ℝ)) (pre : Ω → Mat ℝ),
      (∀ ω, gen ω (N + skip) d = .ok (pre ω ++ (firstRows Z N ω).map (unitPoint lo hi)) ∧ (pre ω).length = skip ∧ HasCols d (pre ω)) →
      |P.real {ω | RunCovers lo hi delta f j z conf N skip F junk pb (gen ω) (resampleOf (w ω)) (·.vi)
        (∫ x, stepQuot lo hi delta j G x ^ 2 ∂Measure.pi fun i => unifOn (lo i) (hi i))} - conf| < ε := by
  obtain ⟨-, hlev⟩ := normalWithin_level z conf hc.1 hz
  obtain ⟨N0, R0, hcov⟩ := (vi_limits lo hi h delta hdelta f G hf hGm j P Z hZ Q hQ pb hn hb hd z conf hc hz hq ε hε).many
  refine ⟨N0, R0, fun N hN R hR w hw F junk skip gen pre hgen => ?_⟩
  have key := hcov N hN R hR _ hw _ ⟨w, F, junk, skip, gen, pre, rfl, hgen, rfl⟩
  rwa [hlev] at key

variable (B : ℝ) (hB : ∀ᵐ x ∂Measure.pi fun i => unifOn (lo i) (hi i), |G x| ≤ B)
  (hV : 0 < Var[G; Measure.pi fun i => unifOn (lo i) (hi i)]) (hi0 : 0 < indexVar lo hi delta j G)
include hB hV hi0

/-- The limits of the coverage of `dgsm ± dgsm_conf`. -/
theorem dgsm_limits (ε : ℝ) (hε : 0 < ε) :
    WidthLimits P Z (z * √(quotVar lo hi delta j G) / √(indexVar lo hi delta j G)) ε fun N R v cov =>
      ∃ (w : Ω → Fin d → Fin R → Fin N → Fin N) (F : Ppf ℝ) (junk : Num ℝ) (skip : Nat)
      (gen : Ω → Nat → Nat → Py (Mat ℝ)) (pre : Ω → Mat ℝ), v = (fun ω => w ω j) ∧
      (∀ ω, gen ω (N + skip) d = .ok (pre ω ++ (firstRows Z N ω).map (unitPoint lo hi)) ∧ (pre ω).length = skip ∧ HasCols d (pre ω)) ∧
      cov = {ω | RunCovers lo hi delta f j z conf N skip F junk pb (gen ω) (resampleOf (w ω)) (·.dgsm)
        (derivIndex lo hi j G (stepQuot lo hi delta j G))} := by
  have hpr := fun i => isProb_unifOn (h i)
  obtain ⟨hz0, -⟩ := normalWithin_level z conf hc.1 hz
  set law := Measure.pi fun i => unifOn (lo i) (hi i) with hlaw
  set q : (Fin d → ℝ) → ℝ := fun x => stepQuot lo hi delta j G x ^ 2 with hqd
  have mq : Measurable q := (measurable_stepQuot j delta G hGm).pow_const 2
  have hqb : ∀ᵐ x ∂law, |q x| ≤ Q ^ 2 := by
    filter_upwards [hQ] with x hx
    rw [hqd, abs_pow]
    exact pow_le_pow_left₀ (abs_nonneg _) hx 2
  have iq : Integrable q law := Integrable.of_bound mq.aestronglyMeasurable _ hqb
  set m := ∫ x, q x ∂law with hm
  have u0 : ∫ x, (q x - m) ∂law = 0 := by
    rw [integral_sub iq (integrable_const _), integral_const]
    simp [hm]
  have hub : ∀ᵐ x ∂law, |q x - m| ≤ Q ^ 2 + |m| := by
    filter_upwards [hqb] with x hx
    exact (abs_sub _ _).trans (by linarith)
  have hqv : quotVar lo hi delta j G = ∫ x, (q x - m) ^ 2 ∂law := variance_eq_integral mq.aemeasurable
  have hu : 0 < ∫ x, (q x - m) ^ 2 ∂law := hqv ▸ hq
  set μ := ∫ x, G x ∂law with hμ
  set V := Var[G; law] with hVd
  set θ := derivIndex lo hi j G (stepQuot lo hi delta j G) with hθ
  set b := hi j - lo j with hbd
  have iG : Integrable G law := Integrable.of_bound hGm.aestronglyMeasurable _ hB
  have hdev : ∀ᵐ x ∂law, |G x - μ| ≤ B + |μ| := by
    filter_upwards [hB] with x hx
    exact (abs_sub _ _).trans (by linarith)
  have hdev2 : ∀ᵐ x ∂law, |(G x - μ) ^ 2| ≤ (B + |μ|) ^ 2 := by
    filter_upwards [hdev] with x hx
    rw [abs_pow]
    exact pow_le_pow_left₀ (abs_nonneg _) hx 2
  have idev2 : Integrable (fun x => (G x - μ) ^ 2) law :=
    Integrable.of_bound ((hGm.sub_const μ).pow_const 2).aestronglyMeasurable _ hdev2
  have eV : ∫ x, (G x - μ) ^ 2 ∂law = V := (variance_eq_integral hGm.aemeasurable).symm
  have hpi : (0 : ℝ) < Real.pi ^ 2 := by positivity
  have eθ : θ * V = m * b ^ 2 / Real.pi ^ 2 := by
    have : θ = m * b ^ 2 / (V * Real.pi ^ 2) := rfl
    rw [this]
    field_simp
  let T : (Fin d → ℝ) → ℝ := fun x => (stepQuot lo hi delta j G x ^ 2 * b ^ 2 / Real.pi ^ 2 - θ * (G x - μ) ^ 2) / V
  have eT : indexTerm lo hi delta j G = T := rfl
  have mT : Measurable T :=
    (((mq.mul_const _).div_const _).sub (((hGm.sub_const μ).pow_const 2).const_mul θ)).div_const V
  let Fs : Fin 5 → (Fin d → ℝ) → ℝ := ![T, fun _ => 0, fun x => G x - μ, fun x => (G x - μ) ^ 2 - V, fun _ => 0]
  have hcase : ∀ (p : ((Fin d → ℝ) → ℝ) → Prop), p T → p (fun _ => 0) → p (fun x => G x - μ) → p (fun x => (G x - μ) ^ 2 - V) →
      ∀ a, p (Fs a) := by
    intro p p0 p1 p2 p3 a
    fin_cases a
    exacts [p0, p1, p2, p3, p1]
  let H := (Q ^ 2 * b ^ 2 / Real.pi ^ 2 + |θ| * (B + |μ|) ^ 2) / V + abs (B + abs μ) + ((B + |μ|) ^ 2 + V)
  have hA : 0 ≤ (Q ^ 2 * b ^ 2 / Real.pi ^ 2 + |θ| * (B + |μ|) ^ 2) / V := by positivity
  have hA2 : 0 ≤ (B + |μ|) ^ 2 + V := by positivity
  have hA1 : 0 ≤ abs (B + abs μ) := abs_nonneg _
  have hcov := width_limits hZ.meas hZ.law hZ.indep Fs
    (hcase _ mT measurable_const (hGm.sub_const μ) (((hGm.sub_const μ).pow_const 2).sub_const V))
    (hcase (fun F => ∫ x, F x ∂law = 0)
      (by
        show ∫ x, (q x * b ^ 2 / Real.pi ^ 2 - θ * (G x - μ) ^ 2) / V ∂law = 0
        rw [integral_div, integral_sub ((iq.mul_const _).div_const _) (idev2.const_mul θ), integral_div, integral_mul_const,
          integral_const_mul, eV, eθ, ← hm, sub_self, zero_div])
      (by simp)
      (by
        rw [integral_sub iG (integrable_const _), integral_const]
        simp [hμ])
      (by
        rw [integral_sub idev2 (integrable_const _), integral_const, eV]
        simp))
    H
    (hcase (fun F => ∀ᵐ x ∂law, |F x| ≤ H)
      (by
        filter_upwards [hqb, hdev2] with x h1 h2
        refine le_trans ?_ (show (Q ^ 2 * b ^ 2 / Real.pi ^ 2 + |θ| * (B + |μ|) ^ 2) / V ≤ H by simp only [H]; linarith)
        show |(q x * b ^ 2 / Real.pi ^ 2 - θ * (G x - μ) ^ 2) / V| ≤ _
        rw [abs_div, abs_of_pos hV]
        refine div_le_div_of_nonneg_right ((abs_sub _ _).trans (add_le_add ?_ ?_)) hV.le
        · rw [abs_div, abs_mul, abs_of_pos hpi, abs_of_nonneg (sq_nonneg b)]
          exact div_le_div_of_nonneg_right (mul_le_mul_of_nonneg_right h1 (sq_nonneg b)) hpi.le
        · rw [abs_mul]
          exact mul_le_mul_of_nonneg_left h2 (abs_nonneg _))
      (by
        simp only [abs_zero]
        exact Eventually.of_forall fun _ => by simp only [H]; linarith)
      (by
        filter_upwards [hdev] with x h1
        have := le_abs_self (B + |μ|)
        simp only [H]; linarith)
      (by
        filter_upwards [hdev2] with x h1
        have := abs_sub ((G x - μ) ^ 2) V
        rw [abs_of_pos hV] at this
        simp only [H]; linarith))
    V θ hV hi0 (fun x => q x - m) (mq.sub_const m) u0 _ hub hu z hz0 ε hε
  rw [show ∫ x, Fs 0 x ^ 2 ∂law = indexVar lo hi delta j G from rfl, ← hqv] at hcov
  refine hcov.mono fun N R hN hR v cov ⟨w, F, junk, skip, gen, pre, hv, hgen, hcov⟩ => ?_
  refine ⟨{ω | ¬ ∀ i, stepped (lo j) (hi j) delta (Z i ω j) ≠ Z i ω j}, steps_kept h hdelta j hZ, ?_⟩
  intro ω hω x hx hpos
  subst hv hcov
  have hω' : ∀ i, stepped (lo j) (hi j) delta (Z i ω j) ≠ Z i ω j := not_not.mp hω
  have hg := hgen ω
  rw [firstRows_eq_ofFn] at hg
  have hne : List.ofFn (fun i : Fin N => Z i ω) ≠ [] := by
    intro e
    have := congrArg List.length e
    simp at this
    omega
  obtain ⟨d1, d2⟩ := dgsm_err b V θ μ hV.ne' (List.ofFn fun i : Fin N => Z i ω) hne G (stepQuot lo hi delta j G)
  have e0 : x 0 = rowMean (List.ofFn fun i : Fin N => Z i ω) T := by rw [hx, firstRows_eq_ofFn]; rfl
  have e1 : x 1 = 0 := by
    rw [hx]
    show rowMean _ (fun _ => 0) = 0
    simp [rowMean]
  have e2 : x 2 = rowMean (List.ofFn fun i : Fin N => Z i ω) fun x => G x - μ := by rw [hx, firstRows_eq_ofFn]; rfl
  have e3 : x 3 = rowMean (List.ofFn fun i : Fin N => Z i ω) fun x => (G x - μ) ^ 2 - V := by rw [hx, firstRows_eq_ofFn]; rfl
  have e4 : x 4 = 0 := by
    rw [hx]
    show rowMean _ (fun _ => 0) = 0
    simp [rowMean]
  rw [e2, e3] at hpos
  have := (runCovers_iff lo hi delta f G j h hf hN hR (fun i : Fin N => Z i ω)
    (fun i => hω' i) z conf hc (w ω) m skip F junk pb hn hb hd (gen ω) (pre ω) hg.1 hg.2.1 hg.2.2).2 (by rw [d1]; exact hpos.ne') θ
  show RunCovers lo hi delta f j z conf N skip F junk pb (gen ω) (resampleOf (w ω)) (·.dgsm) θ ↔ _
  rw [this, e0, e1, e2, e3, e4, d2 hpos.ne']

/-- **C143**, what the interval of the index does.  With bounded outputs and difference quotients, the probability that
`dgsm ± dgsm_conf` contains the derivative-based index of the quotients tends to `2 Φ(z s / t) - 1` with `s` the standard deviation of the
squared quotients and `t` that of the index terms; `Φ(z) = 1/2 + conf/2`. -/
theorem C143_dgsm (ε : ℝ) (hε : 0 < ε) :
    ∃ N0 R0, ∀ N ≥ N0, ∀ R ≥ R0, ∀ w : Ω → Fin d → Fin R → Fin N → Fin N, FreshResample P Z N R (fun ω => w ω j) →
      ∀ (F : Ppf ℝ) (junk : Num ℝ) (skip : Nat) (gen : Ω → Nat → Nat → Py (Mat ℝ)) (pre : Ω → Mat ℝ),
      (∀ ω, gen ω (N + skip) d = .ok (pre ω ++ (firstRows Z N ω).map (unitPoint lo hi)) ∧ (pre ω).length = skip ∧ HasCols d (pre ω)) →
      |P.real {ω | RunCovers lo hi delta f j z conf N skip F junk pb (gen ω) (resampleOf (w ω)) (·.dgsm)
        (derivIndex lo hi j G (stepQuot lo hi delta j G))} -
          (2 * stdNormalCDF (z * √(quotVar lo hi delta j G) / √(indexVar lo hi delta j G)) - 1)| < ε := by
  obtain ⟨hz0, -⟩ := normalWithin_level z conf hc.1 hz
  obtain ⟨N0, R0, hcov⟩ := (dgsm_limits lo hi h delta hdelta f G hf hGm j P Z hZ Q hQ pb hn hb hd z conf hc hz hq B hB hV hi0 ε hε).many
  refine ⟨N0, R0, fun N hN R hR w hw F junk skip gen pre hgen => ?_⟩
  have key := hcov N hN R hR _ hw _ ⟨w, F, junk, skip, gen, pre, rfl, hgen, rfl⟩
  rwa [normalWithin_eq _ (by positivity)] at key

end coverage

/-! ### Other units -/

theorem stepQuot_mul (lo hi : Fin d → ℝ) (delta : ℝ) (j : Fin d) (G : (Fin d → ℝ) → ℝ) (c : ℝ) (x : Fin d → ℝ) :
    stepQuot lo hi delta j (fun x => c * G x) x = c * stepQuot lo hi delta j G x := by
  unfold stepQuot
  rw [← mul_sub, mul_div_assoc]

/-- The index does not depend on the unit of the output. -/
theorem derivIndex_mul (lo hi : Fin d → ℝ) (delta : ℝ) (j : Fin d) (G : (Fin d → ℝ) → ℝ) (c : ℝ) (hc : c ≠ 0) :
    derivIndex lo hi j (fun x => c * G x) (stepQuot lo hi delta j fun x => c * G x) =
      derivIndex lo hi j G (stepQuot lo hi delta j G) := by
  unfold derivIndex
  simp only [stepQuot_mul, mul_pow]
  rw [integral_const_mul, variance_const_mul]
  rw [mul_assoc, mul_assoc, mul_div_mul_left _ _ (pow_ne_zero 2 hc)]

theorem quotVar_mul (lo hi : Fin d → ℝ) (delta : ℝ) (j : Fin d) (G : (Fin d → ℝ) → ℝ) (c : ℝ) :
    quotVar lo hi delta j (fun x => c * G x) = (c ^ 2) ^ 2 * quotVar lo hi delta j G := by
  unfold quotVar
  simp only [stepQuot_mul, mul_pow c]
  rw [variance_const_mul]

theorem indexVar_mul (lo hi : Fin d → ℝ) (delta : ℝ) (j : Fin d) (G : (Fin d → ℝ) → ℝ) (c : ℝ) (hc : c ≠ 0) :
    indexVar lo hi delta j (fun x => c * G x) = indexVar lo hi delta j G := by
  have e : ∀ x, indexTerm lo hi delta j (fun x => c * G x) x = indexTerm lo hi delta j G x := by
    intro x
    unfold indexTerm
    rw [derivIndex_mul lo hi delta j G c hc, stepQuot_mul, integral_const_mul, variance_const_mul, ← mul_sub]
    rw [show ∀ a b e t g : ℝ, (c * a) ^ 2 * b / e - t * (c * g) ^ 2 = c ^ 2 * (a ^ 2 * b / e - t * g ^ 2) from fun a b e t g => by ring,
      mul_div_mul_left _ _ (pow_ne_zero 2 hc)]
  unfold indexVar
  simp only [e]

/-- **C143** fails for the index.  Whatever the model, its outputs can be put in a unit in which `dgsm ± dgsm_conf` contains the index with
a probability below `ε`, and in another in which it contains it with a probability above `1 - ε`, for all large `N` and `R`.  The index
itself does not depend on the unit (`derivIndex_mul`). -/
theorem C143_units_fail (lo hi : Fin d → ℝ) (h : ∀ i, lo i < hi i) (delta : ℝ) (hdelta : delta ≠ 0) (f : List ℝ → ℝ)
    (G : (Fin d → ℝ) → ℝ) (hf : ∀ x, f (List.ofFn x) = G x) (hGm : Measurable G) (j : Fin d)
    {Ω : Type} [MeasurableSpace Ω] (P : Measure Ω) (Z : ℕ → Ω → Fin d → ℝ) (hZ : UniformPoints lo hi P Z)
    (Q : ℝ) (hQ : ∀ᵐ x ∂Measure.pi fun i => unifOn (lo i) (hi i), |stepQuot lo hi delta j G x| ≤ Q)
    (pb : Problem ℝ) (hn : pb.numVars = d) (hb : pb.bounds = boundsTable (List.ofFn fun i => (lo i, hi i))) (hd : pb.dists = none)
    (z conf : ℝ) (hc : 0 < conf ∧ conf < 1) (hz : stdNormalCDF z = 1 / 2 + conf / 2)
    (hq : 0 < quotVar lo hi delta j G)
    (B : ℝ) (hB : ∀ᵐ x ∂Measure.pi fun i => unifOn (lo i) (hi i), |G x| ≤ B)
    (hV : 0 < Var[G; Measure.pi fun i => unifOn (lo i) (hi i)]) (hi0 : 0 < indexVar lo hi delta j G) (ε : ℝ) (hε : 0 < ε) :
    ∃ small > 0, ∃ large > 0, ∃ N0 R0, ∀ N ≥ N0, ∀ R ≥ R0, ∀ w : Ω → Fin d → Fin R → Fin N → Fin N,
      FreshResample P Z N R (fun ω => w ω j) →
      ∀ (F : Ppf ℝ) (junk : Num ℝ) (skip : Nat) (gen : Ω → Nat → Nat → Py (Mat ℝ)) (pre : Ω → Mat ℝ),
      (∀ ω, gen ω (N + skip) d = .ok (pre ω ++ (firstRows Z N ω).map (unitPoint lo hi)) ∧ (pre ω).length = skip ∧ HasCols d (pre ω)) →
      P.real {ω | RunCovers lo hi delta (fun r => small * f r) j z conf N skip F junk pb (gen ω) (resampleOf (w ω)) (·.dgsm)
        (derivIndex lo hi j G (stepQuot lo hi delta j G))} < ε ∧
      1 - ε < P.real {ω | RunCovers lo hi delta (fun r => large * f r) j z conf N skip F junk pb (gen ω) (resampleOf (w ω)) (·.dgsm)
        (derivIndex lo hi j G (stepQuot lo hi delta j G))} := by
  obtain ⟨hz0, -⟩ := normalWithin_level z conf hc.1 hz
  set s := z * √(quotVar lo hi delta j G) / √(indexVar lo hi delta j G) with hs
  have hs0 : 0 < s := div_pos (mul_pos hz0 (Real.sqrt_pos.mpr hq)) (Real.sqrt_pos.mpr hi0)
  have scaled : ∀ c > 0, ∃ N0 R0, ∀ N ≥ N0, ∀ R ≥ R0, ∀ w : Ω → Fin d → Fin R → Fin N → Fin N,
      FreshResample P Z N R (fun ω => w ω j) →
      ∀ (F : Ppf ℝ) (junk : Num ℝ) (skip : Nat) (gen : Ω → Nat → Nat → Py (Mat ℝ)) (pre : Ω → Mat ℝ),
      (∀ ω, gen ω (N + skip) d = .ok (pre ω ++ (firstRows Z N ω).map (unitPoint lo hi)) ∧ (pre ω).length = skip ∧ HasCols d (pre ω)) →
      |P.real {ω | RunCovers lo hi delta (fun r => c * f r) j z conf N skip F junk pb (gen ω) (resampleOf (w ω)) (·.dgsm)
        (derivIndex lo hi j G (stepQuot lo hi delta j G))} - normalWithin (c ^ 2 * s)| < ε / 2 := by
    intro c hc0
    have key := C143_dgsm lo hi h delta hdelta (fun r => c * f r) (fun x => c * G x) (fun x => by rw [hf]) (hGm.const_mul c) j P Z hZ
      (c * Q) (by
        filter_upwards [hQ] with x hx
        rw [stepQuot_mul, abs_mul, abs_of_pos hc0]
        exact mul_le_mul_of_nonneg_left hx hc0.le)
      pb hn hb hd z conf hc hz (by rw [quotVar_mul]; positivity) (c * B) (by
        filter_upwards [hB] with x hx
        rw [abs_mul, abs_of_pos hc0]
        exact mul_le_mul_of_nonneg_left hx hc0.le)
      (by rw [variance_const_mul]; positivity) (by rw [indexVar_mul _ _ _ _ _ _ hc0.ne']; exact hi0) (ε / 2) (by linarith)
    have e : 2 * stdNormalCDF (z * √(quotVar lo hi delta j fun x => c * G x) / √(indexVar lo hi delta j fun x => c * G x)) - 1 =
        normalWithin (c ^ 2 * s) := by
      rw [normalWithin_eq _ (by positivity), quotVar_mul, indexVar_mul _ _ _ _ _ _ hc0.ne', Real.sqrt_mul (by positivity),
        Real.sqrt_sq (by positivity), hs, show ∀ a b : ℝ, z * (c ^ 2 * a) / b = c ^ 2 * (z * a / b) from fun a b => by ring]
      rfl
    rw [e, derivIndex_mul _ _ _ _ _ _ hc0.ne'] at key
    exact key
  obtain ⟨a, ha0, ha⟩ : ∃ a > 0, normalWithin a < ε / 2 := by
    have h1 : ∀ᶠ a in 𝓝[>] (0 : ℝ), normalWithin a < ε / 2 := tendsto_normalWithin_zero.eventually_lt_const (by linarith)
    obtain ⟨a, h2, h3⟩ := (h1.and self_mem_nhdsWithin).exists
    exact ⟨a, h3, h2⟩
  obtain ⟨b, hb0, hbl⟩ : ∃ b > 0, 1 - ε / 2 < normalWithin b := by
    have h1 : ∀ᶠ a in atTop, 1 - ε / 2 < normalWithin a := tendsto_normalWithin_top.eventually_const_lt (by linarith)
    obtain ⟨b, h2, h3⟩ := (h1.and (eventually_gt_atTop 0)).exists
    exact ⟨b, h3, h2⟩
  have root : ∀ a > 0, √(a / s) ^ 2 * s = a := fun a ha => by
    rw [Real.sq_sqrt (by positivity)]
    field_simp
  obtain ⟨N1, R1, k1⟩ := scaled (√(a / s)) (by positivity)
  obtain ⟨N2, R2, k2⟩ := scaled (√(b / s)) (by positivity)
  refine ⟨√(a / s), by positivity, √(b / s), by positivity, max N1 N2, max R1 R2,
    fun N hN R hR w hw F junk skip gen pre hgen => ?_⟩
  have l1 := k1 N (le_of_max_le_left hN) R (le_of_max_le_left hR) w hw F junk skip gen pre hgen
  have l2 := k2 N (le_of_max_le_right hN) R (le_of_max_le_right hR) w hw F junk skip gen pre hgen
  rw [root a ha0, abs_lt] at l1
  rw [root b hb0, abs_lt] at l2
  exact ⟨by linarith [l1.2], by linarith [l2.1]⟩

/-- Independent rows with fair resamples of every size, one per input. -/
theorem rows_fresh_exist {β : Type} [MeasurableSpace β] (law : Measure β) [IsProbabilityMeasure law] (D : Nat) :
    ∃ (Ω : Type) (_ : MeasurableSpace Ω) (P : Measure Ω) (Z : ℕ → Ω → β)
      (w : ∀ N R : Nat, Ω → Fin D → Fin R → Fin N → Fin N), (∀ i, Measurable (Z i)) ∧ iIndepFun Z P ∧
        (∀ i, Measure.map (Z i) P = law) ∧ ∀ N R j, FreshResample P Z N R fun ω => w N R ω j := by
  set P := Measure.infinitePi fun _ : ℕ => law with hP
  let B : ℕ × ℕ × Fin D → Type := fun p => Fin p.2.1 → Fin p.1 → Fin p.1
  have hp : ∀ p, IsProbabilityMeasure (uniformOn (Set.univ : Set (B p))) := fun p => by
    have : Nonempty (B p) := ⟨fun _ i => i⟩
    exact uniformOn_isProbabilityMeasure Set.finite_univ Set.univ_nonempty
  let Q : Measure (∀ p, B p) := Measure.infinitePi fun p => uniformOn Set.univ
  have hQ : IsProbabilityMeasure Q := inferInstance
  have hfst : Measure.map Prod.fst (P.prod Q) = P := by rw [Measure.map_fst_prod]; simp
  have hmap : ∀ {γ : Type} [MeasurableSpace γ] (h : (ℕ → β) → γ), Measurable h →
      Measure.map (fun ω : (ℕ → β) × (∀ p, B p) => h ω.1) (P.prod Q) = Measure.map h P := by
    intro γ _ h hh
    conv_rhs => rw [← hfst]
    rw [Measure.map_map hh measurable_fst]
    rfl
  have hmi : ∀ i : ℕ, Measurable fun ω : (ℕ → β) × (∀ p, B p) => ω.1 i := fun i =>
    (measurable_pi_apply i).comp measurable_fst
  refine ⟨(ℕ → β) × (∀ p, B p), inferInstance, P.prod Q, fun i ω => ω.1 i, fun N R ω j => ω.2 (N, R, j), hmi, ?_, ?_, ?_⟩
  · refine (iIndepFun_iff_map_fun_eq_infinitePi_map hmi).mpr ?_
    have hZi : iIndepFun (fun (i : ℕ) (ω : ℕ → β) => ω i) P := iIndepFun_infinitePi (X := fun _ ω => ω) fun _ => measurable_id
    have h1 := (iIndepFun_iff_map_fun_eq_infinitePi_map fun i => measurable_pi_apply i).mp hZi
    rw [hmap (fun ω i => ω i) (measurable_pi_lambda _ fun i => measurable_pi_apply i), h1]
    congr 1
    funext i
    rw [hmap (fun ω => ω i) (measurable_pi_apply i)]
  · intro i
    rw [hmap (fun ω => ω i) (measurable_pi_apply i)]
    exact Measure.infinitePi_map_eval _ i
  · intro N R j
    constructor
    intro S hS t
    have e1 : {ω : (ℕ → β) × (∀ p, B p) | (fun i : Fin N => ω.1 i) ∈ S ∧ ω.2 (N, R, j) = t} =
        {ω | (fun i : Fin N => ω i) ∈ S} ×ˢ {v : ∀ p, B p | v (N, R, j) = t} := by
      ext ω; simp
    have e2 : {ω : (ℕ → β) × (∀ p, B p) | (fun i : Fin N => ω.1 i) ∈ S} =
        {ω | (fun i : Fin N => ω i) ∈ S} ×ˢ Set.univ := by
      ext ω; simp
    have e3 : Q.real {v : ∀ p, B p | v (N, R, j) = t} = 1 / Fintype.card (Fin R → Fin N → Fin N) := by
      have h1 : Q.real {v : ∀ p, B p | v (N, R, j) = t} = (Measure.map (fun v : ∀ p, B p => v (N, R, j)) Q).real {t} := by
        have hmv : Measurable fun v : ∀ p, B p => v (N, R, j) := measurable_pi_apply (N, R, j)
        rw [map_measureReal_apply hmv (MeasurableSet.singleton t)]
        rfl
      rw [h1, Measure.infinitePi_map_eval]
      unfold Measure.real
      rw [uniformOn_univ, Measure.count_singleton]
      simp [B]
    rw [e1, e2, measureReal_prod_prod, measureReal_prod_prod, e3]
    simp [div_eq_mul_inv]

/-! ### An instance: the square of one input between 1 and 2 -/

/-- The square of the only input. -/
def squareOf (x : Fin 1 → ℝ) : ℝ := x 0 ^ 2

theorem measurable_squareOf : Measurable squareOf := (measurable_pi_apply 0).pow_const 2

theorem squareOf_mean : ∫ x, squareOf x ∂(Measure.pi fun _ : Fin 1 => unifOn 1 2) = 7 / 3 := by
  have := isProb_unifOn (show (1 : ℝ) < 2 by norm_num)
  have hmp := measurePreserving_eval (fun _ : Fin 1 => unifOn (1 : ℝ) 2) 0
  have e := integral_map (μ := Measure.pi fun _ : Fin 1 => unifOn 1 2) hmp.measurable.aemeasurable
    (f := fun t : ℝ => t ^ 2) (measurable_id.pow_const 2).aestronglyMeasurable
  rw [hmp.map_eq, integral_unifOn (by norm_num), integral_pow] at e
  rw [show ∫ x, squareOf x ∂(Measure.pi fun _ : Fin 1 => unifOn 1 2) = ∫ x : Fin 1 → ℝ, (Function.eval 0 x) ^ 2 ∂_ from rfl, ← e]
  norm_num

/-- What holds for almost every input holds for two of them, both below 3/2. -/
theorem two_inputs (C : (Fin 1 → ℝ) → Prop) (hC : ∀ᵐ x ∂(Measure.pi fun _ : Fin 1 => unifOn 1 2), C x) :
    ∃ x y : Fin 1 → ℝ, C x ∧ C y ∧ 1 < x 0 ∧ x 0 < y 0 ∧ y 0 < 3 / 2 := by
  have := isProb_unifOn (show (1 : ℝ) < 2 by norm_num)
  have pick : ∀ a b : ℝ, 1 ≤ a → a < b → b ≤ 2 → ∃ x : Fin 1 → ℝ, C x ∧ a < x 0 ∧ x 0 < b := by
    intro a b ha hab hb
    have hpos : (Measure.pi fun _ : Fin 1 => unifOn 1 2) {x | x 0 ∈ Set.Ioo a b} ≠ 0 := by
      have hmp := measurePreserving_eval (fun _ : Fin 1 => unifOn (1 : ℝ) 2) 0
      have e := hmp.measure_preimage (s := Set.Ioo a b) measurableSet_Ioo.nullMeasurableSet
      rw [show {x : Fin 1 → ℝ | x 0 ∈ Set.Ioo a b} = Function.eval 0 ⁻¹' Set.Ioo a b from rfl, e]
      unfold unifOn
      rw [cond_apply measurableSet_Icc, Set.inter_eq_self_of_subset_right
        (show Set.Ioo a b ⊆ Set.Icc 1 2 from fun t ht => ⟨ha.trans ht.1.le, ht.2.le.trans hb⟩), Real.volume_Ioo, Real.volume_Icc]
      refine mul_ne_zero (ENNReal.inv_ne_zero.mpr ENNReal.ofReal_ne_top) ?_
      simpa using hab
    obtain ⟨x, h1, h2⟩ := ((frequently_ae_mem_iff.mpr hpos).and_eventually hC).exists
    exact ⟨x, h2, h1.1, h1.2⟩
  obtain ⟨x, cx, x1, x2⟩ := pick 1 (5 / 4) (by norm_num) (by norm_num) (by norm_num)
  obtain ⟨y, cy, y1, y2⟩ := pick (5 / 4) (3 / 2) (by norm_num) (by norm_num) (by norm_num)
  exact ⟨x, y, cx, cy, x1, x2.trans y1, y2⟩

theorem squareOf_quot (x : Fin 1 → ℝ) (h1 : 1 < x 0) (h2 : x 0 < 3 / 2) :
    stepQuot (fun _ => 1) (fun _ => 2) (1 / 100) 0 squareOf x = 201 / 100 * x 0 := by
  have e : stepped 1 2 (1 / 100) (x 0) = 101 / 100 * x 0 := by
    unfold stepped
    rw [min_eq_left (by linarith), max_eq_left (by linarith)]
    ring
  unfold stepQuot
  rw [e]
  have e2 : squareOf (setInput x 0 (101 / 100 * x 0)) = (101 / 100 * x 0) ^ 2 := by simp [squareOf, setInput]
  rw [e2, squareOf, div_eq_iff (by linarith)]
  ring

theorem squareOf_bounds : (∀ᵐ x ∂(Measure.pi fun _ : Fin 1 => unifOn 1 2), |squareOf x| ≤ 4) ∧
    ∀ᵐ x ∂(Measure.pi fun _ : Fin 1 => unifOn 1 2), |stepQuot (fun _ => 1) (fun _ => 2) (1 / 100) 0 squareOf x| ≤ 4 := by
  have hbox := ae_inBox (lo := fun _ : Fin 1 => (1 : ℝ)) (hi := fun _ => 2) fun _ => by norm_num
  constructor
  · filter_upwards [hbox] with x hx
    obtain ⟨h1, h2⟩ := hx 0
    unfold squareOf
    rw [abs_of_nonneg (sq_nonneg _)]
    nlinarith
  · filter_upwards [hbox] with x hx
    obtain ⟨h1, h2⟩ := hx 0
    have t1 : 1 ≤ stepped 1 2 (1 / 100) (x 0) := le_max_right _ _
    have t2 : stepped 1 2 (1 / 100) (x 0) ≤ 2 := max_le (min_le_right _ _) (by norm_num)
    unfold stepQuot
    have e2 : ∀ t, squareOf (setInput x 0 t) = t ^ 2 := fun t => by simp [squareOf, setInput]
    rw [e2, squareOf]
    beta_reduce
    generalize stepped 1 2 (1 / 100) (x 0) = t at t1 t2
    by_cases ht : t - x 0 = 0
    · rw [ht, div_zero, abs_zero]; norm_num
    · rw [show (t ^ 2 - x 0 ^ 2) / (t - x 0) = t + x 0 by field_simp; ring, abs_le]
      constructor <;> linarith

theorem sq_mean_pos {β : Type} [MeasurableSpace β] (law : Measure β) [IsProbabilityMeasure law] (g : β → ℝ) (mg : Measurable g) (H : ℝ)
    (hb : ∀ᵐ x ∂law, |g x| ≤ H) (hne : ¬ ∀ᵐ x ∂law, g x = 0) : 0 < ∫ x, g x ^ 2 ∂law := by
  have ig : Integrable (fun x => g x ^ 2) law := by
    refine Integrable.of_bound (mg.pow_const 2).aestronglyMeasurable (H ^ 2) ?_
    filter_upwards [hb] with x hx
    rw [Real.norm_eq_abs, abs_pow]
    exact pow_le_pow_left₀ (abs_nonneg _) hx 2
  refine lt_of_le_of_ne (integral_nonneg fun x => sq_nonneg _) fun e => hne ?_
  have := (integral_eq_zero_iff_of_nonneg (fun x => sq_nonneg (g x)) ig).mp e.symm
  filter_upwards [this] with x hx
  exact pow_eq_zero_iff (by norm_num) |>.mp hx

theorem squareOf_vars : 0 < Var[squareOf; Measure.pi fun _ : Fin 1 => unifOn 1 2] ∧
    0 < quotVar (fun _ => 1) (fun _ => 2) (1 / 100) 0 squareOf ∧ 0 < indexVar (fun _ => 1) (fun _ => 2) (1 / 100) 0 squareOf := by
  have := isProb_unifOn (show (1 : ℝ) < 2 by norm_num)
  obtain ⟨bG, bq⟩ := squareOf_bounds
  set law := Measure.pi fun _ : Fin 1 => unifOn 1 2 with hlaw
  have mG := measurable_squareOf
  have mq : Measurable fun x => stepQuot (fun _ => 1) (fun _ => 2) (1 / 100) 0 squareOf x ^ 2 :=
    (measurable_stepQuot (lo := fun _ => 1) (hi := fun _ => 2) 0 (1 / 100) squareOf mG).pow_const 2
  have bq2 : ∀ᵐ x ∂law, |stepQuot (fun _ => 1) (fun _ => 2) (1 / 100) 0 squareOf x ^ 2| ≤ 16 := by
    filter_upwards [bq] with x hx
    rw [abs_pow]
    have := pow_le_pow_left₀ (abs_nonneg _) hx 2
    linarith
  have hV : 0 < Var[squareOf; law] := by
    rw [variance_eq_integral mG.aemeasurable, squareOf_mean]
    refine sq_mean_pos law _ (mG.sub_const _) (4 + 7 / 3) ?_ fun hae => ?_
    · filter_upwards [bG] with x hx
      have := abs_sub (squareOf x) (7 / 3)
      rw [abs_of_pos (show (0 : ℝ) < 7 / 3 by norm_num)] at this
      linarith
    · obtain ⟨x, y, cx, cy, h1, h2, h3⟩ := two_inputs _ hae
      unfold squareOf at cx cy
      nlinarith
  have hq : 0 < quotVar (fun _ => 1) (fun _ => 2) (1 / 100) 0 squareOf := by
    rw [quotVar, variance_eq_integral mq.aemeasurable]
    generalize (∫ x, stepQuot (fun _ => 1) (fun _ => 2) (1 / 100) 0 squareOf x ^ 2 ∂Measure.pi fun _ : Fin 1 => unifOn 1 2) = m
    refine sq_mean_pos law _ (mq.sub_const _) (16 + |m|) ?_ fun hae => ?_
    · filter_upwards [bq2] with x hx
      exact (abs_sub _ _).trans (by linarith)
    · obtain ⟨x, y, cx, cy, h1, h2, h3⟩ := two_inputs _ hae
      rw [squareOf_quot x h1 (by linarith)] at cx
      rw [squareOf_quot y (by linarith) h3] at cy
      nlinarith
  refine ⟨hV, hq, ?_⟩
  have hθ : 0 ≤ derivIndex (fun _ => 1) (fun _ => 2) 0 squareOf (stepQuot (fun _ => 1) (fun _ => 2) (1 / 100) 0 squareOf) := by
    unfold derivIndex
    have : 0 ≤ ∫ x, stepQuot (fun _ => 1) (fun _ => 2) (1 / 100) 0 squareOf x ^ 2 ∂law := integral_nonneg fun x => sq_nonneg _
    positivity
  have hpi : (0 : ℝ) < Real.pi ^ 2 := by positivity
  have eT : ∀ x, indexTerm (fun _ => 1) (fun _ => 2) (1 / 100) 0 squareOf x =
      (stepQuot (fun _ => 1) (fun _ => 2) (1 / 100) 0 squareOf x ^ 2 * (2 - 1) ^ 2 / Real.pi ^ 2 -
        derivIndex (fun _ => 1) (fun _ => 2) 0 squareOf (stepQuot (fun _ => 1) (fun _ => 2) (1 / 100) 0 squareOf) *
          (squareOf x - 7 / 3) ^ 2) / Var[squareOf; law] := by
    intro x
    unfold indexTerm
    rw [squareOf_mean]
  unfold indexVar
  simp only [eT]
  generalize derivIndex (fun _ => 1) (fun _ => 2) 0 squareOf (stepQuot (fun _ => 1) (fun _ => 2) (1 / 100) 0 squareOf) = θ at hθ
  generalize Var[squareOf; law] = V at hV
  refine sq_mean_pos law _ ?_ ((16 / Real.pi ^ 2 + θ * 100) / V) ?_ fun hae => ?_
  · exact (((mq.mul_const _).div_const _).sub (((mG.sub_const _).pow_const 2).const_mul θ)).div_const V
  · filter_upwards [bG, bq2] with x h1 h2
    rw [abs_div, abs_of_pos hV]
    refine div_le_div_of_nonneg_right ((abs_sub _ _).trans (add_le_add ?_ ?_)) hV.le
    · rw [abs_div, abs_of_pos hpi]
      refine div_le_div_of_nonneg_right ?_ hpi.le
      norm_num
      norm_num at h2
      exact h2
    · rw [abs_mul, abs_of_nonneg hθ, abs_of_nonneg (sq_nonneg _)]
      refine mul_le_mul_of_nonneg_left ?_ hθ
      obtain ⟨a, b⟩ := abs_le.mp h1
      nlinarith
  · obtain ⟨x, y, cx, cy, h1, h2, h3⟩ := two_inputs _ hae
    rw [squareOf_quot x h1 (by linarith), div_eq_zero_iff, or_iff_left hV.ne', sub_eq_zero, div_eq_iff hpi.ne'] at cx
    rw [squareOf_quot y (by linarith) h3, div_eq_zero_iff, or_iff_left hV.ne', sub_eq_zero, div_eq_iff hpi.ne'] at cy
    unfold squareOf at cx cy
    have hxy : x 0 ^ 2 < y 0 ^ 2 := by nlinarith
    have hy2 : y 0 ^ 2 < 9 / 4 := by nlinarith
    have hd : (y 0 ^ 2 - 7 / 3) ^ 2 ≤ (x 0 ^ 2 - 7 / 3) ^ 2 := by nlinarith
    have := mul_le_mul_of_nonneg_right (mul_le_mul_of_nonneg_left hd hθ) hpi.le
    nlinarith

/-- The hypotheses can be met: the square of one input between 1 and 2, step 1/100, level 95%. -/
example (z : ℝ) (hz : stdNormalCDF z = 1 / 2 + 19 / 20 / 2) (F : Ppf ℝ) (junk : Num ℝ) (pb : Problem ℝ) (hn : pb.numVars = 1)
    (hb : pb.bounds = boundsTable [(1, 2)]) (hd : pb.dists = none) :
    ∃ (Ω : Type) (_ : MeasurableSpace Ω) (P : Measure Ω) (gen : Nat → Ω → Nat → Nat → Py (Mat ℝ))
      (w : ∀ N R : Nat, Ω → Fin 1 → Fin R → Fin N → Fin N), ∀ ε > 0, ∃ small > 0, ∃ large > 0, ∃ N0 R0, ∀ N ≥ N0, ∀ R ≥ R0,
      |P.real {ω | RunCovers (fun _ : Fin 1 => 1) (fun _ => 2) (1 / 100) (fun r => r.getD 0 0 ^ 2) 0 z (19 / 20) N 0 F junk pb (gen N ω)
        (resampleOf (w N R ω)) (·.vi)
        (∫ x, stepQuot (fun _ => 1) (fun _ => 2) (1 / 100) 0 squareOf x ^ 2 ∂Measure.pi fun _ => unifOn 1 2)} - 19 / 20| < ε ∧
      P.real {ω | RunCovers (fun _ : Fin 1 => 1) (fun _ => 2) (1 / 100) (fun r => small * r.getD 0 0 ^ 2) 0 z (19 / 20) N 0 F junk pb (gen N ω)
        (resampleOf (w N R ω)) (·.dgsm)
        (derivIndex (fun _ => 1) (fun _ => 2) 0 squareOf (stepQuot (fun _ => 1) (fun _ => 2) (1 / 100) 0 squareOf))} < ε ∧
      1 - ε < P.real {ω | RunCovers (fun _ : Fin 1 => 1) (fun _ => 2) (1 / 100) (fun r => large * r.getD 0 0 ^ 2) 0 z (19 / 20) N 0 F junk pb
        (gen N ω) (resampleOf (w N R ω)) (·.dgsm)
        (derivIndex (fun _ => 1) (fun _ => 2) 0 squareOf (stepQuot (fun _ => 1) (fun _ => 2) (1 / 100) 0 squareOf))} := by
  have hlt : ∀ _ : Fin 1, (1 : ℝ) < 2 := fun _ => by norm_num
  have hpr := fun i => isProb_unifOn (hlt i)
  obtain ⟨Ω, mΩ, P, Z, w, h1, h2, h3, h4⟩ := rows_fresh_exist (Measure.pi fun _ : Fin 1 => unifOn 1 2) 1
  have hZ : UniformPoints (fun _ => 1) (fun _ => 2) P Z := ⟨h1, h2, h3⟩
  obtain ⟨v1, v2, v3⟩ := squareOf_vars
  have hf : ∀ x : Fin 1 → ℝ, (fun r : List ℝ => r.getD 0 0 ^ 2) (List.ofFn x) = squareOf x := fun x => by simp [squareOf]
  have hb' : pb.bounds = boundsTable (List.ofFn fun _ : Fin 1 => ((1 : ℝ), (2 : ℝ))) := by simpa using hb
  refine ⟨Ω, mΩ, P, fun N ω _ _ => .ok ((firstRows Z N ω).map (unitPoint (fun _ => 1) fun _ => 2)), w, fun ε hε => ?_⟩
  obtain ⟨N1, R1, k1⟩ := C143_vi_partial (fun _ => 1) (fun _ => 2) hlt (1 / 100) (by norm_num) (fun r => r.getD 0 0 ^ 2) squareOf hf
    measurable_squareOf 0 P Z hZ 4 squareOf_bounds.2 pb hn hb' hd z (19 / 20) (by norm_num) hz v2 ε hε
  obtain ⟨a, ha, b, hb0, N2, R2, k2⟩ := C143_units_fail (fun _ => 1) (fun _ => 2) hlt (1 / 100) (by norm_num) (fun r => r.getD 0 0 ^ 2)
    squareOf hf measurable_squareOf 0 P Z hZ 4 squareOf_bounds.2 pb hn hb' hd z (19 / 20) (by norm_num) hz v2 4 squareOf_bounds.1 v1 v3 ε hε
  refine ⟨a, ha, b, hb0, max N1 N2, max R1 R2, fun N hN R hR => ⟨?_, ?_⟩⟩
  · exact k1 N (le_of_max_le_left hN) R (le_of_max_le_left hR) (w N R) (h4 N R 0) F junk 0 _ (fun _ => [])
      fun ω => ⟨rfl, rfl, by simp [HasCols]⟩
  · exact k2 N (le_of_max_le_right hN) R (le_of_max_le_right hR) (w N R) (h4 N R 0) F junk 0 _ (fun _ => [])
      fun ω => ⟨rfl, rfl, by simp [HasCols]⟩

end SALib
