import Verif.Props.DgsmCoverage
import Verif.Lemmas.StudentRate

/-!
# C146: the DGSM confidence intervals with a fixed number of resamples
-/

namespace SALib

open MeasureTheory ProbabilityTheory Spec

variable {d : Nat}

section claims

variable (lo hi : Fin d → ℝ) (h : ∀ i, lo i < hi i) (delta : ℝ) (hdelta : delta ≠ 0) (f : List ℝ → ℝ) (G : (Fin d → ℝ) → ℝ)
  (hf : ∀ x, f (List.ofFn x) = G x) (hGm : Measurable G) (j : Fin d)
  {Ω : Type} [MeasurableSpace Ω] (P : Measure Ω) (Z : ℕ → Ω → Fin d → ℝ) (hZ : UniformPoints lo hi P Z)
  (Q : ℝ) (hQ : ∀ᵐ x ∂Measure.pi fun i => unifOn (lo i) (hi i), |stepQuot lo hi delta j G x| ≤ Q)
  (pb : Problem ℝ) (hn : pb.numVars = d) (hb : pb.bounds = boundsTable (List.ofFn fun i => (lo i, hi i))) (hd : pb.dists = none)
  (z conf : ℝ) (hc : 0 < conf ∧ conf < 1) (hz : stdNormalCDF z = 1 / 2 + conf / 2)
  (hq : 0 < quotVar lo hi delta j G)
include h hf hdelta hGm hZ hQ hn hb hd hc hz hq

/-- **C146**.  Sample `N` independent uniform points and their steps, run a model with bounded difference quotients, analyse with a fixed
number `R` of fair resamples: the probability that `vi ± dgsm_conf` contains the mean squared difference quotient tends to the Student
probability as `N` grows, unless the squared quotient is constant. -/
theorem C146_vi (R : Nat) (hR : 2 ≤ R) (ε : ℝ) (hε : 0 < ε) :
    ∃ N0, ∀ N ≥ N0, ∀ w : Ω → Fin d → Fin R → Fin N → Fin N, FreshResample P Z N R (fun ω => w ω j) →
      ∀ (F : Ppf ℝ) (junk : Num ℝ) (skip : Nat) (gen : Ω → Nat → Nat → Py (Mat ℝ)) (pre : Ω → Mat ℝ),
      (∀ ω, gen ω (N + skip) d = .ok (pre ω ++ (firstRows Z N ω).map (unitPoint lo hi)) ∧ (pre ω).length = skip ∧ HasCols d (pre ω)) →
      |P.real {ω | RunCovers lo hi delta f j z conf N skip F junk pb (gen ω) (resampleOf (w ω)) (·.vi)
        (∫ x, stepQuot lo hi delta j G x ^ 2 ∂Measure.pi fun i => unifOn (lo i) (hi i))} - studentWithin R z| < ε := by
  obtain ⟨N0, hcov⟩ := (vi_limits lo hi h delta hdelta f G hf hGm j P Z hZ Q hQ pb hn hb hd z conf hc hz hq ε hε).fixed R hR
  exact ⟨N0, fun N hN w hw F junk skip gen pre hgen => hcov N hN _ hw _ ⟨w, F, junk, skip, gen, pre, rfl, hgen, rfl⟩⟩

/-- **C146**.  So with a fixed number of resamples `vi ± dgsm_conf` contains the mean squared quotient less often than the confidence level
says, by an amount which does not vanish as the number of points grows. -/
theorem C146_short (R : Nat) (hR : 2 ≤ R) :
    ∃ δ > 0, ∃ N0, ∀ N ≥ N0, ∀ w : Ω → Fin d → Fin R → Fin N → Fin N, FreshResample P Z N R (fun ω => w ω j) →
      ∀ (F : Ppf ℝ) (junk : Num ℝ) (skip : Nat) (gen : Ω → Nat → Nat → Py (Mat ℝ)) (pre : Ω → Mat ℝ),
      (∀ ω, gen ω (N + skip) d = .ok (pre ω ++ (firstRows Z N ω).map (unitPoint lo hi)) ∧ (pre ω).length = skip ∧ HasCols d (pre ω)) →
      P.real {ω | RunCovers lo hi delta f j z conf N skip F junk pb (gen ω) (resampleOf (w ω)) (·.vi)
        (∫ x, stepQuot lo hi delta j G x ^ 2 ∂Measure.pi fun i => unifOn (lo i) (hi i))} ≤ conf - δ := by
  obtain ⟨hz0, hlev⟩ := normalWithin_level z conf hc.1 hz
  have hlt : studentWithin R z < conf := (studentWithin_lt hR z hz0).trans_eq hlev
  obtain ⟨N0, hcov⟩ := C146_vi lo hi h delta hdelta f G hf hGm j P Z hZ Q hQ pb hn hb hd z conf hc hz hq R hR
    ((conf - studentWithin R z) / 2) (by linarith)
  refine ⟨(conf - studentWithin R z) / 2, by linarith, N0, fun N hN w hw F junk skip gen pre hgen => ?_⟩
  have := (abs_lt.mp (hcov N hN w hw F junk skip gen pre hgen)).2
  linarith

/-- **C146**.  How many resamples are enough: with `N` large `vi ± dgsm_conf` contains the mean squared quotient with a probability of at
least `conf - (1 + z²) / (2 (R - 1)) - ε`. -/
theorem C146_enough (R : Nat) (hR : 2 ≤ R) (ε : ℝ) (hε : 0 < ε) :
    ∃ N0, ∀ N ≥ N0, ∀ w : Ω → Fin d → Fin R → Fin N → Fin N, FreshResample P Z N R (fun ω => w ω j) →
      ∀ (F : Ppf ℝ) (junk : Num ℝ) (skip : Nat) (gen : Ω → Nat → Nat → Py (Mat ℝ)) (pre : Ω → Mat ℝ),
      (∀ ω, gen ω (N + skip) d = .ok (pre ω ++ (firstRows Z N ω).map (unitPoint lo hi)) ∧ (pre ω).length = skip ∧ HasCols d (pre ω)) →
      conf - (1 + z ^ 2) / (2 * (R - 1)) - ε ≤ P.real {ω | RunCovers lo hi delta f j z conf N skip F junk pb (gen ω) (resampleOf (w ω)) (·.vi)
        (∫ x, stepQuot lo hi delta j G x ^ 2 ∂Measure.pi fun i => unifOn (lo i) (hi i))} := by
  obtain ⟨hz0, hlev⟩ := normalWithin_level z conf hc.1 hz
  have hge := studentWithin_ge hR z hz0.le
  rw [hlev] at hge
  obtain ⟨N0, hcov⟩ := C146_vi lo hi h delta hdelta f G hf hGm j P Z hZ Q hQ pb hn hb hd z conf hc hz hq R hR ε hε
  refine ⟨N0, fun N hN w hw F junk skip gen pre hgen => ?_⟩
  have := (abs_lt.mp (hcov N hN w hw F junk skip gen pre hgen)).1
  linarith

variable (B : ℝ) (hB : ∀ᵐ x ∂Measure.pi fun i => unifOn (lo i) (hi i), |G x| ≤ B)
  (hV : 0 < Var[G; Measure.pi fun i => unifOn (lo i) (hi i)]) (hi0 : 0 < indexVar lo hi delta j G)
include hB hV hi0

/-- **C146**, the interval of the index.  The probability that `dgsm ± dgsm_conf` contains the derivative-based index of the quotients tends
to the Student probability of `z s / t`, with `s` the standard deviation of the squared quotients and `t` that of the index terms. -/
theorem C146_dgsm (R : Nat) (hR : 2 ≤ R) (ε : ℝ) (hε : 0 < ε) :
    ∃ N0, ∀ N ≥ N0, ∀ w : Ω → Fin d → Fin R → Fin N → Fin N, FreshResample P Z N R (fun ω => w ω j) →
      ∀ (F : Ppf ℝ) (junk : Num ℝ) (skip : Nat) (gen : Ω → Nat → Nat → Py (Mat ℝ)) (pre : Ω → Mat ℝ),
      (∀ ω, gen ω (N + skip) d = .ok (pre ω ++ (firstRows Z N ω).map (unitPoint lo hi)) ∧ (pre ω).length = skip ∧ HasCols d (pre ω)) →
      |P.real {ω | RunCovers lo hi delta f j z conf N skip F junk pb (gen ω) (resampleOf (w ω)) (·.dgsm)
        (derivIndex lo hi j G (stepQuot lo hi delta j G))} -
          studentWithin R (z * √(quotVar lo hi delta j G) / √(indexVar lo hi delta j G))| < ε := by
  obtain ⟨N0, hcov⟩ := (dgsm_limits lo hi h delta hdelta f G hf hGm j P Z hZ Q hQ pb hn hb hd z conf hc hz hq B hB hV hi0 ε hε).fixed R hR
  exact ⟨N0, fun N hN w hw F junk skip gen pre hgen => hcov N hN _ hw _ ⟨w, F, junk, skip, gen, pre, rfl, hgen, rfl⟩⟩

end claims

/-- The hypotheses can be met: the square of one input between 1 and 2, step 1/100, level 95% and 100 resamples as by default. -/
example (z : ℝ) (hz : stdNormalCDF z = 1 / 2 + 19 / 20 / 2) (F : Ppf ℝ) (junk : Num ℝ) (pb : Problem ℝ) (hn : pb.numVars = 1)
    (hb : pb.bounds = boundsTable [(1, 2)]) (hd : pb.dists = none) :
    ∃ (Ω : Type) (_ : MeasurableSpace Ω) (P : Measure Ω) (gen : Nat → Ω → Nat → Nat → Py (Mat ℝ))
      (w : ∀ N R : Nat, Ω → Fin 1 → Fin R → Fin N → Fin N), (∃ δ > 0, ∃ N0, ∀ N ≥ N0,
      P.real {ω | RunCovers (fun _ : Fin 1 => 1) (fun _ => 2) (1 / 100) (fun r => r.getD 0 0 ^ 2) 0 z (19 / 20) N 0 F junk pb (gen N ω)
        (resampleOf (w N 100 ω)) (·.vi)
        (∫ x, stepQuot (fun _ => 1) (fun _ => 2) (1 / 100) 0 squareOf x ^ 2 ∂Measure.pi fun _ => unifOn 1 2)} ≤ 19 / 20 - δ) ∧
      ∀ ε > 0, ∃ N0, ∀ N ≥ N0,
      |P.real {ω | RunCovers (fun _ : Fin 1 => 1) (fun _ => 2) (1 / 100) (fun r => r.getD 0 0 ^ 2) 0 z (19 / 20) N 0 F junk pb (gen N ω)
        (resampleOf (w N 100 ω)) (·.dgsm)
        (derivIndex (fun _ => 1) (fun _ => 2) 0 squareOf (stepQuot (fun _ => 1) (fun _ => 2) (1 / 100) 0 squareOf))} -
          studentWithin 100 (z * √(quotVar (fun _ => 1) (fun _ => 2) (1 / 100) 0 squareOf) /
            √(indexVar (fun _ => 1) (fun _ => 2) (1 / 100) 0 squareOf))| < ε := by
  have hlt : ∀ _ : Fin 1, (1 : ℝ) < 2 := fun _ => by norm_num
  have hpr := fun i => isProb_unifOn (hlt i)
  obtain ⟨Ω, mΩ, P, Z, w, h1, h2, h3, h4⟩ := rows_fresh_exist (Measure.pi fun _ : Fin 1 => unifOn 1 2) 1
  have hZ : UniformPoints (fun _ => 1) (fun _ => 2) P Z := ⟨h1, h2, h3⟩
  obtain ⟨v1, v2, v3⟩ := squareOf_vars
  have hf : ∀ x : Fin 1 → ℝ, (fun r : List ℝ => r.getD 0 0 ^ 2) (List.ofFn x) = squareOf x := fun x => by simp [squareOf]
  have hb' : pb.bounds = boundsTable (List.ofFn fun _ : Fin 1 => ((1 : ℝ), (2 : ℝ))) := by simpa using hb
  refine ⟨Ω, mΩ, P, fun N ω _ _ => .ok ((firstRows Z N ω).map (unitPoint (fun _ => 1) fun _ => 2)), w, ?_, fun ε hε => ?_⟩
  · obtain ⟨δ, hδ, N1, k1⟩ := C146_short (fun _ => 1) (fun _ => 2) hlt (1 / 100) (by norm_num) (fun r => r.getD 0 0 ^ 2) squareOf hf
      measurable_squareOf 0 P Z hZ 4 squareOf_bounds.2 pb hn hb' hd z (19 / 20) (by norm_num) hz v2 100 (by norm_num)
    exact ⟨δ, hδ, N1, fun N hN => k1 N hN (w N 100) (h4 N 100 0) F junk 0 _ (fun _ => []) fun ω => ⟨rfl, rfl, by simp [HasCols]⟩⟩
  · obtain ⟨N2, k2⟩ := C146_dgsm (fun _ => 1) (fun _ => 2) hlt (1 / 100) (by norm_num) (fun r => r.getD 0 0 ^ 2) squareOf hf
      measurable_squareOf 0 P Z hZ 4 squareOf_bounds.2 pb hn hb' hd z (19 / 20) (by norm_num) hz v2 4 squareOf_bounds.1 v1 v3
      100 (by norm_num) ε hε
    exact ⟨N2, fun N hN => k2 N hN (w N 100) (h4 N 100 0) F junk 0 _ (fun _ => []) fun ω => ⟨rfl, rfl, by simp [HasCols]⟩⟩

end SALib
