import Verif.Lemmas.FastSobol

/-! # C131: when the indices of extended FAST are the Sobol indices -/

namespace SALib

open Real Finset Spec MeasureTheory ProbabilityTheory

/-- **C131**: sample, run a polynomial of degree at most `M` in the sines of the inputs, analyse.  If the frequencies of
the other inputs are free of interference up to twice the degree of the model, then S1 and ST of input `i` are its Sobol
indices. -/
theorem C131_sobol_partial (F : Ppf ℝ) (u : Nat → ℝ) (bnd : ℝ) (draws : Nat → List (List Nat)) (pb : Problem ℝ)
    (bs : List (ℝ × ℝ)) (N M : Nat) (hN : 4 * M ^ 2 < N) (hM : 0 < M) (hb : pb.bounds = boundsTable bs)
    (hd : pb.dists = none) (hn : pb.numVars = bs.length) (hne : bs ≠ []) (hlegal : ∀ p ∈ bs, p.1 < p.2)
    (hdr : ValidResamples N bs.length draws) (p : MvPolynomial (Fin bs.length) ℝ) (hp : p.totalDegree ≤ M)
    (hV : Var[sineModel p; Measure.pi fun _ => unifOn 0 1] ≠ 0) :
    ∃ out pb' res, fastSample F u pb N M = .ok (out, pb') ∧
      fastAnalyze bnd draws pb' (out.map (onInputs bs (sineModel p))) M = .ok res ∧ ∀ i : Fin bs.length,
        NoInterference (blockFreqs N M bs.length i) i (2 * p.totalDegree) →
          res.S1[i.1]? = some (some (closedEffect (fun _ => unifOn 0 1) (sineModel p) (onlyInput i) /
            Var[sineModel p; Measure.pi fun _ => unifOn 0 1])) ∧
          res.ST[i.1]? = some (some (totalEffect (fun _ => unifOn 0 1) (sineModel p) (onlyInput i) /
            Var[sineModel p; Measure.pi fun _ => unifOn 0 1])) := by
  obtain ⟨out, pb', res, h1, h2, h3⟩ := C131_exact F u bnd draws pb bs N M hN hM hb hd hn hne hlegal hdr p hp
  refine ⟨out, pb', res, h1, h2, fun i hno => ?_⟩
  obtain ⟨e1, e2, e3⟩ := parts_of_noInterference p _ le_rfl _ (u i) i hno
  have h4 := (h3 i).1
  rw [e1, e2, e3] at h4
  refine ⟨(h4 hV).1, ?_⟩
  rw [(h4 hV).2]
  have := isProb_unifOn unit_lt
  obtain ⟨n, c, e, -, hten, -⟩ := sineModel_tensor p
  have hG : MemLp (sineModel p) 2 (Measure.pi fun _ : Fin bs.length => unifOn 0 1) := by
    rw [hten]; exact memLp_tensorSum _ c _ fun m j => memLp_sine_pow _
  rw [totalEffect_eq_sub _ _ hG, sub_div, div_self hV]

/-! ## Frequencies free of interference -/

/-- With two inputs there is no interference. -/
theorem noInterference_two (N M K : Nat) (i : Fin 2) : NoInterference (blockFreqs N M 2 i) i K := by
  intro k hi _ hs j
  have hf : ∀ j : Fin 2, j ≠ i → blockFreqs N M 2 i j = 1 := by
    intro j hj
    have h0 : (if (j : Nat) < i then (j : Nat) else j - 1) = 0 := by
      have := j.2
      have : (j : Nat) ≠ i := fun h => hj (Fin.ext h)
      split <;> omega
    unfold blockFreqs otherFreq
    rw [h0]
    simp
  by_cases hj : j = i
  · rw [hj, hi]
  · rw [Finset.sum_eq_single j] at hs
    · rw [hf j hj] at hs
      simpa using hs
    · intro b _ hb
      have : b = i := by
        have := b.2; have := i.2; have := j.2
        have h1 : (b : Nat) ≠ j := fun h => hb (Fin.ext h)
        have h2 : (j : Nat) ≠ i := fun h => hj (Fin.ext h)
        exact Fin.ext (by omega)
      rw [this, hi, zero_mul]
    · intro h; exact absurd (Finset.mem_univ j) h

/-- With three inputs there is none up to order `2 M` as soon as the sample has more than `8 M ^ 3` points. -/
theorem noInterference_three (N M : Nat) (hM : 0 < M) (hN : 8 * M ^ 3 < N) (i : Fin 3) :
    NoInterference (blockFreqs N M 3 i) i (2 * M) := by
  have hm : 2 * M ≤ freeFreqs N M := by
    unfold freeFreqs
    rw [Nat.le_div_iff_mul_le (by omega), Nat.le_div_iff_mul_le (by omega)]
    have : 2 * M * (2 * M) * (2 * M) = 8 * M ^ 3 := by ring
    omega
  intro k hi hK hs
  have hf0 : otherFreq (freeFreqs N M) 2 0 = 1 := by unfold otherFreq; rw [if_pos (by omega)]; simp
  have hf1 : otherFreq (freeFreqs N M) 2 1 = freeFreqs N M := by
    unfold otherFreq; rw [if_pos (by omega)]; simp; omega
  rw [Fin.sum_univ_three] at hK hs
  have key : ∀ a b : ℤ, |a| + |b| ≤ 2 * M → a + b * freeFreqs N M = 0 → a = 0 ∧ b = 0 := by
    intro a b hab h0
    have hb : b = 0 := by
      by_contra hb
      have h1 : 1 ≤ |b| := Int.one_le_abs hb
      have h2 : |a| = |b| * freeFreqs N M := by
        have : a = -(b * freeFreqs N M) := by linarith
        rw [this, abs_neg, abs_mul, Nat.abs_cast]
      have h3 : (freeFreqs N M : ℤ) ≤ |b| * freeFreqs N M := by nlinarith
      have h4 : (2 * M : ℤ) ≤ freeFreqs N M := by exact_mod_cast hm
      linarith
    subst hb
    exact ⟨by linarith, rfl⟩
  match i with
  | 0 =>
    rw [hi] at hK hs
    have e1 : blockFreqs N M 3 (0 : Fin 3) (1 : Fin 3) = 1 := hf0
    have e2 : blockFreqs N M 3 (0 : Fin 3) (2 : Fin 3) = freeFreqs N M := hf1
    rw [e1, e2] at hs
    obtain ⟨h1, h2⟩ := key (k 1) (k 2) (by simpa using hK) (by simpa using hs)
    intro j
    match j with
    | 0 => exact hi
    | 1 => exact h1
    | 2 => exact h2
  | 1 =>
    rw [hi] at hK hs
    have e1 : blockFreqs N M 3 (1 : Fin 3) (0 : Fin 3) = 1 := hf0
    have e2 : blockFreqs N M 3 (1 : Fin 3) (2 : Fin 3) = freeFreqs N M := hf1
    rw [e1, e2] at hs
    obtain ⟨h1, h2⟩ := key (k 0) (k 2) (by simpa using hK) (by simpa using hs)
    intro j
    match j with
    | 0 => exact h1
    | 1 => exact hi
    | 2 => exact h2
  | 2 =>
    rw [hi] at hK hs
    have e1 : blockFreqs N M 3 (2 : Fin 3) (0 : Fin 3) = 1 := hf0
    have e2 : blockFreqs N M 3 (2 : Fin 3) (1 : Fin 3) = freeFreqs N M := hf1
    rw [e1, e2] at hs
    obtain ⟨h1, h2⟩ := key (k 0) (k 1) (by simpa using hK) (by simpa using hs)
    intro j
    match j with
    | 0 => exact h1
    | 1 => exact h2
    | 2 => exact hi

/-- Different positive frequencies do not interfere to order 2. -/
theorem noInterference_distinct {D : Nat} (freq : Nat → Nat) (i : Fin D) (hpos : ∀ j : Fin D, j ≠ i → 0 < freq j)
    (hinj : ∀ j j' : Fin D, j ≠ i → j' ≠ i → freq j = freq j' → j = j') : NoInterference freq i 2 := by
  intro k hi hK hs
  by_contra hne
  push Not at hne
  obtain ⟨j, hj⟩ := hne
  have hji : j ≠ i := fun h => hj (h ▸ hi)
  have hfj : (freq j : ℤ) ≠ 0 := by have := hpos j hji; omega
  rw [← Finset.add_sum_erase _ _ (Finset.mem_univ j)] at hs hK
  have : ∃ l ∈ univ.erase j, k l * (freq l : ℤ) ≠ 0 := by
    by_contra hc
    push Not at hc
    rw [Finset.sum_eq_zero hc, add_zero] at hs
    exact (mul_ne_zero hj hfj) hs
  obtain ⟨l, hl, hkl⟩ := this
  have hl0 : k l ≠ 0 := fun h => hkl (by rw [h, zero_mul])
  have hli : l ≠ i := fun h => hl0 (h ▸ hi)
  have hlj : l ≠ j := Finset.ne_of_mem_erase hl
  rw [← Finset.add_sum_erase _ _ hl] at hs hK
  have h1 : 1 ≤ |k j| := Int.one_le_abs hj
  have h2 : 1 ≤ |k l| := Int.one_le_abs hl0
  have h3 : 0 ≤ ∑ x ∈ (univ.erase j).erase l, |k x| := Finset.sum_nonneg fun _ _ => abs_nonneg _
  have h4 : ∑ x ∈ (univ.erase j).erase l, |k x| = 0 := by push_cast at hK; linarith
  have h5 : ∑ x ∈ (univ.erase j).erase l, k x * (freq x : ℤ) = 0 := by
    refine Finset.sum_eq_zero fun x hx => ?_
    have := (Finset.sum_eq_zero_iff_of_nonneg fun _ _ => abs_nonneg _).mp h4 x hx
    rw [abs_eq_zero.mp this, zero_mul]
  have h6 : |k j| = 1 := by push_cast at hK; linarith
  have h7 : |k l| = 1 := by push_cast at hK; linarith
  rw [h5, add_zero] at hs
  have hp1 := hpos j hji
  have hp2 := hpos l hli
  have : freq l = freq j := by
    rcases (abs_eq one_pos.le).mp h6 with h | h <;> rcases (abs_eq one_pos.le).mp h7 with h' | h' <;>
      rw [h, h'] at hs <;> omega
  exact hlj (hinj l j hli hji this)

theorem noInterference_linear (N M D : Nat) (i : Fin D) (hfree : D - 1 ≤ freeFreqs N M) :
    NoInterference (blockFreqs N M D i) i 2 := by
  have hidx : ∀ j : Fin D, j ≠ i → (if (j : Nat) < i then (j : Nat) else j - 1) < D - 1 := by
    intro j hj
    have := j.2
    have := i.2
    have : (j : Nat) ≠ i := fun h => hj (Fin.ext h)
    split <;> omega
  refine noInterference_distinct _ i ?_ ?_
  · intro j hj
    unfold blockFreqs otherFreq
    rw [if_pos hfree]
    exact Nat.add_pos_left one_pos _
  · intro j j' hj hj' he
    unfold blockFreqs otherFreq at he
    rw [if_pos hfree, if_pos hfree] at he
    have h1 := hidx j hj
    have h2 := hidx j' hj'
    have hmono : ∀ a b : Nat, a < b → b < D - 1 →
        a * (freeFreqs N M - 1) / (D - 1 - 1) < b * (freeFreqs N M - 1) / (D - 1 - 1) := by
      intro a b hab hb
      have hR : 0 < D - 1 - 1 := by omega
      have : a * (freeFreqs N M - 1) + (D - 1 - 1) ≤ b * (freeFreqs N M - 1) := by
        calc a * (freeFreqs N M - 1) + (D - 1 - 1) ≤ a * (freeFreqs N M - 1) + (freeFreqs N M - 1) := by omega
          _ = (a + 1) * (freeFreqs N M - 1) := by ring
          _ ≤ b * (freeFreqs N M - 1) := Nat.mul_le_mul_right _ hab
      calc a * (freeFreqs N M - 1) / (D - 1 - 1) < a * (freeFreqs N M - 1) / (D - 1 - 1) + 1 := by omega
        _ = (a * (freeFreqs N M - 1) + (D - 1 - 1)) / (D - 1 - 1) := (Nat.add_div_right _ hR).symm
        _ ≤ _ := Nat.div_le_div_right this
    have heq : (if (j : Nat) < i then (j : Nat) else j - 1) = (if (j' : Nat) < i then (j' : Nat) else j' - 1) := by
      rcases lt_trichotomy (if (j : Nat) < i then (j : Nat) else j - 1) (if (j' : Nat) < i then (j' : Nat) else j' - 1)
        with h | h | h
      · have := hmono _ _ h h2; omega
      · exact h
      · have := hmono _ _ h h1; omega
    have : (j : Nat) ≠ i := fun h => hj (Fin.ext h)
    have : (j' : Nat) ≠ i := fun h => hj' (Fin.ext h)
    refine Fin.ext ?_
    split at heq <;> split at heq <;> omega

/-! ## The values for linear models -/

theorem sineMoment_add_two (n : Nat) : sineMoment (n + 2) = (n + 1) / (n + 2) * sineMoment n := by
  have key : ∀ k : Nat, sineMoment k = (2 * π)⁻¹ * ∫ x in (0 : ℝ)..2 * π, sin x ^ k := by
    intro k
    unfold sineMoment
    rw [intervalIntegral.integral_comp_mul_left (fun x => sin x ^ k) (c := 2 * π) (by positivity)]
    simp
  rw [key, key, integral_sin_pow]
  simp
  ring

theorem sineMoment_one : sineMoment 1 = 0 := by
  unfold sineMoment
  simp only [pow_one]
  rw [intervalIntegral.integral_comp_mul_left (fun x => sin x) (c := 2 * π) (by positivity)]
  simp

theorem sineMoment_two : sineMoment 2 = 1 / 2 := by
  have := sineMoment_add_two 0
  norm_num [sineMoment_zero] at this
  exact this

theorem sineMoment_three : sineMoment 3 = 0 := by
  have := sineMoment_add_two 1
  norm_num [sineMoment_one] at this
  exact this

theorem sineMoment_four : sineMoment 4 = 3 / 8 := by
  have := sineMoment_add_two 2
  norm_num [sineMoment_two] at this
  exact this

/-- A sum of multiples of the sines of the inputs. -/
noncomputable def sineLinear {D : Nat} (c : Fin D → ℝ) : MvPolynomial (Fin D) ℝ :=
  ∑ j, MvPolynomial.C (c j) * MvPolynomial.X j

theorem totalDegree_sineLinear {D : Nat} (c : Fin D → ℝ) : (sineLinear c).totalDegree ≤ 1 := by
  unfold sineLinear
  refine MvPolynomial.totalDegree_finsetSum_le fun j _ => ?_
  refine (MvPolynomial.totalDegree_mul _ _).trans ?_
  rw [MvPolynomial.totalDegree_C, MvPolynomial.totalDegree_X]

theorem sineModel_linear {D : Nat} (c : Fin D → ℝ) (x : Fin D → ℝ) :
    sineModel (sineLinear c) x = ∑ j, c j * inputSine (x j) := by
  unfold sineModel sineLinear
  simp

theorem sineLinear_tensor {D : Nat} (c : Fin D → ℝ) :
    sineModel (sineLinear c) = tensorSum c (fun m j t => inputSine t ^ (if j = m then 1 else 0)) := by
  funext x
  rw [sineModel_linear]
  unfold tensorSum
  refine Finset.sum_congr rfl fun m _ => ?_
  rw [Finset.prod_eq_single m]
  · simp
  · intro b _ hb; simp [hb]
  · intro h; exact absurd (Finset.mem_univ m) h

theorem sineLinear_closed {D : Nat} (c : Fin D → ℝ) (s : Fin D → Bool) :
    closedEffect (fun _ => unifOn 0 1) (sineModel (sineLinear c)) s = ∑ j, if s j then c j ^ 2 / 2 else 0 := by
  have := isProb_unifOn unit_lt
  have hφ : ∀ (m : Fin D) (j : Fin D), MemLp (fun t => inputSine t ^ (if j = m then 1 else 0)) 2 (unifOn 0 1) :=
    fun m j => memLp_sine_pow _
  rw [sineLinear_tensor, closedEffect_tensorSum _ c _ hφ]
  simp_rw [integral_unit, ← pow_add, sineMoment_input]
  have h0 : ∑ m, c m * ∏ j : Fin D, sineMoment (if j = m then 1 else 0) = 0 := by
    refine Finset.sum_eq_zero fun m _ => ?_
    rw [Finset.prod_eq_zero (Finset.mem_univ m) (by rw [if_pos rfl, sineMoment_one]), mul_zero]
  rw [h0]
  simp only [ne_eq, OfNat.ofNat_ne_zero, not_false_eq_true, zero_pow, sub_zero]
  refine Finset.sum_congr rfl fun m _ => ?_
  rw [Finset.sum_eq_single m]
  · rw [Finset.prod_eq_single m]
    · by_cases h : s m = true
      · simp [h, sineMoment_two]; ring
      · simp [h, sineMoment_one]
    · intro b _ hb; simp [hb, sineMoment_zero]
    · intro h; exact absurd (Finset.mem_univ m) h
  · intro m' _ hm'
    rw [Finset.prod_eq_zero (Finset.mem_univ m), mul_zero]
    rw [if_pos rfl, if_neg hm'.symm, sineMoment_one, zero_mul]
    simp
  · intro h; exact absurd (Finset.mem_univ m) h

theorem memLp_sineModel {D : Nat} (p : MvPolynomial (Fin D) ℝ) :
    MemLp (sineModel p) 2 (Measure.pi fun _ : Fin D => unifOn 0 1) := by
  have := isProb_unifOn unit_lt
  obtain ⟨n, c, e, -, hten, -⟩ := sineModel_tensor p
  rw [hten]
  exact memLp_tensorSum _ c _ fun m j => memLp_sine_pow _

theorem sineLinear_var {D : Nat} (c : Fin D → ℝ) :
    Var[sineModel (sineLinear c); Measure.pi fun _ => unifOn 0 1] = ∑ j, c j ^ 2 / 2 := by
  have := isProb_unifOn unit_lt
  have h := sineLinear_closed c fun _ => true
  rw [show ∑ j, c j ^ 2 / 2 = ∑ j, (if (fun _ : Fin D => true) j = true then c j ^ 2 / 2 else 0) by simp, ← h]
  exact (closedEffect_all _ _ (memLp_sineModel _)).symm

theorem sineLinear_total {D : Nat} (c : Fin D → ℝ) (i : Fin D) :
    totalEffect (fun _ => unifOn 0 1) (sineModel (sineLinear c)) (onlyInput i) = c i ^ 2 / 2 := by
  have := isProb_unifOn unit_lt
  rw [totalEffect_eq_sub _ _ (memLp_sineModel _), sineLinear_var, sineLinear_closed, ← Finset.sum_sub_distrib,
    Finset.sum_eq_single i]
  · simp [onlyInput]
  · intro b _ hb; simp [onlyInput, hb]
  · intro h; exact absurd (Finset.mem_univ i) h

theorem sineLinear_first {D : Nat} (c : Fin D → ℝ) (i : Fin D) :
    closedEffect (fun _ => unifOn 0 1) (sineModel (sineLinear c)) (onlyInput i) = c i ^ 2 / 2 := by
  rw [sineLinear_closed, Finset.sum_eq_single i]
  · simp [onlyInput]
  · intro b _ hb; simp [onlyInput, hb]
  · intro h; exact absurd (Finset.mem_univ i) h

/-- **C131**, linear models: with a frequency free for every other input, both indices are exact. -/
theorem C131_linear (F : Ppf ℝ) (u : Nat → ℝ) (bnd : ℝ) (draws : Nat → List (List Nat)) (pb : Problem ℝ)
    (bs : List (ℝ × ℝ)) (N M : Nat) (hN : 4 * M ^ 2 < N) (hM : 0 < M) (hb : pb.bounds = boundsTable bs)
    (hd : pb.dists = none) (hn : pb.numVars = bs.length) (hne : bs ≠ []) (hlegal : ∀ p ∈ bs, p.1 < p.2)
    (hdr : ValidResamples N bs.length draws) (hfree : bs.length - 1 ≤ freeFreqs N M) (c : Fin bs.length → ℝ)
    (hc : ∃ j, c j ≠ 0) :
    ∃ out pb' res, fastSample F u pb N M = .ok (out, pb') ∧
      fastAnalyze bnd draws pb' (out.map (onInputs bs fun x => ∑ j, c j * inputSine (x j))) M = .ok res ∧
        ∀ i : Fin bs.length, res.S1[i.1]? = some (some (c i ^ 2 / ∑ j, c j ^ 2)) ∧
          res.ST[i.1]? = some (some (c i ^ 2 / ∑ j, c j ^ 2)) := by
  have hpos : 0 < ∑ j, c j ^ 2 := by
    obtain ⟨j, hj⟩ := hc
    exact Finset.sum_pos' (fun _ _ => sq_nonneg _) ⟨j, Finset.mem_univ j, by positivity⟩
  have hv : Var[sineModel (sineLinear c); Measure.pi fun _ => unifOn 0 1] = (∑ j, c j ^ 2) / 2 := by
    rw [sineLinear_var, Finset.sum_div]
  obtain ⟨out, pb', res, h1, h2, h3⟩ := C131_sobol_partial F u bnd draws pb bs N M hN hM hb hd hn hne hlegal hdr
    (sineLinear c) ((totalDegree_sineLinear c).trans hM) (by rw [hv]; positivity)
  have e : sineModel (sineLinear c) = fun x => ∑ j, c j * inputSine (x j) := funext fun x => sineModel_linear c x
  rw [e] at h2
  refine ⟨out, pb', res, h1, h2, fun i => ?_⟩
  obtain ⟨h4, h5⟩ := h3 i (fun k hi hK => noInterference_linear N M _ i hfree k hi (hK.trans (by
    have := totalDegree_sineLinear c
    exact_mod_cast (show 2 * (sineLinear c).totalDegree ≤ 2 by omega))))
  have hne' : (∑ j, c j ^ 2) / 2 ≠ 0 := by positivity
  rw [h4, h5, hv, sineLinear_first, sineLinear_total]
  have : c i ^ 2 / 2 / ((∑ j, c j ^ 2) / 2) = c i ^ 2 / ∑ j, c j ^ 2 := by field_simp
  rw [this]
  exact ⟨rfl, rfl⟩

/-- Two inputs: the indices are exact for every polynomial of degree at most `M`. -/
theorem C131_two (F : Ppf ℝ) (u : Nat → ℝ) (bnd : ℝ) (draws : Nat → List (List Nat)) (pb : Problem ℝ)
    (a b : ℝ × ℝ) (N M : Nat) (hN : 4 * M ^ 2 < N) (hM : 0 < M) (hb : pb.bounds = boundsTable [a, b])
    (hd : pb.dists = none) (hn : pb.numVars = 2) (ha : a.1 < a.2) (hb' : b.1 < b.2)
    (hdr : ValidResamples N 2 draws) (p : MvPolynomial (Fin 2) ℝ) (hp : p.totalDegree ≤ M)
    (hV : Var[sineModel p; Measure.pi fun _ => unifOn 0 1] ≠ 0) :
    ∃ out pb' res, fastSample F u pb N M = .ok (out, pb') ∧
      fastAnalyze bnd draws pb' (out.map (onInputs [a, b] (sineModel p))) M = .ok res ∧ ∀ i : Fin 2,
          res.S1[i.1]? = some (some (closedEffect (fun _ => unifOn 0 1) (sineModel p) (onlyInput i) /
            Var[sineModel p; Measure.pi fun _ => unifOn 0 1])) ∧
          res.ST[i.1]? = some (some (totalEffect (fun _ => unifOn 0 1) (sineModel p) (onlyInput i) /
            Var[sineModel p; Measure.pi fun _ => unifOn 0 1])) := by
  obtain ⟨out, pb', res, h1, h2, h3⟩ := C131_sobol_partial F u bnd draws pb [a, b] N M hN hM hb hd hn (by simp)
    (by simp [ha, hb']) hdr p hp hV
  exact ⟨out, pb', res, h1, h2, fun i => h3 i (noInterference_two N M _ i)⟩

/-- Three inputs: the indices are exact for every polynomial of degree at most `M` if the sample of each input has more
than `8 M ^ 3` points. -/
theorem C131_three (F : Ppf ℝ) (u : Nat → ℝ) (bnd : ℝ) (draws : Nat → List (List Nat)) (pb : Problem ℝ)
    (a b c : ℝ × ℝ) (N M : Nat) (hN : 8 * M ^ 3 < N) (hM : 0 < M) (hb : pb.bounds = boundsTable [a, b, c])
    (hd : pb.dists = none) (hn : pb.numVars = 3) (ha : a.1 < a.2) (hb' : b.1 < b.2) (hc : c.1 < c.2)
    (hdr : ValidResamples N 3 draws) (p : MvPolynomial (Fin 3) ℝ) (hp : p.totalDegree ≤ M)
    (hV : Var[sineModel p; Measure.pi fun _ => unifOn 0 1] ≠ 0) :
    ∃ out pb' res, fastSample F u pb N M = .ok (out, pb') ∧
      fastAnalyze bnd draws pb' (out.map (onInputs [a, b, c] (sineModel p))) M = .ok res ∧ ∀ i : Fin 3,
          res.S1[i.1]? = some (some (closedEffect (fun _ => unifOn 0 1) (sineModel p) (onlyInput i) /
            Var[sineModel p; Measure.pi fun _ => unifOn 0 1])) ∧
          res.ST[i.1]? = some (some (totalEffect (fun _ => unifOn 0 1) (sineModel p) (onlyInput i) /
            Var[sineModel p; Measure.pi fun _ => unifOn 0 1])) := by
  have hN' : 4 * M ^ 2 < N := by
    have : M ^ 2 ≤ M ^ 3 := Nat.pow_le_pow_right hM (by omega)
    omega
  obtain ⟨out, pb', res, h1, h2, h3⟩ := C131_sobol_partial F u bnd draws pb [a, b, c] N M hN' hM hb hd hn (by simp)
    (by simp [ha, hb', hc]) hdr p hp hV
  refine ⟨out, pb', res, h1, h2, fun i => h3 i fun k hi hK => noInterference_three N M hM hN i k hi (hK.trans ?_)⟩
  exact_mod_cast (show 2 * p.totalDegree ≤ 2 * M by omega)

/-! ## Interference -/

/-- **C131**, too few frequencies: whenever two other inputs share a frequency there is a linear model whose last input
has the Sobol indices 1/3 and gets S1 = ST = 1. -/
theorem C131_shared (F : Ppf ℝ) (u : Nat → ℝ) (bnd : ℝ) (draws : Nat → List (List Nat)) (pb : Problem ℝ)
    (bs : List (ℝ × ℝ)) (N M : Nat) (hN : 4 * M ^ 2 < N) (hM : 0 < M) (hb : pb.bounds = boundsTable bs)
    (hd : pb.dists = none) (hn : pb.numVars = bs.length) (hne : bs ≠ []) (hlegal : ∀ p ∈ bs, p.1 < p.2)
    (hdr : ValidResamples N bs.length draws) (hfew : freeFreqs N M < bs.length - 1) :
    ∃ p : MvPolynomial (Fin bs.length) ℝ, p.totalDegree ≤ 1 ∧ ∃ i : Fin bs.length,
      closedEffect (fun _ => unifOn 0 1) (sineModel p) (onlyInput i) /
        Var[sineModel p; Measure.pi fun _ => unifOn 0 1] = 1 / 3 ∧
      totalEffect (fun _ => unifOn 0 1) (sineModel p) (onlyInput i) /
        Var[sineModel p; Measure.pi fun _ => unifOn 0 1] = 1 / 3 ∧
      ∃ out pb' res, fastSample F u pb N M = .ok (out, pb') ∧
        fastAnalyze bnd draws pb' (out.map (onInputs bs (sineModel p))) M = .ok res ∧
        res.S1[i.1]? = some (some 1) ∧ res.ST[i.1]? = some (some 1) := by
  obtain ⟨hm, -, -⟩ := freeFreqs_pos N M hN hM
  -- the last input, and two others with the same frequency
  obtain ⟨i, hi⟩ : ∃ i : Fin bs.length, (i : Nat) = bs.length - 1 := ⟨⟨bs.length - 1, by omega⟩, rfl⟩
  obtain ⟨j, hj⟩ : ∃ j : Fin bs.length, (j : Nat) = 0 := ⟨⟨0, by omega⟩, rfl⟩
  obtain ⟨l, hl⟩ : ∃ l : Fin bs.length, (l : Nat) = freeFreqs N M := ⟨⟨freeFreqs N M, by omega⟩, rfl⟩
  have hji : j ≠ i := fun h => by rw [h] at hj; omega
  have hli : l ≠ i := fun h => by rw [h] at hl; omega
  have hlj : l ≠ j := fun h => by rw [h] at hl; omega
  have hfj : blockFreqs N M bs.length i j = 1 := by
    unfold blockFreqs otherFreq
    rw [if_neg (by omega), if_pos (by omega), hj, Nat.zero_mod]
  have hfl : blockFreqs N M bs.length i l = 1 := by
    unfold blockFreqs otherFreq
    rw [if_neg (by omega), if_pos (by omega), hl, Nat.mod_self]
  set c : Fin bs.length → ℝ := fun k => if k = i then 1 else if k = j then 1 else if k = l then -1 else 0 with hc
  have hsum : ∀ g : Fin bs.length → ℝ, ∑ k, c k * g k = g i + g j - g l := by
    intro g
    rw [← Finset.add_sum_erase _ _ (Finset.mem_univ i), ← Finset.add_sum_erase _ _ (show j ∈ univ.erase i by simp [hji]),
      ← Finset.add_sum_erase _ _ (show l ∈ (univ.erase i).erase j by simp [hlj, hli]), Finset.sum_eq_zero]
    · simp [hc, hji, hli, hlj]; ring
    · intro k hk
      simp only [Finset.mem_erase, Finset.mem_univ, and_true] at hk
      simp [hc, hk]
  have hsq : ∑ k, c k ^ 2 / 2 = 3 / 2 := by
    have : ∀ k, c k ^ 2 / 2 = c k * (c k / 2) := fun k => by ring
    simp_rw [this]
    rw [hsum fun k => c k / 2]
    simp [hc, hji, hli, hlj]
    norm_num
  have hci : c i = 1 := by simp [hc]
  refine ⟨sineLinear c, totalDegree_sineLinear c, i, ?_, ?_, ?_⟩
  · rw [sineLinear_first, sineLinear_var, hsq, hci]; norm_num
  · rw [sineLinear_total, sineLinear_var, hsq, hci]; norm_num
  obtain ⟨out, pb', res, h1, h2, h3⟩ := C131_exact F u bnd draws pb bs N M hN hM hb hd hn hne hlegal hdr (sineLinear c)
    ((totalDegree_sineLinear c).trans hM)
  refine ⟨out, pb', res, h1, h2, ?_⟩
  have hF : ∀ x t, onCurve (sineModel (sineLinear c)) (blockFreqs N M bs.length i) (u i) i x t = inputSine x := by
    intro x t
    unfold onCurve
    rw [sineModel_linear, hsum]
    simp only [if_neg hji, if_neg hli, hfj, hfl, if_true]
    ring
  obtain ⟨e0, e1, e2, e3⟩ := parts_of_products (n := 1) (fun _ => 1) (fun _ => inputSine) (fun _ _ => 1)
    (fun _ => continuous_inputSine) (fun _ => continuous_const)
    (onCurve (sineModel (sineLinear c)) (blockFreqs N M bs.length i) (u i) i) fun x t => by rw [hF]; simp
  have m1 : ∫ x in (0 : ℝ)..1, inputSine x = 0 := by simpa [sineMoment_one] using sineMoment_input 1
  have m2 : ∫ x in (0 : ℝ)..1, inputSine x * inputSine x = 1 / 2 := by
    have := sineMoment_input 2
    simp_rw [pow_two] at this
    rw [this, sineMoment_two]
  simp [m1] at e0
  simp [e0, m1, m2] at e1 e2 e3
  have h4 := (h3 i).1
  rw [e1, e2, e3] at h4
  have := h4 (by norm_num)
  norm_num at this
  exact this

/-! ### Interference of any sample size -/

/-- The sine of the first input, plus the product of the second and the fourth, minus the square of the third. -/
noncomputable def interfering : MvPolynomial (Fin 4) ℝ :=
  MvPolynomial.X 0 + MvPolynomial.X 1 * MvPolynomial.X 3 - MvPolynomial.X 2 ^ 2

theorem totalDegree_interfering : interfering.totalDegree ≤ 2 := by
  unfold interfering
  refine (MvPolynomial.totalDegree_sub _ _).trans (max_le ((MvPolynomial.totalDegree_add _ _).trans (max_le ?_ ?_)) ?_)
  · rw [MvPolynomial.totalDegree_X]; omega
  · refine (MvPolynomial.totalDegree_mul _ _).trans ?_
    rw [MvPolynomial.totalDegree_X, MvPolynomial.totalDegree_X]
  · refine (MvPolynomial.totalDegree_pow _ _).trans ?_
    rw [MvPolynomial.totalDegree_X]

theorem interfering_apply (x : Fin 4 → ℝ) : sineModel interfering x =
    inputSine (x 0) + inputSine (x 1) * inputSine (x 3) - inputSine (x 2) ^ 2 := by
  unfold sineModel interfering
  simp

theorem interfering_tensor : sineModel interfering = tensorSum ![1, 1, -1]
    (fun m j t => inputSine t ^ (![![1, 0, 0, 0], ![0, 1, 0, 1], ![0, 0, 2, 0]] m j : Nat)) := by
  funext x
  rw [interfering_apply]
  unfold tensorSum
  simp [Fin.sum_univ_three, Fin.prod_univ_four]
  ring

theorem interfering_closed (s : Fin 4 → Bool) : closedEffect (fun _ => unifOn 0 1) (sineModel interfering) s =
    (if s 0 then 1 / 2 else 0) + (if s 1 && s 3 then 1 / 4 else 0) + (if s 2 then 1 / 8 else 0) := by
  have := isProb_unifOn unit_lt
  have hφ : ∀ (m : Fin 3) (j : Fin 4), MemLp (fun t => inputSine t ^
      (![![1, 0, 0, 0], ![0, 1, 0, 1], ![0, 0, 2, 0]] m j : Nat)) 2 (unifOn 0 1) := fun m j => memLp_sine_pow _
  rw [interfering_tensor, closedEffect_tensorSum _ _ _ hφ]
  simp_rw [integral_unit, ← pow_add, sineMoment_input]
  simp [Fin.sum_univ_three, Fin.prod_univ_four, sineMoment_zero, sineMoment_one, sineMoment_two,
    sineMoment_four]
  cases s 0 <;> cases s 1 <;> cases s 2 <;> cases s 3 <;> norm_num

theorem interfering_var : Var[sineModel interfering; Measure.pi fun _ => unifOn 0 1] = 7 / 8 := by
  have := isProb_unifOn unit_lt
  have h := interfering_closed fun _ => true
  rw [show (7 : ℝ) / 8 = (if (fun _ : Fin 4 => true) 0 then 1 / 2 else 0) +
    (if (fun _ : Fin 4 => true) 1 && (fun _ : Fin 4 => true) 3 then 1 / 4 else 0) +
    (if (fun _ : Fin 4 => true) 2 then 1 / 8 else 0) by norm_num, ← h]
  exact (closedEffect_all _ _ (memLp_sineModel _)).symm

theorem sine_mean_multiple (k n : Nat) (hk : 0 < k) : ∫ t in (0 : ℝ)..1, sin (2 * π * (k * t)) ^ n = sineMoment n := by
  have := curve_mean_prod (D := 2) (fun _ => k) 0 n (by
    intro κ h0 _ hs j
    rw [Fin.sum_univ_two, h0, zero_mul, zero_add] at hs
    have : κ 1 = 0 := by
      rcases mul_eq_zero.mp hs with h | h
      · exact h
      · exact absurd (by exact_mod_cast h) hk.ne'
    match j with
    | 0 => exact h0
    | 1 => exact this) 0 ![0, n] rfl (by simp)
  simpa [Fin.prod_univ_two, sineMoment_zero] using this

/-- **C131**, four inputs: however many points are taken, whenever the number of free frequencies is odd and at least 3
the indices of the first input of the model above are 4/5, although its Sobol indices are 4/7. -/
theorem C131_inconsistent (F : Ppf ℝ) (u : Nat → ℝ) (bnd : ℝ) (draws : Nat → List (List Nat)) (pb : Problem ℝ)
    (a b c d : ℝ × ℝ) (N M : Nat) (hN : 4 * M ^ 2 < N) (hM : 2 ≤ M) (hb : pb.bounds = boundsTable [a, b, c, d])
    (hd : pb.dists = none) (hn : pb.numVars = 4) (hlegal : ∀ p ∈ [a, b, c, d], p.1 < p.2)
    (hdr : ValidResamples N 4 draws) (hodd : freeFreqs N M % 2 = 1) (h3 : 3 ≤ freeFreqs N M) :
    closedEffect (fun _ => unifOn 0 1) (sineModel interfering) (onlyInput 0) /
      Var[sineModel interfering; Measure.pi fun _ => unifOn 0 1] = 4 / 7 ∧
    totalEffect (fun _ => unifOn 0 1) (sineModel interfering) (onlyInput 0) /
      Var[sineModel interfering; Measure.pi fun _ => unifOn 0 1] = 4 / 7 ∧
    ∃ out pb' res, fastSample F u pb N M = .ok (out, pb') ∧
      fastAnalyze bnd draws pb' (out.map (onInputs [a, b, c, d] (sineModel interfering))) M = .ok res ∧
      res.S1[0]? = some (some (4 / 5)) ∧ res.ST[0]? = some (some (4 / 5)) := by
  have := isProb_unifOn unit_lt
  have hf : closedEffect (fun _ => unifOn 0 1) (sineModel interfering) (onlyInput 0) = 1 / 2 := by
    rw [interfering_closed]; simp [onlyInput]
  refine ⟨by rw [hf, interfering_var]; norm_num, ?_, ?_⟩
  · rw [totalEffect_eq_sub _ _ (memLp_sineModel _), interfering_var, interfering_closed]
    simp [onlyInput]
    norm_num
  obtain ⟨out, pb', res, h1, h2, h4⟩ := C131_exact F u bnd draws pb [a, b, c, d] N M hN (by omega) hb hd hn (by simp)
    hlegal hdr interfering (totalDegree_interfering.trans hM)
  refine ⟨out, pb', res, h1, h2, ?_⟩
  obtain ⟨k, hk⟩ : ∃ k, freeFreqs N M = 2 * k + 1 := ⟨freeFreqs N M / 2, by omega⟩
  have hk0 : 0 < k := by omega
  have f1 : blockFreqs N M 4 (0 : Fin 4) (1 : Fin 4) = 1 := by
    show otherFreq (freeFreqs N M) 3 0 = 1
    unfold otherFreq; rw [if_pos h3]; simp
  have f2 : blockFreqs N M 4 (0 : Fin 4) (2 : Fin 4) = k + 1 := by
    show otherFreq (freeFreqs N M) 3 1 = k + 1
    unfold otherFreq; rw [if_pos h3, hk]; omega
  have f3 : blockFreqs N M 4 (0 : Fin 4) (3 : Fin 4) = 2 * k + 1 := by
    show otherFreq (freeFreqs N M) 3 2 = 2 * k + 1
    unfold otherFreq; rw [if_pos h3, hk]; omega
  have hF : ∀ x t, onCurve (sineModel interfering) (blockFreqs N M 4 (0 : Fin 4)) (u 0) 0 x t =
      ∑ m : Fin 2, ![1, -1] m * (![inputSine, fun _ => 1] m x * ![fun _ => 1, fun t => sin (2 * π * (k * t)) ^ 2] m t) := by
    intro x t
    unfold onCurve
    rw [interfering_apply]
    simp only [Fin.sum_univ_two, Matrix.cons_val_zero, Matrix.cons_val_one]
    rw [if_pos trivial, if_neg (by decide), if_neg (by decide), if_neg (by decide), f1, f2, f3, inputSine_closedCurve,
      inputSine_closedCurve, inputSine_closedCurve]
    have key : ∀ α β : ℝ, sin (α - β) * sin (α + β) - sin α ^ 2 = -sin β ^ 2 := by
      intro α β
      rw [sin_sub, sin_add]
      linear_combination sin α ^ 2 * sin_sq_add_cos_sq β - sin β ^ 2 * sin_sq_add_cos_sq α
    have := key (2 * π * (((k + 1 : Nat) : ℝ) * t + u 0)) (2 * π * (k * t))
    rw [show 2 * π * (((k + 1 : Nat) : ℝ) * t + u 0) - 2 * π * (k * t) = 2 * π * (((1 : Nat) : ℝ) * t + u 0) by
      push_cast; ring, show 2 * π * (((k + 1 : Nat) : ℝ) * t + u 0) + 2 * π * (k * t) =
      2 * π * (((2 * k + 1 : Nat) : ℝ) * t + u 0) by push_cast; ring] at this
    linarith
  obtain ⟨e0, e1, e2, e3⟩ := parts_of_products ![1, -1] ![inputSine, fun _ => 1]
    ![fun _ => 1, fun t => sin (2 * π * (k * t)) ^ 2]
    (by intro m; match m with
      | 0 => exact continuous_inputSine
      | 1 => exact continuous_const)
    (by intro m; match m with
      | 0 => exact continuous_const
      | 1 => show Continuous fun t : ℝ => sin (2 * π * (k * t)) ^ 2; fun_prop)
    (onCurve (sineModel interfering) (blockFreqs N M 4 (0 : Fin 4)) (u 0) 0) hF
  have m1 : ∫ x in (0 : ℝ)..1, inputSine x = 0 := by simpa [sineMoment_one] using sineMoment_input 1
  have m2 : ∫ x in (0 : ℝ)..1, inputSine x * inputSine x = 1 / 2 := by
    have := sineMoment_input 2
    simp_rw [pow_two] at this
    rw [this, sineMoment_two]
  have m3 : ∫ t in (0 : ℝ)..1, sin (2 * π * (k * t)) ^ 2 = 1 / 2 := by
    rw [sine_mean_multiple k 2 hk0, sineMoment_two]
  have m4 : ∫ t in (0 : ℝ)..1, sin (2 * π * (k * t)) ^ 2 * sin (2 * π * (k * t)) ^ 2 = 3 / 8 := by
    simp_rw [← pow_add]
    rw [sine_mean_multiple k 4 hk0, sineMoment_four]
  simp only [Fin.sum_univ_two, Matrix.cons_val_zero, Matrix.cons_val_one, m1, m2, m3, m4, mul_one, one_mul,
    intervalIntegral.integral_const, smul_eq_mul, sub_zero] at e0 e1 e2 e3
  rw [e0] at e1 e2 e3
  have h5 := (h4 (0 : Fin 4)).1
  simp only [List.length_cons, List.length_nil] at h5
  have h6 := h5 (by
    show varIT (onCurve (sineModel interfering) (blockFreqs N M 4 (0 : Fin 4)) (u 0) 0) ≠ 0
    rw [e1]; norm_num)
  have h7 : res.S1[0]? = some (some (inputPart (onCurve (sineModel interfering) (blockFreqs N M 4 (0 : Fin 4)) (u 0) 0) /
      varIT (onCurve (sineModel interfering) (blockFreqs N M 4 (0 : Fin 4)) (u 0) 0))) := h6.1
  have h8 : res.ST[0]? = some (some (1 - timePart (onCurve (sineModel interfering) (blockFreqs N M 4 (0 : Fin 4)) (u 0) 0) /
      varIT (onCurve (sineModel interfering) (blockFreqs N M 4 (0 : Fin 4)) (u 0) 0))) := h6.2
  rw [h7, h8, e1, e2, e3]
  norm_num

/-! ## Examples -/

/-- One resample, of the first output only. -/
theorem resamples_example (N D : Nat) (hN : 0 < N) : ValidResamples N D fun _ => [List.replicate ((N + 1) / 2) 0] := by
  intro i _ r hr
  rw [List.mem_singleton] at hr
  subst hr
  exact ⟨List.length_replicate, fun t ht => by rw [List.eq_of_mem_replicate ht]; exact hN⟩

/-- Three inputs, 4 harmonics: the hypotheses of `C131_exact` hold for a product of two sines plus a third. -/
example (F : Ppf ℝ) (u : Nat → ℝ) (pb : Problem ℝ)
    (hpb : pb = { names := ["a", "b", "c"], bounds := boundsTable [(0, 1), (-2, 5), (3, 4)] }) :=
  C131_exact F u 2 _ pb [(0, 1), (-2, 5), (3, 4)] 65 4 (by norm_num) (by norm_num) (by rw [hpb]) (by rw [hpb])
    (by rw [hpb]; rfl) (by simp) (by
      intro p hp
      simp only [List.mem_cons, List.not_mem_nil, or_false] at hp
      rcases hp with rfl | rfl | rfl <;> norm_num) (resamples_example 65 3 (by norm_num))
    (MvPolynomial.X 0 * MvPolynomial.X 1 + MvPolynomial.X 2) (by
      refine (MvPolynomial.totalDegree_add _ _).trans (max_le ((MvPolynomial.totalDegree_mul _ _).trans ?_) ?_)
      · rw [MvPolynomial.totalDegree_X, MvPolynomial.totalDegree_X]; norm_num
      · rw [MvPolynomial.totalDegree_X]; norm_num)

/-- The same problem with a linear model: with 65 points the frequencies are shared and some model gets wrong indices, -/
example (F : Ppf ℝ) (u : Nat → ℝ) (pb : Problem ℝ)
    (hpb : pb = { names := ["a", "b", "c"], bounds := boundsTable [(0, 1), (-2, 5), (3, 4)] }) :=
  C131_shared F u 2 _ pb [(0, 1), (-2, 5), (3, 4)] 65 4 (by norm_num) (by norm_num) (by rw [hpb]) (by rw [hpb])
    (by rw [hpb]; rfl) (by simp) (by
      intro p hp
      simp only [List.mem_cons, List.not_mem_nil, or_false] at hp
      rcases hp with rfl | rfl | rfl <;> norm_num) (resamples_example 65 3 (by norm_num)) (by decide)

/-- with 1000 points they are exact. -/
example (F : Ppf ℝ) (u : Nat → ℝ) (pb : Problem ℝ)
    (hpb : pb = { names := ["a", "b", "c"], bounds := boundsTable [(0, 1), (-2, 5), (3, 4)] }) :=
  C131_linear F u 2 _ pb [(0, 1), (-2, 5), (3, 4)] 1000 4 (by norm_num) (by norm_num) (by rw [hpb]) (by rw [hpb])
    (by rw [hpb]; rfl) (by simp) (by
      intro p hp
      simp only [List.mem_cons, List.not_mem_nil, or_false] at hp
      rcases hp with rfl | rfl | rfl <;> norm_num) (resamples_example 1000 3 (by norm_num)) (by decide) ![1, 2, -3] ⟨0, by simp⟩

/-- 1000 points, 4 harmonics, 4 inputs: 15 free frequencies, of which 1, 8 and 15 are used. -/
example (F : Ppf ℝ) (u : Nat → ℝ) (pb : Problem ℝ)
    (hpb : pb = { names := ["a", "b", "c", "d"], bounds := boundsTable [(0, 1), (-2, 5), (3, 4), (0, 2)] }) :=
  C131_inconsistent F u 2 _ pb (0, 1) (-2, 5) (3, 4) (0, 2) 1000 4 (by norm_num) (by norm_num) (by rw [hpb])
    (by rw [hpb]) (by rw [hpb]; rfl) (by
      intro p hp
      simp only [List.mem_cons, List.not_mem_nil, or_false] at hp
      rcases hp with rfl | rfl | rfl | rfl <;> norm_num) (resamples_example 1000 4 (by norm_num)) (by decide) (by decide)

/-- There are such sample sizes above every bound. -/
theorem C131_inconsistent_large (M : Nat) (hM : 0 < M) (B : Nat) :
    ∃ N, B ≤ N ∧ 4 * M ^ 2 < N ∧ freeFreqs N M % 2 = 1 ∧ 3 ≤ freeFreqs N M := by
  refine ⟨2 * M * (2 * M * (2 * B + 3)) + 1, ?_, ?_, ?_, ?_⟩
  · nlinarith [Nat.mul_pos hM hM]
  · nlinarith [Nat.mul_pos hM hM]
  all_goals
    unfold freeFreqs
    rw [Nat.add_sub_cancel, Nat.mul_div_cancel_left _ (by omega), Nat.mul_div_cancel_left _ (by omega)]
    omega

/-- Degree 2 in two inputs. -/
example (F : Ppf ℝ) (u : Nat → ℝ) (pb : Problem ℝ)
    (hpb : pb = { names := ["a", "b"], bounds := boundsTable [(0, 1), (-2, 5)] }) :=
  C131_two F u 2 _ pb (0, 1) (-2, 5) 65 4 (by norm_num) (by norm_num) (by rw [hpb]) (by rw [hpb])
    (by rw [hpb]; rfl) (by norm_num) (by norm_num) (resamples_example 65 2 (by norm_num)) (sineLinear ![1, 2])
    ((totalDegree_sineLinear _).trans (by norm_num)) (by rw [sineLinear_var]; norm_num [Fin.sum_univ_two])

/-- 513 points and 4 harmonics are enough for three inputs. -/
example (F : Ppf ℝ) (u : Nat → ℝ) (pb : Problem ℝ)
    (hpb : pb = { names := ["a", "b", "c"], bounds := boundsTable [(0, 1), (-2, 5), (3, 4)] }) :=
  C131_three F u 2 _ pb (0, 1) (-2, 5) (3, 4) 513 4 (by norm_num) (by norm_num) (by rw [hpb]) (by rw [hpb])
    (by rw [hpb]; rfl) (by norm_num) (by norm_num) (by norm_num) (resamples_example 513 3 (by norm_num)) (sineLinear ![1, 2, -1])
    ((totalDegree_sineLinear _).trans (by norm_num)) (by rw [sineLinear_var]; rw [Fin.sum_univ_three]; simp; norm_num)

end SALib
