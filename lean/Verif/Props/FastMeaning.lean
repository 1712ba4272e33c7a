import Verif.Lemmas.TorusEffects
import Verif.Props.FastAnalyze
import Mathlib.Topology.Algebra.MvPolynomial

/-! # C131: what extended FAST computes

For models with no more than `M` harmonics the analysis is exact, for the law under which the analysed input is uniform
and the other inputs move together along one closed curve.  Whether these are the Sobol indices depends on how well
that curve fills the cube. -/

namespace SALib

open Real Spec Finset

theorem getD_otherFreq (m R k : Nat) (hk : k < R) :
    (if R ≤ m then linspaceFloor m R else (List.range R).map fun k => k % m + 1).getD k 0 = otherFreq m R k := by
  unfold otherFreq linspaceFloor
  split <;> simp [hk]

/-- The unit sample, entry by entry. -/
theorem fastUnit_entries (u : Nat → ℝ) (N M D : Nat) (hN : 4 * M ^ 2 < N) (hM : 0 < M) (hD : 0 < D) :
    ∃ X, fastUnit u N M D = .ok X ∧ ∀ i < D, ∀ n < N, ∀ j < D, entry X (i * N + n) j =
      some (closedCurve (if j = i then (N - 1) / (2 * M) else blockFreqs N M D i j) (u i) ((n : ℝ) / N)) := by
  obtain ⟨w0, rest, ho, e, hl, -, -, -⟩ := fastOmega_ok N M D hN hM hD
  have hrest : rest = if D - 1 ≤ freeFreqs N M then linspaceFloor (freeFreqs N M) (D - 1)
      else (List.range (D - 1)).map fun k => k % freeFreqs N M + 1 := by
    have h := ho
    unfold fastOmega at h
    rw [if_neg (by omega), if_neg (by omega), if_neg (by omega)] at h
    simp only [Except.ok.injEq, List.cons.injEq] at h
    rw [← h.2]
    rfl
  refine ⟨_, fastUnit_eq u N M D (w0 :: rest) ho (by simpa using hl), ?_⟩
  intro i hi n hn j hj
  have h1 : (i * N + n) / N = i := by
    rw [mul_comm, Nat.mul_add_div (by omega), Nat.div_eq_of_lt hn, add_zero]
  have h2 : (i * N + n) % N = n := by rw [mul_comm, Nat.mul_add_mod, Nat.mod_eq_of_lt hn]
  have h3 : i * N + n < N * D := by
    calc i * N + n < i * N + N := by omega
      _ = N * (i + 1) := by ring
      _ ≤ N * D := Nat.mul_le_mul_left _ (by omega)
  have hfreq : blockFreq (w0 :: rest) i j = if j = i then (N - 1) / (2 * M) else blockFreqs N M D i j := by
    unfold blockFreq
    by_cases hji : j = i
    · rw [if_pos hji, if_pos hji, ← e]; rfl
    · rw [if_neg hji, if_neg hji]
      unfold blockFreqs
      by_cases hlt : j < i
      · rw [if_pos hlt, if_pos hlt, List.getD_cons_succ, hrest, getD_otherFreq _ _ _ (by omega)]
      · rw [if_neg hlt, if_neg hlt]
        obtain ⟨j', rfl⟩ : ∃ j', j = j' + 1 := ⟨j - 1, by omega⟩
        rw [List.getD_cons_succ, hrest, getD_otherFreq _ _ _ (by omega)]
        simp
  unfold entry
  rw [List.getElem?_map, List.getElem?_range h3, Option.map_some, Option.bind_some, List.getElem?_map,
    List.getElem?_range hj, h1, h2, Option.map_some, hfreq]
  unfold fastCurve closedCurve
  ring_nf

theorem inputSine_closedCurve (w : Nat) (u t : ℝ) : inputSine (closedCurve w u t) = sin (2 * π * (w * t + u)) := by
  unfold inputSine closedCurve
  have : π * (1 / 2 + arcsin (sin (2 * π * (w * t + u))) / π - 1 / 2) = arcsin (sin (2 * π * (w * t + u))) := by
    field_simp
    ring
  rw [this, sin_arcsin (neg_one_le_sin _) (sin_le_one _)]

theorem otherFreq_bounds (m R k : Nat) (hm : 1 ≤ m) (hk : k < R) : 1 ≤ otherFreq m R k ∧ otherFreq m R k ≤ m := by
  unfold otherFreq
  split
  · refine ⟨Nat.le_add_right 1 _, ?_⟩
    have h2 : k * (m - 1) / (R - 1) ≤ m - 1 := by
      rcases Nat.eq_zero_or_pos (R - 1) with h0 | hp
      · rw [h0]; simp
      · apply Nat.div_le_of_le_mul
        exact Nat.mul_le_mul_right _ (by omega)
    omega
  · have := Nat.mod_lt k (show 0 < m by omega)
    omega

theorem freeFreqs_pos (N M : Nat) (hN : 4 * M ^ 2 < N) (hM : 0 < M) :
    1 ≤ freeFreqs N M ∧ 2 * M * freeFreqs N M ≤ (N - 1) / (2 * M) ∧ 2 * M * ((N - 1) / (2 * M)) < N := by
  have h0 : 2 * M * (2 * M) = 4 * M ^ 2 := by ring
  unfold freeFreqs
  refine ⟨?_, Nat.mul_div_le _ _, ?_⟩
  · rw [Nat.le_div_iff_mul_le (by omega), Nat.le_div_iff_mul_le (by omega), one_mul]
    omega
  · have := Nat.mul_div_le (N - 1) (2 * M)
    omega

/-- The model of the two angles: that of the analysed input and that of the curve. -/
noncomputable def torusModel {D : Nat} (p : MvPolynomial (Fin D) ℝ) (freq : Nat → Nat) (u : ℝ) (i : Fin D) (a b : ℝ) : ℝ :=
  MvPolynomial.eval (fun j => if j = i then sin (2 * π * a) else sin (2 * π * (freq j * b + u))) p

theorem torusModel_poly {D : Nat} (p : MvPolynomial (Fin D) ℝ) (M m : Nat) (hm : 1 ≤ m) (hp : p.totalDegree ≤ M)
    (freq : Nat → Nat) (u : ℝ) (i : Fin D) (hf : ∀ j : Fin D, j ≠ i → freq j ≤ m) :
    TorusPoly m M fun a b => (torusModel p freq u i a b : ℂ) := by
  refine torusPoly_eval hm M p hp (fun j a b => if j = i then sin (2 * π * a) else sin (2 * π * (freq j * b + u)))
    fun j => ?_
  by_cases h : j = i
  · simp only [if_pos h]
    have := torusPoly_sin hm 1 0 (by simp) 0
    simpa using this
  · simp only [if_neg h]
    have := torusPoly_sin hm 0 (freq j) (by simpa using hf j h) u
    simpa using this

theorem onCurve_eq {D : Nat} (p : MvPolynomial (Fin D) ℝ) (freq : Nat → Nat) (u : ℝ) (i : Fin D) (x t : ℝ) :
    onCurve (sineModel p) freq u i x t = torusModel p freq u i (x / 2 - 1 / 4) t := by
  unfold onCurve sineModel torusModel
  congr 2
  funext j
  beta_reduce
  by_cases h : j = i
  · rw [if_pos h, if_pos h]
    unfold inputSine
    congr 1
    ring
  · rw [if_neg h, if_neg h, inputSine_closedCurve]

theorem torusModel_parts {D : Nat} (p : MvPolynomial (Fin D) ℝ) (freq : Nat → Nat) (u : ℝ) (i : Fin D) :
    meanIT (onCurve (sineModel p) freq u i) = meanIT (torusModel p freq u i) ∧
    varIT (onCurve (sineModel p) freq u i) = varIT (torusModel p freq u i) ∧
    inputPart (onCurve (sineModel p) freq u i) = inputPart (torusModel p freq u i) ∧
    timePart (onCurve (sineModel p) freq u i) = timePart (torusModel p freq u i) := by
  refine parts_fold _ ?_ ?_ ?_ _ (onCurve_eq p freq u i)
  · unfold torusModel Function.uncurry
    refine (MvPolynomial.continuous_eval p).comp (continuous_pi fun j => ?_)
    by_cases h : j = i
    · simp only [if_pos h]; fun_prop
    · simp only [if_neg h]; fun_prop
  · intro b a
    unfold torusModel
    beta_reduce
    rw [show 2 * π * (a + 1) = 2 * π * a + 2 * π by ring, sin_add_two_pi]
  · intro a b
    unfold torusModel
    rw [show 2 * π * (1 / 2 - a) = π - 2 * π * a by ring, sin_pi_sub]

/-- One block of outputs: the three sums of the spectrum are the three variances. -/
theorem fast_block_parts {D : Nat} (p : MvPolynomial (Fin D) ℝ) (N M : Nat) (hN : 4 * M ^ 2 < N) (hM : 0 < M)
    (hp : p.totalDegree ≤ M) (u : ℝ) (i : Fin D) (y : Nat → ℝ)
    (hy : ∀ n < N, y n = torusModel p (blockFreqs N M D i) u i (((N - 1) / (2 * M) : Nat) * ((n : ℝ) / N) + u) ((n : ℝ) / N)) :
    2 * totalPower N y = N ^ 2 * varIT (onCurve (sineModel p) (blockFreqs N M D i) u i) ∧
    2 * harmonicPower N y M ((N - 1) / (2 * M)) =
      N ^ 2 * inputPart (onCurve (sineModel p) (blockFreqs N M D i) u i) ∧
    2 * bandPower N y ((N - 1) / (2 * M) / 2) =
      N ^ 2 * timePart (onCurve (sineModel p) (blockFreqs N M D i) u i) := by
  obtain ⟨hm, hmw, hNw⟩ := freeFreqs_pos N M hN hM
  have hf : ∀ j : Fin D, j ≠ i → blockFreqs N M D i j ≤ freeFreqs N M := by
    intro j hj
    refine (otherFreq_bounds _ _ _ hm ?_).2
    have h1 : (j : Nat) ≠ i := fun h => hj (Fin.ext h)
    have := j.2
    have := i.2
    split <;> omega
  obtain ⟨c, hc⟩ := torusModel_poly p M _ hm hp (blockFreqs N M D i) u i hf
  have hpow := torus_powers N M ((N - 1) / (2 * M)) (freeFreqs N M) hm hM hmw hNw c u y (by
    intro n hn
    rw [hy n hn]
    exact hc _ _)
  have h0 : (0 : ℤ × ℤ) ∈ torusSet (freeFreqs N M) M := by
    rw [mem_torusSet hm]; simp; positivity
  have hpart := torus_parts _ h0 c (torusModel p (blockFreqs N M D i) u i) hc
  obtain ⟨-, e1, e2, e3⟩ := torusModel_parts p (blockFreqs N M D i) u i
  rw [e1, e2, e3, hpart.1, hpart.2.1, hpart.2.2]
  exact hpow

/-- **C131**: sample, run a polynomial of degree at most `M` in the sines of the inputs, analyse.  The indices of input
`i` are those of this input when it is uniform and the others move along the closed curve with the frequencies of the
sampler: the share of the variance of the mean output given the input, and one minus the share of the variance of the
mean output given the point of the curve. -/
theorem C131_exact (F : Ppf ℝ) (u : Nat → ℝ) (bnd : ℝ) (draws : Nat → List (List Nat)) (pb : Problem ℝ)
    (bs : List (ℝ × ℝ)) (N M : Nat) (hN : 4 * M ^ 2 < N) (hM : 0 < M) (hb : pb.bounds = boundsTable bs)
    (hd : pb.dists = none) (hn : pb.numVars = bs.length) (hne : bs ≠ []) (hlegal : ∀ p ∈ bs, p.1 < p.2)
    (hdr : ValidResamples N bs.length draws) (p : MvPolynomial (Fin bs.length) ℝ) (hp : p.totalDegree ≤ M) :
    ∃ out pb' res, fastSample F u pb N M = .ok (out, pb') ∧
      fastAnalyze bnd draws pb' (out.map (onInputs bs (sineModel p))) M = .ok res ∧ ∀ i : Fin bs.length,
        (varIT (onCurve (sineModel p) (blockFreqs N M bs.length i) (u i) i) ≠ 0 →
          res.S1[i.1]? = some (some (inputPart (onCurve (sineModel p) (blockFreqs N M bs.length i) (u i) i) /
            varIT (onCurve (sineModel p) (blockFreqs N M bs.length i) (u i) i))) ∧
          res.ST[i.1]? = some (some (1 - timePart (onCurve (sineModel p) (blockFreqs N M bs.length i) (u i) i) /
            varIT (onCurve (sineModel p) (blockFreqs N M bs.length i) (u i) i)))) ∧
        (varIT (onCurve (sineModel p) (blockFreqs N M bs.length i) (u i) i) = 0 →
          res.S1[i.1]? = some none ∧ res.ST[i.1]? = some none) := by
  have hD : 0 < bs.length := List.length_pos_iff.mpr hne
  obtain ⟨X, hX, hent⟩ := fastUnit_entries u N M bs.length hN hM hD
  obtain ⟨X', hX', hXl, hXc, hunit⟩ := C38_unit_cube u N M bs.length hN hM hD
  rw [hX] at hX'
  cases hX'
  obtain ⟨out, ho, hshape, hout⟩ := C01_scale_in_bounds F pb bs X hb hd hne hlegal hXc hunit
  have hs : fastSample F u pb N M = .ok (out, { pb with sampleScaled := true }) := by
    unfold fastSample
    rw [(congrArg (fastUnit u N M) hn).trans hX, pyBind_ok]
    exact (congrArg (fun d => scaleSamples F d X pb) hn).trans ho
  obtain ⟨hol, res, hres, hi⟩ := C41_alignment F u bnd draws pb _ N M out hs (by rw [hn]; exact hdr)
    (onInputs bs (sineModel p))
  refine ⟨out, _, res, hs, hres, fun i => ?_⟩
  obtain ⟨y, hy, h1, h2⟩ := hi i (by rw [hn]; exact i.2)
  have hy' : ∀ n < N, y n = torusModel p (blockFreqs N M bs.length i) (u i) i
      (((N - 1) / (2 * M) : Nat) * ((n : ℝ) / N) + u i) ((n : ℝ) / N) := by
    intro n hnN
    obtain ⟨row, hrow, e⟩ := hy n hnN
    rw [e]
    unfold onInputs sineModel torusModel
    congr 2
    funext j
    beta_reduce
    have hx := hent i i.2 n hnN j j.2
    obtain ⟨v, hv, hve, -⟩ := hout _ _ _ bs[j].1 bs[j].2 hx (List.getElem?_eq_getElem j.2)
    unfold entry at hv
    rw [hrow, Option.bind_some] at hv
    rw [List.getD_eq_getElem?_getD, hv, Option.getD_some, Option.getD_some, hve]
    have hlt := hlegal bs[j] (List.getElem_mem _)
    have : (bs[j].1 + closedCurve (if (j : Nat) = i then (N - 1) / (2 * M) else blockFreqs N M bs.length i j) (u i)
        ((n : ℝ) / N) * (bs[j].2 - bs[j].1) - bs[j].1) / (bs[j].2 - bs[j].1) =
        closedCurve (if (j : Nat) = i then (N - 1) / (2 * M) else blockFreqs N M bs.length i j) (u i) ((n : ℝ) / N) := by
      have : bs[j].2 - bs[j].1 ≠ 0 := by linarith
      field_simp
      ring
    rw [this, inputSine_closedCurve]
    by_cases hji : j = i
    · rw [if_pos hji, if_pos (congrArg Fin.val hji)]
    · rw [if_neg hji, if_neg fun h => hji (Fin.ext h)]
  obtain ⟨ht, hh, hb'⟩ := fast_block_parts p N M hN hM hp (u i) i y hy'
  have hNpos : (0 : ℝ) < N := by exact_mod_cast (show 0 < N by omega)
  have hN2 : (N : ℝ) ^ 2 ≠ 0 := by positivity
  generalize varIT (onCurve (sineModel p) (blockFreqs N M bs.length i) (u i) i) = V at *
  generalize inputPart (onCurve (sineModel p) (blockFreqs N M bs.length i) (u i) i) = V1 at *
  generalize timePart (onCurve (sineModel p) (blockFreqs N M bs.length i) (u i) i) = V2 at *
  rw [h1, h2]
  have et : totalPower N y = (N : ℝ) ^ 2 * V / 2 := by linarith
  have eh : harmonicPower N y M ((N - 1) / (2 * M)) = (N : ℝ) ^ 2 * V1 / 2 := by linarith
  have eb : bandPower N y ((N - 1) / (2 * M) / 2) = (N : ℝ) ^ 2 * V2 / 2 := by linarith
  rw [et, eh, eb]
  unfold npDiv
  constructor
  · intro hV
    have h0 : (N : ℝ) ^ 2 * V / 2 ≠ 0 := by positivity
    rw [if_neg h0, if_neg h0]
    refine ⟨?_, ?_⟩
    · congr 2; field_simp
    · simp only [Option.map_some]; congr 3; field_simp
  · intro hV
    have h0 : (N : ℝ) ^ 2 * V / 2 = 0 := by rw [hV]; simp
    rw [if_pos h0, if_pos h0]
    exact ⟨rfl, rfl⟩

end SALib
