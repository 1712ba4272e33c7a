import Verif.Lemmas.Fourier
import Mathlib.Algebra.BigOperators.Field
import Verif.Lemmas.Stats
import Verif.Props.FastSample
import Verif.Props.MorrisOpt
import Verif.Props.Saltelli

/-! # C40, C41, C68, C69: the eFAST analysis -/

namespace SALib
open Spec Real

theorem sum_range'_list {β : Type} [AddCommMonoid β] (f : Nat → β) (n : Nat) :
    ((List.range' 1 n).map f).sum = ∑ k ∈ Finset.Icc 1 n, f k := by
  induction n with
  | zero => simp
  | succ n ih =>
    rw [List.range'_1_concat, List.map_append, List.sum_append, ih, Finset.sum_Icc_succ_top (by omega)]
    simp [add_comm]

/-- The squared modulus of a Fourier sum. -/
theorem norm_fftEntry_sq (y : List ℝ) (k : Nat) :
    ‖fftEntry y k‖ ^ 2 = power y.length (fun n => y.getD n 0) k := by
  rw [← Complex.normSq_eq_norm_sq, Complex.normSq_apply, fftEntry_eq]
  have hc : ∀ n : Nat, unitRoot y.length ^ (k * n) =
      (cos (2 * π * k * n / y.length) : ℝ) - (sin (2 * π * k * n / y.length) : ℝ) * Complex.I := by
    intro n
    rw [unitRoot_pow]
    have : (-2 * π * Complex.I * k * n / y.length : ℂ) =
        ((-(2 * π * k * n / y.length) : ℝ) : ℂ) * Complex.I := by push_cast; ring
    rw [this, Complex.exp_mul_I]
    rw [← Complex.ofReal_cos, ← Complex.ofReal_sin, cos_neg, sin_neg]
    push_cast
    ring
  unfold power
  simp only [hc, Complex.re_sum, Complex.im_sum, Complex.mul_re, Complex.mul_im, Complex.sub_re,
    Complex.sub_im, Complex.ofReal_re, Complex.ofReal_im, Complex.I_re, Complex.I_im]
  have e1 : ∀ n : Nat, y.getD n 0 * (cos (2 * π * k * n / y.length) - (sin (2 * π * k * n / y.length) * 0 - 0 * 1))
      - 0 * (0 - (sin (2 * π * k * n / y.length) * 1 + 0 * 0)) = y.getD n 0 * cos (2 * π * k * n / y.length) := by
    intro n; ring
  have e2 : ∀ n : Nat, y.getD n 0 * (0 - (sin (2 * π * k * n / y.length) * 1 + 0 * 0)) +
      0 * (cos (2 * π * k * n / y.length) - (sin (2 * π * k * n / y.length) * 0 - 0 * 1)) =
      -(y.getD n 0 * sin (2 * π * k * n / y.length)) := by
    intro n; ring
  simp only [e1, e2, Finset.sum_neg_distrib]
  ring

theorem power_nonneg (N : Nat) (y : Nat → ℝ) (k : Nat) : 0 ≤ power N y k := by
  unfold power; positivity

theorem pyGet_ok {β : Type} (l : List β) (i : Nat) (h : i < l.length) : pyGet l i = .ok l[i] := by
  unfold pyGet
  rw [List.getElem?_eq_getElem h]

theorem npTake_nat (l : List ℝ) (idx : List Nat) (h : ∀ i ∈ idx, i < l.length) :
    npTake l (idx.map fun (i : Nat) => (i : Int)) = .ok (idx.map fun i => l.getD i 0) := by
  unfold npTake
  rw [List.mapM_map]
  apply mapM_ok_of
  intro i hi
  simp only [Function.comp, Int.natCast_nonneg, if_true, Int.toNat_natCast]
  rw [pyGet_ok l i (h i hi), List.getD_eq_getElem?_getD, List.getElem?_eq_getElem (h i hi)]
  rfl

theorem spectrum_length (y : List ℝ) (N : Nat) : (spectrum y N).length = (N - 1) / 2 := by
  unfold spectrum
  simp only [List.length_map, List.length_range']
  omega

theorem spectrum_getD (y : List ℝ) (i : Nat) (h : i < (y.length - 1) / 2) :
    (spectrum y y.length).getD i 0 = power y.length (fun n => y.getD n 0) (i + 1) / (y.length : ℝ) ^ 2 := by
  unfold spectrum
  rw [List.getD_eq_getElem?_getD, List.getElem?_map, List.getElem?_range' (by omega)]
  simp only [Option.map_some, Option.getD_some, Nat.one_mul, add_comm 1 i, div_pow, norm_fftEntry_sq]

/-- `compute_orders` in closed form. -/
theorem computeOrders_eq (y : List ℝ) (M w : Nat) (hw : 1 ≤ w) (hN : 1 < y.length)
    (hMw : 2 * (M * w) ≤ y.length - 1) (hw2 : w ≤ y.length - 1) :
    computeOrders y y.length M w =
      .ok (npDiv (harmonicPower y.length (fun n => y.getD n 0) M w) (totalPower y.length fun n => y.getD n 0),
        (npDiv (bandPower y.length (fun n => y.getD n 0) (w / 2)) (totalPower y.length fun n => y.getD n 0)).map
          (1 - ·)) := by
  have hNr : (0 : ℝ) < (y.length : ℝ) ^ 2 := by
    have : (0 : ℝ) < y.length := by exact_mod_cast (by omega : 0 < y.length)
    positivity
  have hsum : (spectrum y y.length).sum = totalPower y.length (fun n => y.getD n 0) / (y.length : ℝ) ^ 2 := by
    unfold spectrum totalPower bandPower
    rw [sum_range'_list, show (y.length + 1) / 2 - 1 = (y.length - 1) / 2 by omega, Finset.sum_div]
    apply Finset.sum_congr rfl
    intro k _
    rw [div_pow, norm_fftEntry_sq]
  have hidx : ((List.range' 1 M).map fun (k : Nat) => (k : Int) * w - 1) =
      ((List.range' 1 M).map fun k => k * w - 1).map fun (i : Nat) => (i : Int) := by
    rw [List.map_map]
    apply List.map_congr_left
    intro k hk
    have hk1 : 1 ≤ k := (List.mem_range'_1.mp hk).1
    have : 1 * 1 ≤ k * w := Nat.mul_le_mul hk1 hw
    simp only [Function.comp]
    push_cast [Nat.cast_sub (show 1 ≤ k * w by omega)]
    ring
  have hkw : ∀ k, 1 ≤ k → k ≤ M → 1 ≤ k * w ∧ k * w ≤ (y.length - 1) / 2 := by
    intro k h1 h2
    have h3 : k * w ≤ M * w := Nat.mul_le_mul_right _ h2
    have h4 : 1 * 1 ≤ k * w := Nat.mul_le_mul h1 hw
    omega
  unfold computeOrders
  rw [if_neg (by omega)]
  simp only
  rw [hidx, npTake_nat _ _ (by
    intro i hi
    obtain ⟨k, hk, rfl⟩ := List.mem_map.mp hi
    have hk' := List.mem_range'_1.mp hk
    rw [spectrum_length]
    have := hkw k hk'.1 (by omega)
    omega)]
  rw [npTake_nat _ (List.range (w / 2)) (by
    intro i hi
    rw [spectrum_length]
    have := List.mem_range.mp hi
    omega)]
  simp only [pyBind_ok, pyPure, hsum]
  have hh : (((List.range' 1 M).map fun k => k * w - 1).map fun i => (spectrum y y.length).getD i 0).sum =
      harmonicPower y.length (fun n => y.getD n 0) M w / (y.length : ℝ) ^ 2 := by
    unfold harmonicPower
    rw [List.map_map, sum_range'_list, Finset.sum_div]
    apply Finset.sum_congr rfl
    intro k hk
    have hk' := Finset.mem_Icc.mp hk
    have := hkw k hk'.1 hk'.2
    simp only [Function.comp]
    rw [spectrum_getD y _ (by omega), show k * w - 1 + 1 = k * w by omega]
  have hb : ((List.range (w / 2)).map fun i => (spectrum y y.length).getD i 0).sum =
      bandPower y.length (fun n => y.getD n 0) (w / 2) / (y.length : ℝ) ^ 2 := by
    unfold bandPower
    rw [← sum_range'_list, List.range'_eq_map_range, List.map_map, sum_range_list, sum_range_list, Finset.sum_div]
    apply Finset.sum_congr rfl
    intro i hi
    have := Finset.mem_range.mp hi
    simp only [Function.comp]
    rw [spectrum_getD y _ (by omega), add_comm]
  rw [hh, hb]
  have hdiv : ∀ a b : ℝ, npDiv (2 * (a / (y.length : ℝ) ^ 2)) (2 * (b / (y.length : ℝ) ^ 2)) = npDiv a b := by
    intro a b
    unfold npDiv
    by_cases hb : b = 0
    · simp [hb]
    · rw [if_neg hb, if_neg (by positivity)]
      congr 1
      field_simp
  rw [hdiv, hdiv]

/-- The lower half of the spectrum is never exceeded, even for the short resamples. -/
theorem computeOrders_total (y : List ℝ) (M : Nat) (hM : 0 < M) (hN : 3 ≤ y.length) :
    ∃ r, computeOrders y y.length M ((y.length - 1) / (2 * M)) = .ok r := by
  have hle : 2 * M * ((y.length - 1) / (2 * M)) ≤ y.length - 1 := Nat.mul_div_le _ _
  have hle2 : (y.length - 1) / (2 * M) ≤ y.length - 1 := Nat.div_le_self _ _
  rcases Nat.eq_zero_or_pos ((y.length - 1) / (2 * M)) with h0 | hp
  · rw [h0]
    unfold computeOrders
    rw [if_neg (by omega)]
    have hs := spectrum_length y y.length
    have h1 : ∃ h, npTake (spectrum y y.length)
        ((List.range' 1 M).map fun (k : Nat) => (k : Int) * (0 : Nat) - 1) = .ok h := by
      unfold npTake
      refine Exists.imp (fun _ h => h.1) (mapM_exists_ok _ _ ?_)
      intro i hi
      obtain ⟨k, -, rfl⟩ := List.mem_map.mp hi
      refine ⟨(spectrum y y.length)[(spectrum y y.length).length - 1]'(by omega), ?_⟩
      simp only [Nat.cast_zero, mul_zero, zero_sub]
      rw [if_neg (by decide)]
      have : (-(-1 : Int)).toNat = 1 := by decide
      rw [this, if_pos (by omega), pyGet_ok _ _ (by omega)]
    obtain ⟨h, hh⟩ := h1
    simp only [hh, pyBind_ok]
    exact ⟨_, rfl⟩
  · have := computeOrders_eq y M _ hp (by omega) (by
      have : 2 * M * ((y.length - 1) / (2 * M)) = 2 * (M * ((y.length - 1) / (2 * M))) := by ring
      omega) hle2
    exact ⟨_, this⟩

/-- Harmonics of `w` and the band `1 .. w/2` are disjoint parts of the spectrum. -/
theorem harmonic_add_band_le (N : Nat) (y : Nat → ℝ) (M w : Nat) (hw : 1 ≤ w) (hM : 0 < M)
    (hMw : 2 * (M * w) ≤ N - 1) :
    harmonicPower N y M w + bandPower N y (w / 2) ≤ totalPower N y := by
  have himg : harmonicPower N y M w = ∑ k ∈ (Finset.Icc 1 M).image (· * w), power N y k := by
    rw [Finset.sum_image]
    · rfl
    · intro a _ b _ h
      exact Nat.eq_of_mul_eq_mul_right (by omega) h
  have hMw' : 1 * w ≤ M * w := Nat.mul_le_mul_right _ hM
  have hdisj : Disjoint ((Finset.Icc 1 M).image (· * w)) (Finset.Icc 1 (w / 2)) := by
    rw [Finset.disjoint_left]
    intro a ha hb
    obtain ⟨k, hk, rfl⟩ := Finset.mem_image.mp ha
    have h1 := (Finset.mem_Icc.mp hk).1
    have h2 := (Finset.mem_Icc.mp hb).2
    have : 1 * w ≤ k * w := Nat.mul_le_mul_right _ h1
    omega
  rw [himg]
  unfold bandPower totalPower bandPower
  rw [← Finset.sum_union hdisj]
  apply Finset.sum_le_sum_of_subset_of_nonneg
  · intro a ha
    rcases Finset.mem_union.mp ha with h | h
    · obtain ⟨k, hk, rfl⟩ := Finset.mem_image.mp h
      obtain ⟨h1, h2⟩ := Finset.mem_Icc.mp hk
      have h3 : 1 * 1 ≤ k * w := Nat.mul_le_mul h1 hw
      have h4 : k * w ≤ M * w := Nat.mul_le_mul_right _ h2
      exact Finset.mem_Icc.mpr ⟨by omega, by omega⟩
    · obtain ⟨h1, h2⟩ := Finset.mem_Icc.mp h
      exact Finset.mem_Icc.mpr ⟨h1, by omega⟩
  · intros; exact power_nonneg _ _ _

theorem power_congr (N : Nat) (y y' : Nat → ℝ) (h : ∀ n < N, y n = y' n) (k : Nat) :
    power N y k = power N y' k := by
  unfold power
  rw [Finset.sum_congr rfl fun n hn => by rw [h n (Finset.mem_range.mp hn)],
    Finset.sum_congr (s₁ := Finset.range N) (f := fun n => y n * sin (2 * π * k * n / N)) rfl
      fun n hn => by rw [h n (Finset.mem_range.mp hn)]]

theorem totalPower_congr (N : Nat) (y y' : Nat → ℝ) (h : ∀ n < N, y n = y' n) :
    totalPower N y = totalPower N y' := by
  unfold totalPower bandPower
  exact Finset.sum_congr rfl fun k _ => power_congr N y y' h k

/-- Entries of the result of a loop over `range D`. -/
theorem mapM_range_get {β : Type} (f : Nat → Py β) (D : Nat) (rows : List β)
    (h : (List.range D).mapM f = .ok rows) (i : Nat) (hi : i < D) :
    ∃ b, rows[i]? = some b ∧ f i = .ok b := by
  have h2 := (mapM_ok_iff _ _ _).mp h
  have hl := h2.length_eq
  rw [List.length_range] at hl
  refine ⟨rows[i]'(by omega), List.getElem?_eq_getElem _, ?_⟩
  have := h2.get (i := i) (by simpa using hi) (by omega)
  simpa using this

/-- Random resampling indices as NumPy delivers them for blocks of `N` outputs. -/
def Spec.ValidResamples (N D : Nat) (draws : Nat → List (List Nat)) : Prop :=
  ∀ i < D, ∀ idx ∈ draws i, idx.length = (N + 1) / 2 ∧ ∀ t ∈ idx, t < N

theorem fastBootstrap_total (bnd : ℝ) (y : List ℝ) (M : Nat) (draws : List (List Nat)) (hM : 0 < M)
    (hN : 5 ≤ y.length) (hd : ∀ idx ∈ draws, idx.length = (y.length + 1) / 2 ∧ ∀ t ∈ idx, t < y.length) :
    ∃ r, fastBootstrap bnd y M draws = .ok r := by
  unfold fastBootstrap
  obtain ⟨res, hr, -⟩ := mapM_exists_ok (fun idx => (do
    let y ← idx.mapM fun i => pyGet y i
    computeOrders y y.length M ((y.length - 1) / (2 * M)) : Py (Num ℝ × Num ℝ))) draws (by
      intro idx hidx
      obtain ⟨h1, h2⟩ := hd idx hidx
      obtain ⟨y', hy', hl⟩ := mapM_exists_ok (fun i => pyGet y i) idx
        (fun i hi => ⟨_, pyGet_ok y i (h2 i hi)⟩)
      obtain ⟨r, hr⟩ := computeOrders_total y' M hM (by omega)
      exact ⟨r, by simp only [hy', pyBind_ok, hr]⟩)
  simp only [hr, pyBind_ok]
  exact ⟨_, rfl⟩

/-- The analysis in closed form: block `i` of the outputs gives the indices of parameter `i`. -/
theorem fastAnalyze_eq (bnd : ℝ) (draws : Nat → List (List Nat)) (pb : Problem ℝ) (Y : List ℝ) (N M : Nat)
    (hD : 0 < pb.numVars) (hY : Y.length = N * pb.numVars) (hN : 4 * M ^ 2 < N) (hM : 0 < M)
    (hdr : ValidResamples N pb.numVars draws) :
    ∃ res, fastAnalyze bnd draws pb Y M = .ok res ∧ res.names = pb.names ∧
      res.S1.length = pb.numVars ∧ res.ST.length = pb.numVars ∧ ∀ i < pb.numVars,
        res.S1[i]? = some (npDiv (harmonicPower N (fun n => Y.getD (i * N + n) 0) M ((N - 1) / (2 * M)))
          (totalPower N fun n => Y.getD (i * N + n) 0)) ∧
        res.ST[i]? = some ((npDiv (bandPower N (fun n => Y.getD (i * N + n) 0) ((N - 1) / (2 * M) / 2))
          (totalPower N fun n => Y.getD (i * N + n) 0)).map (1 - ·)) := by
  have hM2 : 1 ≤ M ^ 2 := Nat.one_le_pow _ _ hM
  have hN5 : 5 ≤ N := by omega
  have hw : 1 ≤ (N - 1) / (2 * M) := by
    rw [Nat.le_div_iff_mul_le (by omega)]
    have : M * 1 ≤ M * M := Nat.mul_le_mul_left _ hM
    have : M ^ 2 = M * M := by ring
    omega
  have hdiv : Y.length / pb.numVars = N := by rw [hY]; exact Nat.mul_div_left N hD
  have hlen : ∀ i < pb.numVars, ((Y.drop (i * N)).take N).length = N := by
    intro i hi
    rw [List.length_take, List.length_drop, hY]
    have : N * (i + 1) ≤ N * pb.numVars := Nat.mul_le_mul_left _ hi
    have : N * (i + 1) = i * N + N := by ring
    omega
  have hblk : ∀ i < pb.numVars, ∀ n < N, ((Y.drop (i * N)).take N).getD n 0 = Y.getD (i * N + n) 0 := by
    intro i hi n hn
    rw [List.getD_eq_getElem?_getD, List.getElem?_take_of_lt hn, List.getElem?_drop,
      List.getD_eq_getElem?_getD]
  have hord : ∀ i < pb.numVars, computeOrders ((Y.drop (i * N)).take N) N M ((N - 1) / (2 * M)) =
      .ok (npDiv (harmonicPower N (fun n => Y.getD (i * N + n) 0) M ((N - 1) / (2 * M)))
          (totalPower N fun n => Y.getD (i * N + n) 0),
        (npDiv (bandPower N (fun n => Y.getD (i * N + n) 0) ((N - 1) / (2 * M) / 2))
          (totalPower N fun n => Y.getD (i * N + n) 0)).map (1 - ·)) := by
    intro i hi
    have h2 : 2 * M * ((N - 1) / (2 * M)) ≤ N - 1 := Nat.mul_div_le _ _
    have h3 : 2 * M * ((N - 1) / (2 * M)) = 2 * (M * ((N - 1) / (2 * M))) := by ring
    have := computeOrders_eq ((Y.drop (i * N)).take N) M ((N - 1) / (2 * M)) hw
      (by rw [hlen i hi]; omega) (by rw [hlen i hi]; omega) (by rw [hlen i hi]; exact Nat.div_le_self _ _)
    rw [hlen i hi] at this
    rw [this]
    have hp : ∀ k, power N (fun n => ((Y.drop (i * N)).take N).getD n 0) k =
        power N (fun n => Y.getD (i * N + n) 0) k := power_congr _ _ _ (hblk i hi)
    unfold harmonicPower totalPower bandPower
    simp only [hp]
  unfold fastAnalyze
  rw [if_neg (by omega), if_neg (by rw [hY]; simp), if_neg (by omega), hdiv]
  simp only
  obtain ⟨rows, hr, hrl⟩ := mapM_exists_ok (fun i => (do
    let o ← computeOrders ((Y.drop (i * N)).take N) N M ((N - 1) / (2 * M))
    let b ← fastBootstrap bnd ((Y.drop (i * N)).take N) M (draws i)
    pure (o, b) : Py ((Num ℝ × Num ℝ) × (Num ℝ × Num ℝ)))) (List.range pb.numVars) (by
      intro i hi
      have hi' := List.mem_range.mp hi
      obtain ⟨b, hb⟩ := fastBootstrap_total bnd ((Y.drop (i * N)).take N) M (draws i) hM
        (by rw [hlen i hi']; exact hN5) (by rw [hlen i hi']; exact hdr i hi')
      exact ⟨_, by simp only [hord i hi', pyBind_ok, hb, pyPure]; rfl⟩)
  rw [List.length_range] at hrl
  rw [hr, pyBind_ok]
  refine ⟨_, rfl, rfl, by simp [hrl], by simp [hrl], ?_⟩
  intro i hi
  obtain ⟨b, hb, hfb⟩ := mapM_range_get _ _ _ hr i hi
  simp only [hord i hi, pyBind_ok] at hfb
  cases hbs : fastBootstrap bnd ((Y.drop (i * N)).take N) M (draws i) with
  | error e => rw [hbs] at hfb; cases hfb
  | ok b' =>
    rw [hbs] at hfb
    cases hfb
    simp only [List.getElem?_map, hb, Option.map_some]
    exact ⟨trivial, trivial⟩

/-- **C40**.  For every output vector of the right length the analysis runs (no spectrum look-up is out of
range); for every parameter whose block has non-zero spectral variance, `0 ≤ S1 ≤ ST ≤ 1`; otherwise both
are nan. -/
theorem C40_ordered (bnd : ℝ) (draws : Nat → List (List Nat)) (pb : Problem ℝ) (Y : List ℝ) (N M : Nat)
    (hD : 0 < pb.numVars) (hY : Y.length = N * pb.numVars) (hN : 4 * M ^ 2 < N) (hM : 0 < M)
    (hdr : ValidResamples N pb.numVars draws) :
    ∃ res, fastAnalyze bnd draws pb Y M = .ok res ∧
      res.S1.length = pb.numVars ∧ res.ST.length = pb.numVars ∧ ∀ i < pb.numVars,
        (totalPower N (fun n => Y.getD (i * N + n) 0) ≠ 0 →
          ∃ s1 st, res.S1[i]? = some (some s1) ∧ res.ST[i]? = some (some st) ∧ 0 ≤ s1 ∧ s1 ≤ st ∧ st ≤ 1) ∧
        (totalPower N (fun n => Y.getD (i * N + n) 0) = 0 →
          res.S1[i]? = some none ∧ res.ST[i]? = some none) := by
  obtain ⟨res, h, -, h1, h2, hi⟩ := fastAnalyze_eq bnd draws pb Y N M hD hY hN hM hdr
  refine ⟨res, h, h1, h2, fun i hiD => ?_⟩
  obtain ⟨e1, e2⟩ := hi i hiD
  have hw : 1 ≤ (N - 1) / (2 * M) := by
    rw [Nat.le_div_iff_mul_le (by omega)]
    have : M * 1 ≤ M * M := Nat.mul_le_mul_left _ hM
    have : M ^ 2 = M * M := by ring
    omega
  have hle : 2 * (M * ((N - 1) / (2 * M))) ≤ N - 1 := by
    have h2 : 2 * M * ((N - 1) / (2 * M)) ≤ N - 1 := Nat.mul_div_le _ _
    have h3 : 2 * M * ((N - 1) / (2 * M)) = 2 * (M * ((N - 1) / (2 * M))) := by ring
    omega
  have hsum := harmonic_add_band_le N (fun n => Y.getD (i * N + n) 0) M _ hw hM hle
  have hh : 0 ≤ harmonicPower N (fun n => Y.getD (i * N + n) 0) M ((N - 1) / (2 * M)) :=
    Finset.sum_nonneg fun _ _ => power_nonneg _ _ _
  have hb : 0 ≤ bandPower N (fun n => Y.getD (i * N + n) 0) ((N - 1) / (2 * M) / 2) :=
    Finset.sum_nonneg fun _ _ => power_nonneg _ _ _
  have ht : 0 ≤ totalPower N (fun n => Y.getD (i * N + n) 0) := by
    unfold totalPower bandPower
    exact Finset.sum_nonneg fun _ _ => power_nonneg _ _ _
  constructor
  · intro hne
    have hpos := lt_of_le_of_ne ht (Ne.symm hne)
    refine ⟨_, _, by rw [e1, npDiv, if_neg hne], by rw [e2, npDiv, if_neg hne]; rfl, by positivity, ?_, ?_⟩
    · rw [div_le_iff₀ hpos, sub_mul, div_mul_cancel₀ _ hne]
      linarith
    · have : 0 ≤ bandPower N (fun n => Y.getD (i * N + n) 0) ((N - 1) / (2 * M) / 2) /
        totalPower N (fun n => Y.getD (i * N + n) 0) := by positivity
      linarith
  · intro h0
    rw [e1, e2, npDiv, npDiv, if_pos h0, if_pos h0]
    exact ⟨rfl, rfl⟩

/-- **C41** (alignment).  Run any model on the rows of the FAST sample and analyse the outputs: the indices
of parameter `i` are those of the outputs at the rows `i * N + n`, the rows in which (by `C39_blocks`)
exactly parameter `i` runs at the driving frequency. -/
theorem C41_alignment (F : Ppf ℝ) (u : Nat → ℝ) (bnd : ℝ) (draws : Nat → List (List Nat)) (pb pb' : Problem ℝ)
    (N M : Nat) (out : Mat (Num ℝ)) (hs : fastSample F u pb N M = .ok (out, pb'))
    (hdr : ValidResamples N pb.numVars draws) (model : List (Num ℝ) → ℝ) :
    out.length = N * pb.numVars ∧
    ∃ res, fastAnalyze bnd draws pb' (out.map model) M = .ok res ∧ ∀ i < pb.numVars,
      ∃ y : Nat → ℝ, (∀ n < N, ∃ row, out[i * N + n]? = some row ∧ y n = model row) ∧
        res.S1[i]? = some (npDiv (harmonicPower N y M ((N - 1) / (2 * M))) (totalPower N y)) ∧
        res.ST[i]? = some ((npDiv (bandPower N y ((N - 1) / (2 * M) / 2)) (totalPower N y)).map (1 - ·)) := by
  unfold fastSample at hs
  cases hX : fastUnit u N M pb.numVars with
  | error e => rw [hX] at hs; cases hs
  | ok X =>
  rw [hX, pyBind_ok] at hs
  have hacc : 4 * M ^ 2 < N ∧ 0 < M ∧ 0 < pb.numVars := by
    unfold fastUnit fastOmega at hX
    by_cases h1 : N ≤ 4 * M ^ 2
    · rw [if_pos h1] at hX; cases hX
    · rw [if_neg h1] at hX
      by_cases h2 : M = 0
      · rw [if_pos h2] at hX; cases hX
      · rw [if_neg h2] at hX
        by_cases h3 : pb.numVars = 0
        · rw [if_pos h3] at hX; cases hX
        · omega
  obtain ⟨hN, hM, hD⟩ := hacc
  obtain ⟨X', hX', hXl, -, -⟩ := C38_unit_cube u N M pb.numVars hN hM hD
  rw [hX] at hX'
  cases hX'
  have hol : out.length = N * pb.numVars ∧ pb' = { pb with sampleScaled := true } := by
    rcases scaleSamples_columns F pb.numVars pb with ⟨e, he⟩ | ⟨fs, -, hfs⟩
    · rw [he] at hs; cases hs
    · rw [hfs] at hs; cases hs; exact ⟨by simp [hXl], rfl⟩
  obtain ⟨hol, rfl⟩ := hol
  refine ⟨hol, ?_⟩
  obtain ⟨res, h, -, -, -, hi⟩ := fastAnalyze_eq bnd draws { pb with sampleScaled := true } (out.map model)
    N M hD (by simpa using hol) hN hM hdr
  refine ⟨res, h, fun i hiD => ⟨fun n => (out.map model).getD (i * N + n) 0, ?_, hi i hiD⟩⟩
  intro n hn
  have hlt : i * N + n < out.length := by
    rw [hol]
    calc i * N + n < i * N + N := by omega
      _ = N * (i + 1) := by ring
      _ ≤ N * pb.numVars := Nat.mul_le_mul_left _ hiD
  refine ⟨_, List.getElem?_eq_getElem hlt, ?_⟩
  beta_reduce
  rw [List.getD_eq_getElem?_getD, List.getElem?_map, List.getElem?_eq_getElem hlt]
  rfl

/-- **C41** (rejection).  An output vector whose length is not a multiple of the number of parameters is a
`ValueError`. -/
theorem C41_reject (bnd : ℝ) (draws : Nat → List (List Nat)) (pb : Problem ℝ) (Y : List ℝ) (M : Nat)
    (hD : 0 < pb.numVars) (h : ¬ pb.numVars ∣ Y.length) :
    fastAnalyze bnd draws pb Y M = .error .valueError := by
  unfold fastAnalyze
  rw [if_neg (by omega), if_pos (fun h' => h (Nat.dvd_of_mod_eq_zero h'))]
  rfl

theorem spectrum_affine (y : List ℝ) (a b : ℝ) :
    spectrum (y.map fun v => a * v + b) y.length = (spectrum y y.length).map (a ^ 2 * ·) := by
  unfold spectrum
  rw [List.map_map]
  apply List.map_congr_left
  intro k hk
  have hk' := List.mem_range'_1.mp hk
  simp only [Function.comp]
  rw [fftEntry_affine y a b k (fun hd => by have := Nat.le_of_dvd (by omega) hd; omega), norm_mul,
    Complex.norm_real, mul_div_assoc, mul_pow, Real.norm_eq_abs, sq_abs]

theorem npTake_map (l : List ℝ) (f : ℝ → ℝ) (idx : List Int) :
    npTake (l.map f) idx = (npTake l idx).map (List.map f) := by
  have hget : ∀ i, pyGet (l.map f) i = (pyGet l i).map f := by
    intro i
    unfold pyGet
    rw [List.getElem?_map]
    cases l[i]? <;> rfl
  have hone : ∀ i : Int, (if 0 ≤ i then pyGet (l.map f) i.toNat
      else if (-i).toNat ≤ (l.map f).length then pyGet (l.map f) ((l.map f).length - (-i).toNat)
        else .error .indexError) =
      (if 0 ≤ i then pyGet l i.toNat
      else if (-i).toNat ≤ l.length then pyGet l (l.length - (-i).toNat) else .error .indexError).map f := by
    intro i
    rw [List.length_map, hget, hget]
    split
    · rfl
    · split <;> rfl
  unfold npTake
  simp only [hone]
  induction idx with
  | nil => rfl
  | cons i idx ih =>
    rw [List.mapM_cons, List.mapM_cons, ih]
    generalize (if 0 ≤ i then pyGet l i.toNat
      else if (-i).toNat ≤ l.length then pyGet l (l.length - (-i).toNat) else .error .indexError) = x
    cases x with
    | error e => rfl
    | ok v =>
      cases (idx.mapM fun i => if 0 ≤ i then pyGet l i.toNat
        else if (-i).toNat ≤ l.length then pyGet l (l.length - (-i).toNat) else .error .indexError) <;> rfl

theorem computeOrders_affine (y : List ℝ) (a b : ℝ) (ha : a ≠ 0) (M w : Nat) :
    computeOrders (y.map fun v => a * v + b) y.length M w = computeOrders y y.length M w := by
  have hs : ∀ l : List ℝ, (l.map (a ^ 2 * ·)).sum = a ^ 2 * l.sum := fun l => List.sum_map_mul_left l id _ |>.trans (by simp)
  have hdiv : ∀ x z : ℝ, npDiv (2 * (a ^ 2 * x)) (2 * (a ^ 2 * z)) = npDiv (2 * x) (2 * z) := by
    intro x z
    unfold npDiv
    by_cases hz : z = 0
    · simp [hz]
    · rw [if_neg (by positivity), if_neg (by positivity)]
      congr 1
      field_simp
  unfold computeOrders
  rw [List.length_map, spectrum_affine]
  by_cases h0 : y.length = 0
  · rw [if_pos h0, if_pos h0]; rfl
  · rw [if_neg h0, if_neg h0]
    simp only [npTake_map]
    cases npTake (spectrum y y.length) ((List.range' 1 M).map fun (k : Nat) => (k : Int) * w - 1) with
    | error e => rfl
    | ok h =>
      cases npTake (spectrum y y.length) ((List.range (w / 2)).map fun (k : Nat) => (k : Int)) with
      | error e => rfl
      | ok c =>
        simp only [Except.map, pyBind_ok, hs, hdiv]

theorem mapM_pyGet_map (Y : List ℝ) (f : ℝ → ℝ) (idx : List Nat) :
    (idx.mapM fun i => pyGet (Y.map f) i) = (idx.mapM fun i => pyGet Y i).map (List.map f) := by
  have hget : ∀ i, pyGet (Y.map f) i = (pyGet Y i).map f := by
    intro i
    unfold pyGet
    rw [List.getElem?_map]
    cases Y[i]? <;> rfl
  simp only [hget]
  induction idx with
  | nil => rfl
  | cons i idx ih =>
    rw [List.mapM_cons, List.mapM_cons, ih]
    cases pyGet Y i with
    | error e => rfl
    | ok v => cases (idx.mapM fun i => pyGet Y i) <;> rfl

/-- **C68**.  The eFAST results (indices and confidence values, and whether the call fails) do not change when
the outputs are shifted and rescaled by a non-zero factor. -/
theorem C68_affine (bnd : ℝ) (draws : Nat → List (List Nat)) (pb : Problem ℝ) (Y : List ℝ) (M : Nat) (a b : ℝ)
    (ha : a ≠ 0) :
    fastAnalyze bnd draws pb (Y.map fun v => a * v + b) M = fastAnalyze bnd draws pb Y M := by
  have hboot : ∀ (y : List ℝ) (ds : List (List Nat)),
      fastBootstrap bnd (y.map fun v => a * v + b) M ds = fastBootstrap bnd y M ds := by
    intro y ds
    unfold fastBootstrap
    have : ∀ idx : List Nat, (do
        let y ← idx.mapM fun i => pyGet (y.map fun v => a * v + b) i
        computeOrders y y.length M ((y.length - 1) / (2 * M)) : Py (Num ℝ × Num ℝ)) = (do
        let y ← idx.mapM fun i => pyGet y i
        computeOrders y y.length M ((y.length - 1) / (2 * M))) := by
      intro idx
      rw [mapM_pyGet_map]
      cases (idx.mapM fun i => pyGet y i) with
      | error e => rfl
      | ok y' =>
        simp only [Except.map, pyBind_ok]
        rw [List.length_map, computeOrders_affine y' a b ha]
    simp only [this]
  unfold fastAnalyze
  rw [List.length_map]
  by_cases hD : pb.numVars = 0
  · rw [if_pos hD, if_pos hD]; rfl
  by_cases hm : Y.length % pb.numVars ≠ 0
  · rw [if_neg hD, if_neg hD, if_pos hm, if_pos hm]; rfl
  by_cases hM : M = 0
  · rw [if_neg hD, if_neg hD, if_neg hm, if_neg hm, if_pos hM, if_pos hM]; rfl
  rw [if_neg hD, if_neg hD, if_neg hm, if_neg hm, if_neg hM, if_neg hM]
  simp only
  have hrows : ∀ i, i < pb.numVars → ((do
      let o ← computeOrders (((Y.map fun v => a * v + b).drop (i * (Y.length / pb.numVars))).take
        (Y.length / pb.numVars)) (Y.length / pb.numVars) M ((Y.length / pb.numVars - 1) / (2 * M))
      let b ← fastBootstrap bnd (((Y.map fun v => a * v + b).drop (i * (Y.length / pb.numVars))).take
        (Y.length / pb.numVars)) M (draws i)
      pure (o, b)) : Py ((Num ℝ × Num ℝ) × (Num ℝ × Num ℝ))) = (do
      let o ← computeOrders ((Y.drop (i * (Y.length / pb.numVars))).take
        (Y.length / pb.numVars)) (Y.length / pb.numVars) M ((Y.length / pb.numVars - 1) / (2 * M))
      let b ← fastBootstrap bnd ((Y.drop (i * (Y.length / pb.numVars))).take
        (Y.length / pb.numVars)) M (draws i)
      pure (o, b)) := by
    intro i hi
    rw [← List.map_drop, ← List.map_take, hboot]
    have hl : ((Y.drop (i * (Y.length / pb.numVars))).take (Y.length / pb.numVars)).length =
        Y.length / pb.numVars := by
      rw [List.length_take, List.length_drop]
      have h1 : (i + 1) * (Y.length / pb.numVars) ≤ pb.numVars * (Y.length / pb.numVars) :=
        Nat.mul_le_mul_right _ hi
      have h2 := Nat.mul_div_le Y.length pb.numVars
      have h3 : (i + 1) * (Y.length / pb.numVars) = i * (Y.length / pb.numVars) + Y.length / pb.numVars := by ring
      omega
    have := computeOrders_affine ((Y.drop (i * (Y.length / pb.numVars))).take (Y.length / pb.numVars)) a b ha M
      ((Y.length / pb.numVars - 1) / (2 * M))
    rw [hl] at this
    rw [this]
  rw [mapM_congr_mem _ _ _ (fun i hi => hrows i (List.mem_range.mp hi))]

end SALib
