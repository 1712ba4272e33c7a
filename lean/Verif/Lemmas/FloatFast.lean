import Verif.Spec.FloatFast
import Verif.Lemmas.FloatError
import Verif.Lemmas.FloatCount
import Verif.Props.FastSample
import Mathlib.Analysis.SpecialFunctions.Trigonometric.Bounds
import Mathlib.Analysis.Real.Pi.Bounds

/-! # Rounding along the search curve -/

namespace SALib
open Spec Real

variable {F : Fmt}

/-! ### The curve stays in the unit interval -/

/-- Half way between 1/2 and the next number is rounded to 1/2. -/
theorem fl_half_tie (hp : 2 ≤ F.p) (he : F.emin + F.p ≤ 0) :
    fl F (1 / 2 + (2 : ℚ) ^ (-(F.p : ℤ)) / 2) = 1 / 2 := by
  have hu := u_le_quarter hp
  have hu0 := two_zpow_pos (-(F.p : ℤ))
  have key : ∀ v : ℚ, 0 < v → v ≤ 1 / 4 → Int.log 2 |1 / 2 + v / 2| = -1 := by
    intro v h0 h1
    rw [abs_of_pos (by linarith)]
    apply le_antisymm
    · rw [← Int.lt_add_one_iff, ← Int.lt_zpow_iff_log_lt (by norm_num) (by linarith)]
      norm_num
      linarith
    · rw [← Int.zpow_le_iff_le_log (by norm_num) (by linarith)]
      norm_num
      linarith
  have hlog := key _ hu0 hu
  have hE : ulpExp F (1 / 2 + (2 : ℚ) ^ (-(F.p : ℤ)) / 2) = -(F.p : ℤ) := by
    unfold ulpExp; rw [hlog]; omega
  unfold fl
  rw [hE]
  obtain ⟨k, hk⟩ : ∃ k, F.p = k + 2 := ⟨F.p - 2, by omega⟩
  have hpow : (2 : ℚ) ^ (-(F.p : ℤ)) * 2 ^ F.p = 1 := by
    rw [← zpow_natCast, ← zpow_add₀ (by norm_num)]; simp
  have e1 : (1 / 2 + (2 : ℚ) ^ (-(F.p : ℤ)) / 2) / (2 : ℚ) ^ (-(F.p : ℤ)) = ((2 * 2 ^ k : ℤ) : ℚ) + 1 / 2 := by
    rw [div_eq_iff hu0.ne', add_mul]
    have : ((2 * 2 ^ k : ℤ) : ℚ) = 2 ^ F.p / 2 := by rw [hk]; push_cast; ring
    rw [this]
    linarith
  have e2 : ⌊((2 * 2 ^ k : ℤ) : ℚ) + 1 / 2⌋ = 2 * 2 ^ k := by
    rw [Int.floor_eq_iff]; constructor <;> linarith
  rw [e1]
  unfold roundEven
  rw [e2, if_neg (by linarith), if_neg (by linarith), if_pos (Dvd.intro _ rfl)]
  have : ((2 * 2 ^ k : ℤ) : ℚ) = 2 ^ F.p / 2 := by rw [hk]; push_cast; ring
  rw [this]
  linarith

theorem isFloat_half_one (hp : 1 ≤ F.p) (he : F.emin + F.p ≤ 0) : IsFloat F (1 / 2) := by
  have := isFloat_half hp he 1 (Nat.one_le_two_pow)
  simpa using this

/-- The rounded reciprocal of `P` times a number up to `P / 2`, rounded, is at most 1/2. -/
theorem recip_half_le (hp : 2 ≤ F.p) (he : F.emin + F.p ≤ 0) {P v : ℚ} (hP : 0 < P)
    (hn : (2 : ℚ) ^ (F.emin + F.p - 1) ≤ 1 / P) (hv : v ≤ P / 2) : fmul F (fdiv F 1 P) v ≤ 1 / 2 := by
  have hP' : 0 < 1 / P := by positivity
  have h1 := fl_err_normal (F := F) (x := 1 / P) (by rwa [abs_of_pos hP'])
  rw [abs_of_pos hP'] at h1
  have h2 := (abs_le.mp h1).2
  have h3 : 0 ≤ fl F (1 / P) := fl_nonneg hP'.le
  have h4 : fl F (1 / P) * v ≤ 1 / 2 + (2 : ℚ) ^ (-(F.p : ℤ)) / 2 := by
    have := mul_le_mul_of_nonneg_left hv h3
    have h5 : fl F (1 / P) * (P / 2) ≤ (1 / P + 1 / P * (2 : ℚ) ^ (-(F.p : ℤ))) * (P / 2) :=
      mul_le_mul_of_nonneg_right (by linarith) (by positivity)
    have h6 : (1 / P + 1 / P * (2 : ℚ) ^ (-(F.p : ℤ))) * (P / 2) = 1 / 2 + (2 : ℚ) ^ (-(F.p : ℤ)) / 2 := by
      field_simp
    linarith
  exact (fl_mono (by omega) h4).trans_eq (fl_half_tie hp he)

theorem recip_half_abs (hp : 2 ≤ F.p) (he : F.emin + F.p ≤ 0) {P v : ℚ} (hP : 0 < P)
    (hn : (2 : ℚ) ^ (F.emin + F.p - 1) ≤ 1 / P) (hv : |v| ≤ P / 2) : |fmul F (fdiv F 1 P) v| ≤ 1 / 2 := by
  have h := abs_le.mp hv
  refine abs_le.mpr ⟨?_, recip_half_le hp he hP hn h.2⟩
  have := recip_half_le hp he hP hn (v := -v) (by linarith)
  unfold fmul at this ⊢
  rw [mul_neg, fl_neg] at this
  linarith

theorem fastCurveFl_unit (hp : 2 ≤ F.p) (he : F.emin + F.p ≤ 0) {T : TrigFl} (hP : 0 < T.pi)
    (hn : (2 : ℚ) ^ (F.emin + F.p - 1) ≤ 1 / T.pi) (ha : ∀ t, |T.asin (T.sin t)| ≤ T.pi / 2) (w : Nat) (s phi : ℚ) :
    IsFloat F (fastCurveFl F T w s phi) ∧ 0 ≤ fastCurveFl F T w s phi ∧ fastCurveFl F T w s phi ≤ 1 := by
  have h := abs_le.mp (recip_half_abs hp he hP hn (ha (fadd F (fmul F w s) phi)))
  refine ⟨isFloat_fl (by omega) _, fl_nonneg (by linarith), fl_le_of_le (by omega) (isFloat_one (by omega) (by omega)) ?_⟩
  linarith

/-! ### The sample in closed form -/

theorem fastUnitFl_eq (T : TrigFl) (u : Nat → ℚ) (N M D : Nat) (omega : List ℤ) (ho : fastOmegaFl F N M D = .ok omega)
    (hl : omega.length = D) :
    fastUnitFl F T u N M D = .ok ((List.range (N * D)).map fun r => (List.range D).map fun j =>
      fastCurveFl F T (blockFreq (omega.map Int.toNat) (r / N) j) (fastGridFl F T N (r % N))
        (fmul F (fmul F 2 T.pi) (u (r / N)))) := by
  set om := omega.map Int.toNat with hom
  have hl : om.length = D := by rw [hom, List.length_map, hl]
  let W : Nat → List (Nat × Nat × ℚ) := fun i => (List.range D).flatMap fun j => (List.range N).map fun n =>
    (i * N + n, j, fastCurveFl F T (blockFreq om i j) (fastGridFl F T N n) (fmul F (fmul F 2 T.pi) (u i)))
  have hblock : ∀ i X o, i < D → o.length = D → fastBlockFl F T u N D om (X, o) i =
      ((W i).foldlM writeCell X >>= fun X => .ok (X, (List.range D).map (blockFreq om i))) := by
    intro i X o hi hol
    unfold fastBlockFl
    simp only [blockOmega_eq om o D i hl hol hi]
    have e : (W i).foldlM writeCell X = (List.range D).foldlM (fun X j =>
        (List.range N).foldlM (fun X n => setCell X (i * N + n) j
          (fastCurveFl F T (((List.range D).map (blockFreq om i)).getD j 0) (fastGridFl F T N n)
            (fmul F (fmul F 2 T.pi) (u i)))) X) X := by
      simp only [W, foldlM_flatMap, List.foldlM_map, writeCell]
      have hj : ∀ j ∈ List.range D, ((List.range D).map (blockFreq om i)).getD j 0 = blockFreq om i j := by
        intro j hj
        have := List.mem_range.mp hj
        rw [List.getD_eq_getElem?_getD, List.getElem?_map, List.getElem?_range this]; rfl
      exact foldlM_congr_mem _ _ _ _ (fun j hj' X => by rw [hj j hj'])
    rw [e]
    rfl
  have hloop : ∀ (l : List Nat) X o, (∀ i ∈ l, i < D) → o.length = D →
      (l.foldlM (fastBlockFl F T u N D om) (X, o) >>= fun st => (.ok st.1 : Py (Mat ℚ))) =
        (l.flatMap W).foldlM writeCell X := by
    intro l
    induction l with
    | nil => intros; rfl
    | cons i l ih =>
      intro X o hi hol
      rw [List.foldlM_cons, hblock i X o (hi i (by simp)) hol, List.flatMap_cons, List.foldlM_append]
      cases (W i).foldlM writeCell X with
      | error e => rfl
      | ok X' => exact ih X' _ (fun i' h' => hi i' (by simp [h'])) (by simp)
  unfold fastUnitFl
  rw [ho, pyBind_ok]
  have hfill := writeCells_fill (N * D) D ((List.range D).flatMap W) (zerosMat (N * D) D) (by simp [zerosMat])
    (by intro row hr; rw [(List.mem_replicate.mp hr).2]; simp)
    (by
      intro w hw
      simp only [W, List.mem_flatMap, List.mem_range, List.mem_map] at hw
      obtain ⟨i, hi, j, hj, n, hn, rfl⟩ := hw
      refine ⟨?_, hj⟩
      show i * N + n < N * D
      calc i * N + n < i * N + N := by omega
        _ = N * (i + 1) := by ring
        _ ≤ N * D := Nat.mul_le_mul_left _ (by omega))
    (fun r j => fastCurveFl F T (blockFreq om (r / N) j) (fastGridFl F T N (r % N))
      (fmul F (fmul F 2 T.pi) (u (r / N))))
    (by
      intro w hw
      simp only [W, List.mem_flatMap, List.mem_range, List.mem_map] at hw
      obtain ⟨i, hi, j, hj, n, hn, rfl⟩ := hw
      have h1 : (i * N + n) / N = i := by
        rw [mul_comm, Nat.mul_add_div (by omega), Nat.div_eq_of_lt hn, add_zero]
      have h2 : (i * N + n) % N = n := by rw [mul_comm, Nat.mul_add_mod, Nat.mod_eq_of_lt hn]
      simp only [h1, h2])
    (by
      intro r hr j hj
      have hN : 0 < N := by rcases Nat.eq_zero_or_pos N with h | h; · simp [h] at hr
                            · exact h
      refine ⟨(r, j, fastCurveFl F T (blockFreq om (r / N) j) (fastGridFl F T N (r % N))
        (fmul F (fmul F 2 T.pi) (u (r / N)))), ?_, rfl, rfl⟩
      simp only [W, List.mem_flatMap, List.mem_range, List.mem_map]
      refine ⟨r / N, ?_, j, hj, r % N, Nat.mod_lt _ hN, ?_⟩
      · rw [Nat.div_lt_iff_lt_mul hN, mul_comm]; exact hr
      · rw [Nat.div_add_mod' r N])
  rw [← hfill, ← hloop _ _ (List.replicate D 0) (by simp) (by simp)]
  rfl

/-! ### The arcsine of a sine -/

/-- Near its ends the arcsine turns an error into its square root. -/
theorem arcsin_hoelder {a b δ : ℝ} (ha : |a| ≤ 1) (hb : |b| ≤ 1) (h : |a - b| ≤ δ) :
    |arcsin a - arcsin b| ≤ π * √(δ / 2) := by
  wlog hab : a ≤ b generalizing a b
  · rw [abs_sub_comm]; exact this hb ha (by rwa [abs_sub_comm]) (le_of_not_ge hab)
  have hpi := pi_pos
  have a' := abs_le.mp ha
  have b' := abs_le.mp hb
  have hle : arcsin a ≤ arcsin b := monotone_arcsin hab
  have e1 := sin_arcsin a'.1 a'.2
  have e2 := sin_arcsin b'.1 b'.2
  set α := arcsin a with hα
  set β := arcsin b with hβ
  have r1 : -(π / 2) ≤ α := neg_pi_div_two_le_arcsin a
  have r2 : β ≤ π / 2 := arcsin_le_pi_div_two b
  have r3 : α ≤ π / 2 := arcsin_le_pi_div_two a
  have r4 : -(π / 2) ≤ β := neg_pi_div_two_le_arcsin b
  rw [abs_of_nonpos (by linarith)]
  set h' := (β - α) / 2 with hh
  have hh0 : 0 ≤ h' := by rw [hh]; linarith
  have hhl : h' ≤ π / 2 := by rw [hh]; linarith
  have hs0 : 0 ≤ sin h' := sin_nonneg_of_nonneg_of_le_pi hh0 (by linarith)
  have hsub : b - a = 2 * sin h' * cos ((β + α) / 2) := by
    rw [← e1, ← e2, sin_sub_sin, hh]
  have hcos : sin h' ≤ cos ((β + α) / 2) := by
    rw [← cos_pi_div_two_sub, ← cos_abs ((β + α) / 2)]
    apply cos_le_cos_of_nonneg_of_le_pi (abs_nonneg _) (by linarith)
    rw [abs_le, hh]
    constructor <;> linarith
  have hjor : 2 / π * h' ≤ sin h' := mul_le_sin hh0 hhl
  have h2 : 2 * (2 / π * h') ^ 2 ≤ δ := by
    have : b - a ≤ δ := by
      rw [abs_sub_comm, abs_of_nonneg (by linarith)] at h; exact h
    have h3 : (2 / π * h') ^ 2 ≤ sin h' * sin h' := by
      rw [sq]; exact mul_self_le_mul_self (by positivity) hjor
    have h4 := mul_le_mul_of_nonneg_left hcos hs0
    nlinarith
  have h3 : 2 / π * h' ≤ √(δ / 2) := by
    apply le_sqrt_of_sq_le; linarith
  have h4 : -(α - β) = π * (2 / π * h') := by rw [hh]; field_simp; ring
  rw [h4]
  exact mul_le_mul_of_nonneg_left h3 hpi.le

theorem arccos_cos_le_abs (z : ℝ) : arccos (cos z) ≤ |z| := by
  rcases le_total |z| π with h | h
  · rw [← cos_abs, arccos_cos (abs_nonneg z) h]
  · exact (arccos_le_pi _).trans h

theorem arccos_cos_near (z : ℝ) : ∃ k : ℤ, arccos (cos z) = |z - k * (2 * π)| := by
  have hpi := pi_pos
  refine ⟨round (z / (2 * π)), ?_⟩
  have h := abs_sub_round (z / (2 * π))
  set k := round (z / (2 * π))
  have h1 : |z - k * (2 * π)| ≤ π := by
    have e : z - k * (2 * π) = (z / (2 * π) - k) * (2 * π) := by field_simp
    rw [e, abs_mul, abs_of_pos (show (0 : ℝ) < 2 * π by linarith)]
    nlinarith
  rw [← cos_sub_int_mul_two_pi z k, ← cos_abs, arccos_cos (abs_nonneg _) h1]

/-- The search curve moves no faster than its parameter. -/
theorem arcsin_sin_lipschitz (x y : ℝ) : |arcsin (sin x) - arcsin (sin y)| ≤ |x - y| := by
  have key : ∀ x y : ℝ, arccos (cos x) ≤ arccos (cos y) + |x - y| := by
    intro x y
    obtain ⟨k, hk⟩ := arccos_cos_near y
    have h1 := arccos_cos_le_abs (x - k * (2 * π))
    rw [cos_sub_int_mul_two_pi] at h1
    have h2 := abs_add_le (y - k * (2 * π)) (x - y)
    rw [show y - k * (2 * π) + (x - y) = x - k * (2 * π) by ring] at h2
    linarith
  have e : ∀ x : ℝ, arcsin (sin x) = π / 2 - arccos (cos (π / 2 - x)) := by
    intro x; rw [cos_pi_div_two_sub, arccos]; ring
  rw [e x, e y]
  have h1 := key (π / 2 - x) (π / 2 - y)
  have h2 := key (π / 2 - y) (π / 2 - x)
  rw [show π / 2 - x - (π / 2 - y) = y - x by ring] at h1
  rw [show π / 2 - y - (π / 2 - x) = x - y by ring] at h2
  rw [abs_sub_comm] at h1
  exact abs_le.mpr ⟨by linarith, by linarith⟩

/-! ### The error of the argument -/

theorem IsFloat.twice {x : ℚ} (h : IsFloat F x) : IsFloat F (2 * x) := by
  obtain ⟨m, e, he, hm, rfl⟩ := h
  exact ⟨m, e + 1, by omega, hm, by rw [zpow_add_one₀ (by norm_num)]; ring⟩

theorem within_three {u x y : ℚ} (hu : 0 ≤ u) (hu' : u ≤ 1 / 32) (h : Within u 3 x y) : |y - x| ≤ 4 * u * |x| := by
  unfold Within at h
  refine h.trans (mul_le_mul_of_nonneg_right ?_ (abs_nonneg _))
  nlinarith [mul_nonneg hu hu, mul_nonneg hu (mul_nonneg hu hu)]

set_option maxHeartbeats 1600000 in
theorem fastArgument_err (hp : 5 ≤ F.p) (he : F.emin + 2 * F.p ≤ 0) {P : ℚ} (hP : IsFloat F P) (h3 : 3 ≤ P) (h4 : P ≤ 4)
    {N n w : Nat} (hN : N < 2 ^ F.p) (hn : n < N) {u : ℚ} (hu0 : 0 ≤ u) (hu1 : u ≤ 1) :
    |fadd F (fmul F w (fmul F (fdiv F (fmul F 2 P) N) n)) (fmul F (fmul F 2 P) u) -
      (w * (2 * P * n / N) + 2 * P * u)| ≤ (41 * w + 19) * (2 : ℚ) ^ (-(F.p : ℤ)) := by
  have hε0 := two_zpow_pos (-(F.p : ℤ))
  have hε : (2 : ℚ) ^ (-(F.p : ℤ)) ≤ 1 / 32 :=
    (two_zpow_le (a := -(F.p : ℤ)) (b := -5) (by omega)).trans (by norm_num)
  have htiny : (2 : ℚ) ^ (F.emin - 1) ≤ (2 : ℚ) ^ (-(F.p : ℤ)) := two_zpow_le (by omega)
  have hnorm : (2 : ℚ) ^ (F.emin + F.p - 1) ≤ (2 : ℚ) ^ (-(F.p : ℤ)) := two_zpow_le (by omega)
  have htiny0 := two_zpow_pos (F.emin - 1)
  set ε := (2 : ℚ) ^ (-(F.p : ℤ)) with hεd
  have hNq : (0 : ℚ) < N := by exact_mod_cast (by omega : 0 < N)
  have hNp : (N : ℚ) * ε ≤ 1 := by
    have h1 : (N : ℚ) ≤ 2 ^ F.p := by exact_mod_cast hN.le
    have h2 : (2 : ℚ) ^ F.p * ε = 1 := by
      rw [hεd, ← zpow_natCast, ← zpow_add₀ (by norm_num)]; simp
    nlinarith
  have hnN : (n : ℚ) / N ≤ 1 := by
    rw [div_le_one hNq]; exact_mod_cast hn.le
  have hwq : (0 : ℚ) ≤ w := Nat.cast_nonneg w
  rw [show fmul F 2 P = 2 * P from fl_eq (by omega) hP.twice]
  -- the grid
  have hb1 : 6 * ε ≤ 2 * P / N := by
    rw [le_div_iff₀ hNq]; nlinarith
  have k1 : Within ε 1 (2 * P / N) (fdiv F (2 * P) N) := fl_within _ (Or.inr (by
    rw [abs_of_pos (by linarith)]; linarith))
  have g1 : 5 * ε ≤ fdiv F (2 * P) N := by
    have := (abs_le.mp k1).1
    rw [abs_of_pos (by linarith : (0 : ℚ) < 2 * P / N)] at this
    simp only [pow_one, add_sub_cancel_left] at this
    nlinarith
  have k2 : Within ε 2 (2 * P / N * n) (fmul F (fdiv F (2 * P) N) n) ∧
      (n = 0 ∨ 4 * ε ≤ fmul F (fdiv F (2 * P) N) n) := by
    rcases Nat.eq_zero_or_pos n with rfl | hn0
    · refine ⟨?_, Or.inl rfl⟩
      unfold fmul
      rw [Nat.cast_zero, mul_zero, mul_zero, fl_zero]
      simp [Within]
    · have hnq : (1 : ℚ) ≤ n := by exact_mod_cast hn0
      have hl : 5 * ε ≤ fdiv F (2 * P) N * n := by nlinarith
      have h' : Within ε 1 (fdiv F (2 * P) N * n) (fmul F (fdiv F (2 * P) N) n) := fl_within _ (Or.inr (by
        rw [abs_of_pos (by linarith)]; linarith))
      refine ⟨(k1.mul hε0.le (Within.refl ε (n : ℚ))).trans hε0.le h', Or.inr ?_⟩
      have := (abs_le.mp h').1
      rw [abs_of_pos (by linarith : (0 : ℚ) < fdiv F (2 * P) N * n)] at this
      simp only [pow_one, add_sub_cancel_left] at this
      nlinarith
  have k3 : Within ε 3 (w * (2 * P / N * n)) (fmul F w (fmul F (fdiv F (2 * P) N) n)) := by
    have hm := (Within.refl ε (w : ℚ)).mul hε0.le k2.1
    have h' : Within ε 1 (w * fmul F (fdiv F (2 * P) N) n) (fmul F w (fmul F (fdiv F (2 * P) N) n)) := by
      refine fl_within _ ?_
      rcases Nat.eq_zero_or_pos w with rfl | hw0
      · left; simp
      rcases k2.2 with rfl | h
      · left
        unfold fmul
        rw [Nat.cast_zero, mul_zero, fl_zero, mul_zero]
      · right
        have hwq : (1 : ℚ) ≤ w := by exact_mod_cast hw0
        have : 4 * ε ≤ w * fmul F (fdiv F (2 * P) N) n := by nlinarith
        rw [abs_of_pos (by linarith)]
        linarith
    exact hm.trans hε0.le h'
  have eA : (w : ℚ) * (2 * P * n / N) = w * (2 * P / N * n) := by ring
  have hA0 : 0 ≤ (w : ℚ) * (2 * P / N * n) := by positivity
  have hA : (w : ℚ) * (2 * P / N * n) ≤ 8 * w := by
    have : 2 * P / N * n = 2 * P * (n / N) := by ring
    rw [this]
    have : 2 * P * ((n : ℚ) / N) ≤ 8 := by
      have : (0 : ℚ) ≤ n / N := by positivity
      nlinarith
    nlinarith
  have d3 := within_three hε0.le hε k3
  rw [abs_of_nonneg hA0] at d3
  set A := (w : ℚ) * (2 * P / N * n)
  set a3 := fmul F w (fmul F (fdiv F (2 * P) N) n)
  have d3' : |a3 - A| ≤ 32 * w * ε := by nlinarith
  -- the phase
  have d4 := fl_err_any (F := F) (2 * P * u)
  have hph : 0 ≤ 2 * P * u := by positivity
  rw [abs_of_nonneg hph, ← hεd] at d4
  have hph8 : 2 * P * u ≤ 8 := by nlinarith
  have d4' : |fmul F (2 * P) u - 2 * P * u| ≤ 9 * ε := by unfold fmul; nlinarith
  set ph := fmul F (2 * P) u
  -- the sum
  have d5 := fl_err_any (F := F) (a3 + ph)
  rw [← hεd] at d5
  have ha3 := abs_le.mp d3'
  have hph' := abs_le.mp d4'
  have hwε : w * ε ≤ w * (1 / 32) := mul_le_mul_of_nonneg_left hε hwq
  have hs : |a3 + ph| ≤ 9 * w + 9 := by
    rw [abs_le]; constructor <;> linarith
  have d5' : |fadd F a3 ph - (a3 + ph)| ≤ ε * (9 * w + 9) + ε :=
    d5.trans (add_le_add (mul_le_mul_of_nonneg_left hs hε0.le) htiny)
  have h5 := abs_le.mp d5'
  rw [eA, abs_le]
  constructor <;> nlinarith

/-! ### The error of a point -/

set_option maxHeartbeats 1600000 in
theorem fastCurveFl_err (hp : 5 ≤ F.p) (he : F.emin + 2 * F.p ≤ 0) {T : TrigFl} {δ : ℝ} (hT : TrigNear F T δ)
    {N n w : Nat} (hN : N < 2 ^ F.p) (hn : n < N) {u : ℚ} (hu0 : 0 ≤ u) (hu1 : u ≤ 1) :
    |(fastCurveFl F T w (fastGridFl F T N n) (fmul F (fmul F 2 T.pi) u) : ℝ) - searchCurve N w (2 * π * u) n|
      ≤ √(δ / 2) + δ + 16 * (w + 1) * (2 : ℝ) ^ (-(F.p : ℤ)) := by
  have hδ : 0 ≤ δ := (abs_nonneg _).trans (hT.sin_near 0)
  have hε0 := two_zpow_pos (-(F.p : ℤ))
  have hε : (2 : ℚ) ^ (-(F.p : ℤ)) ≤ 1 / 32 :=
    (two_zpow_le (a := -(F.p : ℤ)) (b := -5) (by omega)).trans (by norm_num)
  have htiny : (2 : ℚ) ^ (F.emin - 1) ≤ (2 : ℚ) ^ (-(F.p : ℤ)) := two_zpow_le (by omega)
  have hnorm : (2 : ℚ) ^ (F.emin + F.p - 1) ≤ (2 : ℚ) ^ (-(F.p : ℤ)) := two_zpow_le (by omega)
  have hpn := hT.pi_near
  have e2 : (2 : ℝ) ^ (1 - (F.p : ℤ)) = 2 * (2 : ℝ) ^ (-(F.p : ℤ)) := by
    rw [sub_eq_add_neg, zpow_add₀ (by norm_num), zpow_one]
  rw [e2] at hpn
  have hcast : (((2 : ℚ) ^ (-(F.p : ℤ)) : ℚ) : ℝ) = (2 : ℝ) ^ (-(F.p : ℤ)) := by push_cast; rfl
  rw [← hcast] at hpn ⊢
  set ε := (2 : ℚ) ^ (-(F.p : ℤ)) with hεd
  have hεr0 : (0 : ℝ) < (ε : ℝ) := by exact_mod_cast hε0
  have hεr : (ε : ℝ) ≤ 1 / 32 := by
    have : (ε : ℝ) ≤ ((1 / 32 : ℚ) : ℝ) := by exact_mod_cast hε
    refine this.trans (by norm_num)
  have hpi3 := pi_gt_d2
  have hpi4 := pi_lt_d2
  have hpn' := abs_le.mp hpn
  have hP3 : 3 ≤ T.pi := by
    have : (3 : ℝ) ≤ T.pi := by linarith
    exact_mod_cast this
  have hP4 : T.pi ≤ 4 := by
    have : (T.pi : ℝ) ≤ 4 := by linarith
    exact_mod_cast this
  have harg := fastArgument_err hp he hT.pi_float hP3 hP4 (w := w) hN hn hu0 hu1
  rw [← hεd] at harg
  unfold fastCurveFl fastGridFl
  set t' := fadd F (fmul F w (fmul F (fdiv F (fmul F 2 T.pi) N) n)) (fmul F (fmul F 2 T.pi) u)
  -- the exact argument
  set t : ℝ := w * (2 * π * n / N) + 2 * π * u with ht
  have hwr : (0 : ℝ) ≤ w := Nat.cast_nonneg w
  have hur0 : (0 : ℝ) ≤ u := by exact_mod_cast hu0
  have hur1 : (u : ℝ) ≤ 1 := by exact_mod_cast hu1
  have hNr : (0 : ℝ) < N := by exact_mod_cast (by omega : 0 < N)
  have hnN0 : (0 : ℝ) ≤ n / N := by positivity
  have hnN : (n : ℝ) / N ≤ 1 := by
    rw [div_le_one hNr]; exact_mod_cast hn.le
  have d1 : |(t' : ℝ) - (w * (2 * T.pi * n / N) + 2 * T.pi * u)| ≤ (41 * w + 19) * ε := by
    have : ((|t' - (w * (2 * T.pi * n / N) + 2 * T.pi * u)| : ℚ) : ℝ) ≤ (((41 * w + 19) * ε : ℚ) : ℝ) := by
      exact_mod_cast harg
    push_cast at this
    exact this
  have d2 : |(w * (2 * T.pi * n / N) + 2 * T.pi * u : ℝ) - t| ≤ 4 * (w + 1) * ε := by
    have e : (w * (2 * T.pi * n / N) + 2 * T.pi * u : ℝ) - t = 2 * (T.pi - π) * (w * (n / N) + u) := by
      rw [ht]; ring
    rw [e, abs_mul, abs_mul, abs_two, abs_of_nonneg (by positivity : (0 : ℝ) ≤ w * (n / N) + u)]
    have : (w : ℝ) * (n / N) + u ≤ w + 1 := by
      have := mul_le_mul_of_nonneg_left hnN hwr
      linarith
    calc 2 * |(T.pi : ℝ) - π| * (w * (n / N) + u) ≤ 2 * (2 * ε) * (w + 1) := by
          apply mul_le_mul _ this (by positivity) (by positivity)
          linarith
      _ = 4 * (w + 1) * ε := by ring
  have dt : |(t' : ℝ) - t| ≤ (45 * w + 23) * ε := by
    have := abs_sub_le (t' : ℝ) (w * (2 * T.pi * n / N) + 2 * T.pi * u) t
    have e : (41 * (w : ℝ) + 19) * ε + 4 * (w + 1) * ε = (45 * w + 23) * ε := by ring
    linarith
  -- the wave
  set v := T.asin (T.sin t') with hv
  have hs1 := hT.sin_le t'
  have hs1r : |(T.sin t' : ℝ)| ≤ 1 := by exact_mod_cast hs1
  have dv : |(v : ℝ) - arcsin (sin t)| ≤ δ + π * √(δ / 2) + (45 * w + 23) * ε := by
    have h1 := hT.asin_near _ hs1
    have h2 := arcsin_hoelder hs1r (abs_sin_le_one t') (hT.sin_near t')
    have h3 := (arcsin_sin_lipschitz t' t).trans dt
    have h4 := abs_sub_le (v : ℝ) (arcsin (T.sin t')) (arcsin (sin t))
    have h5 := abs_sub_le (arcsin (T.sin t' : ℝ)) (arcsin (sin t')) (arcsin (sin t))
    linarith
  have hv2 := hT.asin_le _ hs1
  rw [← hv] at hv2
  -- the reciprocal
  have hP0 : 0 < T.pi := by linarith
  have hr0 : 0 < 1 / T.pi := by positivity
  have hr3 : 1 / T.pi ≤ 1 / 3 := one_div_le_one_div_of_le (by norm_num) hP3
  have hr4 : 1 / 4 ≤ 1 / T.pi := one_div_le_one_div_of_le hP0 hP4
  have hrn : (2 : ℚ) ^ (F.emin + F.p - 1) ≤ 1 / T.pi := by linarith
  have hy := fl_err_normal (F := F) (x := 1 / T.pi) (by rwa [abs_of_pos hr0])
  rw [abs_of_pos hr0, ← hεd] at hy
  have hz := recip_half_abs (by omega) (by omega) hP0 hrn hv2
  have hy' : |fdiv F 1 T.pi - 1 / T.pi| ≤ ε / 3 := hy.trans (by nlinarith)
  have hvq : |v| ≤ 2 := by linarith
  have hyv : |fdiv F 1 T.pi * v - v / T.pi| ≤ ε := by
    have e : fdiv F 1 T.pi * v - v / T.pi = (fdiv F 1 T.pi - 1 / T.pi) * v := by ring
    rw [e, abs_mul]
    have := mul_le_mul hy' hvq (abs_nonneg _) (by positivity)
    linarith
  have hvP : |v / T.pi| ≤ 1 / 2 := by
    rw [abs_div, abs_of_pos hP0, div_le_iff₀ hP0]; linarith
  have hyv1 : |fdiv F 1 T.pi * v| ≤ 1 := by
    have := abs_sub_abs_le_abs_sub (fdiv F 1 T.pi * v) (v / T.pi)
    linarith
  have hzz : |fmul F (fdiv F 1 T.pi) v - fdiv F 1 T.pi * v| ≤ 2 * ε := by
    have := fl_err_any (F := F) (fdiv F 1 T.pi * v)
    rw [← hεd] at this
    unfold fmul
    nlinarith
  have hg : |fadd F (1 / 2) (fmul F (fdiv F 1 T.pi) v) - (1 / 2 + fmul F (fdiv F 1 T.pi) v)| ≤ 2 * ε := by
    have := fl_err_any (F := F) (1 / 2 + fmul F (fdiv F 1 T.pi) v)
    rw [← hεd] at this
    have h1 : |1 / 2 + fmul F (fdiv F 1 T.pi) v| ≤ 1 := by
      have := abs_le.mp hz
      rw [abs_le]; constructor <;> linarith
    unfold fadd
    nlinarith
  have hq : |fadd F (1 / 2) (fmul F (fdiv F 1 T.pi) v) - (1 / 2 + v / T.pi)| ≤ 5 * ε := by
    have a1 := abs_le.mp hg
    have a2 := abs_le.mp hzz
    have a3 := abs_le.mp hyv
    rw [abs_le]; constructor <;> linarith
  set g := fadd F (1 / 2) (fmul F (fdiv F 1 T.pi) v)
  have hqr : |(g : ℝ) - (1 / 2 + v / T.pi)| ≤ 5 * ε := by
    have : ((|g - (1 / 2 + v / T.pi)| : ℚ) : ℝ) ≤ ((5 * ε : ℚ) : ℝ) := by exact_mod_cast hq
    push_cast at this
    exact this
  have hvr : |(v : ℝ)| ≤ 2 := by exact_mod_cast hvq
  have hPr : (3 : ℝ) ≤ T.pi := by exact_mod_cast hP3
  have hvpi : |(v : ℝ) / T.pi - v / π| ≤ ε := by
    have e : (v : ℝ) / T.pi - v / π = v * (π - T.pi) / (T.pi * π) := by
      field_simp
    rw [e, abs_div, abs_mul, abs_of_pos (by positivity : (0 : ℝ) < T.pi * π), div_le_iff₀ (by positivity), abs_sub_comm π]
    have h1 := mul_le_mul hvr hpn (abs_nonneg _) (by norm_num)
    have h2 : (9 : ℝ) ≤ T.pi * π := by nlinarith
    nlinarith
  have hlast : |(v : ℝ) / π - arcsin (sin t) / π| ≤ δ + √(δ / 2) + (15 * w + 8) * ε := by
    rw [← sub_div, abs_div, abs_of_pos pi_pos, div_le_iff₀ pi_pos]
    refine dv.trans ?_
    have hs := Real.sqrt_nonneg (δ / 2)
    have : (45 * (w : ℝ) + 23) * ε ≤ (15 * w + 8) * ε * π := by
      have h1 : (0 : ℝ) ≤ (15 * w + 8) * ε := by positivity
      have h2 := mul_le_mul_of_nonneg_left hpi3.le h1
      nlinarith
    nlinarith
  unfold searchCurve
  rw [← ht]
  have a1 := abs_le.mp hqr
  have a2 := abs_le.mp hvpi
  have a3 := abs_le.mp hlast
  have hwε : (0 : ℝ) ≤ w * ε := by positivity
  rw [abs_le]
  constructor <;> nlinarith

end SALib
