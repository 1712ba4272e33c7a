import Verif.Lemmas.Float
import Verif.Lemmas.Scale

/-! # Scaling with rounding, entry by entry -/

namespace SALib

variable {F : Fmt}

/-- `2 ^ (-p)`, half the spacing at 1. -/
theorem u_le_quarter (hp : 2 ≤ F.p) : (2 : ℚ) ^ (-(F.p : ℤ)) ≤ 1 / 4 := by
  have := two_zpow_le (a := -(F.p : ℤ)) (b := -2) (by omega)
  refine this.trans (by norm_num)

theorem scaleUniformFl_legal (bs : List (ℚ × ℚ)) (hne : bs ≠ []) (hleg : ∀ p ∈ bs, p.1 < p.2)
    (params : Mat ℚ) :
    scaleUniformFl F bs.length params (Spec.boundsTable bs) =
      .ok (params.map fun row => List.zipWith (scaleEntryFl F) row bs) := by
  have h2 : (bs.any fun p => decide (p.2 ≤ p.1)) = false := by
    rw [List.any_eq_false]; intro p hp; simpa using hleg p hp
  unfold scaleUniformFl
  rw [checkBounds_legal bs hne hleg]
  simp [h2, broadcastBounds]

theorem unscaleUniformFl_legal (bs : List (ℚ × ℚ)) (hne : bs ≠ []) (hleg : ∀ p ∈ bs, p.1 < p.2)
    (params : Mat ℚ) :
    unscaleUniformFl F bs.length params (Spec.boundsTable bs) =
      .ok (params.map fun row => List.zipWith (unscaleEntryFl F) row bs) := by
  have h1 : (Spec.boundsTable bs).isEmpty = false := by
    cases bs with
    | nil => exact absurd rfl hne
    | cons _ _ => rfl
  have h2 : (bs.any fun p => decide (p.2 ≤ p.1)) = false := by
    rw [List.any_eq_false]; intro p hp; simpa using hleg p hp
  unfold unscaleUniformFl
  rw [rowPairs_boundsTable]
  simp [h1, h2, broadcastBounds]

theorem width_nonneg {lo hi : ℚ} (h : lo < hi) : 0 ≤ fsub F hi lo := fl_nonneg (sub_nonneg.2 h.le)

/-- Different numbers of the format never cancel to zero. -/
theorem width_pos (hp : 1 ≤ F.p) {lo hi : ℚ} (hl : IsFloat F lo) (hh : IsFloat F hi) (h : lo < hi) :
    0 < fsub F hi lo := by
  obtain ⟨m, n, e, he, hm, hn, -⟩ := hh.common hl
  have hE : IsFloat F ((2 : ℚ) ^ F.emin) := by
    refine ⟨1, F.emin, le_rfl, ?_, by simp⟩
    rw [abs_one]; exact one_lt_pow₀ (by norm_num) (by omega)
  refine (two_zpow_pos F.emin).trans_le (le_fl_of_le hp hE ?_)
  refine (two_zpow_le he).trans ?_
  have hmn : n < m := by
    rw [hm, hn] at h
    have := lt_of_mul_lt_mul_right h (two_zpow_pos e).le
    exact_mod_cast this
  have h1 : ((1 : ℤ) : ℚ) ≤ ((m - n : ℤ) : ℚ) := by exact_mod_cast (by omega : 1 ≤ m - n)
  rw [hm, hn, ← sub_mul]
  push_cast at h1
  nlinarith [two_zpow_pos e]

theorem scaleEntryFl_lower (hp : 1 ≤ F.p) {x lo hi : ℚ} (hl : IsFloat F lo) (h : lo < hi)
    (hx : 0 ≤ x) : lo ≤ scaleEntryFl F x (lo, hi) := by
  unfold scaleEntryFl fadd fmul
  refine le_fl_of_le hp hl ?_
  have := fl_nonneg (F := F) (mul_nonneg hx (width_nonneg (F := F) h))
  simp only
  linarith

theorem scaleEntryFl_mono (hp : 1 ≤ F.p) {x x' lo hi : ℚ} (h : lo < hi) (hx : x ≤ x') :
    scaleEntryFl F x (lo, hi) ≤ scaleEntryFl F x' (lo, hi) := by
  unfold scaleEntryFl fadd fmul
  refine fl_mono hp ?_
  have := fl_mono (F := F) hp (mul_le_mul_of_nonneg_right hx (width_nonneg (F := F) h))
  simp only
  linarith

theorem scaleEntryFl_zero (hp : 1 ≤ F.p) {lo hi : ℚ} (hl : IsFloat F lo) :
    scaleEntryFl F 0 (lo, hi) = lo := by
  unfold scaleEntryFl fadd fmul
  rw [zero_mul, fl_zero, zero_add, fl_eq hp hl]

/-- The value at the upper end of the unit interval. -/
theorem scaleEntryFl_one (hp : 1 ≤ F.p) {lo hi : ℚ} :
    scaleEntryFl F 1 (lo, hi) = fl F (fl F (hi - lo) + lo) := by
  unfold scaleEntryFl fadd fmul fsub
  rw [one_mul, fl_fl hp]

theorem scaleEntryFl_one_exact (hp : 1 ≤ F.p) {lo hi : ℚ} (hh : IsFloat F hi)
    (hd : IsFloat F (hi - lo)) : scaleEntryFl F 1 (lo, hi) = hi := by
  rw [scaleEntryFl_one hp, fl_eq hp hd, sub_add_cancel, fl_eq hp hh]

/-- Up to the last two numbers of the unit interval the upper bound is kept. -/
theorem scaleEntryFl_upper (hp : 2 ≤ F.p) {x lo hi : ℚ} (hl : IsFloat F lo) (hh : IsFloat F hi)
    (h : lo < hi) (hx : 0 ≤ x) (hx1 : x ≤ 1 - (2 : ℚ) ^ (1 - (F.p : ℤ))) :
    scaleEntryFl F x (lo, hi) ≤ hi := by
  have hp1 : 1 ≤ F.p := by omega
  unfold scaleEntryFl fadd
  refine fl_le_of_le hp1 hh ?_
  simp only
  suffices hs : fmul F x (fsub F hi lo) ≤ hi - lo by linarith
  have hu := two_zpow_pos (-(F.p : ℤ))
  have hu4 := u_le_quarter hp
  have hx1' : x ≤ 1 - 2 * (2 : ℚ) ^ (-(F.p : ℤ)) := by
    have e : (2 : ℚ) ^ (1 - (F.p : ℤ)) = 2 * (2 : ℚ) ^ (-(F.p : ℤ)) := by
      rw [sub_eq_add_neg, zpow_add₀ (by norm_num), zpow_one]
    rwa [e] at hx1
  have herr := fl_sub_err hp1 hh hl
  generalize hud : (2 : ℚ) ^ (-(F.p : ℤ)) = u at *
  have hd : 0 < hi - lo := sub_pos.2 h
  rw [abs_of_pos hd] at herr
  have hw0 := width_nonneg (F := F) h
  have hw : fsub F hi lo ≤ (hi - lo) * (1 + u) := by
    unfold fsub; linarith [(abs_le.1 herr).2]
  have hxw0 : 0 ≤ x * fsub F hi lo := mul_nonneg hx hw0
  have hxw : x * fsub F hi lo ≤ (1 - 2 * u) * ((hi - lo) * (1 + u)) :=
    mul_le_mul hx1' hw hw0 (by linarith)
  unfold fmul
  rcases le_or_gt ((2 : ℚ) ^ (F.emin + F.p - 1)) |x * fsub F hi lo| with hb | hb
  · have h2 := fl_err_normal hb
    rw [hud, abs_of_nonneg hxw0] at h2
    have h3 := (abs_le.1 h2).2
    have h4 : x * fsub F hi lo * (1 + u) ≤ (1 - 2 * u) * ((hi - lo) * (1 + u)) * (1 + u) :=
      mul_le_mul_of_nonneg_right hxw (by linarith)
    have h5 : (1 - 2 * u) * ((hi - lo) * (1 + u)) * (1 + u) ≤ hi - lo := by
      nlinarith [mul_pos hd (mul_pos hu hu), mul_pos hd (mul_pos hu (mul_pos hu hu))]
    linarith
  · -- the product is tiny
    rw [abs_of_nonneg hxw0] at hb
    obtain ⟨m, n, e, he, hm, hn, -⟩ := hh.common hl
    rcases le_or_gt (hi - lo) ((2 : ℚ) ^ (F.emin + F.p)) with hs | hs
    · have hf : IsFloat F (hi - lo) := by
        obtain ⟨k, hk⟩ := two_zpow_div_int he
        refine isFloat_of_multiple hp1 (m := (m - n) * k) (e := F.emin) le_rfl ?_ ?_
        · rw [hm, hn]; push_cast; rw [← hk]; have := two_zpow_pos F.emin; field_simp
        · rwa [abs_of_pos hd]
      refine fl_le_of_le hp1 hf ?_
      unfold fsub
      rw [fl_eq hp1 hf]
      nlinarith
    · have hfl : IsFloat F ((2 : ℚ) ^ (F.emin + F.p - 1)) := by
        refine ⟨1, F.emin + F.p - 1, by omega, ?_, by simp⟩
        rw [abs_one]; exact one_lt_pow₀ (by norm_num) (by omega)
      refine (fl_le_of_le hp1 hfl hb.le).trans ?_
      exact (two_zpow_le (by omega)).trans hs.le

/-- With an exact width the bounds are kept on the whole unit interval. -/
theorem scaleEntryFl_upper_exact (hp : 1 ≤ F.p) {x lo hi : ℚ} (hh : IsFloat F hi) (h : lo < hi)
    (hd : IsFloat F (hi - lo)) (hx1 : x ≤ 1) : scaleEntryFl F x (lo, hi) ≤ hi := by
  have := scaleEntryFl_mono hp h hx1
  rwa [scaleEntryFl_one_exact hp hh hd] at this

/-- Distance from the exact value. -/
theorem scaleEntryFl_err (hp : 2 ≤ F.p) {x lo hi : ℚ} (hl : IsFloat F lo) (hh : IsFloat F hi)
    (h : lo < hi) (hx : 0 ≤ x) (hx1 : x ≤ 1) :
    |scaleEntryFl F x (lo, hi) - (lo + x * (hi - lo))|
      ≤ (2 : ℚ) ^ (3 - (F.p : ℤ)) * max |lo| |hi| + (2 : ℚ) ^ F.emin := by
  have hp1 : 1 ≤ F.p := by omega
  have hu := two_zpow_pos (-(F.p : ℤ))
  have hu4 := u_le_quarter hp
  have e8 : (2 : ℚ) ^ (3 - (F.p : ℤ)) = 8 * (2 : ℚ) ^ (-(F.p : ℤ)) := by
    rw [sub_eq_add_neg, zpow_add₀ (by norm_num)]; norm_num
  have hd : 0 < hi - lo := sub_pos.2 h
  have hw0 := width_nonneg (F := F) h
  have herr := fl_sub_err hp1 hh hl
  rw [abs_of_pos hd] at herr
  have hprod : |fmul F x (fsub F hi lo) - x * fsub F hi lo|
      ≤ x * fsub F hi lo * (2 : ℚ) ^ (-(F.p : ℤ)) + (2 : ℚ) ^ (F.emin - 1) := by
    have hxw0 : 0 ≤ x * fsub F hi lo := mul_nonneg hx hw0
    rcases le_or_gt ((2 : ℚ) ^ (F.emin + F.p - 1)) |x * fsub F hi lo| with hb | hb
    · have := fl_err_normal hb
      rw [abs_of_nonneg hxw0] at this
      exact this.trans (le_add_of_nonneg_right (two_zpow_pos _).le)
    · refine (fl_err_small (hb.trans_le (two_zpow_le (by omega)))).trans ?_
      exact le_add_of_nonneg_left (mul_nonneg hxw0 hu.le)
  have hsum : |scaleEntryFl F x (lo, hi) - (fmul F x (fsub F hi lo) + lo)|
      ≤ |fmul F x (fsub F hi lo) + lo| * (2 : ℚ) ^ (-(F.p : ℤ)) := by
    unfold scaleEntryFl fadd
    exact fl_add_err hp1 (isFloat_fl hp1 _) hl
  have ehalf : (2 : ℚ) ^ (F.emin - 1) = (2 : ℚ) ^ F.emin / 2 := by
    rw [zpow_sub_one₀ (by norm_num), div_eq_mul_inv]
  rw [ehalf] at hprod
  rw [e8]
  have hE := two_zpow_pos F.emin
  generalize (2 : ℚ) ^ (-(F.p : ℤ)) = u at *
  generalize (2 : ℚ) ^ F.emin = E at *
  set M := max |lo| |hi| with hM
  have hlo : |lo| ≤ M := le_max_left _ _
  have hhi : |hi| ≤ M := le_max_right _ _
  have hM0 : 0 ≤ M := (abs_nonneg lo).trans hlo
  have hdM : hi - lo ≤ 2 * M := by
    have := (abs_le.1 hlo).1; have := (abs_le.1 hhi).2; linarith
  have hwd : |fsub F hi lo - (hi - lo)| ≤ (hi - lo) * u := herr
  generalize fsub F hi lo = w at *
  have hw1 : w ≤ (hi - lo) * (1 + u) := by linarith [(abs_le.1 hwd).2]
  generalize fmul F x w = q at *
  generalize scaleEntryFl F x (lo, hi) = y at *
  have hxw : |x * w - x * (hi - lo)| ≤ (hi - lo) * u := by
    rw [← mul_sub, abs_mul, abs_of_nonneg hx]
    nlinarith [abs_nonneg (w - (hi - lo))]
  have hxw2 : x * w ≤ (hi - lo) * (1 + u) := by nlinarith
  -- product against the exact product
  have hq : |q - x * (hi - lo)| ≤ (hi - lo) * (2 * u + u * u) + E / 2 := by
    have h1 := abs_sub_le q (x * w) (x * (hi - lo))
    have h2 : x * w * u ≤ (hi - lo) * (1 + u) * u := mul_le_mul_of_nonneg_right hxw2 hu.le
    nlinarith
  have hex : |lo + x * (hi - lo)| ≤ M := by
    rw [abs_le]
    have a := abs_le.1 hlo
    have b := abs_le.1 hhi
    constructor <;> nlinarith
  have hql : |q + lo| ≤ M + ((hi - lo) * (2 * u + u * u) + E / 2) := by
    have : q + lo = (lo + x * (hi - lo)) + (q - x * (hi - lo)) := by ring
    rw [this]
    exact (abs_add_le _ _).trans (by linarith)
  have hy : |y - (lo + x * (hi - lo))| ≤ |y - (q + lo)| + |q - x * (hi - lo)| := by
    have := abs_sub_le y (q + lo) (lo + x * (hi - lo))
    have e : q + lo - (lo + x * (hi - lo)) = q - x * (hi - lo) := by ring
    rwa [e] at this
  have hK : (hi - lo) * (2 * u + u * u) ≤ 2 * M * (2 * u + u * u) :=
    mul_le_mul_of_nonneg_right hdM (by positivity)
  have h1 : |q + lo| * u ≤ (M + (2 * M * (2 * u + u * u) + E / 2)) * u :=
    mul_le_mul_of_nonneg_right (by linarith) hu.le
  have h2 : |y - (lo + x * (hi - lo))|
      ≤ (M + (2 * M * (2 * u + u * u) + E / 2)) * u + (2 * M * (2 * u + u * u) + E / 2) := by
    linarith
  refine h2.trans ?_
  have h3 : E / 2 * u ≤ E / 2 * (1 / 4) := mul_le_mul_of_nonneg_left hu4 (by positivity)
  have h4 : M * (u * u) ≤ M * u * (1 / 4) := by
    have := mul_le_mul_of_nonneg_left hu4 (mul_nonneg hM0 hu.le); linarith
  have h5 : M * (u * u * u) ≤ M * u * (1 / 16) := by
    have a := mul_le_mul_of_nonneg_left hu4 (mul_nonneg hM0 (mul_nonneg hu.le hu.le)); linarith
  nlinarith

/-! ## Unscaling -/

theorem isFloat_one (hp : 1 ≤ F.p) (he : F.emin ≤ 0) : IsFloat F 1 :=
  ⟨1, 0, he, by rw [abs_one]; exact one_lt_pow₀ (by norm_num) (by omega), by simp⟩

theorem unscaleEntryFl_range (hp : 1 ≤ F.p) (he : F.emin ≤ 0) {x lo hi : ℚ} (hl : IsFloat F lo)
    (hh : IsFloat F hi) (h : lo < hi) (h0 : lo ≤ x) (h1 : x ≤ hi) :
    0 ≤ unscaleEntryFl F x (lo, hi) ∧ unscaleEntryFl F x (lo, hi) ≤ 1 := by
  have hw := width_pos hp hl hh h
  have hn : 0 ≤ fsub F x lo := fl_nonneg (sub_nonneg.2 h0)
  refine ⟨fl_nonneg (div_nonneg hn hw.le), fl_le_of_le hp (isFloat_one hp he) ?_⟩
  simp only
  rw [div_le_one hw]
  exact fl_mono hp (by linarith)

theorem unscaleEntryFl_mono (hp : 1 ≤ F.p) {x x' lo hi : ℚ} (h : lo < hi) (hx : x ≤ x') :
    unscaleEntryFl F x (lo, hi) ≤ unscaleEntryFl F x' (lo, hi) := by
  refine fl_mono hp (div_le_div_of_nonneg_right (fl_mono hp (by linarith)) (width_nonneg h))

theorem unscaleEntryFl_lower {lo hi : ℚ} : unscaleEntryFl F lo (lo, hi) = 0 := by
  unfold unscaleEntryFl fdiv fsub
  rw [sub_self, fl_zero, zero_div, fl_zero]

theorem unscaleEntryFl_upper (hp : 1 ≤ F.p) (he : F.emin ≤ 0) {lo hi : ℚ} (hl : IsFloat F lo)
    (hh : IsFloat F hi) (h : lo < hi) : unscaleEntryFl F hi (lo, hi) = 1 := by
  have hw := width_pos hp hl hh h
  unfold unscaleEntryFl fdiv
  rw [div_self hw.ne', fl_eq hp (isFloat_one hp he)]

end SALib
