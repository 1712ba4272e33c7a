import Verif.Model.Float
import Mathlib.Tactic.Linarith
import Mathlib.Tactic.Positivity
import Mathlib.Tactic.FieldSimp
import Mathlib.Tactic.Ring
import Mathlib.Tactic.NormNum

/-! # Rounding: monotone, exact on the numbers of the format, nearest, ties to even -/

namespace SALib

/-! ## Rounding to an integer -/

theorem roundEven_err (x : ℚ) : |(roundEven x : ℚ) - x| ≤ 1 / 2 := by
  have h0 := Int.floor_le x
  have h1 := Int.lt_floor_add_one x
  unfold roundEven
  rw [abs_le]
  split_ifs <;> push_cast <;> constructor <;> linarith

theorem roundEven_int (n : ℤ) : roundEven n = n := by
  simp [roundEven]

theorem floor_le_roundEven (x : ℚ) : ⌊x⌋ ≤ roundEven x := by
  unfold roundEven; split_ifs <;> omega

theorem roundEven_le_floor (x : ℚ) : roundEven x ≤ ⌊x⌋ + 1 := by
  unfold roundEven; split_ifs <;> omega

theorem roundEven_mono {x y : ℚ} (h : x ≤ y) : roundEven x ≤ roundEven y := by
  have hf := Int.floor_le_floor h
  rcases hf.lt_or_eq with hlt | heq
  · exact (roundEven_le_floor x).trans (le_trans (by omega) (floor_le_roundEven y))
  · unfold roundEven
    rw [← heq]
    split_ifs <;> first | omega | (exfalso; linarith)

theorem roundEven_neg (x : ℚ) : roundEven (-x) = -roundEven x := by
  by_cases hx : x = ⌊x⌋
  · rw [hx, ← Int.cast_neg, roundEven_int, roundEven_int]
  · have h0 : (⌊x⌋ : ℚ) < x := lt_of_le_of_ne (Int.floor_le x) (fun h => hx h.symm)
    have h1 := Int.lt_floor_add_one x
    have hfl : ⌊-x⌋ = -⌊x⌋ - 1 := by
      rw [Int.floor_eq_iff]; push_cast; constructor <;> linarith
    unfold roundEven
    rw [hfl]
    push_cast
    by_cases ha : x - ⌊x⌋ < 1 / 2
    · rw [if_pos ha, if_neg (by linarith), if_pos (by linarith)]; ring
    · rw [if_neg ha]
      by_cases hb : 1 / 2 < x - ⌊x⌋
      · rw [if_pos hb, if_pos (by linarith)]; ring
      · rw [if_neg hb, if_neg (by linarith), if_neg (by linarith)]
        by_cases hc : (2 : ℤ) ∣ ⌊x⌋
        · rw [if_pos hc, if_neg (by omega)]; ring
        · rw [if_neg hc, if_pos (by omega)]; ring

/-- The nearest integer is not beaten by another integer. -/
theorem roundEven_nearest (x : ℚ) (n : ℤ) : |(roundEven x : ℚ) - x| ≤ |(n : ℚ) - x| := by
  by_cases h : n = roundEven x
  · rw [h]
  · have he := roundEven_err x
    have h1 : (1 : ℚ) ≤ |(n : ℚ) - roundEven x| := by
      have : (1 : ℤ) ≤ |n - roundEven x| := Int.one_le_abs (sub_ne_zero.2 h)
      exact_mod_cast this
    have h2 : |(n : ℚ) - roundEven x| ≤ |(n : ℚ) - x| + |(roundEven x : ℚ) - x| := by
      have := abs_sub_le (n : ℚ) x (roundEven x)
      rwa [abs_sub_comm x] at this
    linarith

theorem roundEven_tie {x : ℚ} {n : ℤ} (hn : n ≠ roundEven x)
    (h : |(n : ℚ) - x| = |(roundEven x : ℚ) - x|) : 2 ∣ roundEven x := by
  have he := roundEven_err x
  have h1 : (1 : ℚ) ≤ |(n : ℚ) - roundEven x| := by
    have : (1 : ℤ) ≤ |n - roundEven x| := Int.one_le_abs (sub_ne_zero.2 hn)
    exact_mod_cast this
  have h2 : |(n : ℚ) - roundEven x| ≤ |(n : ℚ) - x| + |(roundEven x : ℚ) - x| := by
    have := abs_sub_le (n : ℚ) x (roundEven x)
    rwa [abs_sub_comm x] at this
  have h3 : |(roundEven x : ℚ) - x| = 1 / 2 := by linarith
  have h0 := Int.floor_le x
  have hl := Int.lt_floor_add_one x
  revert h3
  unfold roundEven
  split_ifs with a b c
  · intro h3; rw [abs_sub_comm, abs_of_nonneg (by linarith)] at h3; linarith
  · intro h3; push_cast at h3; rw [abs_of_nonneg (by linarith)] at h3; linarith
  · intro _; exact c
  · intro _; omega

/-! ## Powers of two -/

theorem two_zpow_pos (e : ℤ) : (0 : ℚ) < (2 : ℚ) ^ e := zpow_pos (by norm_num) e

theorem two_zpow_le {a b : ℤ} (h : a ≤ b) : (2 : ℚ) ^ a ≤ (2 : ℚ) ^ b :=
  zpow_le_zpow_right₀ (by norm_num) h

theorem two_zpow_lt_iff {a b : ℤ} : (2 : ℚ) ^ a < (2 : ℚ) ^ b ↔ a < b :=
  zpow_lt_zpow_iff_right₀ (by norm_num)

theorem two_zpow_le_iff {a b : ℤ} : (2 : ℚ) ^ a ≤ (2 : ℚ) ^ b ↔ a ≤ b :=
  zpow_le_zpow_iff_right₀ (by norm_num)

theorem two_zpow_div_int {a b : ℤ} (h : b ≤ a) : ∃ n : ℤ, (2 : ℚ) ^ a / (2 : ℚ) ^ b = n := by
  obtain ⟨k, hk⟩ := Int.eq_ofNat_of_zero_le (sub_nonneg.2 h)
  refine ⟨2 ^ k, ?_⟩
  rw [← zpow_sub₀ (by norm_num : (2 : ℚ) ≠ 0), hk]
  push_cast
  exact zpow_natCast _ _

theorem log_le_abs {x : ℚ} (hx : x ≠ 0) : (2 : ℚ) ^ Int.log 2 |x| ≤ |x| := by
  have := Int.zpow_log_le_self (b := 2) (by norm_num) (abs_pos.2 hx)
  exact_mod_cast this

theorem abs_lt_log (x : ℚ) : |x| < (2 : ℚ) ^ (Int.log 2 |x| + 1) := by
  have := Int.lt_zpow_succ_log_self (b := 2) (by norm_num) |x|
  exact_mod_cast this

/-! ## Rounding to the format -/

variable {F : Fmt}

theorem ulp_pos (x : ℚ) : (0 : ℚ) < (2 : ℚ) ^ ulpExp F x := two_zpow_pos _

theorem ulpExp_neg (x : ℚ) : ulpExp F (-x) = ulpExp F x := by simp [ulpExp]

theorem fl_zero : fl F 0 = 0 := by
  have : roundEven 0 = 0 := by simpa using roundEven_int 0
  simp [fl, this]

theorem fl_neg (x : ℚ) : fl F (-x) = -fl F x := by
  unfold fl
  rw [ulpExp_neg, neg_div, roundEven_neg]
  push_cast; ring

theorem fl_err_ulp (x : ℚ) : |fl F x - x| ≤ (2 : ℚ) ^ ulpExp F x / 2 := by
  have h := roundEven_err (x / (2 : ℚ) ^ ulpExp F x)
  have hp := ulp_pos (F := F) x
  have hx : x = x / (2 : ℚ) ^ ulpExp F x * (2 : ℚ) ^ ulpExp F x := by field_simp
  have : fl F x - x = ((roundEven (x / (2 : ℚ) ^ ulpExp F x) : ℚ) - x / (2 : ℚ) ^ ulpExp F x)
      * (2 : ℚ) ^ ulpExp F x := by
    unfold fl
    rw [sub_mul, ← hx]
  rw [this, abs_mul, abs_of_pos hp]
  nlinarith

/-- A number of the format, allowing the significand `2 ^ p`. -/
theorem isFloat_of_le (hp : 1 ≤ F.p) {x : ℚ} {m e : ℤ} (he : F.emin ≤ e) (hm : |m| ≤ 2 ^ F.p)
    (hx : x = m * (2 : ℚ) ^ e) : IsFloat F x := by
  rcases hm.lt_or_eq with h | h
  · exact ⟨m, e, he, h, hx⟩
  · obtain ⟨k, hk⟩ : ∃ k, F.p = k + 1 := ⟨F.p - 1, by omega⟩
    rcases abs_eq (by positivity : (0 : ℤ) ≤ 2 ^ F.p) |>.1 h with h' | h'
    · refine ⟨2 ^ k, e + 1, by omega, ?_, ?_⟩
      · rw [abs_of_nonneg (by positivity), hk, pow_succ]
        have : (0 : ℤ) < 2 ^ k := by positivity
        omega
      · rw [hx, h', hk, zpow_add_one₀ (by norm_num)]; push_cast; ring
    · refine ⟨-2 ^ k, e + 1, by omega, ?_, ?_⟩
      · rw [abs_neg, abs_of_nonneg (by positivity), hk, pow_succ]
        have : (0 : ℤ) < 2 ^ k := by positivity
        omega
      · rw [hx, h', hk, zpow_add_one₀ (by norm_num)]; push_cast; ring

theorem IsFloat.neg {x : ℚ} (h : IsFloat F x) : IsFloat F (-x) := by
  obtain ⟨m, e, he, hm, hx⟩ := h
  exact ⟨-m, e, he, by rwa [abs_neg], by rw [hx]; push_cast; ring⟩

theorem isFloat_zero : IsFloat F 0 := ⟨0, F.emin, le_rfl, by simp, by simp⟩

theorem emin_le_ulpExp (x : ℚ) : F.emin ≤ ulpExp F x := le_max_right _ _

theorem log_le_ulpExp (x : ℚ) : Int.log 2 |x| - F.p + 1 ≤ ulpExp F x := le_max_left _ _

/-- The quotient by the spacing is at most `2 ^ p`. -/
theorem abs_div_ulp_lt (x : ℚ) : |x / (2 : ℚ) ^ ulpExp F x| < 2 ^ F.p := by
  have hp := ulp_pos (F := F) x
  rw [abs_div, abs_of_pos hp, div_lt_iff₀ hp]
  refine (abs_lt_log x).trans_le ?_
  rw [← zpow_natCast, ← zpow_add₀ (by norm_num)]
  exact two_zpow_le (by have := log_le_ulpExp (F := F) x; omega)

theorem abs_roundEven_le {x : ℚ} {n : ℤ} (h : |x| ≤ n) : |roundEven x| ≤ n := by
  have h1 := abs_le.1 h
  rw [abs_le]
  constructor
  · have := roundEven_mono h1.1
    rwa [← Int.cast_neg, roundEven_int] at this
  · have := roundEven_mono h1.2
    rwa [roundEven_int] at this

theorem isFloat_fl (hp : 1 ≤ F.p) (x : ℚ) : IsFloat F (fl F x) := by
  refine isFloat_of_le hp (emin_le_ulpExp x) ?_ rfl
  have := abs_div_ulp_lt (F := F) x
  exact abs_roundEven_le (n := 2 ^ F.p) (by push_cast; exact this.le)

/-- A number of the format is a whole multiple of its spacing. -/
theorem IsFloat.div_ulp (hp : 1 ≤ F.p) {x : ℚ} (h : IsFloat F x) :
    ∃ n : ℤ, x / (2 : ℚ) ^ ulpExp F x = n := by
  by_cases hx0 : x = 0
  · exact ⟨0, by simp [hx0]⟩
  obtain ⟨m, e, he, hm, hx⟩ := h
  have hle : ulpExp F x ≤ e := by
    refine max_le ?_ he
    have h1 : (2 : ℚ) ^ Int.log 2 |x| < (2 : ℚ) ^ (F.p + e) := by
      refine (log_le_abs hx0).trans_lt ?_
      rw [zpow_add₀ (by norm_num), zpow_natCast]
      conv_lhs => rw [hx]
      rw [abs_mul, abs_of_pos (two_zpow_pos e)]
      have : (|(m : ℚ)|) < 2 ^ F.p := by exact_mod_cast hm
      exact mul_lt_mul_of_pos_right this (two_zpow_pos e)
    have := two_zpow_lt_iff.1 h1
    omega
  obtain ⟨k, hk⟩ := two_zpow_div_int hle
  refine ⟨m * k, ?_⟩
  conv_lhs => lhs; rw [hx]
  rw [mul_div_assoc, hk]; push_cast; rfl

theorem fl_eq (hp : 1 ≤ F.p) {x : ℚ} (h : IsFloat F x) : fl F x = x := by
  obtain ⟨n, hn⟩ := h.div_ulp hp
  unfold fl
  rw [hn, roundEven_int, ← hn]
  field_simp

theorem fl_fl (hp : 1 ≤ F.p) (x : ℚ) : fl F (fl F x) = fl F x := fl_eq hp (isFloat_fl hp x)

theorem fl_nonneg {x : ℚ} (h : 0 ≤ x) : 0 ≤ fl F x := by
  unfold fl
  refine mul_nonneg ?_ (ulp_pos x).le
  have := roundEven_mono (div_nonneg h (ulp_pos (F := F) x).le)
  have h0 : roundEven 0 = 0 := by simpa using roundEven_int 0
  rw [h0] at this
  exact_mod_cast this

/-- Rounding does not pass a power of two of the format: from below. -/
theorem fl_le_two_zpow {x : ℚ} {k : ℤ} (hk : ulpExp F x ≤ k) (h : x ≤ (2 : ℚ) ^ k) :
    fl F x ≤ (2 : ℚ) ^ k := by
  obtain ⟨n, hn⟩ := two_zpow_div_int hk
  have h1 : x / (2 : ℚ) ^ ulpExp F x ≤ n := by
    rw [← hn]; exact div_le_div_of_nonneg_right h (ulp_pos x).le
  have h2 := roundEven_mono h1
  rw [roundEven_int] at h2
  unfold fl
  calc _ ≤ (n : ℚ) * (2 : ℚ) ^ ulpExp F x :=
        mul_le_mul_of_nonneg_right (by exact_mod_cast h2) (ulp_pos x).le
    _ = _ := by rw [← hn]; field_simp

theorem two_zpow_le_fl {x : ℚ} {k : ℤ} (hk : ulpExp F x ≤ k) (h : (2 : ℚ) ^ k ≤ x) :
    (2 : ℚ) ^ k ≤ fl F x := by
  obtain ⟨n, hn⟩ := two_zpow_div_int hk
  have h1 : (n : ℚ) ≤ x / (2 : ℚ) ^ ulpExp F x := by
    rw [← hn]; exact div_le_div_of_nonneg_right h (ulp_pos x).le
  have h2 := roundEven_mono h1
  rw [roundEven_int] at h2
  unfold fl
  calc _ = (n : ℚ) * (2 : ℚ) ^ ulpExp F x := by rw [← hn]; field_simp
    _ ≤ _ := mul_le_mul_of_nonneg_right (by exact_mod_cast h2) (ulp_pos x).le

theorem fl_mono_pos (hp : 1 ≤ F.p) {x y : ℚ} (hx : 0 < x) (h : x ≤ y) : fl F x ≤ fl F y := by
  have hy : 0 < y := hx.trans_le h
  have hlog : Int.log 2 |x| ≤ Int.log 2 |y| := by
    rw [abs_of_pos hx, abs_of_pos hy]; exact Int.log_mono_right hx h
  have hu : ulpExp F x ≤ ulpExp F y := max_le_max (by omega) le_rfl
  rcases hu.lt_or_eq with hlt | heq
  · have hy1 : ulpExp F y = Int.log 2 |y| - F.p + 1 := by
      rcases max_choice (Int.log 2 |y| - F.p + 1) F.emin with h' | h'
      · exact h'
      · have := emin_le_ulpExp (F := F) x
        unfold ulpExp at hlt this ⊢; omega
    have hpz : (1 : ℤ) ≤ F.p := by exact_mod_cast hp
    have hxl : Int.log 2 |x| < Int.log 2 |y| := by
      have := log_le_ulpExp (F := F) x; omega
    have h1 : fl F x ≤ (2 : ℚ) ^ Int.log 2 |y| := by
      refine fl_le_two_zpow (by omega) ?_
      have := abs_lt_log x
      rw [abs_of_pos hx] at this
      exact this.le.trans (two_zpow_le (by rw [abs_of_pos hx] at hxl; omega))
    have h2 : (2 : ℚ) ^ Int.log 2 |y| ≤ fl F y := by
      refine two_zpow_le_fl (by omega) ?_
      have := log_le_abs hy.ne'
      rwa [abs_of_pos hy] at this ⊢
    exact h1.trans h2
  · unfold fl
    rw [← heq]
    refine mul_le_mul_of_nonneg_right ?_ (ulp_pos x).le
    exact_mod_cast roundEven_mono (div_le_div_of_nonneg_right h (ulp_pos x).le)

theorem fl_mono (hp : 1 ≤ F.p) {x y : ℚ} (h : x ≤ y) : fl F x ≤ fl F y := by
  rcases lt_trichotomy x 0 with hx | hx | hx
  · rcases lt_or_ge y 0 with hy | hy
    · have := fl_mono_pos (F := F) hp (neg_pos.2 hy) (neg_le_neg h)
      rw [fl_neg, fl_neg] at this
      linarith
    · have h1 := fl_nonneg (F := F) (neg_nonneg.2 hx.le)
      rw [fl_neg] at h1
      linarith [fl_nonneg (F := F) hy]
  · rw [hx, fl_zero]; exact fl_nonneg (hx ▸ h)
  · exact fl_mono_pos hp hx h

theorem fl_le_of_le (hp : 1 ≤ F.p) {x y : ℚ} (hy : IsFloat F y) (h : x ≤ y) : fl F x ≤ y := by
  rw [← fl_eq hp hy]; exact fl_mono hp h

theorem le_fl_of_le (hp : 1 ≤ F.p) {x y : ℚ} (hy : IsFloat F y) (h : y ≤ x) : y ≤ fl F x := by
  rw [← fl_eq hp hy]; exact fl_mono hp h

/-- No multiple of the spacing lies closer. -/
theorem fl_nearest_multiple (x : ℚ) (n : ℤ) :
    |fl F x - x| ≤ |n * (2 : ℚ) ^ ulpExp F x - x| := by
  have h := roundEven_nearest (x / (2 : ℚ) ^ ulpExp F x) n
  have hup := ulp_pos (F := F) x
  have hx : x = x / (2 : ℚ) ^ ulpExp F x * (2 : ℚ) ^ ulpExp F x := by field_simp
  have e1 : fl F x - x = ((roundEven (x / (2 : ℚ) ^ ulpExp F x) : ℚ) - x / (2 : ℚ) ^ ulpExp F x)
      * (2 : ℚ) ^ ulpExp F x := by unfold fl; rw [sub_mul, ← hx]
  have e2 : n * (2 : ℚ) ^ ulpExp F x - x = ((n : ℚ) - x / (2 : ℚ) ^ ulpExp F x)
      * (2 : ℚ) ^ ulpExp F x := by rw [sub_mul, ← hx]
  rw [e1, e2, abs_mul, abs_mul]
  exact mul_le_mul_of_nonneg_right h (abs_nonneg _)

/-- A number of the format is a multiple of the spacing at `x`, or lies below the power of two
under `x`. -/
theorem IsFloat.multiple_or_small {x g : ℚ} (hg : IsFloat F g) :
    (∃ n : ℤ, g = n * (2 : ℚ) ^ ulpExp F x) ∨
      (|g| < (2 : ℚ) ^ Int.log 2 |x| ∧ ulpExp F x = Int.log 2 |x| - F.p + 1) := by
  obtain ⟨m, e, he, hm, hgx⟩ := hg
  by_cases hle : ulpExp F x ≤ e
  · left
    obtain ⟨k, hk⟩ := two_zpow_div_int hle
    refine ⟨m * k, ?_⟩
    push_cast
    rw [hgx, ← hk]
    have := ulp_pos (F := F) x
    field_simp
  · right
    have h1 : ulpExp F x = Int.log 2 |x| - F.p + 1 := by
      rcases max_choice (Int.log 2 |x| - F.p + 1) F.emin with h' | h'
      · exact h'
      · unfold ulpExp at hle; omega
    refine ⟨?_, h1⟩
    have h2 : |g| < (2 : ℚ) ^ ((F.p : ℤ) + e) := by
      rw [zpow_add₀ (by norm_num), zpow_natCast, hgx, abs_mul, abs_of_pos (two_zpow_pos e)]
      have : (|(m : ℚ)|) < 2 ^ F.p := by exact_mod_cast hm
      exact mul_lt_mul_of_pos_right this (two_zpow_pos e)
    exact h2.trans_le (two_zpow_le (by omega))

theorem fl_nearest_pos (hp : 1 ≤ F.p) {x : ℚ} (hx : 0 < x) (g : ℚ) (hg : IsFloat F g) :
    |fl F x - x| ≤ |g - x| ∧ ((∃ n : ℤ, g = n * (2 : ℚ) ^ ulpExp F x) ∨ |fl F x - x| < |g - x|) := by
  rcases hg.multiple_or_small (x := x) with ⟨n, hn⟩ | ⟨h1, h2⟩
  · exact ⟨by rw [hn]; exact fl_nearest_multiple x n, Or.inl ⟨n, hn⟩⟩
  · have hpz : (1 : ℤ) ≤ F.p := by exact_mod_cast hp
    obtain ⟨k, hk⟩ := two_zpow_div_int (a := Int.log 2 |x|) (b := ulpExp F x) (by omega)
    have h3 := fl_nearest_multiple (F := F) x k
    have hk' : (k : ℚ) * (2 : ℚ) ^ ulpExp F x = (2 : ℚ) ^ Int.log 2 |x| := by
      rw [← hk]; have := ulp_pos (F := F) x; field_simp
    rw [hk'] at h3
    have h4 := log_le_abs hx.ne'
    have h5 : (2 : ℚ) ^ Int.log 2 |x| ≤ x := by rwa [abs_of_pos hx] at h4 ⊢
    have h6 := (abs_lt.1 h1).2
    have h7 : |(2 : ℚ) ^ Int.log 2 |x| - x| < |g - x| := by
      generalize (2 : ℚ) ^ Int.log 2 |x| = L at h5 h6 ⊢
      rw [abs_of_nonpos (by linarith : L - x ≤ 0), abs_of_neg (by linarith : g - x < 0)]; linarith
    exact ⟨(h3.trans_lt h7).le, Or.inr (h3.trans_lt h7)⟩

/-- No number of the format lies closer. -/
theorem fl_nearest (hp : 1 ≤ F.p) (x g : ℚ) (hg : IsFloat F g) : |fl F x - x| ≤ |g - x| := by
  rcases lt_trichotomy x 0 with hx | hx | hx
  · have := (fl_nearest_pos hp (neg_pos.2 hx) (-g) hg.neg).1
    rwa [fl_neg, neg_sub_neg, neg_sub_neg, abs_sub_comm, abs_sub_comm x g] at this
  · rw [hx, fl_zero]; simp
  · exact (fl_nearest_pos hp hx g hg).1

theorem IsEvenFloat.neg {x : ℚ} (h : IsEvenFloat F x) : IsEvenFloat F (-x) := by
  obtain ⟨m, e, he, hm, hx⟩ := h
  exact ⟨-m, e, he, by rwa [mul_neg, abs_neg], by rw [hx]; push_cast; ring⟩

theorem fl_tie_pos (hp : 2 ≤ F.p) {x : ℚ} (hx : 0 < x) (g : ℚ) (hg : IsFloat F g)
    (h : |g - x| = |fl F x - x|) (hne : g ≠ fl F x) : IsEvenFloat F (fl F x) := by
  rcases (fl_nearest_pos (by omega) hx g hg).2 with ⟨n, hn⟩ | hlt
  · have hup := ulp_pos (F := F) x
    have hd : (2 : ℤ) ∣ roundEven (x / (2 : ℚ) ^ ulpExp F x) := by
      refine roundEven_tie (n := n) ?_ ?_
      · intro hc; apply hne; rw [hn, hc]; rfl
      · have hxx : x = x / (2 : ℚ) ^ ulpExp F x * (2 : ℚ) ^ ulpExp F x := by field_simp
        have e1 : fl F x - x =
            ((roundEven (x / (2 : ℚ) ^ ulpExp F x) : ℚ) - x / (2 : ℚ) ^ ulpExp F x)
            * (2 : ℚ) ^ ulpExp F x := by unfold fl; rw [sub_mul, ← hxx]
        have e2 : n * (2 : ℚ) ^ ulpExp F x - x = ((n : ℚ) - x / (2 : ℚ) ^ ulpExp F x)
            * (2 : ℚ) ^ ulpExp F x := by rw [sub_mul, ← hxx]
        rw [hn, e1, e2, abs_mul, abs_mul] at h
        exact mul_right_cancel₀ (abs_pos.2 hup.ne').ne' h
    obtain ⟨k, hk⟩ := hd
    have hb : |roundEven (x / (2 : ℚ) ^ ulpExp F x)| ≤ 2 ^ F.p := by
      have := abs_div_ulp_lt (F := F) x
      exact abs_roundEven_le (n := 2 ^ F.p) (by push_cast; exact this.le)
    rcases hb.lt_or_eq with hb | hb
    · exact ⟨k, ulpExp F x, emin_le_ulpExp x, by rwa [hk] at hb, by unfold fl; rw [hk]⟩
    · obtain ⟨q, hq⟩ : ∃ q, F.p = q + 2 := ⟨F.p - 2, by omega⟩
      have hpos : (0 : ℤ) ≤ roundEven (x / (2 : ℚ) ^ ulpExp F x) := by
        have := roundEven_mono (div_nonneg hx.le hup.le)
        have h0 : roundEven 0 = 0 := by simpa using roundEven_int 0
        rwa [h0] at this
      rw [abs_of_nonneg hpos] at hb
      refine ⟨2 ^ q, ulpExp F x + 1, (emin_le_ulpExp x).trans (by omega), ?_, ?_⟩
      · rw [abs_of_nonneg (by positivity), hq, pow_add]
        have : (0 : ℤ) < 2 ^ q := by positivity
        omega
      · unfold fl
        rw [hb, hq, zpow_add_one₀ (by norm_num)]; push_cast; ring
  · exact absurd h (ne_of_gt hlt)

/-- The rounding of the model is the one of the standard. -/
theorem fl_roundsTo (hp : 2 ≤ F.p) (x : ℚ) : RoundsTo F x (fl F x) := by
  refine ⟨isFloat_fl (by omega) x, fl_nearest (by omega) x, ?_⟩
  intro g hg h hne
  rcases lt_trichotomy x 0 with hx | hx | hx
  · have := fl_tie_pos (F := F) hp (neg_pos.2 hx) (-g) hg.neg
      (by rw [fl_neg, neg_sub_neg, neg_sub_neg, abs_sub_comm x g, h, abs_sub_comm])
      (by rw [fl_neg]; exact fun hc => hne (neg_injective hc))
    rw [fl_neg] at this
    simpa using this.neg
  · rw [hx, fl_zero]
    exact ⟨0, F.emin, le_rfl, by simp, by simp⟩
  · exact fl_tie_pos hp hx g hg h hne

/-- The standard leaves no choice. -/
theorem RoundsTo.unique_pos (hp : 2 ≤ F.p) {x y : ℚ} (hx : 0 < x) (h : RoundsTo F x y) :
    y = fl F x := by
  by_contra hne
  have hn := fl_nearest_pos (F := F) (by omega) hx y h.isFloat
  have hfl : IsFloat F (fl F x) := isFloat_fl (by omega) x
  have heq : |y - x| = |fl F x - x| := le_antisymm (h.nearest _ hfl) hn.1
  have hup := ulp_pos (F := F) x
  rcases hn.2 with ⟨n, hn'⟩ | hlt
  swap
  · exact absurd heq (ne_of_gt hlt)
  obtain ⟨m, e, he, hm, hy⟩ := h.even _ hfl heq.symm (Ne.symm hne)
  have hye : IsFloat F ((2 * m : ℤ) * (2 : ℚ) ^ e) := ⟨2 * m, e, he, hm, rfl⟩
  have hnr : n ≠ roundEven (x / (2 : ℚ) ^ ulpExp F x) := by
    intro hc; apply hne; rw [hn', hc]; rfl
  have hxx : x = x / (2 : ℚ) ^ ulpExp F x * (2 : ℚ) ^ ulpExp F x := by field_simp
  have e1 : fl F x - x = ((roundEven (x / (2 : ℚ) ^ ulpExp F x) : ℚ) - x / (2 : ℚ) ^ ulpExp F x)
      * (2 : ℚ) ^ ulpExp F x := by unfold fl; rw [sub_mul, ← hxx]
  have e2 : n * (2 : ℚ) ^ ulpExp F x - x = ((n : ℚ) - x / (2 : ℚ) ^ ulpExp F x)
      * (2 : ℚ) ^ ulpExp F x := by rw [sub_mul, ← hxx]
  rw [hn', e1, e2, abs_mul, abs_mul] at heq
  have heq' := mul_right_cancel₀ (abs_pos.2 hup.ne').ne' heq
  have hd := roundEven_tie hnr heq'
  have herr := roundEven_err (x / (2 : ℚ) ^ ulpExp F x)
  -- the two are neighbours
  have hnb : |(n : ℚ) - roundEven (x / (2 : ℚ) ^ ulpExp F x)| ≤ 1 := by
    have := abs_sub_le (n : ℚ) (x / (2 : ℚ) ^ ulpExp F x) (roundEven (x / (2 : ℚ) ^ ulpExp F x))
    rw [abs_sub_comm (x / _) _] at this
    linarith
  have hnb' : |n - roundEven (x / (2 : ℚ) ^ ulpExp F x)| ≤ 1 := by exact_mod_cast hnb
  rw [abs_le] at hnb'
  have hodd : ¬ (2 : ℤ) ∣ n := by omega
  by_cases hle : ulpExp F x ≤ e
  · obtain ⟨k, hk⟩ := two_zpow_div_int hle
    apply hodd
    refine ⟨m * k, ?_⟩
    have : (n : ℚ) = ((2 * (m * k) : ℤ) : ℚ) := by
      have h3 : (n : ℚ) * (2 : ℚ) ^ ulpExp F x = (2 * m : ℤ) * (2 : ℚ) ^ e := by rw [← hn', hy]
      have h4 : (n : ℚ) = (2 * m : ℤ) * ((2 : ℚ) ^ e / (2 : ℚ) ^ ulpExp F x) := by
        rw [← mul_div_assoc, ← h3]; field_simp
      rw [h4, hk]; push_cast; ring
    exact_mod_cast this
  · -- then `y` lies under the power of two below `x`, and that is closer
    have h1 : ulpExp F x = Int.log 2 |x| - F.p + 1 := by
      rcases max_choice (Int.log 2 |x| - F.p + 1) F.emin with h' | h'
      · exact h'
      · unfold ulpExp at hle; omega
    have h2 : |y| < (2 : ℚ) ^ Int.log 2 |x| := by
      have h2 : |y| < (2 : ℚ) ^ ((F.p : ℤ) + e) := by
        rw [zpow_add₀ (by norm_num), zpow_natCast, hy, abs_mul, abs_of_pos (two_zpow_pos e)]
        have : (|((2 * m : ℤ) : ℚ)|) < 2 ^ F.p := by exact_mod_cast hm
        exact mul_lt_mul_of_pos_right this (two_zpow_pos e)
      exact h2.trans_le (two_zpow_le (by omega))
    have hL : IsFloat F ((2 : ℚ) ^ Int.log 2 |x|) := by
      refine ⟨1, Int.log 2 |x|, ?_, ?_, by simp⟩
      · have := emin_le_ulpExp (F := F) x
        have hpz : (2 : ℤ) ≤ F.p := by exact_mod_cast hp
        omega
      · rw [abs_one]; exact one_lt_pow₀ (by norm_num) (by omega)
    have h3 := h.nearest _ hL
    have h4 := log_le_abs hx.ne'
    have h5 : (2 : ℚ) ^ Int.log 2 |x| ≤ x := by rwa [abs_of_pos hx] at h4 ⊢
    have h6 := (abs_lt.1 h2).2
    generalize (2 : ℚ) ^ Int.log 2 |x| = L at h3 h5 h6
    rw [abs_of_nonpos (by linarith : L - x ≤ 0), abs_of_neg (by linarith : y - x < 0)] at h3
    linarith

theorem RoundsTo.neg {x y : ℚ} (h : RoundsTo F x y) : RoundsTo F (-x) (-y) := by
  refine ⟨h.isFloat.neg, fun g hg => ?_, fun g hg h1 h2 => ?_⟩
  · have := h.nearest (-g) hg.neg
    rw [neg_sub_neg, abs_sub_comm x y]
    refine this.trans (le_of_eq ?_)
    rw [← abs_neg (-g - x)]; congr 1; ring
  · refine (h.even (-g) hg.neg ?_ (fun hc => h2 (by rw [← hc, neg_neg]))).neg
    rw [neg_sub_neg, abs_sub_comm x y] at h1
    rw [← h1, ← abs_neg (-g - x)]; congr 1; ring

theorem RoundsTo.unique (hp : 2 ≤ F.p) {x y : ℚ} (h : RoundsTo F x y) : y = fl F x := by
  rcases lt_trichotomy x 0 with hx | hx | hx
  · have := h.neg.unique_pos hp (neg_pos.2 hx)
    rw [fl_neg] at this
    exact neg_injective this
  · have := h.nearest 0 isFloat_zero
    rw [hx, fl_zero] at *
    simpa using this
  · exact h.unique_pos hp hx

/-! ## Size of the rounding error -/

/-- Relative error, when the result is not below the smallest normal number. -/
theorem fl_err_normal {x : ℚ} (hx : (2 : ℚ) ^ (F.emin + F.p - 1) ≤ |x|) :
    |fl F x - x| ≤ |x| * (2 : ℚ) ^ (-(F.p : ℤ)) := by
  have hx0 : x ≠ 0 := by
    rintro rfl; rw [abs_zero] at hx; exact absurd hx (not_le.2 (two_zpow_pos _))
  have h1 : F.emin + F.p - 1 ≤ Int.log 2 |x| := by
    have := hx.trans_lt (abs_lt_log x)
    have := two_zpow_lt_iff.1 this
    omega
  have hu : ulpExp F x = Int.log 2 |x| - F.p + 1 := max_eq_left (by omega)
  refine (fl_err_ulp x).trans ?_
  rw [hu]
  have h2 := log_le_abs hx0
  have e : (2 : ℚ) ^ (Int.log 2 |x| - F.p + 1) / 2
      = (2 : ℚ) ^ Int.log 2 |x| * (2 : ℚ) ^ (-(F.p : ℤ)) := by
    rw [zpow_add_one₀ (by norm_num), sub_eq_add_neg, zpow_add₀ (by norm_num)]; ring
  rw [e]
  exact mul_le_mul_of_nonneg_right h2 (two_zpow_pos _).le

/-- Absolute error below it. -/
theorem fl_err_small {x : ℚ} (hx : |x| < (2 : ℚ) ^ (F.emin + F.p)) :
    |fl F x - x| ≤ (2 : ℚ) ^ (F.emin - 1) := by
  by_cases hx0 : x = 0
  · rw [hx0, fl_zero, sub_zero, abs_zero]; exact (two_zpow_pos _).le
  have h1 : Int.log 2 |x| < F.emin + F.p := two_zpow_lt_iff.1 ((log_le_abs hx0).trans_lt hx)
  have hu : ulpExp F x = F.emin := max_eq_right (by omega)
  refine (fl_err_ulp x).trans ?_
  rw [hu, zpow_sub_one₀ (by norm_num), div_eq_mul_inv]

/-- A multiple of the smallest number that is small enough is in the format. -/
theorem isFloat_of_multiple (hp : 1 ≤ F.p) {x : ℚ} {m e : ℤ} (he : F.emin ≤ e)
    (hx : x = m * (2 : ℚ) ^ e) (h : |x| ≤ (2 : ℚ) ^ (e + F.p)) : IsFloat F x := by
  refine isFloat_of_le hp he ?_ hx
  rw [hx, abs_mul, abs_of_pos (two_zpow_pos e), zpow_add₀ (by norm_num), mul_comm,
    mul_le_mul_iff_right₀ (two_zpow_pos e), zpow_natCast] at h
  exact_mod_cast h

/-- Two numbers of the format share a spacing. -/
theorem IsFloat.common {x y : ℚ} (hx : IsFloat F x) (hy : IsFloat F y) :
    ∃ m n e : ℤ, F.emin ≤ e ∧ x = m * (2 : ℚ) ^ e ∧ y = n * (2 : ℚ) ^ e ∧
      (|m| < 2 ^ F.p ∨ |n| < 2 ^ F.p) := by
  obtain ⟨m, e, he, hm, hx⟩ := hx
  obtain ⟨n, f, hf, hn, hy⟩ := hy
  rcases le_total e f with h | h
  · obtain ⟨k, hk⟩ := two_zpow_div_int h
    refine ⟨m, n * k, e, he, hx, ?_, Or.inl hm⟩
    rw [hy]; push_cast; rw [← hk]; have := two_zpow_pos e; field_simp
  · obtain ⟨k, hk⟩ := two_zpow_div_int h
    refine ⟨m * k, n, f, hf, ?_, hy, Or.inr hn⟩
    rw [hx]; push_cast; rw [← hk]; have := two_zpow_pos f; field_simp

/-- Sums and differences have a relative error only: below the normal numbers they are exact. -/
theorem fl_add_err (hp : 1 ≤ F.p) {x y : ℚ} (hx : IsFloat F x) (hy : IsFloat F y) :
    |fl F (x + y) - (x + y)| ≤ |x + y| * (2 : ℚ) ^ (-(F.p : ℤ)) := by
  rcases le_or_gt ((2 : ℚ) ^ (F.emin + F.p - 1)) |x + y| with h | h
  · exact fl_err_normal h
  · obtain ⟨m, n, e, he, hm, hn, -⟩ := hx.common hy
    obtain ⟨k, hk⟩ := two_zpow_div_int he
    have hf : IsFloat F (x + y) := by
      refine isFloat_of_multiple hp (m := (m + n) * k) (e := F.emin) le_rfl ?_ ?_
      · rw [hm, hn]; push_cast; rw [← hk]; have := two_zpow_pos F.emin; field_simp
      · exact h.le.trans (two_zpow_le (by omega))
    rw [fl_eq hp hf, sub_self, abs_zero]
    exact mul_nonneg (abs_nonneg _) (two_zpow_pos _).le

theorem fl_sub_err (hp : 1 ≤ F.p) {x y : ℚ} (hx : IsFloat F x) (hy : IsFloat F y) :
    |fl F (x - y) - (x - y)| ≤ |x - y| * (2 : ℚ) ^ (-(F.p : ℤ)) := by
  have := fl_add_err hp hx hy.neg
  rwa [← sub_eq_add_neg] at this

/-- Sterbenz: the difference of two numbers within a factor of two of each other is exact. -/
theorem sterbenz (hp : 1 ≤ F.p) {x y : ℚ} (hx : IsFloat F x) (hy : IsFloat F y)
    (h1 : y ≤ 2 * x) (h2 : x ≤ 2 * y) : IsFloat F (x - y) := by
  obtain ⟨m, n, e, he, hm, hn, hs⟩ := hx.common hy
  have hpe := two_zpow_pos e
  have hx0 : 0 ≤ x := by linarith
  have hy0 : 0 ≤ y := by linarith
  have hd : x - y = (m - n : ℤ) * (2 : ℚ) ^ e := by rw [hm, hn]; push_cast; ring
  refine isFloat_of_le hp he ?_ hd
  have a1 : (n : ℚ) ≤ 2 * m := by rw [hm, hn] at h1; nlinarith
  have a2 : (m : ℚ) ≤ 2 * n := by rw [hm, hn] at h2; nlinarith
  have b1 : n ≤ 2 * m := by exact_mod_cast a1
  have b2 : m ≤ 2 * n := by exact_mod_cast a2
  rw [abs_le]
  rcases hs with h | h <;> rw [abs_lt] at h <;> constructor <;> omega

end SALib
