import Verif.Model.SampleFile
import Verif.Spec.SampleFile
import Verif.Lemmas.Float
import Mathlib.Tactic.Linarith
import Mathlib.Tactic.FieldSimp
import Mathlib.Tactic.Ring
import Mathlib.Tactic.NormNum
import Mathlib.Tactic.Positivity
import Mathlib.Tactic.IntervalCases

/-!
# Lemmas about numbers written as text
-/

namespace SALib

open Spec

/-! ## Digits -/

theorem digitChar_cases (n : Nat) (h : n < 10) :
    (Nat.digitChar n).isDigit = true ∧ (Nat.digitChar n).toNat - 48 = n := by
  interval_cases n <;> decide

theorem fixedDigits_length (w n : Nat) : (fixedDigits w n).length = w := by
  induction w generalizing n with
  | zero => rfl
  | succ w ih => simp [fixedDigits, ih]

theorem fixedDigits_digit (w n : Nat) : ∀ c ∈ fixedDigits w n, c.isDigit = true := by
  induction w generalizing n with
  | zero => simp [fixedDigits]
  | succ w ih =>
    intro c hc
    simp only [fixedDigits, List.mem_append, List.mem_singleton] at hc
    rcases hc with hc | hc
    · exact ih _ c hc
    · rw [hc]; exact (digitChar_cases _ (Nat.mod_lt _ (by norm_num))).1

theorem readDigits_fixedDigits (w n : Nat) : readDigits (fixedDigits w n) = n % 10 ^ w := by
  induction w generalizing n with
  | zero => simp [fixedDigits, readDigits, Nat.mod_one]
  | succ w ih =>
    have h := ih (n / 10)
    unfold readDigits at h ⊢
    rw [fixedDigits, List.foldl_append, h]
    simp only [List.foldl_cons, List.foldl_nil]
    rw [(digitChar_cases _ (Nat.mod_lt _ (by norm_num))).2]
    rw [pow_succ', Nat.mod_mul]
    ring

theorem allDigits_of {cs : List Char} (h0 : cs ≠ []) (h : ∀ c ∈ cs, c.isDigit = true) :
    allDigits cs = true := by
  unfold allDigits
  simp only [Bool.and_eq_true, Bool.not_eq_true', List.isEmpty_eq_false_iff, List.all_eq_true]
  exact ⟨h0, h⟩

/-! ## Decimal rounding -/

theorem ten_zpow_pos (k : ℤ) : (0 : ℚ) < (10 : ℚ) ^ k := by positivity

theorem ten_zpow_div_int {a b : ℤ} (h : b ≤ a) : ∃ k : ℤ, (10 : ℚ) ^ a = k * (10 : ℚ) ^ b := by
  refine ⟨10 ^ (a - b).toNat, ?_⟩
  have : ((10 : ℤ) ^ (a - b).toNat : ℤ) = ((10 : ℤ) ^ (a - b).toNat) := rfl
  push_cast
  rw [← zpow_natCast, ← zpow_add₀ (by norm_num)]
  congr 1; omega

/-- The value of the printed digits. -/
def decMag (p : ℕ) (x : ℚ) : ℚ := (sciParts p x).1 * (10 : ℚ) ^ ((sciParts p x).2 - p)

/-- The printed value. -/
def decRound (p : ℕ) (x : ℚ) : ℚ := (if x < 0 then -1 else 1) * decMag p x

theorem roundEven_nonneg {x : ℚ} (h : 0 ≤ x) : 0 ≤ roundEven x := by
  have := roundEven_mono h
  have h0 : roundEven 0 = 0 := by simpa using roundEven_int 0
  rwa [h0] at this

theorem decMag_eq (p : ℕ) (x : ℚ) :
    decMag p x = roundEven (|x| / (10 : ℚ) ^ (Int.log 10 |x| - p)) *
      (10 : ℚ) ^ (Int.log 10 |x| - p) := by
  have hn : 0 ≤ roundEven (|x| / (10 : ℚ) ^ (Int.log 10 |x| - p)) :=
    roundEven_nonneg (by positivity)
  unfold decMag sciParts
  by_cases h : (roundEven (|x| / (10 : ℚ) ^ (Int.log 10 |x| - p))).toNat = 10 ^ (p + 1)
  · simp only [h, if_true]
    have h' : roundEven (|x| / (10 : ℚ) ^ (Int.log 10 |x| - p)) = 10 ^ (p + 1) := by
      rw [← Int.toNat_of_nonneg hn, h]; push_cast; rfl
    rw [h']
    push_cast
    rw [show Int.log 10 |x| + 1 - (p : ℤ) = (Int.log 10 |x| - p) + 1 by ring,
      zpow_add_one₀ (by norm_num), pow_succ]
    ring
  · simp only [h, if_false]
    congr 1
    exact_mod_cast Int.toNat_of_nonneg hn

theorem sciParts_lt (p : ℕ) (x : ℚ) : (sciParts p x).1 < 10 ^ (p + 1) := by
  have hx : |x| / (10 : ℚ) ^ (Int.log 10 |x| - p) ≤ ((10 ^ (p + 1) : ℤ) : ℚ) := by
    rw [div_le_iff₀ (ten_zpow_pos _)]
    have := (Int.lt_zpow_succ_log_self (b := 10) (by norm_num) |x|).le
    refine this.trans (le_of_eq ?_)
    push_cast
    rw [← zpow_natCast, ← zpow_add₀ (by norm_num)]
    congr 1; push_cast; ring
  have h1 := roundEven_mono hx
  rw [roundEven_int] at h1
  unfold sciParts
  by_cases h : (roundEven (|x| / (10 : ℚ) ^ (Int.log 10 |x| - p))).toNat = 10 ^ (p + 1)
  · simp only [h, if_true]
    exact Nat.pow_lt_pow_right (by norm_num) (by omega)
  · simp only [h, if_false]
    refine lt_of_le_of_ne ?_ h
    rw [Int.toNat_le]; push_cast; exact h1

theorem isDecimal_decRound (p : ℕ) (x : ℚ) : IsDecimal p (decRound p x) := by
  refine ⟨(if x < 0 then -1 else 1) * (sciParts p x).1, (sciParts p x).2 - p, ?_, ?_⟩
  · have := sciParts_lt p x
    have h : |((sciParts p x).1 : ℤ)| < 10 ^ (p + 1) := by
      rw [abs_of_nonneg (by positivity)]; exact_mod_cast this
    split <;> simpa using h
  · unfold decRound decMag
    split <;> push_cast <;> ring

theorem decRound_neg {p : ℕ} {x : ℚ} (hx : 0 < x) : decRound p (-x) = -decRound p x := by
  unfold decRound
  rw [decMag_eq, decMag_eq, abs_neg, if_pos (by linarith), if_neg (by linarith)]
  ring

theorem isDecimal_neg {p : ℕ} {y : ℚ} (h : IsDecimal p y) : IsDecimal p (-y) := by
  obtain ⟨m, k, hm, hy⟩ := h
  exact ⟨-m, k, by rwa [abs_neg], by rw [hy]; push_cast; ring⟩

theorem decRound_nearest_multiple {p : ℕ} {x : ℚ} (hx : 0 < x) (n : ℤ) :
    |decRound p x - x| ≤ |n * (10 : ℚ) ^ (Int.log 10 |x| - p) - x| := by
  have hs := ten_zpow_pos (Int.log 10 |x| - p)
  have h := roundEven_nearest (|x| / (10 : ℚ) ^ (Int.log 10 |x| - p)) n
  have hd : decRound p x = roundEven (|x| / (10 : ℚ) ^ (Int.log 10 |x| - p)) *
      (10 : ℚ) ^ (Int.log 10 |x| - p) := by
    unfold decRound; rw [if_neg (by linarith), one_mul, decMag_eq]
  rw [hd]
  generalize (10 : ℚ) ^ (Int.log 10 |x| - p) = s at *
  rw [abs_of_pos hx] at h ⊢
  have e1 : (roundEven (x / s) : ℚ) * s - x = ((roundEven (x / s) : ℚ) - x / s) * s := by
    field_simp
  have e2 : (n : ℚ) * s - x = ((n : ℚ) - x / s) * s := by field_simp
  rw [e1, e2, abs_mul, abs_mul]
  exact mul_le_mul_of_nonneg_right h (abs_nonneg _)

theorem decRound_nearest_pos {p : ℕ} {x : ℚ} (hx : 0 < x) (g : ℚ) (hg : IsDecimal p g) :
    |decRound p x - x| ≤ |g - x| := by
  obtain ⟨m, k, hm, hgx⟩ := hg
  by_cases hk : Int.log 10 |x| - p ≤ k
  · obtain ⟨j, hj⟩ := ten_zpow_div_int hk
    have := decRound_nearest_multiple (p := p) hx (m * j)
    rw [hgx, hj]
    push_cast at this
    rwa [mul_assoc] at this
  · obtain ⟨j, hj⟩ := ten_zpow_div_int (a := Int.log 10 |x|) (b := Int.log 10 |x| - p) (by omega)
    have h3 := decRound_nearest_multiple (p := p) hx j
    rw [← hj] at h3
    have h5 : (10 : ℚ) ^ Int.log 10 |x| ≤ x := by
      have := Int.zpow_log_le_self (b := 10) (by norm_num) (abs_pos.2 hx.ne')
      push_cast at this
      exact this.trans_eq (abs_of_pos hx)
    have h6 : g ≤ (10 : ℚ) ^ Int.log 10 |x| := by
      have hm' : (m : ℚ) ≤ 10 ^ (p + 1) := by exact_mod_cast (abs_lt.1 hm).2.le
      rw [hgx]
      refine (mul_le_mul_of_nonneg_right hm' (ten_zpow_pos k).le).trans ?_
      rw [← zpow_natCast, ← zpow_add₀ (by norm_num)]
      exact zpow_le_zpow_right₀ (by norm_num) (by push_cast; omega)
    refine h3.trans ?_
    generalize (10 : ℚ) ^ Int.log 10 |x| = L at h5 h6 ⊢
    rw [abs_of_nonpos (by linarith : L - x ≤ 0), abs_of_nonpos (by linarith : g - x ≤ 0)]
    linarith

theorem decRound_zero (p : ℕ) : decRound p 0 = 0 := by
  have h0 : roundEven 0 = 0 := by simpa using roundEven_int 0
  unfold decRound; rw [decMag_eq]; simp [h0]

theorem decRound_nearest (p : ℕ) (x : ℚ) : NearestDecimal p x (decRound p x) := by
  refine ⟨isDecimal_decRound p x, fun g hg => ?_⟩
  rcases lt_trichotomy x 0 with hx | hx | hx
  · have := decRound_nearest_pos (p := p) (neg_pos.2 hx) (-g) (isDecimal_neg hg)
    have e := decRound_neg (p := p) (neg_pos.2 hx)
    rw [neg_neg] at e
    rw [e]
    rw [abs_sub_comm] at this
    rw [show -decRound p (-x) - x = -x - decRound p (-x) by ring]
    refine this.trans (le_of_eq ?_)
    rw [show -g - -x = -(g - x) by ring, abs_neg]
  · rw [hx, decRound_zero]; simp
  · exact decRound_nearest_pos hx g hg

theorem decRound_mono (p : ℕ) : Monotone (decRound p) := by
  intro x y h
  by_contra hc
  push Not at hc
  have h1 := (decRound_nearest p x).2 _ (isDecimal_decRound p y)
  have h2 := (decRound_nearest p y).2 _ (isDecimal_decRound p x)
  rcases h.lt_or_eq with hlt | heq
  · generalize decRound p x = a at *
    generalize decRound p y = b at *
    rcases abs_cases (a - x) with ⟨e1, _⟩ | ⟨e1, _⟩ <;>
    rcases abs_cases (b - x) with ⟨e2, _⟩ | ⟨e2, _⟩ <;>
    rcases abs_cases (a - y) with ⟨e3, _⟩ | ⟨e3, _⟩ <;>
    rcases abs_cases (b - y) with ⟨e4, _⟩ | ⟨e4, _⟩ <;>
    rw [e1, e2] at h1 <;> rw [e3, e4] at h2 <;> linarith
  · rw [heq] at hc; exact lt_irrefl _ hc

/-- Relative error of any nearest decimal. -/
theorem NearestDecimal.err {p : ℕ} {x d : ℚ} (h : NearestDecimal p x d) :
    |d - x| ≤ 1 / 2 * (10 : ℚ) ^ (-(p : ℤ)) * |x| := by
  refine (h.2 _ (isDecimal_decRound p x)).trans ?_
  have key : ∀ x : ℚ, 0 < x → |decRound p x - x| ≤ 1 / 2 * (10 : ℚ) ^ (-(p : ℤ)) * |x| := by
    intro x hx
    have hs := ten_zpow_pos (Int.log 10 |x| - p)
    have hd : decRound p x = roundEven (|x| / (10 : ℚ) ^ (Int.log 10 |x| - p)) *
        (10 : ℚ) ^ (Int.log 10 |x| - p) := by
      unfold decRound; rw [if_neg (by linarith), one_mul, decMag_eq]
    have he := roundEven_err (|x| / (10 : ℚ) ^ (Int.log 10 |x| - p))
    have h5 := Int.zpow_log_le_self (b := 10) (by norm_num) (abs_pos.2 hx.ne')
    push_cast at h5
    have h6 : (10 : ℚ) ^ (Int.log 10 |x| - p) ≤ (10 : ℚ) ^ (-(p : ℤ)) * |x| := by
      rw [show Int.log 10 |x| - (p : ℤ) = -(p : ℤ) + Int.log 10 |x| by ring,
        zpow_add₀ (by norm_num)]
      exact mul_le_mul_of_nonneg_left h5 (ten_zpow_pos _).le
    rw [hd]
    generalize (10 : ℚ) ^ (Int.log 10 |x| - p) = s at *
    rw [abs_of_pos hx] at he h6 ⊢
    have e1 : (roundEven (x / s) : ℚ) * s - x = ((roundEven (x / s) : ℚ) - x / s) * s := by
      field_simp
    rw [e1, abs_mul, abs_of_pos hs]
    nlinarith
  rcases lt_trichotomy x 0 with hx | hx | hx
  · have := key (-x) (neg_pos.2 hx)
    have e := decRound_neg (p := p) (neg_pos.2 hx)
    rw [neg_neg] at e
    rw [e, show -decRound p (-x) - x = -(decRound p (-x) - -x) by ring, abs_neg]
    rwa [abs_neg] at this
  · rw [hx, decRound_zero]; simp
  · exact key x hx

/-- Two different numbers of a format lie at least `2 ^ (-p)` of either apart. -/
theorem IsFloat.separated {F : Fmt} {x z : ℚ} (hx : IsFloat F x) (hz : IsFloat F z) (h : x ≠ z) :
    (2 : ℚ) ^ (-(F.p : ℤ)) * |x| ≤ |z - x| := by
  obtain ⟨m, e, -, hm, hxe⟩ := hx
  obtain ⟨m', e', -, hm', hze⟩ := hz
  have hP : (0 : ℚ) < 2 ^ F.p := by positivity
  have hinv : (2 : ℚ) ^ (-(F.p : ℤ)) * 2 ^ F.p = 1 := by
    rw [zpow_neg, zpow_natCast]; field_simp
  have hmq : |(m : ℚ)| < 2 ^ F.p := by exact_mod_cast hm
  -- a common exponent keeps the numbers apart
  have apart : ∀ u : ℤ, u ≤ e → u ≤ e' → (2 : ℚ) ^ u ≤ |z - x| := by
    intro u h1 h2
    obtain ⟨k1, hk1⟩ := two_zpow_div_int h1
    obtain ⟨k2, hk2⟩ := two_zpow_div_int h2
    have hu := two_zpow_pos u
    have hd : z - x = ((m' * k2 - m * k1 : ℤ) : ℚ) * (2 : ℚ) ^ u := by
      push_cast; rw [hxe, hze, ← hk1, ← hk2]; field_simp
    have hne : m' * k2 - m * k1 ≠ 0 := by
      intro hc; rw [hc] at hd; apply h; simp at hd; linarith
    rw [hd, abs_mul, abs_of_pos hu]
    have : (1 : ℚ) ≤ |((m' * k2 - m * k1 : ℤ) : ℚ)| := by exact_mod_cast Int.one_le_abs hne
    nlinarith
  rcases le_total e e' with hle | hle
  · refine le_trans ?_ (apart e le_rfl hle)
    have hu := two_zpow_pos e
    rw [hxe, abs_mul, abs_of_pos hu]
    calc (2 : ℚ) ^ (-(F.p : ℤ)) * (|(m : ℚ)| * 2 ^ e)
        ≤ (2 : ℚ) ^ (-(F.p : ℤ)) * (2 ^ F.p * 2 ^ e) := by gcongr
      _ = 2 ^ e := by rw [← mul_assoc, hinv, one_mul]
  · have hu := two_zpow_pos e'
    by_cases hc : |x| ≤ 2 ^ F.p * 2 ^ e'
    · refine le_trans ?_ (apart e' hle le_rfl)
      calc (2 : ℚ) ^ (-(F.p : ℤ)) * |x| ≤ (2 : ℚ) ^ (-(F.p : ℤ)) * (2 ^ F.p * 2 ^ e') := by gcongr
        _ = 2 ^ e' := by rw [← mul_assoc, hinv, one_mul]
    · push Not at hc
      have hmz : |(m' : ℚ)| ≤ 2 ^ F.p - 1 := by
        have : |m'| ≤ 2 ^ F.p - 1 := by omega
        exact_mod_cast this
      have hzb : |z| ≤ (2 ^ F.p - 1) * 2 ^ e' := by
        rw [hze, abs_mul, abs_of_pos hu]; exact mul_le_mul_of_nonneg_right hmz hu.le
      have h3 : |x| - |z| ≤ |z - x| := by rw [abs_sub_comm]; exact abs_sub_abs_le_abs_sub x z
      refine le_trans ?_ h3
      have ht : (0 : ℚ) < (2 : ℚ) ^ (-(F.p : ℤ)) := two_zpow_pos _
      have h4 : (2 : ℚ) ^ e' ≤ (2 : ℚ) ^ (-(F.p : ℤ)) * |x| := by
        calc (2 : ℚ) ^ e' = (2 : ℚ) ^ (-(F.p : ℤ)) * (2 ^ F.p * 2 ^ e') := by
              rw [← mul_assoc, hinv, one_mul]
          _ ≤ _ := mul_le_mul_of_nonneg_left hc.le ht.le
      have h1P : (0 : ℚ) ≤ 2 ^ F.p - 1 := by
        have : (1 : ℚ) ≤ 2 ^ F.p := one_le_pow₀ (by norm_num)
        linarith
      have h5 : (2 ^ F.p - 1) * (2 : ℚ) ^ e' ≤ (2 ^ F.p - 1) * ((2 : ℚ) ^ (-(F.p : ℤ)) * |x|) :=
        mul_le_mul_of_nonneg_left h4 h1P
      have h6 : (2 ^ F.p - 1) * ((2 : ℚ) ^ (-(F.p : ℤ)) * |x|)
          = |x| - (2 : ℚ) ^ (-(F.p : ℤ)) * |x| := by
        have : (2 ^ F.p - 1) * ((2 : ℚ) ^ (-(F.p : ℤ)) * |x|)
            = ((2 : ℚ) ^ (-(F.p : ℤ)) * 2 ^ F.p) * |x| - (2 : ℚ) ^ (-(F.p : ℤ)) * |x| := by ring
        rw [this, hinv, one_mul]
      linarith

end SALib
