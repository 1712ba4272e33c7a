import Verif.Model.FloatLevels
import Verif.Lemmas.Float
import Mathlib.Tactic.Linarith
import Mathlib.Tactic.Positivity
import Mathlib.Tactic.FieldSimp
import Mathlib.Tactic.NormNum

/-! # The rounded levels `0, 1/S, 2/S, …` -/

namespace SALib

variable {F : Fmt}

/-- Room for the reciprocals of small counts: precision at least 5 bits, normal numbers down to `2 ^ (-p)`, counts up to
`2 ^ (p - 4)`. -/
structure SmallCount (F : Fmt) (S : Nat) : Prop where
  prec : 5 ≤ F.p
  range : F.emin + 2 * F.p ≤ 1
  pos : 1 ≤ S
  le : S * 16 ≤ 2 ^ F.p

/-- Half of the spacing above 1. -/
def halfUlp (F : Fmt) : ℚ := (2 : ℚ) ^ (-(F.p : ℤ))

theorem halfUlp_pos : 0 < halfUlp F := two_zpow_pos _

theorem SmallCount.mul_le {S : Nat} (h : SmallCount F S) : (S : ℚ) * halfUlp F ≤ 1 / 16 := by
  unfold halfUlp
  rw [zpow_neg, zpow_natCast, ← div_eq_mul_inv, div_le_iff₀ (by positivity)]
  have : ((S * 16 : ℕ) : ℚ) ≤ ((2 ^ F.p : ℕ) : ℚ) := by exact_mod_cast h.le
  push_cast at this
  linarith

theorem SmallCount.halfUlp_le {S : Nat} (h : SmallCount F S) : halfUlp F ≤ 1 / 32 := by
  have h5 := h.prec
  unfold halfUlp
  rw [show (1 : ℚ) / 32 = (2 : ℚ) ^ (-5 : ℤ) by norm_num]
  exact two_zpow_le (by omega)

theorem SmallCount.recip_normal {S : Nat} (h : SmallCount F S) : (2 : ℚ) ^ (F.emin + F.p - 1) ≤ 1 / (S : ℚ) := by
  have hS : (0 : ℚ) < S := by exact_mod_cast h.pos
  rw [le_div_iff₀ hS]
  have h1 : (2 : ℚ) ^ (F.emin + F.p - 1) ≤ halfUlp F := two_zpow_le (by have := h.range; omega)
  have := h.mul_le
  have : (2 : ℚ) ^ (F.emin + F.p - 1) * S ≤ halfUlp F * S := by gcongr
  linarith

/-- The rounded step. -/
def stepOf (F : Fmt) (S : Nat) : ℚ := fdiv F 1 S

theorem stepOf_near {S : Nat} (h : SmallCount F S) : |S * stepOf F S - 1| ≤ halfUlp F := by
  have hS : (0 : ℚ) < S := by exact_mod_cast h.pos
  have hn : (2 : ℚ) ^ (F.emin + F.p - 1) ≤ |1 / (S : ℚ)| := by
    rw [abs_of_pos (by positivity)]; exact h.recip_normal
  have := fl_err_normal hn
  rw [abs_of_pos (show (0 : ℚ) < 1 / S by positivity)] at this
  have e : S * stepOf F S - 1 = S * (fl F (1 / S) - 1 / S) := by
    unfold stepOf fdiv; field_simp
  rw [e, abs_mul, abs_of_pos hS]
  calc (S : ℚ) * |fl F (1 / S) - 1 / S| ≤ S * (1 / S * (2 : ℚ) ^ (-(F.p : ℤ))) := by gcongr
    _ = halfUlp F := by unfold halfUlp; field_simp

theorem stepOf_pos {S : Nat} (h : SmallCount F S) : 0 < stepOf F S := by
  have hS : (0 : ℚ) < S := by exact_mod_cast h.pos
  have h1 := (abs_le.mp (stepOf_near h)).1
  have h2 := h.halfUlp_le
  by_contra hc
  have : S * stepOf F S ≤ 0 := mul_nonpos_of_nonneg_of_nonpos hS.le (not_lt.mp hc)
  linarith

theorem isFloat_stepOf {S : Nat} (h : SmallCount F S) : IsFloat F (stepOf F S) :=
  isFloat_fl (by have := h.prec; omega) _

theorem SmallCount.emin_le {S : Nat} (h : SmallCount F S) : F.emin ≤ -9 := by
  have := h.range; have := h.prec; omega

theorem SmallCount.isFloat_half {S : Nat} (h : SmallCount F S) (m : ℤ) (h0 : 0 ≤ m) (hm : m ≤ 2 * S + 3) :
    IsFloat F ((m : ℚ) / 2) := by
  refine ⟨m, -1, by have := h.emin_le; omega, ?_, by rw [zpow_neg_one]; rfl⟩
  rw [abs_of_nonneg h0]
  have h1 : (S : ℤ) * 16 ≤ 2 ^ F.p := by exact_mod_cast h.le
  have h2 := h.pos
  have : (32 : ℤ) ≤ 2 ^ F.p := by
    calc (32 : ℤ) = 2 ^ 5 := by norm_num
      _ ≤ 2 ^ F.p := pow_le_pow_right₀ (by norm_num) h.prec
  omega

theorem SmallCount.isFloat_one {S : Nat} (h : SmallCount F S) : IsFloat F 1 := by
  have := h.isFloat_half 2 (by norm_num) (by have := h.pos; omega)
  simpa using this

theorem SmallCount.isFloat_count {S : Nat} (h : SmallCount F S) : IsFloat F S := by
  have := h.isFloat_half (2 * S) (by positivity) (by omega)
  simpa using this

/-! ### Number of levels -/

theorem arangeFl_zero (hp : 1 ≤ F.p) (stop d : ℚ) (hd : IsFloat F d) (hs : IsFloat F stop) :
    arangeFl F 0 stop d = (List.range ⌈fl F (stop / d)⌉.toNat).map fun (i : Nat) => fl F (i * d) := by
  unfold arangeFl fadd fsub fdiv fmul
  simp only [zero_add, sub_zero, fl_eq hp hd, fl_eq hp hs, fl_fl hp]
  apply List.map_congr_left
  intro i _
  by_cases h0 : i = 0
  · rw [if_pos h0, h0, Nat.cast_zero, zero_mul, fl_zero]
  · rw [if_neg h0]
    by_cases h1 : i = 1
    · rw [if_pos h1, h1, Nat.cast_one, one_mul, fl_eq hp hd]
    · rw [if_neg h1]

theorem rsaLevels_eq {S : Nat} (h : SmallCount F S) :
    rsaLevels F S = (List.range ⌈fl F (1 / stepOf F S)⌉.toNat).map fun (i : Nat) => fl F (i * stepOf F S) :=
  arangeFl_zero (by have := h.prec; omega) 1 (stepOf F S) (isFloat_stepOf h) h.isFloat_one

theorem pawnLevels_eq {S : Nat} (h : SmallCount F S) :
    pawnLevels F S = (List.range ⌈fl F (fl F (1 + stepOf F S) / stepOf F S)⌉.toNat).map fun (i : Nat) =>
      fl F (i * stepOf F S) :=
  arangeFl_zero (by have := h.prec; omega) (fl F (1 + stepOf F S)) (stepOf F S) (isFloat_stepOf h)
    (isFloat_fl (by have := h.prec; omega) _)

theorem recip_step {S : Nat} (h : SmallCount F S) : |1 / stepOf F S - S| ≤ 1 / 8 := by
  have hd := stepOf_pos h
  have h1 := abs_le.mp (stepOf_near h)
  have h2 := h.mul_le
  have h3 := h.halfUlp_le
  have hS : (0 : ℚ) < S := by exact_mod_cast h.pos
  have hu := halfUlp_pos (F := F)
  rw [abs_le]
  constructor
  · rw [neg_le_sub_iff_le_add, ← sub_le_iff_le_add, le_div_iff₀ hd]
    nlinarith
  · rw [sub_le_iff_le_add, div_le_iff₀ hd]
    nlinarith

theorem ceil_count (q : ℚ) (n : Nat) (h1 : (n : ℚ) - 1 / 2 ≤ q) (h2 : q ≤ n + 1 / 2) :
    ⌈q⌉.toNat = if q ≤ n then n else n + 1 := by
  by_cases h : q ≤ n
  · rw [if_pos h]
    have : ⌈q⌉ = (n : ℤ) := by
      rw [Int.ceil_eq_iff]; push_cast; exact ⟨by linarith, h⟩
    rw [this]; simp
  · rw [if_neg h]
    have : ⌈q⌉ = ((n + 1 : ℕ) : ℤ) := by
      rw [Int.ceil_eq_iff]; push_cast; exact ⟨by linarith [not_le.mp h], by linarith⟩
    rw [this]; simp

theorem rsaLevels_length {S : Nat} (h : SmallCount F S) :
    (rsaLevels F S).length = if fl F (1 / stepOf F S) ≤ S then S else S + 1 := by
  have hp : 1 ≤ F.p := by have := h.prec; omega
  rw [rsaLevels_eq h, List.length_map, List.length_range]
  have h1 := abs_le.mp (recip_step h)
  apply ceil_count
  · refine le_fl_of_le hp ?_ (by linarith)
    have := h.isFloat_half (2 * S - 1) (by have := h.pos; omega) (by omega)
    rwa [show ((2 * (S : ℤ) - 1 : ℤ) : ℚ) / 2 = (S : ℚ) - 1 / 2 by push_cast; ring] at this
  · refine fl_le_of_le hp ?_ (by linarith)
    have := h.isFloat_half (2 * S + 1) (by omega) (by omega)
    rwa [show ((2 * (S : ℤ) + 1 : ℤ) : ℚ) / 2 = (S : ℚ) + 1 / 2 by push_cast; ring] at this

theorem pawnLevels_length {S : Nat} (h : SmallCount F S) : (pawnLevels F S).length =
    if fl F (fl F (1 + stepOf F S) / stepOf F S) ≤ ((S + 1 : Nat) : ℚ) then S + 1 else S + 2 := by
  have hp : 1 ≤ F.p := by have := h.prec; omega
  have hd := stepOf_pos h
  have h1 := abs_le.mp (recip_step h)
  have hu := halfUlp_pos (F := F)
  have h2 := h.mul_le
  have h3 := h.halfUlp_le
  have he := fl_add_err hp h.isFloat_one (isFloat_stepOf h)
  rw [abs_of_pos (show (0 : ℚ) < 1 + stepOf F S by linarith)] at he
  have he' := abs_le.mp he
  change -((1 + stepOf F S) * halfUlp F) ≤ _ ∧ _ ≤ (1 + stepOf F S) * halfUlp F at he'
  have hr : (1 + stepOf F S) / stepOf F S = 1 / stepOf F S + 1 := by field_simp
  have b1 : (1 / stepOf F S + 1) * (1 - halfUlp F) ≤ fl F (1 + stepOf F S) / stepOf F S := by
    rw [← hr, div_mul_eq_mul_div]
    apply div_le_div_of_nonneg_right _ hd.le
    linarith [he'.1]
  have b2 : fl F (1 + stepOf F S) / stepOf F S ≤ (1 / stepOf F S + 1) * (1 + halfUlp F) := by
    rw [← hr, div_mul_eq_mul_div]
    apply div_le_div_of_nonneg_right _ hd.le
    linarith [he'.2]
  rw [pawnLevels_eq h, List.length_map, List.length_range]
  apply ceil_count
  · refine le_fl_of_le hp ?_ ?_
    · have := h.isFloat_half (2 * S + 1) (by omega) (by omega)
      rwa [show ((2 * (S : ℤ) + 1 : ℤ) : ℚ) / 2 = ((S + 1 : Nat) : ℚ) - 1 / 2 by push_cast; ring] at this
    · push_cast; nlinarith
  · refine fl_le_of_le hp ?_ ?_
    · have := h.isFloat_half (2 * S + 3) (by omega) (by omega)
      rwa [show ((2 * (S : ℤ) + 3 : ℤ) : ℚ) / 2 = ((S + 1 : Nat) : ℚ) + 1 / 2 by push_cast; ring] at this
    · push_cast; nlinarith

/-! ### Size of the levels -/

theorem fl_tie_one {S : Nat} (h : SmallCount F S) : fl F (1 + halfUlp F) = 1 := by
  have hu := halfUlp_pos (F := F)
  have h3 := h.halfUlp_le
  have hlog : Int.log 2 |1 + halfUlp F| = 0 := by
    rw [abs_of_pos (by linarith)]
    have := Int.log_of_one_le_right 2 (show (1 : ℚ) ≤ 1 + halfUlp F by linarith)
    rw [this]
    have hf : ⌊1 + halfUlp F⌋₊ = 1 := by
      rw [Nat.floor_eq_iff (by linarith)]
      constructor <;> push_cast <;> linarith
    rw [hf]; simp
  have he : ulpExp F (1 + halfUlp F) = 1 - F.p := by
    unfold ulpExp
    rw [hlog]
    rw [max_eq_left (by have := h.range; omega)]
    ring
  have hq : (1 + halfUlp F) / (2 : ℚ) ^ (1 - (F.p : ℤ)) = ((2 ^ (F.p - 1) : ℕ) : ℚ) + 1 / 2 := by
    obtain ⟨k, hk⟩ : ∃ k, F.p = k + 1 := ⟨F.p - 1, by have := h.prec; omega⟩
    unfold halfUlp
    rw [hk]
    push_cast
    rw [show (1 : ℤ) - ((k : ℤ) + 1) = -(k : ℤ) by ring, show -((k : ℤ) + 1) = -(k : ℤ) + -1 by ring,
      zpow_add₀ (by norm_num : (2 : ℚ) ≠ 0), zpow_neg, zpow_natCast]
    have : (2 : ℚ) ^ k ≠ 0 := by positivity
    field_simp
  have hfl : ⌊((2 ^ (F.p - 1) : ℕ) : ℚ) + 1 / 2⌋ = ((2 ^ (F.p - 1) : ℕ) : ℤ) := by
    rw [Int.floor_eq_iff]
    constructor
    · push_cast; linarith
    · push_cast; linarith
  have heven : (2 : ℤ) ∣ ((2 ^ (F.p - 1) : ℕ) : ℤ) := by
    have : (2 : ℕ) ∣ 2 ^ (F.p - 1) := dvd_pow_self 2 (by have := h.prec; omega)
    exact_mod_cast this
  unfold fl
  rw [he, hq]
  unfold roundEven
  rw [hfl]
  have hsub : ((2 ^ (F.p - 1) : ℕ) : ℚ) + 1 / 2 - (((2 ^ (F.p - 1) : ℕ) : ℤ) : ℚ) = 1 / 2 := by push_cast; ring
  rw [hsub, if_neg (lt_irrefl _), if_neg (lt_irrefl _), if_pos heven]
  obtain ⟨k, hk⟩ : ∃ k, F.p = k + 1 := ⟨F.p - 1, by have := h.prec; omega⟩
  rw [hk]
  push_cast
  rw [show (1 : ℤ) - ((k : ℤ) + 1) = -(k : ℤ) by ring, zpow_neg, zpow_natCast]
  have : (2 : ℚ) ^ k ≠ 0 := by positivity
  simp

/-- Level `s` of the rounded levels. -/
def levelOf (F : Fmt) (S s : Nat) : ℚ := fl F (s * stepOf F S)

theorem levelOf_zero (S : Nat) : levelOf F S 0 = 0 := by
  unfold levelOf; rw [Nat.cast_zero, zero_mul, fl_zero]

theorem levelOf_nonneg {S : Nat} (h : SmallCount F S) (s : Nat) : 0 ≤ levelOf F S s :=
  fl_nonneg (mul_nonneg (by positivity) (stepOf_pos h).le)

theorem levelOf_mono {S : Nat} (h : SmallCount F S) (s t : Nat) (hst : s ≤ t) : levelOf F S s ≤ levelOf F S t := by
  apply fl_mono (by have := h.prec; omega)
  have : (s : ℚ) ≤ t := by exact_mod_cast hst
  exact mul_le_mul_of_nonneg_right this (stepOf_pos h).le

theorem levelOf_le_one {S : Nat} (h : SmallCount F S) (s : Nat) (hs : s ≤ S) : levelOf F S s ≤ 1 := by
  rw [← fl_tie_one h]
  apply fl_mono (by have := h.prec; omega)
  have h1 := (abs_le.mp (stepOf_near h)).2
  have : (s : ℚ) * stepOf F S ≤ S * stepOf F S :=
    mul_le_mul_of_nonneg_right (by exact_mod_cast hs) (stepOf_pos h).le
  linarith

theorem one_lt_levelOf {S : Nat} (h : SmallCount F S) : 1 < levelOf F S (S + 1) := by
  have hp : 1 ≤ F.p := by have := h.prec; omega
  have hS : (0 : ℚ) < S := by exact_mod_cast h.pos
  have hu := halfUlp_pos (F := F)
  have hf : IsFloat F (1 + 2 * halfUlp F) := by
    obtain ⟨k, hk⟩ : ∃ k, F.p = k + 1 := ⟨F.p - 1, by have := h.prec; omega⟩
    refine ⟨2 ^ k + 1, -(k : ℤ), by have := h.range; have := h.prec; omega, ?_, ?_⟩
    · rw [abs_of_pos (by positivity), hk, pow_succ]
      have : (1 : ℤ) < 2 ^ k := one_lt_pow₀ (by norm_num) (by have := h.prec; omega)
      omega
    · unfold halfUlp
      rw [hk]
      push_cast
      rw [show -((k : ℤ) + 1) = -(k : ℤ) + -1 by ring, zpow_add₀ (by norm_num : (2 : ℚ) ≠ 0), zpow_neg, zpow_natCast]
      have : (2 : ℚ) ^ k ≠ 0 := by positivity
      field_simp
  have h1 := (abs_le.mp (stepOf_near h)).1
  have hm := h.mul_le
  have hb : 1 + 2 * halfUlp F ≤ ((S + 1 : Nat) : ℚ) * stepOf F S := by
    push_cast
    have : 4 * halfUlp F ≤ stepOf F S := by
      have : S * (4 * halfUlp F) ≤ S * stepOf F S := by linarith [h.halfUlp_le]
      exact le_of_mul_le_mul_left this hS
    nlinarith
  have := le_fl_of_le hp hf hb
  unfold levelOf
  linarith

theorem levelOf_near {S : Nat} (h : SmallCount F S) (s : Nat) (hs : s ≤ S) :
    |levelOf F S s - (s : ℚ) / S| ≤ 3 * halfUlp F := by
  have hS : (0 : ℚ) < S := by exact_mod_cast h.pos
  have hu := halfUlp_pos (F := F)
  have h1 := stepOf_near h
  have hs' : (s : ℚ) ≤ S := by exact_mod_cast hs
  have e1 : |(s : ℚ) * stepOf F S - s / S| ≤ halfUlp F := by
    have : (s : ℚ) * stepOf F S - s / S = s / S * (S * stepOf F S - 1) := by field_simp
    rw [this, abs_mul, abs_of_nonneg (by positivity)]
    have : (s : ℚ) / S ≤ 1 := by rw [div_le_one hS]; exact hs'
    calc (s : ℚ) / S * |S * stepOf F S - 1| ≤ 1 * |S * stepOf F S - 1| := by gcongr
      _ ≤ halfUlp F := by linarith
  have hd := stepOf_pos h
  have e2 : |levelOf F S s - s * stepOf F S| ≤ 2 * halfUlp F := by
    by_cases h0 : s = 0
    · subst h0
      rw [levelOf_zero, Nat.cast_zero, zero_mul, sub_zero, abs_zero]; linarith
    · have hn : (2 : ℚ) ^ (F.emin + F.p - 1) ≤ |(s : ℚ) * stepOf F S| := by
        rw [abs_of_nonneg (by positivity)]
        have a1 : (2 : ℚ) ^ (F.emin + F.p - 1) ≤ halfUlp F := two_zpow_le (by have := h.range; omega)
        have a2 : halfUlp F ≤ stepOf F S := by
          have : S * halfUlp F ≤ S * stepOf F S := by linarith [h.mul_le, (abs_le.mp h1).1, h.halfUlp_le]
          exact le_of_mul_le_mul_left this hS
        have a3 : (1 : ℚ) ≤ s := by exact_mod_cast Nat.one_le_iff_ne_zero.mpr h0
        nlinarith
      have := fl_err_normal hn
      rw [abs_of_nonneg (show (0 : ℚ) ≤ s * stepOf F S by positivity)] at this
      change _ ≤ s * stepOf F S * halfUlp F at this
      have b : (s : ℚ) * stepOf F S ≤ 2 := by
        have : (s : ℚ) * stepOf F S ≤ S * stepOf F S := mul_le_mul_of_nonneg_right hs' hd.le
        linarith [(abs_le.mp h1).2, h.halfUlp_le]
      unfold levelOf
      nlinarith
  calc |levelOf F S s - (s : ℚ) / S| ≤ |levelOf F S s - s * stepOf F S| + |s * stepOf F S - s / S| := abs_sub_le _ _ _
    _ ≤ 3 * halfUlp F := by linarith

end SALib
