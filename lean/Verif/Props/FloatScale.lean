import Verif.Lemmas.FloatScale

/-!
# C106: scaling as NumPy computes it

C01 and C02 are about exact arithmetic.  Here every operation of `_scale_samples` and
`_unscale_samples` is rounded to the nearest number of the format, ties to even.
-/

namespace SALib
open Spec

variable {F : Fmt}

/-- **C106**, the arithmetic: the rounding of the model is the one number that the standard asks for. -/
theorem C106_rounding (hp : 2 ≤ F.p) (x y : ℚ) : RoundsTo F x y ↔ y = fl F x :=
  ⟨fun h => h.unique hp, fun h => h ▸ fl_roundsTo hp x⟩

/-- In binary64, 1/5 lies between two numbers of the format and is rounded up. -/
example : RoundsTo binary64 (1 / 5) (3602879701896397 / 18014398509481984) :=
  (C106_rounding (by decide) _ _).2 (by decide +kernel)

/-- **C106.** What remains true of `lo ≤ y ≤ hi` with rounding: scaling keeps the shape, gives numbers
of the format, never falls under the lower bound, stays within a few units in the last place of the
exact value, sends 0 to the lower bound, and keeps the upper bound for every unit value but the last
two numbers of the format below or at 1; those two keep it as well when the width `hi - lo` needs no
rounding.  Missing: the upper bound at 1 for a rounded width, which is false, see `C106_above`. -/
theorem C106_in_bounds_partial (hp : 2 ≤ F.p) (bs : List (ℚ × ℚ)) (params : Mat ℚ) (hne : bs ≠ [])
    (hlegal : ∀ p ∈ bs, p.1 < p.2) (hfl : ∀ p ∈ bs, IsFloat F p.1 ∧ IsFloat F p.2)
    (hcols : HasCols bs.length params) (hunit : ∀ row ∈ params, ∀ x ∈ row, 0 ≤ x ∧ x ≤ 1) :
    ∃ out, scaleUniformFl F bs.length params (boundsTable bs) = .ok out ∧ SameShape params out ∧
      ∀ r c x lo hi, entry params r c = some x → bs[c]? = some (lo, hi) →
        ∃ y, entry out r c = some y ∧ IsFloat F y ∧ lo ≤ y ∧
          |y - (lo + x * (hi - lo))| ≤ (2 : ℚ) ^ (3 - (F.p : ℤ)) * max |lo| |hi| + (2 : ℚ) ^ F.emin ∧
          (x = 0 → y = lo) ∧
          (x ≤ 1 - (2 : ℚ) ^ (1 - (F.p : ℤ)) → y ≤ hi) ∧
          (IsFloat F (hi - lo) → y ≤ hi ∧ (x = 1 → y = hi)) := by
  have hp1 : 1 ≤ F.p := by omega
  refine ⟨_, scaleUniformFl_legal bs hne hlegal params, ?_, ?_⟩
  · unfold SameShape
    simp only [List.map_map]
    apply List.map_congr_left
    intro row hrow
    simp [hcols row hrow]
  · intro r c x lo hi hx hb
    have hmem := List.mem_of_getElem? hb
    have hlt : lo < hi := hlegal _ hmem
    obtain ⟨hl, hh⟩ := hfl _ hmem
    have hxu : 0 ≤ x ∧ x ≤ 1 := by
      unfold entry at hx
      cases hr : params[r]? with
      | none => simp [hr] at hx
      | some row =>
        simp only [hr, Option.bind_some] at hx
        exact hunit row (List.mem_of_getElem? hr) x (List.mem_of_getElem? hx)
    refine ⟨_, entry_zipWith params bs _ r c x (lo, hi) hx hb, isFloat_fl hp1 _,
      scaleEntryFl_lower hp1 hl hlt hxu.1, scaleEntryFl_err hp hl hh hlt hxu.1 hxu.2, ?_, ?_, ?_⟩
    · rintro rfl; exact scaleEntryFl_zero hp1 hl
    · exact scaleEntryFl_upper hp hl hh hlt hxu.1
    · intro hd
      exact ⟨scaleEntryFl_upper_exact hp1 hh hlt hd hxu.2,
        by rintro rfl; exact scaleEntryFl_one_exact hp1 hh hd⟩

/-- **C106**, order: within a column, larger unit values never come out smaller. -/
theorem C106_order (hp : 2 ≤ F.p) (bs : List (ℚ × ℚ)) (params out : Mat ℚ) (hne : bs ≠ [])
    (hlegal : ∀ p ∈ bs, p.1 < p.2)
    (hout : scaleUniformFl F bs.length params (boundsTable bs) = .ok out) (r r' c : Nat)
    (x x' lo hi : ℚ) (hb : bs[c]? = some (lo, hi))
    (hx : entry params r c = some x) (hx' : entry params r' c = some x') (h : x ≤ x') :
    ∃ y y', entry out r c = some y ∧ entry out r' c = some y' ∧ y ≤ y' := by
  rw [scaleUniformFl_legal bs hne hlegal] at hout
  cases hout
  exact ⟨_, _, entry_zipWith params bs _ r c x (lo, hi) hx hb,
    entry_zipWith params bs _ r' c x' (lo, hi) hx' hb,
    scaleEntryFl_mono (by omega) (hlegal _ (List.mem_of_getElem? hb)) h⟩

/-- **C106**, widths that need no rounding: one bound 0, bounds of the same sign within a factor of
two, symmetric bounds, and whole numbers of at most `p` bits. -/
theorem C106_exact_width (hp : 2 ≤ F.p) (he : F.emin ≤ 0) (lo hi : ℚ) (hl : IsFloat F lo)
    (hh : IsFloat F hi) (hlt : lo < hi)
    (h : lo = 0 ∨ hi = 0 ∨ hi ≤ 2 * lo ∨ 2 * hi ≤ lo ∨ lo = -hi ∨
      (∃ m n : ℤ, lo = m ∧ hi = n ∧ n - m ≤ 2 ^ F.p)) : IsFloat F (hi - lo) := by
  have hp1 : 1 ≤ F.p := by omega
  rcases h with h | h | h | h | h | ⟨m, n, hm, hn, hmn⟩
  · rwa [h, sub_zero]
  · rw [h, zero_sub]; exact hl.neg
  · exact sterbenz hp1 hh hl (by linarith) h
  · have := sterbenz hp1 hl.neg hh.neg (by linarith) (by linarith)
    rwa [neg_sub_neg] at this
  · obtain ⟨m, e, hee, hm, hx⟩ := hh
    exact ⟨m, e + 1, by omega, hm, by
      rw [h, hx, zpow_add_one₀ (by norm_num)]; ring⟩
  · refine isFloat_of_le hp1 (m := n - m) (e := 0) he ?_ (by rw [hm, hn]; push_cast; ring)
    have : m < n := by rw [hm, hn] at hlt; exact_mod_cast hlt
    rwa [abs_of_pos (by omega)]

/-- **C106**, the upper bound is not kept: with bounds -5 and 0.2, unit value 1 is sent to
0.20000000000000018. -/
theorem C106_above : ∃ lo hi y : ℚ, lo = -5 ∧ RoundsTo binary64 (1 / 5) hi ∧
    scaleUniformFl binary64 1 [[1]] [[lo, hi]] = .ok [[y]] ∧ hi < y := by
  refine ⟨-5, fl binary64 (1 / 5), scaleEntryFl binary64 1 (-5, fl binary64 (1 / 5)), rfl,
    fl_roundsTo (by decide) _, ?_, by decide +kernel⟩
  exact scaleUniformFl_legal [(-5, fl binary64 (1 / 5))] (by simp)
    (by simp only [List.mem_singleton, forall_eq]; decide +kernel) [[1]]

/-- **C106**, unscaling: values between the bounds are sent into the unit interval, the bounds to
exactly 0 and 1, and order is kept. -/
theorem C106_unscale (hp : 2 ≤ F.p) (he : F.emin ≤ 0) (bs : List (ℚ × ℚ)) (params : Mat ℚ)
    (hne : bs ≠ []) (hlegal : ∀ p ∈ bs, p.1 < p.2)
    (hfl : ∀ p ∈ bs, IsFloat F p.1 ∧ IsFloat F p.2) :
    ∃ out, unscaleUniformFl F bs.length params (boundsTable bs) = .ok out ∧
      ∀ r c x lo hi, entry params r c = some x → bs[c]? = some (lo, hi) →
        ∃ y, entry out r c = some y ∧ (lo ≤ x → x ≤ hi → 0 ≤ y ∧ y ≤ 1) ∧
          (x = lo → y = 0) ∧ (x = hi → y = 1) ∧
          ∀ r' x', entry params r' c = some x' → x ≤ x' →
            ∃ y', entry out r' c = some y' ∧ y ≤ y' := by
  have hp1 : 1 ≤ F.p := by omega
  refine ⟨_, unscaleUniformFl_legal bs hne hlegal params, ?_⟩
  intro r c x lo hi hx hb
  have hmem := List.mem_of_getElem? hb
  have hlt : lo < hi := hlegal _ hmem
  obtain ⟨hl, hh⟩ := hfl _ hmem
  refine ⟨_, entry_zipWith params bs _ r c x (lo, hi) hx hb,
    unscaleEntryFl_range hp1 he hl hh hlt, ?_, ?_, ?_⟩
  · rintro rfl; exact unscaleEntryFl_lower
  · rintro rfl; exact unscaleEntryFl_upper hp1 he hl hh hlt
  · intro r' x' hx' h
    exact ⟨_, entry_zipWith params bs _ r' c x' (lo, hi) hx' hb, unscaleEntryFl_mono hp1 hlt h⟩

/-- The hypotheses are met by bounds 0.1 to 3 and -5 to 0.2 in binary64. -/
example : (∀ p ∈ [(fl binary64 (1 / 10), 3), (-5, fl binary64 (1 / 5))], p.1 < p.2) ∧
    (∀ p ∈ [(fl binary64 (1 / 10), 3), (-5, fl binary64 (1 / 5))],
      IsFloat binary64 p.1 ∧ IsFloat binary64 p.2) ∧
    HasCols 2 [[(1 / 2 : ℚ), 1 / 4], [0, 1]] ∧
    (∀ row ∈ [[(1 / 2 : ℚ), 1 / 4], [0, 1]], ∀ x ∈ row, 0 ≤ x ∧ x ≤ 1) ∧
    (1 / 2 : ℚ) ≤ 1 - (2 : ℚ) ^ (1 - ((binary64).p : ℤ)) := by
  refine ⟨?_, ?_, by simp [HasCols], by simp; norm_num, by simp only [binary64]; norm_num⟩
  · simp only [List.forall_mem_cons]
    refine ⟨by decide +kernel, by decide +kernel, by simp⟩
  · simp only [List.forall_mem_cons]
    refine ⟨⟨isFloat_fl (by decide) _, ⟨3, 0, by decide, by decide, by norm_num⟩⟩,
      ⟨⟨-5, 0, by decide, by decide, by norm_num⟩, isFloat_fl (by decide) _⟩, by simp⟩

/-- Each case of `C106_exact_width` occurs in binary64. -/
example : (IsFloat binary64 (3 - 2 : ℚ)) ∧ IsFloat binary64 (10 - (-10) : ℚ) ∧
    IsFloat binary64 (1000 - (-7) : ℚ) := by
  have f : ∀ n : ℤ, |n| < 2 ^ 53 → IsFloat binary64 n := fun n h =>
    ⟨n, 0, by decide, h, by simp⟩
  have h2 : IsFloat binary64 2 := by exact_mod_cast f 2 (by decide)
  have h3 : IsFloat binary64 3 := by exact_mod_cast f 3 (by decide)
  have h10 : IsFloat binary64 10 := by exact_mod_cast f 10 (by decide)
  have hm : IsFloat binary64 (-7) := by exact_mod_cast f (-7) (by decide)
  have hk : IsFloat binary64 1000 := by exact_mod_cast f 1000 (by decide)
  refine ⟨C106_exact_width (by decide) (by decide) _ _ h2 h3 (by norm_num) (by norm_num),
    C106_exact_width (by decide) (by decide) _ _ h10.neg h10 (by norm_num) (by simp),
    C106_exact_width (by decide) (by decide) _ _ hm hk (by norm_num) ?_⟩
  exact Or.inr (Or.inr (Or.inr (Or.inr (Or.inr ⟨-7, 1000, by norm_num, by norm_num, by decide⟩))))

end SALib
