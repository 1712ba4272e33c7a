import Verif.Lemmas.Scale

/-!
# C01-C03: uniform scaling
-/

namespace SALib
open Spec

variable {α : Type} [Field α] [LinearOrder α] [IsStrictOrderedRing α]

/-- **C01.** Scaling without distributions keeps the shape, marks the sample as scaled, and sends the
unit value `x` of a parameter with bounds `(lo, hi)` to `lo + x (hi - lo)`, which lies in
`[lo, hi]`. -/
theorem C01_scale_in_bounds (F : Ppf α) (pb : Problem α) (bs : List (α × α)) (params : Mat α)
    (hb : pb.bounds = boundsTable bs) (hd : pb.dists = none) (hne : bs ≠ [])
    (hlegal : ∀ p ∈ bs, p.1 < p.2) (hcols : HasCols bs.length params)
    (hunit : ∀ row ∈ params, ∀ x ∈ row, 0 ≤ x ∧ x ≤ 1) :
    ∃ out, scaleSamples F bs.length params pb = .ok (out, { pb with sampleScaled := true }) ∧
      SameShape params out ∧
      ∀ r c x lo hi, entry params r c = some x → bs[c]? = some (lo, hi) →
        ∃ y, entry out r c = some (some y) ∧ y = lo + x * (hi - lo) ∧ lo ≤ y ∧ y ≤ hi := by
  refine ⟨(params.map fun row => List.zipWith (fun x p => x * (p.2 - p.1) + p.1) row bs).map
    (·.map some), ?_, ?_, ?_⟩
  · unfold scaleSamples
    rw [hd, hb]
    simp only [scaleUniform_legal bs hne hlegal]
    rfl
  · unfold SameShape
    simp only [List.map_map]
    apply List.map_congr_left
    intro row hrow
    simp [hcols row hrow]
  · intro r c x lo hi hx hp
    refine ⟨x * (hi - lo) + lo, ?_, by ring, ?_, ?_⟩
    · have h := entry_zipWith params bs (fun x p => x * (p.2 - p.1) + p.1) r c x (lo, hi) hx hp
      rw [entry_map]
      unfold entry at h
      revert h
      generalize (params.map fun row => List.zipWith (fun x p => x * (p.2 - p.1) + p.1) row bs) = M
      intro h
      cases hr : M[r]? with
      | none => simp [hr] at h
      | some row => simp only [hr, Option.bind_some] at h ⊢; rw [List.getElem?_map, h]; rfl
    all_goals
      have hlt : lo < hi := hlegal (lo, hi) (List.mem_of_getElem? hp)
      have hxu : 0 ≤ x ∧ x ≤ 1 := by
        unfold entry at hx
        cases hr : params[r]? with
        | none => simp [hr] at hx
        | some row =>
          simp only [hr, Option.bind_some] at hx
          exact hunit row (List.mem_of_getElem? hr) x (List.mem_of_getElem? hx)
      obtain ⟨h0, h1⟩ := hxu
      nlinarith [mul_nonneg h0 (sub_nonneg.mpr hlt.le),
        mul_nonneg (sub_nonneg.mpr h1) (sub_nonneg.mpr hlt.le)]

/-- **C01**, monotonicity and end points: within one column the scaled values are ordered exactly as
the unit values; 0 is sent to the lower and 1 to the upper bound. -/
theorem C01_scale_monotone (bs : List (α × α)) (params out : Mat α) (hne : bs ≠ [])
    (hlegal : ∀ p ∈ bs, p.1 < p.2)
    (hout : scaleUniform bs.length params (boundsTable bs) = .ok out) (r r' c : Nat)
    (x x' lo hi : α) (hp : bs[c]? = some (lo, hi))
    (hx : entry params r c = some x) (hx' : entry params r' c = some x') :
    ∃ y y', entry out r c = some y ∧ entry out r' c = some y' ∧ (y < y' ↔ x < x') ∧
      (y = lo ↔ x = 0) ∧ (y = hi ↔ x = 1) := by
  rw [scaleUniform_legal bs hne hlegal] at hout
  cases hout
  refine ⟨_, _, entry_zipWith params bs _ r c x (lo, hi) hx hp,
    entry_zipWith params bs _ r' c x' (lo, hi) hx' hp, ?_, ?_, ?_⟩
  all_goals
    have hlt : lo < hi := hlegal (lo, hi) (List.mem_of_getElem? hp)
    have hpos : 0 < hi - lo := sub_pos.mpr hlt
  · constructor
    · intro h
      by_contra hc
      have := mul_le_mul_of_nonneg_right (not_lt.mp hc) hpos.le
      simp only at h; linarith
    · intro h
      have := mul_lt_mul_of_pos_right h hpos
      simp only; linarith
  · constructor
    · intro h
      have h2 : x * (hi - lo) = 0 := by simp only at h; linarith
      exact (mul_eq_zero.mp h2).resolve_right hpos.ne'
    · rintro rfl; simp
  · constructor
    · intro h
      have h2 : (x - 1) * (hi - lo) = 0 := by simp only at h; linear_combination h
      exact sub_eq_zero.mp ((mul_eq_zero.mp h2).resolve_right hpos.ne')
    · rintro rfl; simp

/-- The hypotheses of `C01` are met by a 2x2 sample with bounds [-1, 3] and [10, 20]. -/
example : ∃ out, scaleUniform 2 [[(1/2 : ℚ), 1/4], [0, 1]] (boundsTable [(-1, 3), (10, 20)])
    = .ok out ∧ out = [[1, 25/2], [-1, 20]] := by
  refine ⟨_, scaleUniform_legal [(-1, 3), (10, 20)] (by simp) (by simp; norm_num) _, ?_⟩
  norm_num

example : (∀ p ∈ [((-1 : ℚ), (3 : ℚ)), (10, 20)], p.1 < p.2) ∧
    HasCols 2 [[(1/2 : ℚ), 1/4], [0, 1]] ∧
    (∀ row ∈ [[(1/2 : ℚ), 1/4], [0, 1]], ∀ x ∈ row, 0 ≤ x ∧ x ≤ 1) := by
  refine ⟨by simp; norm_num, by simp [HasCols], by simp; norm_num⟩

/-- **C02.** For legal bounds, unscaling a scaled sample gives the sample back. -/
theorem C02_unscale_scale (bs : List (α × α)) (params : Mat α) (hne : bs ≠ [])
    (hlegal : ∀ p ∈ bs, p.1 < p.2) (hcols : HasCols bs.length params) :
    (scaleUniform bs.length params (boundsTable bs) >>= fun scaled =>
      unscaleUniform bs.length scaled (boundsTable bs)) = .ok params := by
  rw [scaleUniform_legal bs hne hlegal]
  simp only [pyBind_ok]
  rw [unscaleUniform_legal bs hne hlegal, List.map_map]
  congr 1
  conv_rhs => rw [← List.map_id params]
  apply List.map_congr_left
  intro row hrow
  apply zipWith_zipWith_same _ _ _ _ (hcols row hrow)
  intro p hp x
  have : p.2 - p.1 ≠ 0 := (sub_pos.mpr (hlegal p hp)).ne'
  field_simp
  ring

/-- **C02.** For legal bounds, scaling an unscaled sample gives the sample back. -/
theorem C02_scale_unscale (bs : List (α × α)) (params : Mat α) (hne : bs ≠ [])
    (hlegal : ∀ p ∈ bs, p.1 < p.2) (hcols : HasCols bs.length params) :
    (unscaleUniform bs.length params (boundsTable bs) >>= fun unit =>
      scaleUniform bs.length unit (boundsTable bs)) = .ok params := by
  rw [unscaleUniform_legal bs hne hlegal]
  simp only [pyBind_ok]
  rw [scaleUniform_legal bs hne hlegal, List.map_map]
  congr 1
  conv_rhs => rw [← List.map_id params]
  apply List.map_congr_left
  intro row hrow
  apply zipWith_zipWith_same _ _ _ _ (hcols row hrow)
  intro p hp x
  have : p.2 - p.1 ≠ 0 := (sub_pos.mpr (hlegal p hp)).ne'
  field_simp
  ring

example : (scaleUniform 2 [[(7 : ℚ), -2], [0, 1]] (boundsTable [(-1, 3), (10, 20)]) >>= fun s =>
    unscaleUniform 2 s (boundsTable [(-1, 3), (10, 20)])) = .ok [[7, -2], [0, 1]] :=
  C02_unscale_scale [(-1, 3), (10, 20)] _ (by simp) (by simp; norm_num) (by simp [HasCols])

omit [IsStrictOrderedRing α] in
/-- **C03.** For a non-empty bounds table, uniform scaling and unscaling raise `ValueError` exactly
when some lower bound is not below its upper bound, and succeed otherwise. -/
theorem C03_illegal_bounds_rejected (bs : List (α × α)) (params : Mat α) (hne : bs ≠ []) :
    ((∃ p ∈ bs, p.2 ≤ p.1) →
      scaleUniform bs.length params (boundsTable bs) = .error .valueError ∧
      unscaleUniform bs.length params (boundsTable bs) = .error .valueError) ∧
    ((¬ ∃ p ∈ bs, p.2 ≤ p.1) →
      (∃ out, scaleUniform bs.length params (boundsTable bs) = .ok out) ∧
      ∃ out, unscaleUniform bs.length params (boundsTable bs) = .ok out) := by
  constructor
  · intro hbad
    have h1 : (boundsTable bs).isEmpty = false := by
      cases bs with
      | nil => exact absurd rfl hne
      | cons _ _ => rfl
    have h2 : (bs.any fun p => decide (p.2 ≤ p.1)) = true := by
      rw [List.any_eq_true]; obtain ⟨p, hp, h⟩ := hbad; exact ⟨p, hp, by simpa using h⟩
    constructor
    · unfold scaleUniform; rw [checkBounds_illegal bs hbad]; rfl
    · unfold unscaleUniform; rw [rowPairs_boundsTable]; simp [h1, h2]
  · intro hgood
    have hleg : ∀ p ∈ bs, p.1 < p.2 := fun p hp => not_le.mp fun h => hgood ⟨p, hp, h⟩
    exact ⟨⟨_, scaleUniform_legal bs hne hleg params⟩, ⟨_, unscaleUniform_legal bs hne hleg params⟩⟩

/-- Both cases of `C03` occur. -/
example : (∃ p ∈ [((0 : ℚ), (1 : ℚ)), (2, 2)], p.2 ≤ p.1) ∧
    ¬ ∃ p ∈ [((0 : ℚ), (1 : ℚ)), (2, 3)], p.2 ≤ p.1 := by
  constructor
  · exact ⟨(2, 2), by simp, le_refl _⟩
  · simp; norm_num

end SALib
