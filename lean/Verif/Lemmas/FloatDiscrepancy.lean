import Verif.Model.FloatDiscrepancy
import Verif.Lemmas.Discrepancy
import Verif.Lemmas.FloatScale
import Verif.Lemmas.FloatSum
import Verif.Lemmas.FloatError

/-! Closed form of the discrepancy analysis in floating point. -/

namespace SALib

variable {F : Fmt}

/-- The plot of parameter `i` as it is computed. -/
def scatterFl (F : Fmt) (X : Mat ℚ) (Y : List ℚ) (i : Nat) (p : ℚ × ℚ) (mn mx : ℚ) : List (ℚ × ℚ) :=
  (X.zip Y).map fun r => (unscaleEntryFl F (r.1.getD i 0) p, unscaleEntryFl F r.2 (mn, mx))

open Classical in
theorem qmcUnscaleFl_eq (X : Mat ℚ) (P : List (ℚ × ℚ)) (hrow : ∀ row ∈ X, row.length = P.length) :
    qmcUnscaleFl F X (P.map (·.1)) (P.map (·.2)) =
      if (∀ p ∈ P, p.1 < p.2) ∧
        (∀ row ∈ X, ∀ (i : Nat) x p, row[i]? = some x → P[i]? = some p → p.1 ≤ x ∧ x ≤ p.2) then
        .ok (X.map fun row => List.zipWith (unscaleEntryFl F) row P)
      else .error .valueError := by
  have h := qmcUnscale_eq X P hrow
  unfold qmcUnscale at h
  unfold qmcUnscaleFl
  rw [zip_fst_snd] at *
  split_ifs at h ⊢ <;> first | rfl | cases h

theorem discScaleYFl_ok (Y : List ℚ) (mn mx : ℚ) (h1 : mn ∈ Y ∧ ∀ y ∈ Y, mn ≤ y)
    (h2 : mx ∈ Y ∧ ∀ y ∈ Y, y ≤ mx) :
    discScaleYFl F Y = if mn < mx then .ok (Y.map fun v => unscaleEntryFl F v (mn, mx)) else .error .valueError := by
  cases Y with
  | nil => simp at h1
  | cons y ys =>
    have e1 : ys.foldl min y = mn :=
      le_antisymm ((foldl_min_spec y ys).2 _ h1.1) (h1.2 _ (foldl_min_spec y ys).1)
    have e2 : ys.foldl max y = mx :=
      le_antisymm (h2.2 _ (foldl_max_spec y ys).1) ((foldl_max_spec y ys).2 _ h2.1)
    simp only [discScaleYFl]
    rw [e1, e2]
    have := qmcUnscaleFl_eq (F := F) ((y :: ys).map fun v => [v]) [(mn, mx)] (by
      intro row hr
      obtain ⟨v, -, rfl⟩ := List.mem_map.mp hr
      rfl)
    simp only [List.map_cons, List.map_nil] at this
    simp only [List.map_cons]
    rw [this]
    by_cases hlt : mn < mx
    · rw [if_pos, if_pos hlt]
      · rw [pyBind_ok, pyPure]
        congr 1
        have : ∀ l : List ℚ, ((l.map fun v => [v]).map fun row =>
            List.zipWith (unscaleEntryFl F) row [(mn, mx)]).flatten =
            l.map fun v => unscaleEntryFl F v (mn, mx) := by
          intro l
          induction l with
          | nil => rfl
          | cons a l ih => simpa using ih
        exact this (y :: ys)
      · refine ⟨by simpa using hlt, ?_⟩
        intro row hr i x p hx hp
        obtain ⟨v, hv, rfl⟩ := List.mem_map.mp hr
        cases i with
        | zero =>
          simp at hx hp
          subst hx; subst hp
          exact ⟨h1.2 _ hv, h2.2 _ hv⟩
        | succ i => simp at hx
    · rw [if_neg, if_neg hlt]
      · rfl
      · rintro ⟨h, -⟩
        exact hlt (h (mn, mx) (by simp))

theorem discPointsFl_eq (X : Mat ℚ) (Y : List ℚ) (P : List (ℚ × ℚ)) (i : Nat) (p : ℚ × ℚ) (mn mx : ℚ)
    (hrow : ∀ row ∈ X, row.length = P.length) (hlen : X.length = Y.length) (hp : P[i]? = some p) :
    discPoints (X.map fun row => List.zipWith (unscaleEntryFl F) row P)
      (Y.map fun v => unscaleEntryFl F v (mn, mx)) i = .ok (scatterFl F X Y i p mn mx) := by
  unfold discPoints inputColumn
  rw [mapM_ok_of _ (fun row => row.getD i 0), pyBind_ok]
  · rw [if_neg (by simp [hlen]), pyPure]
    congr 1
    unfold scatterFl
    rw [List.map_map, List.zip_map]
    refine List.map_congr_left fun r hr => ?_
    have hr1 := hrow r.1 (List.of_mem_zip hr).1
    have hi : i < P.length := (List.getElem?_eq_some_iff.mp hp).1
    have hget : r.1[i]? = some r.1[i] := List.getElem?_eq_getElem (by omega)
    simp only [Prod.map, Function.comp, List.getD_eq_getElem?_getD, List.getElem?_zipWith, hp, hget]
    rfl
  · intro row hr
    obtain ⟨row', hr', rfl⟩ := List.mem_map.mp hr
    have hi : i < P.length := (List.getElem?_eq_some_iff.mp hp).1
    have := hrow row' hr'
    unfold pyGet
    rw [List.getD_eq_getElem?_getD, List.getElem?_eq_getElem (by simp; omega)]
    rfl

/-- Unscaling once: the error. -/
theorem unscaleEntryFl_err (hp : 2 ≤ F.p) {x lo hi : ℚ} (hx : IsFloat F x) (hl : IsFloat F lo)
    (hh : IsFloat F hi) (h : lo < hi) (h0 : lo ≤ x) (h1 : x ≤ hi) :
    |unscaleEntryFl F x (lo, hi) - (x - lo) / (hi - lo)| ≤ (2 : ℚ) ^ (2 - (F.p : ℤ)) + (2 : ℚ) ^ F.emin := by
  have hp1 : 1 ≤ F.p := by omega
  have hw := width_pos hp1 hl hh h
  have hwpos : 0 < hi - lo := by linarith
  have e1 := fl_add_err hp1 hx hl.neg
  have e2 := fl_add_err hp1 hh hl.neg
  rw [← sub_eq_add_neg] at e1 e2
  have hu0 := two_zpow_pos (-(F.p : ℤ))
  have hu4 : (2 : ℚ) ^ (-(F.p : ℤ)) ≤ 1 / 4 := by
    calc (2 : ℚ) ^ (-(F.p : ℤ)) ≤ (2 : ℚ) ^ (-2 : ℤ) := zpow_le_zpow_right₀ (by norm_num) (by omega)
      _ = 1 / 4 := by norm_num
  have e4 : (2 : ℚ) ^ (2 - (F.p : ℤ)) = 4 * (2 : ℚ) ^ (-(F.p : ℤ)) := by
    rw [sub_eq_add_neg, zpow_add₀ (by norm_num)]; norm_num
  have ee : (2 : ℚ) ^ (F.emin - 1) ≤ (2 : ℚ) ^ F.emin := zpow_le_zpow_right₀ (by norm_num) (by omega)
  unfold unscaleEntryFl fdiv
  simp only
  have hn : 0 ≤ fsub F x lo := fl_nonneg (sub_nonneg.2 h0)
  have hnm : fsub F x lo ≤ fsub F hi lo := fl_mono hp1 (by linarith)
  have hq0 : 0 ≤ fsub F x lo / fsub F hi lo := div_nonneg hn hw.le
  have hq1 : fsub F x lo / fsub F hi lo ≤ 1 := (div_le_one hw).2 hnm
  have e3 := fl_err_any (F := F) (fsub F x lo / fsub F hi lo)
  rw [abs_of_nonneg hq0] at e3
  rw [abs_of_nonneg (by linarith : 0 ≤ x - lo)] at e1
  rw [abs_of_pos hwpos] at e2
  unfold fsub at *
  generalize (2 : ℚ) ^ (-(F.p : ℤ)) = u at *
  generalize fl F (x - lo) = a at *
  generalize fl F (hi - lo) = b at *
  generalize ha' : x - lo = a' at *
  generalize hb' : hi - lo = b' at *
  have hab : a' ≤ b' := by linarith
  have ha0 : 0 ≤ a' := by linarith
  -- |a/b - a'/b'|
  have key : |a / b - a' / b'| ≤ 3 * u := by
    have : a / b - a' / b' = ((a - a') - (a' / b') * (b - b')) / b := by field_simp; ring
    rw [this, abs_div, abs_of_pos hw, div_le_iff₀ hw]
    have hr0 : 0 ≤ a' / b' := by positivity
    have hr1 : a' / b' ≤ 1 := (div_le_one hwpos).2 hab
    have hbb : b' * (1 - u) ≤ b := by have := (abs_le.1 e2).1; linarith
    have t1 : |(a - a') - (a' / b') * (b - b')| ≤ a' * u + (a' / b') * (b' * u) := by
      refine (abs_sub _ _).trans (add_le_add e1 ?_)
      rw [abs_mul, abs_of_nonneg hr0]
      exact mul_le_mul_of_nonneg_left e2 hr0
    have t2 : (a' / b') * (b' * u) = a' * u := by field_simp
    rw [t2] at t1
    refine t1.trans ?_
    have : b' * (2 / 3) ≤ b := by nlinarith
    nlinarith
  have := abs_sub_le (fl F (a / b)) (a / b) (a' / b')
  rw [e4]
  nlinarith

open Classical in
/-- The shares before grouping. -/
theorem discParamsFl_eq (hp : 2 ≤ F.p) (he : F.emin ≤ 0) (order : Nat → SumTree) (disc : List (ℚ × ℚ) → ℚ)
    (pb : Problem ℚ) (X : Mat ℚ) (Y : List ℚ) (P : List (ℚ × ℚ))
    (mn mx : ℚ) (hs : Spec.DiscShape pb P X Y) (hP : ∀ p ∈ P, IsFloat F p.1 ∧ IsFloat F p.2)
    (hY : ∀ y ∈ Y, IsFloat F y)
    (h1 : mn ∈ Y ∧ ∀ y ∈ Y, mn ≤ y) (h2 : mx ∈ Y ∧ ∀ y ∈ Y, y ≤ mx) :
    discParamsFl F order disc pb X Y =
      if Spec.DiscInputs P X Y then
        .ok ((P.zipIdx.map fun q => disc (scatterFl F X Y q.2 q.1 mn mx)).map fun v =>
          ratioFl F v (sumFl F (P.zipIdx.map fun q => disc (scatterFl F X Y q.2 q.1 mn mx)) (order P.length)))
      else .error .valueError := by
  have b0 : (pb.bounds.mapM fun b => pyGet b 0) = .ok (P.map (·.1)) := by
    rw [hs.bounds, mapM_ok_of _ (fun b => b.getD 0 0)]
    · rw [List.map_map]; rfl
    · intro b hb
      obtain ⟨p, -, rfl⟩ := List.mem_map.mp hb
      rfl
  have b1 : (pb.bounds.mapM fun b => pyGet b 1) = .ok (P.map (·.2)) := by
    rw [hs.bounds, mapM_ok_of _ (fun b => b.getD 1 0)]
    · rw [List.map_map]; rfl
    · intro b hb
      obtain ⟨p, -, rfl⟩ := List.mem_map.mp hb
      rfl
  have hlt : mn < mx ↔ ∃ y ∈ Y, ∃ y' ∈ Y, y ≠ y' := by
    constructor
    · intro h; exact ⟨mn, h1.1, mx, h2.1, ne_of_lt h⟩
    · rintro ⟨y, hy, y', hy', hne⟩
      rcases lt_or_gt_of_ne hne with h | h
      · exact lt_of_le_of_lt (h1.2 y hy) (lt_of_lt_of_le h (h2.2 y' hy'))
      · exact lt_of_le_of_lt (h1.2 y' hy') (lt_of_lt_of_le h (h2.2 y hy))
  unfold discParamsFl
  rw [b0, pyBind_ok, b1, pyBind_ok, qmcUnscaleFl_eq X P hs.rows, discScaleYFl_ok Y mn mx h1 h2]
  by_cases hA : (∀ p ∈ P, p.1 < p.2) ∧
        (∀ row ∈ X, ∀ (i : Nat) x p, row[i]? = some x → P[i]? = some p → p.1 ≤ x ∧ x ≤ p.2)
  · rw [if_pos hA, pyBind_ok]
    by_cases hB : mn < mx
    · rw [if_pos hB, if_pos ⟨hA.1, hA.2, hlt.mp hB⟩, pyBind_ok]
      rw [mapM_ok_of _ (fun i => disc (scatterFl F X Y i (P.getD i 0) mn mx)), pyBind_ok, pyPure]
      · have : (List.range pb.numVars).map (fun i => disc (scatterFl F X Y i (P.getD i 0) mn mx)) =
            P.zipIdx.map fun q => disc (scatterFl F X Y q.2 q.1 mn mx) := by
          apply List.ext_getElem?
          intro i
          rw [List.getElem?_map, List.getElem?_map, List.getElem?_zipIdx, hs.count]
          by_cases hi : i < P.length
          · rw [List.getElem?_range hi, List.getElem?_eq_getElem hi]
            simp [List.getElem?_eq_getElem hi]
          · rw [List.getElem?_eq_none (by simp; omega), List.getElem?_eq_none (by omega)]
            rfl
        rw [this]
        simp
      · intro i hi
        have hi' : i < P.length := by rw [← hs.count]; simpa using hi
        have hpi : P[i]? = some (P.getD i 0) := by
          rw [List.getD_eq_getElem?_getD, List.getElem?_eq_getElem hi']; rfl
        rw [discPointsFl_eq X Y P i _ mn mx hs.rows hs.length hpi, pyBind_ok]
        unfold qmcDiscrepancy
        rw [if_neg]
        rintro ⟨q, hq, hbad⟩
        obtain ⟨r, hr, rfl⟩ := List.mem_map.mp hq
        obtain ⟨hr1, hr2⟩ := List.of_mem_zip hr
        have hmem := List.mem_of_getElem? hpi
        obtain ⟨f1, f2⟩ := hP _ hmem
        have hrl := hs.rows _ hr1
        have hget : r.1[i]? = some (r.1.getD i 0) := by
          rw [List.getD_eq_getElem?_getD, List.getElem?_eq_getElem (by omega)]; rfl
        obtain ⟨a1, a2⟩ := hA.2 _ hr1 i _ _ hget hpi
        have u1 := unscaleEntryFl_range (by omega) he f1 f2 (hA.1 _ hmem) a1 a2
        have u2 := unscaleEntryFl_range (by omega) he (hY _ h1.1) (hY _ h2.1) hB (h1.2 _ hr2) (h2.2 _ hr2)
        simp only [Prod.mk.eta] at u1
        rcases hbad with h | h | h | h
        · exact absurd u1.1 (not_le.2 h)
        · exact absurd u1.2 (not_le.2 h)
        · exact absurd u2.1 (not_le.2 h)
        · exact absurd u2.2 (not_le.2 h)
    · have hn : ¬Spec.DiscInputs P X Y := fun h => hB (hlt.mpr h.2.2)
      rw [if_neg hB, if_neg hn]
      rfl
  · have hn : ¬Spec.DiscInputs P X Y := fun h => hA ⟨h.1, h.2.1⟩
    rw [if_neg hA, if_neg hn]
    rfl

end SALib
