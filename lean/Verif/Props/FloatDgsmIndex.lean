import Verif.Lemmas.FloatSobol
import Verif.Props.FloatDgsm

/-! # The DGSM index in floating point -/

namespace SALib
open Spec

variable {F : Fmt} (order : Nat → SumTree) (sqrt : ℚ → ℚ) (pi2 z conf : ℚ) (pb : Problem ℚ) (X : Mat ℚ) (Y : List ℚ)
  (draws : Nat → List (List Nat)) (N : Nat) (lo hi : Nat → ℚ)

theorem Spec.RoundedFrom.times {n : Nat} {c S x y k : ℚ} (h : RoundedFrom F n c S x y) (hk : 0 ≤ k) :
    RoundedFrom F n (k * c) (k * S) (k * x) (k * y) := by
  unfold RoundedFrom at *
  rw [← mul_sub, abs_mul, abs_of_nonneg hk]
  have := mul_le_mul_of_nonneg_left h hk
  linarith

theorem quotSqFl_nonneg (hp : 1 ≤ F.p) {d x q : ℚ} (h : quotSqFl F d x = some q) : IsFloat F q ∧ 0 ≤ q := by
  unfold quotSqFl at h
  split at h
  · cases h
  · cases h; exact ⟨isFloat_fl hp _, fl_nonneg (mul_self_nonneg _)⟩

theorem mem_of_mapM_id {γ : Type} (l : List (Num γ)) (l' : List γ) (h : l.mapM id = some l') : ∀ x ∈ l', some x ∈ l := by
  induction l generalizing l' with
  | nil => cases h; simp
  | cons a l ih =>
    rw [List.mapM_cons] at h
    cases a with
    | none => cases h
    | some y =>
      cases hl : l.mapM id with
      | none => simp [hl] at h
      | some t =>
        simp only [hl, id, Option.bind_eq_bind, Option.bind_some] at h
        cases h
        intro x hx
        rcases List.mem_cons.mp hx with rfl | hx
        · simp
        · exact List.mem_cons_of_mem _ (ih t hl x hx)

/-- A mean of squares is not negative. -/
theorem viFl_nonneg (hp : 1 ≤ F.p) (w j : Nat) (r : List Nat) {v : ℚ}
    (h : meanFlN F order (r.map (quotFl F w X Y j)) = some v) : 0 ≤ v := by
  unfold meanFlN at h
  cases hm : (r.map (quotFl F w X Y j)).mapM id with
  | none => simp [hm] at h
  | some l =>
    simp only [hm, Option.bind_eq_bind, Option.bind_some] at h
    have hl : ∀ y ∈ l, IsFloat F y ∧ 0 ≤ y := by
      intro y hy
      obtain ⟨i, -, hi⟩ := List.mem_map.mp (mem_of_mapM_id _ _ hm y hy)
      exact quotSqFl_nonneg hp hi
    exact meanFl_nonneg hp (fun y hy => (hl y hy).1) (fun y hy => (hl y hy).2) h

theorem dgsmIndexFl_rounded (hp : 1 ≤ F.p) {b0 b1 V v : ℚ} (h0 : IsFloat F b0) (h1 : IsFloat F b1) (hv : 0 ≤ v)
    (hT : 0 < fmul F V pi2) : ∃ G, dgsmIndexFl F pi2 b0 b1 V v = some G ∧
      RoundedFrom F 5 ((v + 1) / fmul F V pi2 + 1) (v * (b1 - b0) ^ 2 / fmul F V pi2)
        (v * (b1 - b0) ^ 2 / fmul F V pi2) G := by
  refine ⟨_, if_neg hT.ne', ?_⟩
  have hsq := (sq_fsub_rounded hp h1 h0).times (k := v) hv
  have habs : |v * (b1 - b0) ^ 2| ≤ v * (b1 - b0) ^ 2 := by rw [abs_of_nonneg (by positivity)]
  have := (hsq.rnd habs).quot habs hT
  rwa [mul_one] at this

/-- **C111**, the index.  There is one number `V`, near the variance of the base outputs, so that with `T` the rounded
product of `V` and the square of pi: the index is nan if `vi` is nan or `T` is 0, and otherwise five roundings away from
`vi` times the squared width over `T`. -/
theorem C111_index (hp : 2 ≤ F.p) (ho : SumOrder order) (hconf : 0 < conf ∧ conf < 1) (hN : 0 < N) (hpi : 0 < pi2)
    (hY : Y.length = N * (pb.numVars + 1)) (hX : X.length = N * (pb.numVars + 1))
    (hcols : HasCols pb.numVars X)
    (hb : ∀ j < pb.numVars, ∃ rest, pb.bounds[j]? = some (lo j :: hi j :: rest))
    (hbf : ∀ j < pb.numVars, IsFloat F (lo j) ∧ IsFloat F (hi j))
    (hdraws : ∀ j < pb.numVars, ∀ r ∈ draws j, ∀ i ∈ r, i < N) (hYf : ∀ y ∈ Y, IsFloat F y) :
    ∃ res E m V T, dgsmAnalyzeFl F order sqrt pi2 z conf pb X Y draws = .ok res ∧
      E = avg N (fun i => Y.getD (i * (pb.numVars + 1)) 0) ∧
      RoundedFrom F N 1 (avg N fun i => |Y.getD (i * (pb.numVars + 1)) 0|) E m ∧
      RoundedFrom F (N + 3) 2 (avg N (fun i => (Y.getD (i * (pb.numVars + 1)) 0 - E) ^ 2) + (m - E) ^ 2)
        (avg N (fun i => (Y.getD (i * (pb.numVars + 1)) 0 - E) ^ 2) + (m - E) ^ 2) V ∧
      RoundsTo F (V * pi2) T ∧ 0 ≤ T ∧
      ∀ j < pb.numVars, (T = 0 ∨ res.vi[j]? = some none → res.dgsm[j]? = some none) ∧
        ∀ v, 0 < T → res.vi[j]? = some (some v) → ∃ G, res.dgsm[j]? = some (some G) ∧ 0 ≤ v ∧
          RoundedFrom F 5 ((v + 1) / T + 1) (v * (hi j - lo j) ^ 2 / T) (v * (hi j - lo j) ^ 2 / T) G := by
  have hp1 : 1 ≤ F.p := by omega
  obtain ⟨res, hres, -, hval⟩ := dgsmAnalyzeFl_eq (F := F) order sqrt pi2 z conf pb X Y draws N lo hi hconf hY hX
    hcols hb hdraws
  have hl : (col N fun i => Y.getD (i * (pb.numVars + 1)) 0).length = N := length_col _ _
  have hYf' : ∀ i, IsFloat F (Y.getD i 0) := by
    intro i
    rw [List.getD_eq_getElem?_getD]
    by_cases hi : i < Y.length
    · rw [List.getElem?_eq_getElem hi]; exact hYf _ (List.getElem_mem hi)
    · rw [List.getElem?_eq_none (by omega)]; exact isFloat_zero
  obtain ⟨m, V, hV, -, hV0, -, -, hm, hVr⟩ := varFl_rounded hp1 ho (xs := col N fun i => Y.getD (i * (pb.numVars + 1)) 0)
    (col_ne_nil hN _) (by
      intro y hy
      obtain ⟨i, -, rfl⟩ := List.mem_map.mp hy
      exact hYf' _) (fun i => Y.getD (i * (pb.numVars + 1)) 0) (fun i hi => col_getD _ (by omega))
  rw [hl] at hm hVr
  have hT0 : 0 ≤ fmul F V pi2 := fl_nonneg (mul_nonneg hV0 hpi.le)
  refine ⟨res, _, m, V, fmul F V pi2, hres, rfl, hm, hVr, fl_roundsTo hp _, hT0, fun j hj => ?_⟩
  obtain ⟨h1, -, h3, -⟩ := hval j hj
  have hV' : varFl F order ((List.range N).map fun i => Y.getD (i * (pb.numVars + 1)) 0) = some V := hV
  rw [hV'] at h3
  refine ⟨?_, ?_⟩
  · rintro (h | h)
    · rw [h3]
      simp only [Option.bind_some, dgsmIndexFl, if_pos h]
      simp
    · rw [h1] at h
      rw [h3, Option.some.inj h]
      rfl
  · intro v hT hv
    rw [h1] at hv
    have hv' := Option.some.inj hv
    have hv0 := viFl_nonneg order X Y hp1 _ _ _ hv'
    obtain ⟨G, hG, hGr⟩ := dgsmIndexFl_rounded pi2 hp1 (hbf j hj).1 (hbf j hj).2 hv0 hT
    refine ⟨G, ?_, hv0, hGr⟩
    rw [h3, hv']
    exact congrArg some hG

/-- **C111**, signs: no statistic is negative. -/
theorem C111_nonneg (hp : 2 ≤ F.p) (hconf : 0 < conf ∧ conf < 1) (hpi : 0 < pi2) (hz : 0 ≤ z) (hs : ∀ t, 0 ≤ sqrt t)
    (hY : Y.length = N * (pb.numVars + 1)) (hX : X.length = N * (pb.numVars + 1))
    (hcols : HasCols pb.numVars X)
    (hb : ∀ j < pb.numVars, ∃ rest, pb.bounds[j]? = some (lo j :: hi j :: rest))
    (hdraws : ∀ j < pb.numVars, ∀ r ∈ draws j, ∀ i ∈ r, i < N) :
    ∃ res, dgsmAnalyzeFl F order sqrt pi2 z conf pb X Y draws = .ok res ∧ ∀ j < pb.numVars, ∀ v,
      (res.vi[j]? = some (some v) ∨ res.viStd[j]? = some (some v) ∨ res.dgsm[j]? = some (some v) ∨
        res.dgsmConf[j]? = some (some v)) → 0 ≤ v := by
  have hp1 : 1 ≤ F.p := by omega
  obtain ⟨res, hres, -, hval⟩ := dgsmAnalyzeFl_eq (F := F) order sqrt pi2 z conf pb X Y draws N lo hi hconf hY hX
    hcols hb hdraws
  refine ⟨res, hres, fun j hj v h => ?_⟩
  obtain ⟨h1, h2, h3, h4⟩ := hval j hj
  rcases h with h | h | h | h
  · rw [h1] at h
    exact viFl_nonneg order X Y hp1 _ _ _ (Option.some.inj h)
  · rw [h2] at h
    obtain ⟨l, -, hl⟩ := Option.bind_eq_some_iff.mp (Option.some.inj h)
    obtain ⟨w, -, rfl⟩ := Option.map_eq_some_iff.mp hl
    exact hs w
  · rw [h3] at h
    obtain ⟨V, hV, h⟩ := Option.bind_eq_some_iff.mp (Option.some.inj h)
    obtain ⟨u, hu, h⟩ := Option.bind_eq_some_iff.mp h
    have hu0 := viFl_nonneg order X Y hp1 _ _ _ hu
    have hV0 : 0 ≤ V := by
      unfold varFl at hV
      obtain ⟨μ, -, hV⟩ := Option.bind_eq_some_iff.mp hV
      exact meanFl_nonneg hp1 (fun y hy => (devSqFl_spec hp1 μ _ y hy).1) (fun y hy => (devSqFl_spec hp1 μ _ y hy).2) hV
    unfold dgsmIndexFl at h
    split at h
    · cases h
    · cases h
      exact fl_nonneg (div_nonneg (fl_nonneg (mul_nonneg hu0 (fl_nonneg (mul_self_nonneg _))))
        (fl_nonneg (mul_nonneg hV0 hpi.le)))
  · rw [h4] at h
    obtain ⟨w, hw, rfl⟩ := Option.map_eq_some_iff.mp (Option.some.inj h)
    refine fl_nonneg (mul_nonneg hz ?_)
    unfold std1FlN at hw
    obtain ⟨l, -, hw⟩ := Option.bind_eq_some_iff.mp hw
    unfold std1Fl at hw
    obtain ⟨μ, -, hw⟩ := Option.bind_eq_some_iff.mp hw
    split at hw
    · cases hw
    · cases hw; exact hs _

/-- The hypotheses are met in binary64 by the sample of the example in `FloatDgsm` and the product of the two inputs:
all statistics are finite. -/
example :
    let pb : Problem ℚ := { names := ["x", "y"], bounds := boundsTable [(1, 2), (-4, -1)] }
    let X : Mat ℚ := [[3 / 2, -5 / 2], [6822953435466301 / 4503599627370496, -5 / 2],
      [3 / 2, -5685794529555251 / 2251799813685248], [7 / 4, -13 / 4],
      [995014042672169 / 562949953421312, -13 / 4], [7 / 4, -7391532888421827 / 2251799813685248]]
    let Y := X.map fun r => fl binary64 (r.getD 0 0 * r.getD 1 0)
    SumOrder leftOrder ∧ 0 < fl binary64 (987 / 100) ∧ Y.length = 2 * (pb.numVars + 1) ∧ HasCols pb.numVars X ∧
      (∀ y ∈ Y, IsFloat binary64 y) ∧ (∀ t : ℚ, 0 ≤ |t|) ∧
      (dgsmAnalyzeFl binary64 leftOrder (fun t => |t|) (fl binary64 (987 / 100)) 2 (1 / 2) pb X Y
        fun _ => [[0, 1], [1, 1]]).map (fun r => ((r.vi, r.viStd), r.dgsm, r.dgsmConf)) =
        .ok (([some (4732298045947847 / 562949953421312), some (2990671627550725 / 1125899906842624)],
          [some (2617387429920613 / 562949953421312), some (1486539720753381 / 9007199254740992)]),
          [some (510894827244353 / 562949953421312), some (5811666064564095 / 2251799813685248)],
          [some (2617387429920613 / 562949953421312), some (5946158883013531 / 36028797018963968)]) := by
  intro pb X Y
  refine ⟨leftOrder_sumOrder, by decide +kernel, by decide +kernel, by unfold HasCols; decide +kernel, ?_, abs_nonneg, by decide +kernel⟩
  intro y hy
  obtain ⟨x, -, rfl⟩ := List.mem_map.mp hy
  exact isFloat_fl (by decide) _

end SALib
