import Verif.Lemmas.FloatDgsm
import Verif.Spec.FloatDgsm

/-! # C111: finite differences and DGSM in floating point -/

namespace SALib
open Spec

variable {F : Fmt}

/-- The points of the Sobol sequence need no rounding. -/
theorem C111_sobol_exact (hp : 31 ≤ F.p) (he : F.emin ≤ -31) (dirs : List (List Nat)) (hT : TableOk dirs)
    (L N D : Nat) (hN : 0 < N) (hNL : N ≤ 2 ^ L) (hL : L ≤ 31) (hD : D ≤ dirs.length + 1) :
    sobolSequenceFl F dirs L N D = sobolSequence dirs L N D :=
  sobolSequenceFl_exact hp he dirs hT L N D hN hNL hL hD

/-- **C111**, the sample.  With every operation rounded: `N * (D + 1)` rows of `D` numbers of the format,
each of them within the bounds (upper bound included, which scaling alone does not guarantee).  Block
`i` starts with the scaled Sobol point `skip + i`; its row `1 + j` repeats that point to the last bit,
except for coordinate `j`, which is the rounded step. -/
theorem C111_sample (hp : 32 ≤ F.p) (he : F.emin ≤ -31) (dirs : List (List Nat)) (hT : TableOk dirs) (L : Nat)
    (junk : ℚ) (pb : Problem ℚ) (bs : List (ℚ × ℚ)) (N : Nat) (delta : ℚ) (skip : Nat) (hN : 0 < N + skip)
    (hNL : N + skip ≤ 2 ^ L) (hL : L ≤ 31) (hD : bs.length ≤ dirs.length + 1)
    (hn : pb.numVars = bs.length) (hb : pb.bounds = boundsTable bs) (hne : bs ≠ [])
    (hlegal : ∀ p ∈ bs, p.1 < p.2) (hfl : ∀ p ∈ bs, IsFloat F p.1 ∧ IsFloat F p.2) :
    ∃ U out, sobolSequence dirs L (N + skip) bs.length = .ok U ∧
      finiteDiffSampleFl F dirs L junk pb N delta skip = .ok out ∧ out.length = N * (bs.length + 1) ∧
      HasCols bs.length out ∧
      ∀ i < N, ∀ c lo hi, bs[c]? = some (lo, hi) → ∃ u x, entry U (skip + i) c = some u ∧
        |x - (lo + u * (hi - lo))| ≤ (2 : ℚ) ^ (3 - (F.p : ℤ)) * max |lo| |hi| + (2 : ℚ) ^ F.emin ∧
        entry out (i * (bs.length + 1)) c = some x ∧ IsFloat F x ∧ lo ≤ x ∧ x ≤ hi ∧
        ∀ j < bs.length, ∃ y, entry out (i * (bs.length + 1) + (1 + j)) c = some y ∧ IsFloat F y ∧
          lo ≤ y ∧ y ≤ hi ∧ (j ≠ c → y = x) ∧ (j = c → RoundedStep F lo hi delta x y) := by
  have hp1 : 1 ≤ F.p := by omega
  obtain ⟨U, hU, hUlen, hUcols, -, hUx⟩ := C19_range (α := ℚ) dirs hT L (N + skip) bs.length hN hNL hL hD
  have hUF : sobolSequenceFl F dirs L (N + skip) pb.numVars = .ok U := by
    rw [hn, sobolSequenceFl_exact (by omega) he dirs hT L _ _ hN hNL hL hD, hU]
  have hunit : ∀ row ∈ U, ∀ u ∈ row, 0 ≤ u ∧ u ≤ 1 - (2 : ℚ) ^ (1 - (F.p : ℤ)) := by
    intro row hrow u hu
    obtain ⟨X, hX, rfl⟩ := hUx row hrow u hu
    refine ⟨by positivity, ?_⟩
    have h1 : (2 : ℚ) ^ (1 - (F.p : ℤ)) ≤ (2 : ℚ) ^ (-31 : ℤ) := two_zpow_le (by omega)
    have h2 : ((X : ℚ) + 1) ≤ 2 ^ 31 := by exact_mod_cast hX
    have h3 : (X : ℚ) / 2 ^ 31 ≤ 1 - (2 : ℚ) ^ (-31 : ℤ) := by
      rw [div_le_iff₀ (by positivity)]
      norm_num at h2 ⊢
      linarith
    exact h3.trans (sub_le_sub_left h1 1)
  set X := U.map fun row => List.zipWith (scaleEntryFl F) row bs with hXdef
  have hscale : scaleUniformFl F pb.numVars U pb.bounds = .ok X := by
    rw [hn, hb, scaleUniformFl_legal bs hne hlegal]
  have hXlen : X.length = N + skip := by simp [hXdef, hUlen]
  have hXcols : HasCols pb.numVars X := by
    intro row hrow
    obtain ⟨r, hr, rfl⟩ := List.mem_map.mp hrow
    simp [hUcols r hr, hn]
  have hXf : ∀ row ∈ X, ∀ x ∈ row, IsFloat F x := by
    intro row hrow x hx
    obtain ⟨r, hr, rfl⟩ := List.mem_map.mp hrow
    obtain ⟨k, hk, rfl⟩ := List.getElem_of_mem hx
    rw [List.getElem_zipWith]
    exact isFloat_fl hp1 _
  have hbb : ∀ j < pb.numVars, ∃ rest, pb.bounds[j]? = some ((bs.getD j (0, 0)).1 ::
      (bs.getD j (0, 0)).2 :: rest) := by
    intro j hj
    have : j < bs.length := by omega
    refine ⟨[], ?_⟩
    rw [hb]
    simp [boundsTable, List.getD, List.getElem?_eq_getElem this]
  have hsample := finiteDiffSampleFl_eq hp1 dirs L junk pb N delta skip U X (fun j => (bs.getD j (0, 0)).1)
    (fun j => (bs.getD j (0, 0)).2) hUF hscale hXlen hXcols hXf hbb
  rw [hn] at hXcols hsample
  refine ⟨U, _, hU, hsample, ?_, ?_, ?_⟩
  · rw [List.length_flatMap]
    simp only [length_fdRowsFl]
    simp [hXlen]
  · intro r hr
    obtain ⟨row, hrow, hr⟩ := List.mem_flatMap.mp hr
    exact hasCols_fdRowsFl _ _ _ _ _ (hXcols _ (List.drop_subset _ _ hrow)) r hr
  · intro i hiN c lo hi hbc
    have hc : c < bs.length := (List.getElem?_eq_some_iff.mp hbc).1
    have hmem := List.mem_of_getElem? hbc
    have hlt : lo < hi := hlegal _ hmem
    obtain ⟨hl, hh⟩ := hfl _ hmem
    have hbd : bs.getD c (0, 0) = (lo, hi) := by simp [List.getD, hbc]
    have hUi : skip + i < U.length := by omega
    have hi' : skip + i < X.length := by omega
    have huc : c < (U[skip + i]).length := by rw [hUcols _ (List.getElem_mem _)]; exact hc
    have hrl : (X[skip + i]).length = bs.length := hXcols _ (List.getElem_mem _)
    have hc' : c < (X[skip + i]).length := by omega
    obtain ⟨u0, u1⟩ := hunit _ (List.getElem_mem hUi) _ (List.getElem_mem huc)
    have hxval : X[skip + i][c] = scaleEntryFl F U[skip + i][c] (lo, hi) := by
      have hbc' : bs[c] = (lo, hi) := by
        have := List.getElem?_eq_getElem hc
        rw [hbc] at this
        exact (Option.some.inj this).symm
      simp only [hXdef, List.getElem_map, List.getElem_zipWith, hbc']
    have hget : (X.drop skip)[i]? = some X[skip + i] := by
      rw [List.getElem?_drop, List.getElem?_eq_getElem hi']
    have hrow : ∀ a < bs.length + 1, ((X.drop skip).flatMap (fdRowsFl F bs.length
        (fun j => (bs.getD j (0, 0)).1) (fun j => (bs.getD j (0, 0)).2) delta))[i * (bs.length + 1) + a]? =
        (fdRowsFl F bs.length (fun j => (bs.getD j (0, 0)).1) (fun j => (bs.getD j (0, 0)).2) delta
          X[skip + i])[a]? := fun a ha =>
      flatMap_block _ _ _ (fun _ _ => length_fdRowsFl _ _ _ _ _) i a _ hget ha
    have hxf : IsFloat F X[skip + i][c] := hXf _ (List.getElem_mem hi') _ (List.getElem_mem hc')
    have hxlo : lo ≤ X[skip + i][c] := by rw [hxval]; exact scaleEntryFl_lower hp1 hl hlt u0
    have hxhi : X[skip + i][c] ≤ hi := by rw [hxval]; exact scaleEntryFl_upper (by omega) hl hh hlt u0 u1
    refine ⟨U[skip + i][c], X[skip + i][c], ?_, ?_, ?_, hxf, hxlo, hxhi, ?_⟩
    · unfold entry; rw [List.getElem?_eq_getElem hUi]; simp
    · rw [hxval]
      have := two_zpow_pos (1 - (F.p : ℤ))
      exact scaleEntryFl_err (by omega) hl hh hlt u0 (by linarith)
    · have := hrow 0 (by omega)
      rw [Nat.add_zero] at this
      unfold entry
      rw [this]
      simp [fdRowsFl, hc']
    · intro j hj
      have hval : entry ((X.drop skip).flatMap (fdRowsFl F bs.length (fun j => (bs.getD j (0, 0)).1)
          (fun j => (bs.getD j (0, 0)).2) delta)) (i * (bs.length + 1) + (1 + j)) c =
          some (if j = c then stepFl F lo hi delta X[skip + i][c] else X[skip + i][c]) := by
        unfold entry
        rw [hrow (1 + j) (by omega), Nat.add_comm 1 j]
        simp only [fdRowsFl, List.getElem?_cons_succ, List.getElem?_map, List.getElem?_range hj,
          Option.map_some, Option.bind_some, List.getElem?_set, hrl, hj, if_true]
        by_cases hcj : j = c
        · subst hcj
          simp [hbc, List.getD, List.getElem?_eq_getElem hc']
        · rw [if_neg hcj, if_neg hcj, List.getElem?_eq_getElem hc']
      refine ⟨_, hval, ?_⟩
      by_cases hcj : j = c
      · rw [if_pos hcj]
        obtain ⟨h1, h2⟩ := clip_mem lo hi
          (fl F (X[skip + i][c] + fl F (X[skip + i][c] * delta))) hlt.le
        exact ⟨stepFl_isFloat hp1 hl hh, h1, h2, fun h => absurd hcj h, fun _ =>
          ⟨_, _, fl_roundsTo (by omega) _, fl_roundsTo (by omega) _, rfl⟩⟩
      · rw [if_neg hcj]
        exact ⟨hxf, hxlo, hxhi, fun _ => rfl, fun h => absurd h hcj⟩

/-- **C111**, one step.  For `delta` between 0 and 1 the step goes away from zero and the difference that
the analysis computes from it is exact.  A `delta` of at least `2 ^ (1 - p)` is lost only at the bound, as
long as the product with the value is not below the normal numbers; a `delta` of at most `2 ^ (-p - 2)` is
always lost. -/
theorem C111_step (hp : 2 ≤ F.p) (lo hi delta x y : ℚ) (hl : IsFloat F lo) (hh : IsFloat F hi)
    (hx : IsFloat F x) (hlo : lo ≤ x) (hhi : x ≤ hi) (hd0 : 0 < delta) (hd1 : delta ≤ 1)
    (hy : RoundedStep F lo hi delta x y) :
    RoundsTo F (y - x) (y - x) ∧ (0 ≤ x → x ≤ y) ∧ (x ≤ 0 → y ≤ x) ∧
      ((2 : ℚ) ^ (1 - (F.p : ℤ)) ≤ delta → (2 : ℚ) ^ (F.emin + F.p - 1) ≤ |x * delta| →
        (y = x ↔ (0 < x ∧ x = hi) ∨ (x < 0 ∧ x = lo))) ∧
      (delta ≤ (2 : ℚ) ^ (-(F.p : ℤ) - 2) → y = x) := by
  have hp1 : 1 ≤ F.p := by omega
  have hys : y = stepFl F lo hi delta x := by
    obtain ⟨t, s, ht, hs, rfl⟩ := hy
    rw [ht.unique hp] at hs
    rw [hs.unique hp]
    rfl
  have hlh : lo ≤ hi := hlo.trans hhi
  have hup : 0 ≤ x → x ≤ y := fun h0 => by rw [hys]; exact (stepFl_pos hp1 hx hlo hhi h0 hd0.le hd1).1
  have hdown : x ≤ 0 → y ≤ x := fun h0 => by
    have := (stepFl_pos (lo := -hi) (hi := -lo) hp1 hx.neg (by linarith) (by linarith) (by linarith)
      hd0.le hd1).1
    rw [stepFl_neg lo hi delta x hlh] at this
    rw [hys]; linarith
  have hex := stepFl_exact hp1 hl hh hx hlo hhi hd0.le hd1
  rw [← hys] at hex
  refine ⟨?_, hup, hdown, ?_, ?_⟩
  · have := fl_roundsTo (F := F) hp (y - x)
    rwa [fl_eq hp1 hex] at this
  · intro hd hnorm
    have hne := moved_ne hp hd hnorm hx
    have hx0 : x ≠ 0 := by
      rintro rfl
      rw [zero_mul, abs_zero] at hnorm
      exact absurd hnorm (not_le.2 (two_zpow_pos _))
    rw [hys]
    unfold stepFl clip
    set v := fl F (x + fl F (x * delta)) with hv
    rcases lt_or_gt_of_ne hx0 with hneg | hpos
    · have hvx : v < x := by
        refine lt_of_le_of_ne ?_ hne
        refine fl_le_of_le hp1 hx ?_
        have : 0 ≤ fl F (-x * delta) := fl_nonneg (mul_nonneg (by linarith) hd0.le)
        rw [neg_mul, fl_neg] at this
        linarith
      rw [min_eq_left (by linarith)]
      constructor
      · intro h
        refine Or.inr ⟨hneg, ?_⟩
        rcases max_choice v lo with h' | h' <;> rw [h'] at h
        · linarith
        · exact h.symm
      · rintro (⟨h, -⟩ | ⟨-, h⟩)
        · linarith
        · rw [h, max_eq_right (by linarith)]
    · have hvx : x < v := by
        refine lt_of_le_of_ne ?_ (Ne.symm hne)
        refine le_fl_of_le hp1 hx ?_
        have : 0 ≤ fl F (x * delta) := fl_nonneg (mul_nonneg hpos.le hd0.le)
        linarith
      have hmin : x ≤ min v hi := le_min hvx.le hhi
      rw [max_eq_left (by linarith)]
      constructor
      · intro h
        refine Or.inl ⟨hpos, ?_⟩
        rcases min_choice v hi with h' | h' <;> rw [h'] at h
        · linarith
        · exact h.symm
      · rintro (⟨-, h⟩ | ⟨h, -⟩)
        · rw [h, min_eq_right (by linarith)]
        · linarith
  · intro hd
    rw [hys, stepFl, moved_eq hp hd0.le hd hx]
    unfold clip
    rw [min_eq_left hhi, max_eq_left hlo]

/-- The hypotheses are met in binary64 by the value 1 on [0, 2] with the default step 0.01, rounded. -/
example : ∃ y, RoundedStep binary64 0 2 (fl binary64 (1 / 100)) 1 y ∧ 0 < fl binary64 (1 / 100) ∧
    fl binary64 (1 / 100) ≤ 1 ∧ (2 : ℚ) ^ (1 - (binary64.p : ℤ)) ≤ fl binary64 (1 / 100) ∧
    (2 : ℚ) ^ (binary64.emin + binary64.p - 1) ≤ |1 * fl binary64 (1 / 100)| ∧ 1 < y := by
  refine ⟨stepFl binary64 0 2 (fl binary64 (1 / 100)) 1,
    ⟨_, _, fl_roundsTo (by decide) _, fl_roundsTo (by decide) _, rfl⟩, ?_⟩
  have h : fl binary64 (1 / 100) = 5764607523034235 / 576460752303423488 := by decide +kernel
  rw [h]
  refine ⟨by norm_num, by norm_num, ?_, ?_, by decide +kernel⟩
  · simp only [binary64]; norm_num
  · rw [one_mul, abs_of_pos (by norm_num : (0 : ℚ) < 5764607523034235 / 576460752303423488)]
    refine (two_zpow_le (b := -10) (by decide)).trans ?_
    norm_num

variable (order : Nat → SumTree) (sqrt : ℚ → ℚ) (pi2 z conf : ℚ) (pb : Problem ℚ) (X : Mat ℚ) (Y : List ℚ)
  (draws : Nat → List (List Nat)) (N : Nat) (lo hi : Nat → ℚ)

/-- **C111**, `vi`.  In whatever order NumPy adds, and whatever the outputs are: when no step is lost, the
steps are exact (`C111_step`) and no difference quotient is so small that its square underflows, the
reported `vi` is the exact mean of the squared difference quotients up to `N + 5` roundings. -/
theorem C111_vi (hp : 2 ≤ F.p) (he : F.emin ≤ 0) (ho : SumOrder order) (hconf : 0 < conf ∧ conf < 1)
    (hN : 0 < N) (hN2 : N ≤ 2 ^ F.p)
    (hY : Y.length = N * (pb.numVars + 1)) (hX : X.length = N * (pb.numVars + 1))
    (hcols : HasCols pb.numVars X)
    (hb : ∀ j < pb.numVars, ∃ rest, pb.bounds[j]? = some (lo j :: hi j :: rest))
    (hdraws : ∀ j < pb.numVars, ∀ r ∈ draws j, ∀ i ∈ r, i < N)
    (hYf : ∀ y ∈ Y, IsFloat F y) (k : ℤ) (hk : F.emin + 2 * F.p + 1 ≤ 2 * k) :
    ∃ res, dgsmAnalyzeFl F order sqrt pi2 z conf pb X Y draws = .ok res ∧ ∀ j < pb.numVars, ∀ q : Nat → ℚ,
      (∀ i < N, ∃ a b x x', Y[i * (pb.numVars + 1) + (1 + j)]? = some a ∧ Y[i * (pb.numVars + 1)]? = some b ∧
        entry X (i * (pb.numVars + 1) + (1 + j)) j = some x' ∧ entry X (i * (pb.numVars + 1)) j = some x ∧
        x' ≠ x ∧ IsFloat F (x' - x) ∧ q i = (a - b) / (x' - x) ∧ (q i = 0 ∨ (2 : ℚ) ^ k ≤ |q i|)) →
      ∃ v, res.vi[j]? = some (some v) ∧ NearlyEqual F.p (N + 5) ((∑ i ∈ Finset.range N, q i ^ 2) / N) v := by
  have hp1 : 1 ≤ F.p := by omega
  obtain ⟨res, hres, -, hval⟩ := dgsmAnalyzeFl_eq (F := F) order sqrt pi2 z conf pb X Y draws N lo hi hconf hY hX
    hcols hb hdraws
  refine ⟨res, hres, fun j hj q hq => ?_⟩
  obtain ⟨hvi, -⟩ := hval j hj
  have hQ : ∀ i, ∃ g, i < N → quotFl F (pb.numVars + 1) X Y j i = some g ∧ IsFloat F g ∧ 0 ≤ g ∧
      Within ((2 : ℚ) ^ (-(F.p : ℤ))) 5 (q i ^ 2) g ∧ (g = 0 ∨ (2 : ℚ) ^ (2 * k - 2) ≤ g) := by
    intro i
    by_cases hi : i < N
    · obtain ⟨a, b, x, x', ha, hb', hx', hx, hne, hex, hqi, hbig⟩ := hq i hi
      have hs : x' - x ≠ 0 := sub_ne_zero.2 hne
      have hab : a = b ∨ (2 : ℚ) ^ k ≤ |(a - b) / (x' - x)| := by
        rw [← hqi]
        rcases hbig with h | h
        · left
          rw [hqi, div_eq_zero_iff] at h
          rcases h with h | h
          · linarith
          · exact absurd h hs
        · exact Or.inr h
      obtain ⟨g, hg, h2, h3, h4, h5⟩ := quotSqFl_within hp he (hYf a (List.mem_of_getElem? ha))
        (hYf b (List.mem_of_getElem? hb')) hs hk hab
      refine ⟨g, fun _ => ⟨?_, h2, h3, by rw [hqi]; exact h4, h5⟩⟩
      have e : ∀ r v, entry X r j = some v → (X.getD r []).getD j 0 = v := by
        intro r v hv
        unfold entry at hv
        obtain ⟨row, hrow, hv⟩ := Option.bind_eq_some_iff.mp hv
        simp [List.getD, hrow, hv]
      unfold quotFl
      rw [e _ _ hx', e _ _ hx, show fsub F x' x = x' - x from fl_eq hp1 hex]
      simp only [List.getD, ha, hb', Option.getD_some]
      exact hg
    · exact ⟨0, fun h => absurd h hi⟩
  choose g hg using hQ
  have hm : ((List.range N).map (quotFl F (pb.numVars + 1) X Y j)).mapM id = some ((List.range N).map g) :=
    mapM_some_map _ _ _ fun i hi => (hg i (List.mem_range.mp hi)).1
  obtain ⟨v, hv, hw⟩ := meanFl_within hp ho hN hN2 (fun i => q i ^ 2) g (fun i _ => sq_nonneg _)
    (fun i hi => (hg i hi).2.2.1) (fun i hi => (hg i hi).2.1) (fun i hi => (hg i hi).2.2.2.1)
    (fun i hi => (hg i hi).2.2.2.2.imp_right fun h => (two_zpow_le (by omega)).trans h)
  refine ⟨v, ?_, ?_⟩
  · rw [hvi]
    unfold meanFlN
    rw [hm]
    exact congrArg some hv
  · rw [sum_range_list, Nat.add_comm 5 N] at hw
    exact hw

/-- **C111**, lost steps: if some step of a parameter is lost, `vi`, `vi_std` and `dgsm` are not finite. -/
theorem C111_lost (hconf : 0 < conf ∧ conf < 1)
    (hY : Y.length = N * (pb.numVars + 1)) (hX : X.length = N * (pb.numVars + 1))
    (hcols : HasCols pb.numVars X)
    (hb : ∀ j < pb.numVars, ∃ rest, pb.bounds[j]? = some (lo j :: hi j :: rest))
    (hdraws : ∀ j < pb.numVars, ∀ r ∈ draws j, ∀ i ∈ r, i < N) :
    ∃ res, dgsmAnalyzeFl F order sqrt pi2 z conf pb X Y draws = .ok res ∧ ∀ j < pb.numVars,
      (∃ i < N, entry X (i * (pb.numVars + 1) + (1 + j)) j = entry X (i * (pb.numVars + 1)) j) →
      res.vi[j]? = some none ∧ res.viStd[j]? = some none ∧ res.dgsm[j]? = some none := by
  obtain ⟨res, hres, -, hval⟩ := dgsmAnalyzeFl_eq (F := F) order sqrt pi2 z conf pb X Y draws N lo hi hconf hY hX
    hcols hb hdraws
  refine ⟨res, hres, fun j hj ⟨i, hi, hi2⟩ => ?_⟩
  obtain ⟨h1, h2, h3, -⟩ := hval j hj
  have e : ∀ r, (X.getD r []).getD j 0 = (entry X r j).getD 0 := by
    intro r
    unfold entry
    cases h : X[r]? <;> simp [List.getD, h]
  have hq : quotFl F (pb.numVars + 1) X Y j i = none := by
    unfold quotFl
    rw [e, e, hi2, fsub, fsub, sub_self, fl_zero, quotSqFl, if_pos rfl]
  have hm : ((List.range N).map (quotFl F (pb.numVars + 1) X Y j)).mapM id = none :=
    mapM_none _ (List.mem_map.mpr ⟨i, List.mem_range.mpr hi, hq⟩)
  have hmean : meanFlN F order ((List.range N).map (quotFl F (pb.numVars + 1) X Y j)) = none := by
    unfold meanFlN; rw [hm]; rfl
  rw [h1, h2, h3, hmean, hm]
  refine ⟨rfl, rfl, ?_⟩
  cases varFl F order ((List.range N).map fun i => Y.getD (i * (pb.numVars + 1)) 0) <;> rfl

/-- **C111**, ignored parameters: when moving parameter `j` does not change the output to the last bit and
no step is lost, `vi`, `vi_std` and the confidence value are exactly 0, and `dgsm` is exactly 0 unless it is
not finite. -/
theorem C111_ignored (hp : 2 ≤ F.p) (hconf : 0 < conf ∧ conf < 1) (hN : 0 < N) (hs : sqrt 0 = 0)
    (hY : Y.length = N * (pb.numVars + 1)) (hX : X.length = N * (pb.numVars + 1))
    (hcols : HasCols pb.numVars X)
    (hb : ∀ j < pb.numVars, ∃ rest, pb.bounds[j]? = some (lo j :: hi j :: rest))
    (hdraws : ∀ j < pb.numVars, 2 ≤ (draws j).length ∧ ∀ r ∈ draws j, r ≠ [] ∧ ∀ i ∈ r, i < N)
    (hXf : ∀ row ∈ X, ∀ x ∈ row, IsFloat F x) :
    ∃ res, dgsmAnalyzeFl F order sqrt pi2 z conf pb X Y draws = .ok res ∧ ∀ j < pb.numVars,
      (∀ i < N, Y[i * (pb.numVars + 1) + (1 + j)]? = Y[i * (pb.numVars + 1)]?) →
      (∀ i < N, entry X (i * (pb.numVars + 1) + (1 + j)) j ≠ entry X (i * (pb.numVars + 1)) j) →
      res.vi[j]? = some (some 0) ∧ res.viStd[j]? = some (some 0) ∧ res.dgsmConf[j]? = some (some 0) ∧
        (res.dgsm[j]? = some (some 0) ∨ res.dgsm[j]? = some none) := by
  have hp1 : 1 ≤ F.p := by omega
  obtain ⟨res, hres, -, hval⟩ := dgsmAnalyzeFl_eq (F := F) order sqrt pi2 z conf pb X Y draws N lo hi hconf hY hX
    hcols hb (fun j hj r hr => ((hdraws j hj).2 r hr).2)
  refine ⟨res, hres, fun j hj hsame hstep => ?_⟩
  obtain ⟨h1, h2, h3, h4⟩ := hval j hj
  have e : ∀ r, (X.getD r []).getD j 0 = (entry X r j).getD 0 := by
    intro r
    unfold entry
    cases h : X[r]? <;> simp [List.getD, h]
  have hent : ∀ i < N, ∀ a < pb.numVars + 1, ∃ x, entry X (i * (pb.numVars + 1) + a) j = some x ∧ IsFloat F x := by
    intro i hi a ha
    have hlt : i * (pb.numVars + 1) + a < X.length := by
      rw [hX]
      calc i * (pb.numVars + 1) + a < i * (pb.numVars + 1) + (pb.numVars + 1) := by omega
        _ = (i + 1) * (pb.numVars + 1) := by ring
        _ ≤ N * (pb.numVars + 1) := Nat.mul_le_mul_right _ hi
    have hjl : j < (X[i * (pb.numVars + 1) + a]).length := by rw [hcols _ (List.getElem_mem _)]; exact hj
    exact ⟨_, by unfold entry; rw [List.getElem?_eq_getElem hlt]; simp [hjl],
      hXf _ (List.getElem_mem hlt) _ (List.getElem_mem hjl)⟩
  have hq : ∀ i < N, quotFl F (pb.numVars + 1) X Y j i = some 0 := by
    intro i hi
    obtain ⟨x, hx, hxf⟩ := hent i hi 0 (by omega)
    obtain ⟨x', hx', hxf'⟩ := hent i hi (1 + j) (by omega)
    rw [Nat.add_zero] at hx
    have hne : x' ≠ x := by
      have := hstep i hi
      rw [hx, hx'] at this
      exact fun h => this (by rw [h])
    have hd : fsub F x' x ≠ 0 := by
      intro h0
      have h := fl_sub_err hp1 hxf' hxf
      unfold fsub at h0
      rw [h0, zero_sub, abs_neg] at h
      have hu4 := u_le_quarter hp
      have := abs_pos.2 (sub_ne_zero.2 hne)
      nlinarith
    unfold quotFl
    rw [e, e, hx, hx', List.getD, List.getD, hsame i hi, Option.getD_some, Option.getD_some, quotSqFl, if_neg hd]
    simp [fsub, fdiv, fmul, fl_zero]
  have hm : ∀ r : List Nat, (∀ i ∈ r, i < N) →
      (r.map (quotFl F (pb.numVars + 1) X Y j)).mapM id = some (r.map fun _ => 0) := fun r hr =>
    mapM_some_map _ _ _ fun i hi => hq i (hr i hi)
  have hmean : ∀ r : List Nat, r ≠ [] → (∀ i ∈ r, i < N) →
      meanFlN F order (r.map (quotFl F (pb.numVars + 1) X Y j)) = some 0 := by
    intro r hne hr
    unfold meanFlN
    rw [hm r hr]
    exact meanFl_zeros (by simpa using hne) (by simp)
  have hrN : List.range N ≠ [] := by simp; omega
  have hrN2 : ∀ i ∈ List.range N, i < N := fun i hi => List.mem_range.mp hi
  rw [h1, h2, h3, h4, hmean _ hrN hrN2, hm _ hrN2]
  refine ⟨rfl, ?_, ?_, ?_⟩
  · show some (std0Fl F order sqrt _) = _
    rw [std0Fl, varFl_zeros (by simpa using hrN) (by simp), Option.map_some, hs]
  · have hc : (draws j).map (fun r => meanFlN F order (r.map (quotFl F (pb.numVars + 1) X Y j))) =
        (draws j).map fun _ => some 0 := List.map_congr_left fun r hr =>
      hmean r ((hdraws j hj).2 r hr).1 ((hdraws j hj).2 r hr).2
    unfold std1FlN
    rw [hc, mapM_some_map (draws j) (fun _ => some 0) (fun _ => (0 : ℚ)) (fun _ _ => rfl)]
    show some (Option.map _ (std1Fl F order sqrt _)) = _
    rw [std1Fl_zeros hs (by simpa using (hdraws j hj).1) (by simp), Option.map_some, fmul, mul_zero, fl_zero]
  · cases varFl F order ((List.range N).map fun i => Y.getD (i * (pb.numVars + 1)) 0) with
    | none => exact Or.inr rfl
    | some D =>
      show some (dgsmIndexFl F pi2 (lo j) (hi j) D 0) = _ ∨ some (dgsmIndexFl F pi2 (lo j) (hi j) D 0) = _
      unfold dgsmIndexFl
      by_cases hD : fmul F D pi2 = 0
      · rw [if_pos hD]; exact Or.inr rfl
      · left
        rw [if_neg hD, fmul, zero_mul, fl_zero, fdiv, zero_div, fl_zero]

/-- **C111**, sampler, model and analyser together.  When the outputs are numbers of the format and change
with parameter `j` exactly by `c` times the step, `vi` of `j` is `c ^ 2` up to `N + 5` roundings: the
rounding of the steps does not matter.  Steps that do not fall below the normal numbers are lost only where
the base value is the bound away from zero. -/
theorem C111_linear (hp : 32 ≤ F.p) (he : F.emin ≤ -31) (dirs : List (List Nat)) (hT : TableOk dirs) (L : Nat)
    (junk : ℚ) (bs : List (ℚ × ℚ)) (delta : ℚ) (skip : Nat) (hN : 0 < N)
    (hNL : N + skip ≤ 2 ^ L) (hL : L ≤ 31) (hD : bs.length ≤ dirs.length + 1)
    (hn : pb.numVars = bs.length) (hb : pb.bounds = boundsTable bs) (hne : bs ≠ [])
    (hlegal : ∀ p ∈ bs, p.1 < p.2) (hfl : ∀ p ∈ bs, IsFloat F p.1 ∧ IsFloat F p.2)
    (hd : (2 : ℚ) ^ (1 - (F.p : ℤ)) ≤ delta) (hd1 : delta ≤ 1)
    (ho : SumOrder order) (hconf : 0 < conf ∧ conf < 1)
    (hdraws : ∀ j < pb.numVars, ∀ r ∈ draws j, ∀ i ∈ r, i < N) (k : ℤ) (hk : F.emin + 2 * F.p + 1 ≤ 2 * k)
    (model : List ℚ → ℚ) :
    ∃ out, finiteDiffSampleFl F dirs L junk pb N delta skip = .ok out ∧
      ((∀ row ∈ out, IsFloat F (model row)) →
      ∃ res, dgsmAnalyzeFl F order sqrt pi2 z conf pb out (out.map model) draws = .ok res ∧
        ∀ j lo hi c, bs[j]? = some (lo, hi) → (c = 0 ∨ (2 : ℚ) ^ k ≤ |c|) →
          (∀ i < N, ∀ r r' x x', out[i * (bs.length + 1)]? = some r → r[j]? = some x →
            out[i * (bs.length + 1) + (1 + j)]? = some r' → r'[j]? = some x' →
            model r' - model r = c * (x' - x) ∧ (2 : ℚ) ^ (F.emin + F.p - 1) ≤ |x * delta| ∧
              ¬ (0 < x ∧ x = hi) ∧ ¬ (x < 0 ∧ x = lo)) →
          ∃ v, res.vi[j]? = some (some v) ∧ NearlyEqual F.p (N + 5) (c ^ 2) v) := by
  have hp1 : 1 ≤ F.p := by omega
  have hd0 : 0 < delta := lt_of_lt_of_le (two_zpow_pos _) hd
  obtain ⟨U, out, -, hout, hlen, hcols, hent⟩ := C111_sample hp he dirs hT L junk pb bs N delta skip
    (by omega) hNL hL hD hn hb hne hlegal hfl
  refine ⟨out, hout, fun hmodel => ?_⟩
  have hbb : ∀ j < pb.numVars, ∃ rest, pb.bounds[j]? = some ((bs.getD j (0, 0)).1 ::
      (bs.getD j (0, 0)).2 :: rest) := by
    intro j hj
    have : j < bs.length := by omega
    refine ⟨[], ?_⟩
    rw [hb]
    simp [boundsTable, List.getD, List.getElem?_eq_getElem this]
  have h31 : N ≤ 2 ^ F.p := by
    have h1 : 2 ^ L ≤ 2 ^ F.p := Nat.pow_le_pow_right (by norm_num) (by omega)
    omega
  obtain ⟨res, hres, hvi⟩ := C111_vi order sqrt pi2 z conf pb out (out.map model) draws N
    (fun j => (bs.getD j (0, 0)).1) (fun j => (bs.getD j (0, 0)).2) (by omega) (by omega) ho hconf hN h31
    (by rw [List.length_map, hlen, hn]) (by rw [hlen, hn]) (by rw [hn]; exact hcols) hbb hdraws
    (fun y hy => by
      obtain ⟨row, hrow, rfl⟩ := List.mem_map.mp hy
      exact hmodel row hrow) k hk
  refine ⟨res, hres, fun j lo hi c hbj hc hlin => ?_⟩
  have hj : j < bs.length := (List.getElem?_eq_some_iff.mp hbj).1
  have hmem := List.mem_of_getElem? hbj
  obtain ⟨hl, hh⟩ := hfl _ hmem
  obtain ⟨v, hv, hnear⟩ := hvi j (by omega) (fun _ => c) (fun i hi => by
    obtain ⟨u, x, -, -, hx, hxf, hxlo, hxhi, hstep⟩ := hent i hi j lo _ hbj
    obtain ⟨y, hy, -, -, -, -, hrs⟩ := hstep j hj
    have hrs := hrs rfl
    have hx2 := hx
    have hy2 := hy
    unfold entry at hx2 hy2
    obtain ⟨r, hr, hrx⟩ := Option.bind_eq_some_iff.mp hx2
    obtain ⟨r', hr', hry⟩ := Option.bind_eq_some_iff.mp hy2
    obtain ⟨h1, h2, h3, h4⟩ := hlin i hi r r' x y hr hrx hr' hry
    obtain ⟨s1, -, -, s4, -⟩ := C111_step (by omega) lo _ delta x y hl hh hxf hxlo hxhi hd0 hd1 hrs
    have hne : y ≠ x := fun h => by
      rcases (s4 hd h2).1 h with h | h
      · exact h3 h
      · exact h4 h
    refine ⟨model r', model r, x, y, ?_, ?_, by rw [hn]; exact hy, by rw [hn]; exact hx, hne, s1.isFloat, ?_, hc⟩
    · rw [hn, List.getElem?_map, hr']; rfl
    · rw [hn, List.getElem?_map, hr]; rfl
    · rw [h1, mul_div_assoc, div_self (sub_ne_zero.2 hne), mul_one])
  refine ⟨v, hv, ?_⟩
  have hN' : (N : ℚ) ≠ 0 := by exact_mod_cast hN.ne'
  rwa [Finset.sum_const, Finset.card_range, nsmul_eq_mul, mul_comm, mul_div_assoc, div_self hN', mul_one] at hnear

/-- Adding from left to right. -/
def leftOrder : Nat → SumTree
  | 0 => .leaf 0
  | 1 => .leaf 0
  | n + 2 => .node (leftOrder (n + 1)) (.leaf (n + 1))

theorem leftOrder_sumOrder : SumOrder leftOrder := by
  have h : ∀ n, (leftOrder (n + 1)).leaves = List.range (n + 1) := by
    intro n
    induction n with
    | zero => rfl
    | succ n ih => rw [leftOrder, SumTree.leaves, ih, SumTree.leaves, ← List.range_succ]
  intro n hn
  obtain ⟨m, rfl⟩ : ∃ m, n = m + 1 := ⟨n - 1, by omega⟩
  rw [h]

/-- The hypotheses of these theorems are met in binary64: two parameters on [1, 2] and [-4, -1], the points
1 and 2 of the sequence, the default step 0.01, and the model that returns its first input.  No step is
lost, `vi` is 1 and 0. -/
example :
    let pb : Problem ℚ := { names := ["x", "y"], bounds := boundsTable [(1, 2), (-4, -1)] }
    let delta := fl binary64 (1 / 100)
    TableOk [[0, 1]] ∧ 32 ≤ binary64.p ∧ binary64.emin ≤ -31 ∧ 2 + 1 ≤ 2 ^ 2 ∧
      (2 : ℚ) ^ (1 - (binary64.p : ℤ)) ≤ delta ∧ delta ≤ 1 ∧ SumOrder leftOrder ∧
      ∃ out, finiteDiffSampleFl binary64 [[0, 1]] 2 7 pb 2 delta 1 = .ok out ∧
        out = [[3 / 2, -5 / 2], [6822953435466301 / 4503599627370496, -5 / 2],
          [3 / 2, -5685794529555251 / 2251799813685248], [7 / 4, -13 / 4],
          [995014042672169 / 562949953421312, -13 / 4], [7 / 4, -7391532888421827 / 2251799813685248]] ∧
        (dgsmAnalyzeFl binary64 leftOrder id (fl binary64 (987 / 100)) 2 (1 / 2) pb out (out.map fun r => r.getD 0 0)
          fun _ => [[0, 1], [1, 1]]).map (fun r : DgsmResult ℚ => (r.vi, r.viStd, r.dgsmConf)) =
          .ok ([some 1, some 0], [some 0, some 0], [some 0, some 0]) := by
  intro pb delta
  have hd : delta = 5764607523034235 / 576460752303423488 := by decide +kernel
  refine ⟨?_, by decide, by decide, by decide, ?_, by rw [hd]; norm_num, leftOrder_sumOrder, _, ?_, rfl, ?_⟩
  · intro m hm
    rw [List.mem_singleton.mp hm]
    refine ⟨0, [1], rfl, by simp, fun j x h => ?_⟩
    rcases j with _ | j <;> simp at h; subst h; decide
  · rw [hd]; simp only [binary64]; norm_num
  · decide +kernel
  · decide +kernel

end SALib
