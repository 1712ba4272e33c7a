import Verif.Lemmas.FloatLatin

/-! # C110: Latin hypercube sampling in floating point -/

namespace SALib
open Spec

variable {F : Fmt}

/-- **C110**, the unit cube.  With every operation rounded, the cells that the code computes tile the
unit interval up to rounding, and every column has its values one to a cell; all values are numbers of
the format between 0 and 1; parameters of a group have the same values. -/
theorem C110_unit (hF : F.emin + 2 * F.p + 4 ≤ 0) (draws : LatinDraws ℚ) (hv : ValidDraws draws) (junk : ℚ)
    (pb : Problem ℚ) (N : Nat) (hN : 0 < N) (h8 : 8 * N ≤ 2 ^ F.p)
    (hlab : ∀ gs, latinLabels pb = some gs → gs.length = pb.numVars) :
    ∃ edge M, NearlyEqualCells N (3 * (2 : ℚ) ^ (-(F.p : ℤ))) edge ∧ latinUnitFl F draws junk pb N = .ok M ∧
      M.length = N ∧ HasCols pb.numVars M ∧ (∀ row ∈ M, ∀ x ∈ row, IsFloat F x ∧ 0 ≤ x ∧ x ≤ 1) ∧
      (∀ v < pb.numVars, OnePerCell N edge fun s => entry M s v) ∧
      ∀ gs v w (l : String), latinLabels pb = some gs → gs[v]? = some l → gs[w]? = some l →
        ∀ s, entry M s v = entry M s w := by
  obtain ⟨ng, groupOf, hnum, -, hM⟩ := latinUnitFl_form F junk pb N hN hlab
  have hcells : NearlyEqualCells N (3 * (2 : ℚ) ^ (-(F.p : ℤ))) (latinEdge F N) :=
    ⟨by simp [latinEdge, fmul, fl_zero], latinEdge_last hF hN h8, latinEdge_ascending hF hN h8,
      fun j _ => latinEdge_near hF hN h8 j⟩
  have hdl : ∀ g, (latinDrawFl F draws N g).length = N := fun g => by simp [latinDrawFl]
  have hlen : ∀ g, (draws.shuffle g (latinDrawFl F draws N g)).length = N := fun g => by
    rw [(hv.2 g _).length_eq, hdl]
  have hentry : ∀ v < pb.numVars, ∀ t, entry ((List.range N).map fun s => (List.range pb.numVars).map fun v =>
      (draws.shuffle (groupOf v) (latinDrawFl F draws N (groupOf v))).getD s 0) t v =
      (draws.shuffle (groupOf v) (latinDrawFl F draws N (groupOf v)))[t]? := by
    intro v hvn t
    by_cases ht : t < N
    · have ht' : t < (draws.shuffle (groupOf v) (latinDrawFl F draws N (groupOf v))).length := by
        rw [hlen]; exact ht
      simp [entry, ht, hvn, List.getElem?_eq_getElem ht']
    · rw [List.getElem?_eq_none (by rw [hlen]; omega)]
      simp [entry, ht]
  have hle : ∀ j k, j ≤ k → k ≤ N → latinEdge F N j ≤ latinEdge F N k := by
    intro j k hjk hk
    induction k, hjk using Nat.le_induction with
    | base => exact le_rfl
    | succ k _ ih => exact (ih (by omega)).trans (hcells.ascending k (by omega)).le
  have hone : ∀ v < pb.numVars, OnePerCell N (latinEdge F N) fun s =>
      (draws.shuffle (groupOf v) (latinDrawFl F draws N (groupOf v)))[s]? := by
    intro v _
    obtain ⟨cell, h1, h2, h3⟩ := perm_renumber (hv.2 (groupOf v) (latinDrawFl F draws N (groupOf v)))
    rw [hdl] at h1 h2 h3
    refine ⟨cell, h1, h2, fun s hs => ?_⟩
    obtain ⟨x, hx, -, hx1, hx2⟩ := latinDrawFl_cell hF h8 draws (groupOf v) (cell s) (h1 s hs) (hv.1 _ _)
    exact ⟨x, (h3 s hs).trans hx, hx1, hx2⟩
  refine ⟨latinEdge F N, _, hcells, hM draws, by simp, ?_, ?_, ?_, ?_⟩
  · intro row hrow
    obtain ⟨s, -, rfl⟩ := List.mem_map.mp hrow
    simp
  · intro row hrow x hx
    obtain ⟨s, hs, rfl⟩ := List.mem_map.mp hrow
    obtain ⟨v, hvn, rfl⟩ := List.mem_map.mp hx
    rw [List.mem_range] at hs hvn
    obtain ⟨cell, h1, h2, h3⟩ := perm_renumber (hv.2 (groupOf v) (latinDrawFl F draws N (groupOf v)))
    rw [hdl] at h1 h2 h3
    obtain ⟨x, hx, hf, hx1, hx2⟩ := latinDrawFl_cell hF h8 draws (groupOf v) (cell s) (h1 s hs) (hv.1 _ _)
    rw [List.getD_eq_getElem?_getD, h3 s hs, hx, Option.getD_some]
    have a := hle 0 (cell s) (by omega) (h1 s hs).le
    have b := hle (cell s + 1) N (h1 s hs) le_rfl
    rw [hcells.first] at a
    exact ⟨hf, a.trans hx1, hx2.trans (b.trans hcells.last)⟩
  · intro v hvn
    have := hone v hvn
    simpa only [hentry v hvn] using this
  · intro gs v w l hgs hvl hwl s
    have hlen' := hlab gs hgs
    have hv' : v < pb.numVars := by
      have := (List.getElem?_eq_some_iff.mp hvl).1; omega
    have hw' : w < pb.numVars := by
      have := (List.getElem?_eq_some_iff.mp hwl).1; omega
    rw [hentry v hv', hentry w hw']
    rw [hgs] at hnum
    obtain ⟨names, hdist, -, hg⟩ := hnum
    obtain ⟨a1, a2⟩ := List.getElem?_eq_some_iff.mp (hg v l hvl)
    obtain ⟨b1, b2⟩ := List.getElem?_eq_some_iff.mp (hg w l hwl)
    have heq : groupOf v = groupOf w := (hdist.nodup.getElem_inj_iff).mp (a2.trans b2.symm)
    rw [heq]

/-- The hypotheses are met in binary64: three parameters, two groups, `N = 3`, draws at the middle of
each cell and shuffles that reverse.  The greatest
value is not even the number of the format nearest to 5/6. -/
example :
    let pb : Problem ℚ := { names := ["x", "y", "z"], bounds := boundsTable [(0, 1), (0, 2), (1, 2)],
                            groups := some ["g", "h", "g"] }
    let draws : LatinDraws ℚ := { u := fun _ _ => 1 / 2, shuffle := fun g l => if g = 0 then l.reverse else l }
    binary64.emin + 2 * binary64.p + 4 ≤ 0 ∧ ValidDraws draws ∧ 8 * 3 ≤ 2 ^ binary64.p ∧
      (∀ gs, latinLabels pb = some gs → gs.length = pb.numVars) ∧
      3752999689475413 / 2 ^ 52 < fl binary64 (5 / 6) ∧
      latinUnitFl binary64 draws 7 pb 3 = .ok [[3752999689475413 / 2 ^ 52, fl binary64 (1 / 6), 3752999689475413 / 2 ^ 52],
        [1 / 2, 1 / 2, 1 / 2], [fl binary64 (1 / 6), 3752999689475413 / 2 ^ 52, fl binary64 (1 / 6)]] := by
  intro pb draws
  refine ⟨by decide, ⟨fun s g => by norm_num [draws], fun g l => ?_⟩, by decide, by decide +kernel,
    by decide +kernel, by decide +kernel⟩
  by_cases h : g = 0
  · simp only [draws, h, if_true]; exact List.reverse_perm l
  · simp only [draws, h, if_false]; exact List.Perm.refl l

/-- **C110**, the scaled sample.  Between the scaled edges of the cells, which start at the lower bound
and follow equally spaced points up to rounding, every column has its values one to a cell; no value is
under the lower bound, and none over the upper bound when the width of the range needs no rounding. -/
theorem C110_scaled (hF : F.emin + 2 * F.p + 4 ≤ 0) (hp : 2 ≤ F.p) (draws : LatinDraws ℚ)
    (hv : ValidDraws draws) (junk : ℚ) (pb : Problem ℚ) (bs : List (ℚ × ℚ)) (N : Nat) (hN : 0 < N)
    (h8 : 8 * N ≤ 2 ^ F.p) (hlab : ∀ gs, latinLabels pb = some gs → gs.length = pb.numVars)
    (hn : pb.numVars = bs.length) (hb : pb.bounds = boundsTable bs) (hne : bs ≠ [])
    (hlegal : ∀ p ∈ bs, p.1 < p.2) (hfl : ∀ p ∈ bs, IsFloat F p.1 ∧ IsFloat F p.2) :
    ∃ R, latinSampleFl F draws junk pb N = .ok R ∧ R.length = N ∧ HasCols bs.length R ∧
      ∀ v lo hi, bs[v]? = some (lo, hi) →
        (∃ edge, edge 0 = lo ∧ (∀ j < N, edge j ≤ edge (j + 1)) ∧
          (∀ j ≤ N, |edge j - (lo + (j : ℚ) / N * (hi - lo))| ≤
            (2 : ℚ) ^ (4 - (F.p : ℤ)) * max |lo| |hi| + (2 : ℚ) ^ F.emin) ∧
          OnePerCell N edge fun s => entry R s v) ∧
        ∀ s y, entry R s v = some y → IsFloat F y ∧ lo ≤ y ∧ (IsFloat F (hi - lo) → y ≤ hi) := by
  obtain ⟨edge, M, hcells, hM, hlen, hcols, hunit, hone, -⟩ :=
    C110_unit hF draws hv junk pb N hN h8 hlab
  have hp1 : 1 ≤ F.p := by omega
  have hle : ∀ j k, j ≤ k → k ≤ N → edge j ≤ edge k := by
    intro j k hjk hk
    induction k, hjk using Nat.le_induction with
    | base => exact le_rfl
    | succ k _ ih => exact (ih (by omega)).trans (hcells.ascending k (by omega)).le
  rw [hn] at hcols hone
  refine ⟨M.map fun row => List.zipWith (scaleEntryFl F) row bs, ?_, by simpa using hlen, ?_, ?_⟩
  · unfold latinSampleFl
    rw [hM, pyBind_ok, hn, hb, scaleUniformFl_legal bs hne hlegal]
  · intro row hrow
    obtain ⟨r, hr, rfl⟩ := List.mem_map.mp hrow
    simp [hcols r hr]
  · intro v lo hi hvb
    have hvn : v < bs.length := (List.getElem?_eq_some_iff.mp hvb).1
    have hmem := List.mem_of_getElem? hvb
    have hlt : lo < hi := hlegal _ hmem
    obtain ⟨hl, hh⟩ := hfl _ hmem
    obtain ⟨cell, h1, h2, h3⟩ := hone v hvn
    refine ⟨⟨fun j => scaleEntryFl F (edge j) (lo, hi), ?_, ?_, ?_, cell, h1, h2, ?_⟩, ?_⟩
    · simp only [hcells.first]
      exact scaleEntryFl_zero hp1 hl
    · intro j hj
      exact scaleEntryFl_mono hp1 hlt (hcells.ascending j hj).le
    · intro j hj
      have h0 := hle 0 j (by omega) hj
      rw [hcells.first] at h0
      have h01 := (hle j N hj le_rfl).trans hcells.last
      have ha := scaleEntryFl_err hp hl hh hlt h0 h01
      have hb := hcells.near j hj
      have hu := two_zpow_pos (-(F.p : ℤ))
      have hj1 : (j : ℚ) / N ≤ 1 := by
        rw [div_le_one (by exact_mod_cast hN)]; exact_mod_cast hj
      have hj0 : 0 ≤ (j : ℚ) / N := by positivity
      have e8 : (2 : ℚ) ^ (3 - (F.p : ℤ)) = 8 * (2 : ℚ) ^ (-(F.p : ℤ)) := by
        rw [sub_eq_add_neg, zpow_add₀ (by norm_num)]; norm_num
      have e16 : (2 : ℚ) ^ (4 - (F.p : ℤ)) = 16 * (2 : ℚ) ^ (-(F.p : ℤ)) := by
        rw [sub_eq_add_neg, zpow_add₀ (by norm_num)]; norm_num
      have hw : hi - lo ≤ 2 * max |lo| |hi| := by
        have a1 := neg_abs_le lo
        have a2 := le_abs_self hi
        have b1 := le_max_left |lo| |hi|
        have b2 := le_max_right |lo| |hi|
        linarith
      have hb' : |edge j - (j : ℚ) / N| ≤ 3 * (2 : ℚ) ^ (-(F.p : ℤ)) :=
        hb.trans (by nlinarith)
      have hc : |(edge j - (j : ℚ) / N) * (hi - lo)| ≤ 6 * (2 : ℚ) ^ (-(F.p : ℤ)) * max |lo| |hi| := by
        rw [abs_mul, abs_of_pos (show 0 < hi - lo by linarith)]
        calc |edge j - (j : ℚ) / N| * (hi - lo) ≤ 3 * (2 : ℚ) ^ (-(F.p : ℤ)) * (2 * max |lo| |hi|) :=
              mul_le_mul hb' hw (by linarith) (by positivity)
          _ = _ := by ring
      have hm : 0 ≤ (2 : ℚ) ^ (-(F.p : ℤ)) * max |lo| |hi| := by positivity
      rw [e8] at ha
      rw [e16]
      rw [abs_le] at ha hc ⊢
      constructor <;> nlinarith [ha.1, ha.2, hc.1, hc.2]
    · intro s hs
      obtain ⟨x, hx, hx1, hx2⟩ := h3 s hs
      exact ⟨_, entry_zipWith M bs _ s v x (lo, hi) hx hvb, scaleEntryFl_mono hp1 hlt hx1,
        scaleEntryFl_mono hp1 hlt hx2⟩
    · intro s y hy
      have hs : s < N := by
        by_contra hcon
        rw [show entry (M.map fun row => List.zipWith (scaleEntryFl F) row bs) s v = none by
          simp [entry, show M.length ≤ s by omega]] at hy
        cases hy
      obtain ⟨x, hx, hx1, hx2⟩ := h3 s hs
      rw [entry_zipWith M bs _ s v x (lo, hi) hx hvb] at hy
      cases hy
      have hc := h1 s hs
      have a := hle 0 (cell s) (by omega) hc.le
      rw [hcells.first] at a
      have b := (hle (cell s + 1) N hc le_rfl).trans hcells.last
      exact ⟨isFloat_fl hp1 _, scaleEntryFl_lower hp1 hl hlt (a.trans hx1),
        fun hd => scaleEntryFl_upper_exact hp1 hh hlt hd (hx2.trans b)⟩

/-- The hypotheses are met in binary64: two parameters on [-1, 1] and [1, 4], four samples. -/
example :
    let bs : List (ℚ × ℚ) := [(-1, 1), (1, 4)]
    let pb : Problem ℚ := { names := ["x", "y"], bounds := boundsTable bs }
    let draws : LatinDraws ℚ := { u := fun _ _ => 1 / 2, shuffle := fun g l => if g = 0 then l.reverse else l }
    (∀ p ∈ bs, p.1 < p.2) ∧ (∀ p ∈ bs, IsFloat binary64 p.1 ∧ IsFloat binary64 p.2) ∧ pb.numVars = bs.length ∧
      latinSampleFl binary64 draws 7 pb 4 =
        .ok [[3 / 4, 11 / 8], [1 / 4, 17 / 8], [-1 / 4, 23 / 8], [-3 / 4, 29 / 8]] := by
  intro bs pb draws
  refine ⟨by decide +kernel, ?_, rfl, by decide +kernel⟩
  have hf : ∀ n : ℤ, |n| < 2 ^ 53 → IsFloat binary64 n := fun n hn =>
    ⟨n, 0, by decide, hn, by simp⟩
  simp only [bs, List.mem_cons, List.not_mem_nil, or_false, forall_eq_or_imp, forall_eq]
  exact ⟨⟨by exact_mod_cast hf (-1) (by decide), by exact_mod_cast hf 1 (by decide)⟩,
    by exact_mod_cast hf 1 (by decide), by exact_mod_cast hf 4 (by decide)⟩

/-- **C110**: the exact strata of C25 are not kept.  In binary64 with `N = 3`, a draw at the start of
the second cell gives a value under 1/3, so that the first exact stratum gets two values. -/
theorem C110_stratum : ∃ x y z : ℚ,
    latinUnitFl binary64 { u := fun _ _ => 0, shuffle := fun _ l => l } 0
      { names := ["x"], bounds := [[0, 1]] } 3 = .ok [[x], [y], [z]] ∧
    0 ≤ x ∧ x < 1 / 3 ∧ 0 ≤ y ∧ y < 1 / 3 ∧ 1 / 3 ≤ z := by
  refine ⟨0, fl binary64 (1 / 3), fl binary64 (2 / 3), ?_⟩
  decide +kernel

/-- **C110**: the value 1 can be drawn.  In binary64 with `N = 2`, the greatest draw below 1 gives
exactly 1 in the last cell. -/
theorem C110_one : ∃ u : ℚ, IsFloat binary64 u ∧ 0 ≤ u ∧ u < 1 ∧
    latinUnitFl binary64 { u := fun _ _ => u, shuffle := fun _ l => l } 0
      { names := ["x"], bounds := [[0, 1]] } 2 = .ok [[1 / 2 - 1 / 2 ^ 54], [1]] := by
  refine ⟨1 - 1 / 2 ^ 53, ⟨2 ^ 53 - 1, -53, by decide, by decide, by norm_num⟩, by norm_num, by norm_num, ?_⟩
  decide +kernel

end SALib
