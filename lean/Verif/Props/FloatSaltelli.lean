import Verif.Props.FloatSobol

/-! # Saltelli samples in floating point -/

namespace SALib
open Spec

variable {F : Fmt} (pb : Problem ℚ) (bs : List (ℚ × ℚ)) (second : Bool) (N : Nat)

/-- What is claimed of a scaled base point: coordinate `c` of row `i` (of both halves) is a number of the format within
the bounds of its parameter, and next to the exact value. -/
def Spec.ScaledBase (F : Fmt) (bs : List (ℚ × ℚ)) (U P : Mat ℚ) (start N : Nat) : Prop :=
  P.length = N ∧ HasCols (2 * bs.length) P ∧
  ∀ i < N, ∀ c < 2 * bs.length, ∀ lo hi, bs[c % bs.length]? = some (lo, hi) → ∃ u x, entry U (start + i) c = some u ∧
    entry P i c = some x ∧ IsFloat F x ∧ lo ≤ x ∧ x ≤ hi ∧
    |x - (lo + u * (hi - lo))| ≤ (2 : ℚ) ^ (3 - (F.p : ℤ)) * max |lo| |hi| + (2 : ℚ) ^ F.emin

/-- Every entry is a number of the format within the bounds of its column. -/
def Spec.WithinBounds (F : Fmt) (bs : List (ℚ × ℚ)) (X : Mat ℚ) : Prop :=
  HasCols bs.length X ∧ ∀ row ∈ X, ∀ (c : Nat) lo hi, bs[c]? = some (lo, hi) → ∃ x, row[c]? = some x ∧ IsFloat F x ∧
    lo ≤ x ∧ x ≤ hi

theorem replaceIn_get {β : Type} (sel : Nat → Bool) {A B : List β} (h : A.length = B.length) (c : Nat) (x : β)
    (hx : (replaceIn sel A B)[c]? = some x) : A[c]? = some x ∨ B[c]? = some x := by
  unfold replaceIn at hx
  rw [List.getElem?_mapIdx] at hx
  obtain ⟨ab, hab, rfl⟩ := Option.map_eq_some_iff.mp hx
  rw [List.getElem?_zip_eq_some] at hab
  split
  · exact .inr hab.2
  · exact .inl hab.1

/-- Each entry of a row of the design is an entry of `A` or `B` in the same column. -/
theorem crossDesign_entry {β : Type} {D g : Nat} {groupOf : Nat → Nat} {base : List (List β)}
    (hcols : ∀ row ∈ base, row.length = 2 * D) {row : List β} (hrow : row ∈ crossDesign second D g groupOf base)
    {c : Nat} {x : β} (hx : row[c]? = some x) :
    ∃ b ∈ base, (b.take D)[c]? = some x ∨ (b.drop D)[c]? = some x := by
  unfold crossDesign at hrow
  obtain ⟨blk, hblk, hrow⟩ := List.mem_flatten.mp hrow
  obtain ⟨b, hb, rfl⟩ := List.mem_map.mp hblk
  have hl := hcols b hb
  have hAB : (b.take D).length = (b.drop D).length := by simp; omega
  refine ⟨b, hb, ?_⟩
  unfold Spec.crossBlock at hrow
  rcases List.mem_append.mp hrow with hrow | hrow
  · rcases List.mem_append.mp hrow with hrow | hrow
    · rcases List.mem_append.mp hrow with hrow | hrow
      · rw [List.mem_singleton.mp hrow] at hx; exact .inl hx
      · obtain ⟨k, -, rfl⟩ := List.mem_map.mp hrow
        exact replaceIn_get _ hAB c x hx
    · split at hrow
      · obtain ⟨k, -, rfl⟩ := List.mem_map.mp hrow
        exact (replaceIn_get _ hAB.symm c x hx).symm
      · cases hrow
  · rw [List.mem_singleton.mp hrow] at hx; exact .inr hx

/-- Crossing and scaling points of the unit cube that are not too close to 1. -/
theorem crossFl (hp : 2 ≤ F.p) (start : Nat) (U : Mat ℚ) (hn : pb.numVars = bs.length) (hb : pb.bounds = boundsTable bs)
    (hne : bs ≠ []) (hlegal : ∀ p ∈ bs, p.1 < p.2) (hfl : ∀ p ∈ bs, IsFloat F p.1 ∧ IsFloat F p.2)
    (hU : HasCols (2 * bs.length) U) (hlen : start + N ≤ U.length)
    (hunit : ∀ row ∈ U, ∀ u ∈ row, 0 ≤ u ∧ u ≤ 1 - (2 : ℚ) ^ (1 - (F.p : ℤ)))
    (hlab : ∀ gs, pb.groups = some gs → gs ≠ [] → gs.length = bs.length) :
    ∃ labels g groupOf P, SamplerLabels pb labels ∧ GroupNumbering bs.length labels g groupOf ∧
      (crossSample second bs.length N start (checkGroups pb) U >>= fun S => scaleUniformFl F bs.length S pb.bounds) =
        .ok (crossDesign second bs.length g groupOf P) ∧
      ScaledBase F bs U P start N ∧ WithinBounds F bs (crossDesign second bs.length g groupOf P) := by
  have hp1 : 1 ≤ F.p := by omega
  have hspec := checkGroups_spec pb
  have hlab' : ∀ gs, checkGroups pb = some gs → gs.length = bs.length := by
    intro gs hgs
    rcases hspec with ⟨h, -⟩ | ⟨gs', h, hg, -, g, hg', -⟩
    · rw [h] at hgs; cases hgs
    · rw [h] at hgs
      cases hgs
      exact hlab _ hg (List.ne_nil_of_mem hg')
  obtain ⟨g, groupOf, hnum, -, -, hS⟩ := C11_cross_design second bs.length N start (checkGroups pb) U hU hlen hlab'
  set fs : List (ℚ → ℚ) := bs.map fun b u => scaleEntryFl F u b with hfs
  have hfslen : fs.length = bs.length := by simp [hfs]
  have happ : ∀ row : List ℚ, List.zipWith (scaleEntryFl F) row bs = applyCols fs row := by
    intro row
    rw [applyCols, hfs, List.zipWith_map_left, List.zipWith_comm]
  set V := (U.drop start).take N with hV
  have hVlen : V.length = N := by rw [hV, List.length_take, List.length_drop]; omega
  have hVcols : HasCols (2 * bs.length) V := fun row hrow =>
    hU row (List.mem_of_mem_drop (List.mem_of_mem_take hrow))
  have hVget : ∀ i < N, V[i]? = U[start + i]? := by
    intro i hi
    rw [hV, List.getElem?_take_of_lt hi, List.getElem?_drop]
  have hPlen : ∀ row ∈ V, (applyBoth bs.length fs row).length = 2 * bs.length := by
    intro row hrow
    have := hVcols row hrow
    simp [applyBoth, applyCols, hfslen, this]
    omega
  have hent : ∀ row ∈ V, ∀ c < 2 * bs.length, ∀ lo hi, bs[c % bs.length]? = some (lo, hi) → ∃ u, row[c]? = some u ∧
      (applyBoth bs.length fs row)[c]? = some (scaleEntryFl F u (lo, hi)) := by
    intro row hrow c hc lo hi hbc
    have hrl := hVcols row hrow
    have hfc : ∀ d : Nat, bs[d]? = some (lo, hi) → ∀ u, ∀ l : List ℚ, l[d]? = some u →
        (applyCols fs l)[d]? = some (scaleEntryFl F u (lo, hi)) := by
      intro d hd u l hl
      rw [applyCols, List.getElem?_zipWith, hl, hfs, List.getElem?_map, hd]
      rfl
    have hA : (applyCols fs (row.take bs.length)).length = bs.length := by
      simp [applyCols, hfslen]; omega
    have hcr : c < row.length := by omega
    refine ⟨row[c], List.getElem?_eq_getElem hcr, ?_⟩
    unfold applyBoth
    by_cases hcD : c < bs.length
    · rw [Nat.mod_eq_of_lt hcD] at hbc
      rw [List.getElem?_append_left (by omega)]
      exact hfc c hbc _ _ (by rw [List.getElem?_take_of_lt hcD, List.getElem?_eq_getElem hcr])
    · have e : c % bs.length = c - bs.length := by
        rw [Nat.mod_eq_sub_mod (by omega), Nat.mod_eq_of_lt (by omega)]
      rw [e] at hbc
      rw [List.getElem?_append_right (by omega), hA]
      refine hfc _ hbc _ _ ?_
      rw [List.getElem?_drop, show bs.length + (c - bs.length) = c by omega, List.getElem?_eq_getElem hcr]
  have hgood : ∀ u lo hi, (lo, hi) ∈ bs → 0 ≤ u → u ≤ 1 - (2 : ℚ) ^ (1 - (F.p : ℤ)) →
      IsFloat F (scaleEntryFl F u (lo, hi)) ∧ lo ≤ scaleEntryFl F u (lo, hi) ∧ scaleEntryFl F u (lo, hi) ≤ hi ∧
      |scaleEntryFl F u (lo, hi) - (lo + u * (hi - lo))| ≤ (2 : ℚ) ^ (3 - (F.p : ℤ)) * max |lo| |hi| + (2 : ℚ) ^ F.emin := by
    intro u lo hi hm u0 u1
    obtain ⟨hl, hh⟩ := hfl _ hm
    have hlt := hlegal _ hm
    have := two_zpow_pos (1 - (F.p : ℤ))
    exact ⟨isFloat_fl hp1 _, scaleEntryFl_lower hp1 hl hlt u0, scaleEntryFl_upper hp hl hh hlt u0 u1,
      scaleEntryFl_err hp hl hh hlt u0 (by linarith)⟩
  have hbase : ∀ b ∈ V.map (applyBoth bs.length fs), b.length = 2 * bs.length := by
    intro b hb'
    obtain ⟨row, hrow, rfl⟩ := List.mem_map.mp hb'
    exact hPlen row hrow
  refine ⟨checkGroups pb, g, groupOf, V.map (applyBoth bs.length fs), hspec, hnum, ?_, ⟨?_, hbase, ?_⟩, ?_, ?_⟩
  · rw [hS, pyBind_ok, hb, scaleUniformFl_legal bs hne hlegal]
    simp only [happ]
    rw [map_applyCols_design fs second bs.length g groupOf V hfslen hVcols]
  · simp [hVlen]
  · intro i hi c hc lo hi' hbc
    have hiV : i < V.length := by omega
    have hmem : V[i] ∈ V := List.getElem_mem hiV
    obtain ⟨u, hu, hx⟩ := hent _ hmem c hc lo hi' hbc
    obtain ⟨u0, u1⟩ := hunit _ (List.mem_of_mem_drop (List.mem_of_mem_take hmem)) u (List.mem_of_getElem? hu)
    refine ⟨u, _, ?_, ?_, hgood u lo hi' (List.mem_of_getElem? hbc) u0 u1⟩
    · rw [entry, ← hVget i hi, List.getElem?_eq_getElem hiV]; exact hu
    · rw [entry, List.getElem?_map, List.getElem?_eq_getElem hiV]; exact hx
  · exact cols_crossDesign second _ _ _ _ hbase
  · intro row hrow c lo hi hbc
    have hc : c < bs.length := (List.getElem?_eq_some_iff.mp hbc).1
    have hcr : c < row.length := by rw [cols_crossDesign second _ _ _ _ hbase row hrow]; exact hc
    refine ⟨row[c], List.getElem?_eq_getElem hcr, ?_⟩
    obtain ⟨b, hb', hcase⟩ := crossDesign_entry second hbase hrow (List.getElem?_eq_getElem hcr)
    obtain ⟨v, hv, rfl⟩ := List.mem_map.mp hb'
    have hin := hunit _ (List.mem_of_mem_drop (List.mem_of_mem_take hv))
    have hfin : ∀ d < 2 * bs.length, d % bs.length = c → (applyBoth bs.length fs v)[d]? = some row[c] →
        IsFloat F row[c] ∧ lo ≤ row[c] ∧ row[c] ≤ hi := by
      intro d hd hdc hget
      obtain ⟨u, hu, hx⟩ := hent v hv d hd lo hi (by rw [hdc]; exact hbc)
      rw [hx] at hget
      rw [← Option.some.inj hget]
      obtain ⟨u0, u1⟩ := hin u (List.mem_of_getElem? hu)
      obtain ⟨h1, h2, h3, -⟩ := hgood u lo hi (List.mem_of_getElem? hbc) u0 u1
      exact ⟨h1, h2, h3⟩
    rcases hcase with h | h
    · rw [List.getElem?_take_of_lt hc] at h
      exact hfin c (by omega) (Nat.mod_eq_of_lt hc) h
    · rw [List.getElem?_drop] at h
      exact hfin (bs.length + c) (by omega) (by rw [Nat.add_mod_left, Nat.mod_eq_of_lt hc]) h

/-- **C112**, `saltelli.sample`.  With every operation rounded the sample is still a cross-sampling design, bit for
bit: its rows combine the coordinates of `N` points `A` and `B`, which are the scaled Sobol points after the skipped
ones.  Every entry is a number of the format within its bounds, the upper bound included. -/
theorem C112_saltelli (hp : 32 ≤ F.p) (he : F.emin ≤ -31) (dirs : List (List Nat)) (hT : TableOk dirs) (L k : Nat)
    (skip : Option Int) (hskip : saltelliSkip N skip = .ok k) (hN : 0 < N + k) (hNL : N + k ≤ 2 ^ L) (hL : L ≤ 31)
    (hD : 2 * bs.length ≤ dirs.length + 1) (hn : pb.numVars = bs.length) (hb : pb.bounds = boundsTable bs)
    (hne : bs ≠ []) (hlegal : ∀ p ∈ bs, p.1 < p.2) (hfl : ∀ p ∈ bs, IsFloat F p.1 ∧ IsFloat F p.2)
    (hlab : ∀ gs, pb.groups = some gs → gs ≠ [] → gs.length = bs.length) :
    ∃ U labels g groupOf P, sobolSequence dirs L (N + k) (2 * bs.length) = .ok U ∧ SamplerLabels pb labels ∧
      GroupNumbering bs.length labels g groupOf ∧
      saltelliSampleFl F dirs L pb N second skip = .ok (crossDesign second bs.length g groupOf P) ∧
      ScaledBase F bs U P k N ∧ WithinBounds F bs (crossDesign second bs.length g groupOf P) := by
  obtain ⟨U, hU, hUlen, hUcols, -, hUx⟩ := C19_range (α := ℚ) dirs hT L (N + k) (2 * bs.length) hN hNL hL hD
  have hunit : ∀ row ∈ U, ∀ u ∈ row, 0 ≤ u ∧ u ≤ 1 - (2 : ℚ) ^ (1 - (F.p : ℤ)) := by
    intro row hrow u hu
    obtain ⟨X, hX, rfl⟩ := hUx row hrow u hu
    refine ⟨by positivity, ?_⟩
    have h1 : (2 : ℚ) ^ (1 - (F.p : ℤ)) ≤ (2 : ℚ) ^ (-31 : ℤ) := two_zpow_le (by omega)
    have h2 : ((X : ℚ) + 1) ≤ 2 ^ 31 := by exact_mod_cast hX
    have h3 : (X : ℚ) / 2 ^ 31 ≤ 1 - (2 : ℚ) ^ (-31 : ℤ) := by
      rw [div_le_iff₀ (by positivity)]
      norm_num at h2 ⊢
      linarith
    exact h3.trans (sub_le_sub_left h1 1)
  obtain ⟨labels, g, groupOf, P, h1, h2, h3, h4, h5⟩ := crossFl pb bs second N (by omega) k U hn hb hne hlegal hfl hUcols
    (by omega) hunit hlab
  refine ⟨U, labels, g, groupOf, P, hU, h1, h2, ?_, h4, h5⟩
  unfold saltelliSampleFl
  rw [hskip, pyBind_ok]
  simp only [hn]
  rw [sobolSequenceFl_exact (by omega) he dirs hT L _ _ hN hNL hL hD, hU, pyBind_ok, h3]

/-- **C112**, `sobol.sample`: the same for the points of SciPy's generator, as long as they lie in [0, 1) and at least
`2 ^ (1 - p)` below 1 (they are multiples of `2 ^ -30`). -/
theorem C112_sobol (hp : 2 ≤ F.p) (engine : Nat → Nat → Nat → Mat ℚ) (skip : Nat) (hN : 0 < N)
    (hgen : ∀ s n d, (engine s n d).length = n ∧ HasCols d (engine s n d))
    (hunit : ∀ s n d, ∀ row ∈ engine s n d, ∀ u ∈ row, 0 ≤ u ∧ u ≤ 1 - (2 : ℚ) ^ (1 - (F.p : ℤ)))
    (hn : pb.numVars = bs.length) (hb : pb.bounds = boundsTable bs)
    (hne : bs ≠ []) (hlegal : ∀ p ∈ bs, p.1 < p.2) (hfl : ∀ p ∈ bs, IsFloat F p.1 ∧ IsFloat F p.2)
    (hlab : ∀ gs, pb.groups = some gs → gs ≠ [] → gs.length = bs.length) :
    ∃ labels g groupOf P, SamplerLabels pb labels ∧ GroupNumbering bs.length labels g groupOf ∧
      sobolSampleFl F engine pb N second skip = .ok (crossDesign second bs.length g groupOf P) ∧
      ScaledBase F bs (engine skip N (2 * bs.length)) P 0 N ∧
      WithinBounds F bs (crossDesign second bs.length g groupOf P) := by
  obtain ⟨hl, hc⟩ := hgen skip N (2 * bs.length)
  obtain ⟨labels, g, groupOf, P, h1, h2, h3, h4, h5⟩ := crossFl pb bs second N hp 0 (engine skip N (2 * bs.length)) hn hb
    hne hlegal hfl hc (by omega) (hunit _ _ _) hlab
  refine ⟨labels, g, groupOf, P, h1, h2, ?_, h4, h5⟩
  unfold sobolSampleFl
  simp only [hn, Int.toNat_natCast]
  rw [if_neg (by omega), if_neg (by omega), h3]

/-- **C113**, from the sample to the indices: sample with `saltelli.sample`, evaluate a model that does not read
parameter `j`, analyse.  However the sample, the model and the statistics are rounded, the indices and confidence values of
`j` are exactly 0, unless they are all nan. -/
theorem C113_pipeline (hp : 32 ≤ F.p) (he : F.emin ≤ -31) (dirs : List (List Nat)) (hT : TableOk dirs) (L k : Nat)
    (skip : Option Int) (hskip : saltelliSkip N skip = .ok k) (hN : 0 < N) (hNL : N + k ≤ 2 ^ L) (hL : L ≤ 31)
    (hD : 2 * bs.length ≤ dirs.length + 1) (hn : pb.numVars = bs.length) (hb : pb.bounds = boundsTable bs)
    (hne : bs ≠ []) (hlegal : ∀ p ∈ bs, p.1 < p.2) (hfl : ∀ p ∈ bs, IsFloat F p.1 ∧ IsFloat F p.2)
    (hg : pb.groups = none) (hnames : pb.names.Nodup) (hnl : pb.names.length = bs.length)
    (order orderR : Nat → SumTree) (sqrt : ℚ → ℚ) (hs : sqrt 0 = 0) (Z conf : ℚ) (hconf : 0 < conf ∧ conf < 1)
    (r : List (List Nat)) (hr : r ≠ []) (f : List ℚ → ℚ) (j : Nat) (hj : j < bs.length)
    (hf : ∀ x y : List ℚ, x.length = bs.length → y.length = bs.length → (∀ i, i ≠ j → x[i]? = y[i]?) → f x = f y) :
    ∃ X res, saltelliSampleFl F dirs L pb N second skip = .ok X ∧
      sobolAnalyzeFl F order orderR sqrt Z pb (X.map f) second conf r = .ok res ∧
      ZeroOrNan res.S1 j ∧ ZeroOrNan res.ST j ∧ ZeroOrNan res.S1conf j ∧ ZeroOrNan res.STconf j := by
  obtain ⟨U, labels, g, groupOf, P, -, hlab, hnum, hX, ⟨hPl, hPc, -⟩, -⟩ := C112_saltelli (F := F) pb bs second N hp he dirs hT L
    k skip hskip (by omega) hNL hL hD hn hb hne hlegal hfl (by rw [hg]; simp)
  have hlab' : labels = none := by
    rcases hlab with ⟨h, -⟩ | ⟨gs, -, h, -⟩
    · exact h
    · rw [hg] at h; cases h
  subst hlab'
  obtain ⟨rfl, hgo⟩ := hnum
  have hext : (extractGroupNames pb).2 = bs.length := by
    simp only [extractGroupNames, hg, pdUnique_of_nodup pb.names hnames, hnl]
  obtain ⟨res, hres, h⟩ := C113_ignored (F := F) order orderR sqrt Z conf pb second r hs f bs.length j bs.length groupOf P
    hext hj hconf hr (by rintro rfl; simp at hPl; omega) hPc (by
      intro x y hx hy hxy
      refine hf x y hx hy fun i hi => ?_
      by_cases hil : i < bs.length
      · exact hxy i (by rw [hgo i hil]; exact hi)
      · rw [List.getElem?_eq_none (by omega), List.getElem?_eq_none (by omega)])
  exact ⟨_, res, hX, hres, h⟩

/-- The hypotheses are met in binary64: two parameters on [0.1, 0.3] and [-4, -1] (the first bounds and width are
rounded), one base point after four skipped ones. -/
example :
    let bs : List (ℚ × ℚ) := [(fl binary64 (1 / 10), fl binary64 (3 / 10)), (-4, -1)]
    let pb : Problem ℚ := { names := ["x", "y"], bounds := boundsTable bs }
    32 ≤ binary64.p ∧ binary64.emin ≤ -31 ∧ TableOk [[0, 1], [1, 1, 3], [1, 1, 3, 1]] ∧
      saltelliSkip 1 (some 4) = .ok 4 ∧ 1 + 4 ≤ 2 ^ 3 ∧ 2 * bs.length ≤ 3 + 1 ∧ (∀ p ∈ bs, p.1 < p.2) ∧
      (∀ p ∈ bs, IsFloat binary64 p.1 ∧ IsFloat binary64 p.2) ∧
      saltelliSampleFl binary64 [[0, 1], [1, 1, 3], [1, 1, 3, 1]] 3 pb 1 false (some 4) =
        .ok [[3152519739159347 / 18014398509481984, -23 / 8], [2026619832316723 / 9007199254740992, -23 / 8],
          [3152519739159347 / 18014398509481984, -11 / 8], [2026619832316723 / 9007199254740992, -11 / 8]] := by
  intro bs pb
  refine ⟨by decide, by decide, ?_, by decide, by decide, by decide, by decide +kernel, ?_, by decide +kernel⟩
  · intro m hm
    simp only [List.mem_cons, List.not_mem_nil, or_false] at hm
    rcases hm with rfl | rfl | rfl
    · refine ⟨0, [1], rfl, by simp, fun j x h => ?_⟩
      rcases j with _ | j <;> simp at h; subst h; decide
    · refine ⟨1, [1, 3], rfl, by simp, fun j x h => ?_⟩
      rcases j with _ | _ | j <;> simp at h <;> subst h <;> decide
    · refine ⟨1, [1, 3, 1], rfl, by simp, fun j x h => ?_⟩
      rcases j with _ | _ | _ | j <;> simp at h <;> subst h <;> decide
  · intro p hp
    simp only [bs, List.mem_cons, List.not_mem_nil, or_false] at hp
    rcases hp with rfl | rfl
    · exact ⟨isFloat_fl (by decide) _, isFloat_fl (by decide) _⟩
    · exact ⟨⟨-4, 0, by decide, by decide, by norm_num⟩, ⟨-1, 0, by decide, by decide, by norm_num⟩⟩

/-- The same parameters and a generator of points that keep the required distance from 1. -/
example :
    let pb : Problem ℚ := { names := ["x", "y"],
                            bounds := boundsTable [(fl binary64 (1 / 10), fl binary64 (3 / 10)), (-4, -1)] }
    let engine : Nat → Nat → Nat → Mat ℚ := fun s n d => List.replicate n ((List.range d).map fun i =>
      (((s + i + 1) % 8 : Nat) : ℚ) / 8)
    (∀ s n d, (engine s n d).length = n ∧ HasCols d (engine s n d)) ∧
      (∀ s n d, ∀ row ∈ engine s n d, ∀ u ∈ row, 0 ≤ u ∧ u ≤ 1 - (2 : ℚ) ^ (1 - (binary64.p : ℤ))) ∧
      sobolSampleFl binary64 engine pb 1 false 0 =
        .ok [[1 / 8, -13 / 4], [3152519739159347 / 18014398509481984, -13 / 4], [1 / 8, -5 / 2],
          [3152519739159347 / 18014398509481984, -5 / 2]] := by
  intro pb engine
  refine ⟨fun s n d => ⟨by simp [engine], fun row hrow => ?_⟩, fun s n d row hrow u hu => ?_, by decide +kernel⟩
  · rw [(List.mem_replicate.mp hrow).2]; simp
  · rw [(List.mem_replicate.mp hrow).2] at hu
    obtain ⟨i, -, rfl⟩ := List.mem_map.mp hu
    refine ⟨by positivity, ?_⟩
    have h : (s + i + 1) % 8 ≤ 7 := by omega
    have h' : (((s + i + 1) % 8 : Nat) : ℚ) ≤ 7 := by exact_mod_cast h
    have h2 : (2 : ℚ) ^ (1 - (binary64.p : ℤ)) ≤ 1 / 8 := by simp only [binary64]; norm_num
    have h3 : (((s + i + 1) % 8 : Nat) : ℚ) / 8 ≤ 7 / 8 := by gcongr
    linarith

end SALib
