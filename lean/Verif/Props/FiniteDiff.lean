import Verif.Model.Dgsm
import Verif.Lemmas.ListAux
import Verif.Lemmas.Scale
import Verif.Spec.Matrix
import Verif.Spec.Cross
import Verif.Props.MorrisEndToEnd
import Verif.Props.FastAnalyze

/-! # Finite-difference sampling (C48) -/

set_option linter.unusedSectionVars false

namespace SALib
open Spec

variable {α : Type} [Field α] [LinearOrder α] [IsStrictOrderedRing α]

/-- `x` moved to the nearest point of `[lo, hi]`. -/
def Spec.clip (lo hi x : α) : α := max (min x hi) lo

/-- The block of rows for one base point. -/
def fdRows (D : Nat) (lo hi : Nat → α) (delta : α) (row : List α) : Mat (Num α) :=
  row.map some :: (List.range D).map fun j =>
    (row.set j (clip (lo j) (hi j) (row.getD j 0 * (1 + delta)))).map some

theorem putRow_seq {β : Type} (w : Nat) (rows : Mat β) (hw : HasCols w rows) (M : Mat β) (idx : Nat)
    (hfit : idx + rows.length ≤ M.length) :
    rows.foldlM (putRow w) (M, idx) =
      .ok (M.take idx ++ rows ++ M.drop (idx + rows.length), idx + rows.length) := by
  induction rows generalizing M idx with
  | nil => simp [pyPure]
  | cons r rows ih =>
    have hr : r.length = w := hw r (by simp)
    simp only [List.length_cons] at hfit
    rw [List.foldlM_cons]
    have h1 : putRow w (M, idx) r = .ok (M.set idx r, idx + 1) := by
      unfold putRow
      rw [if_neg (by simpa using hr), if_pos (show idx < M.length by omega)]
    rw [h1, pyBind_ok, ih (fun x hx => hw x (List.mem_cons_of_mem _ hx)) _ _ (by simp; omega)]
    simp only [Except.ok.injEq, Prod.mk.injEq, List.length_cons]
    refine ⟨?_, by omega⟩
    apply List.ext_getElem?
    intro i
    have : idx < M.length := by omega
    rw [List.getElem?_append, List.getElem?_append, List.getElem?_append, List.getElem?_append]
    simp only [List.length_take, List.length_append, List.length_set, List.length_cons,
      List.getElem?_drop, List.getElem?_take, List.getElem?_set]
    grind

theorem fdRow_eq (D : Nat) (bounds : List (List α)) (delta : α) (row : List α) (j : Nat) (lo hi : α)
    (rest : List α) (hb : bounds[j]? = some (lo :: hi :: rest)) (hr : row.length = D) (hj : j < D) :
    fdRow D bounds delta (row.map some) j =
      .ok ((row.set j (clip lo hi (row.getD j 0 * (1 + delta)))).map some) := by
  have hjr : j < row.length := by omega
  have hz : (List.zipWith numAdd (row.map some) ((List.replicate D (some 0)).set j
      ((some row[j] : Num α).map (· * delta)))) =
      (row.set j (row[j] * (1 + delta))).map some := by
    apply List.ext_getElem
    · simp [hr]
    · intro c h1 h2
      have hc : c < row.length := by simpa using h2
      simp only [List.getElem_zipWith, List.getElem_map, List.getElem_set, List.getElem_replicate]
      by_cases hcj : j = c
      · subst hcj
        simp [numAdd]; ring
      · simp [hcj, numAdd]
  unfold fdRow
  have g1 : pyGet bounds j = .ok (lo :: hi :: rest) := by unfold pyGet; rw [hb]
  have g2 : pyGet (row.map some) j = .ok (some row[j]) := by
    unfold pyGet; simp [List.getElem?_eq_getElem hjr]
  rw [g1, pyBind_ok, g2, pyBind_ok]
  simp only [hz]
  have g3 : pyGet (lo :: hi :: rest) 1 = .ok hi := rfl
  have g4 : pyGet (lo :: hi :: rest) 0 = .ok lo := rfl
  have g5 : pyGet ((row.set j (row[j] * (1 + delta))).map some) j = .ok (some (row[j] * (1 + delta))) := by
    unfold pyGet; simp [hjr]
  rw [g3, pyBind_ok, g4, pyBind_ok, g5, pyBind_ok]
  have hclip : pyMax (pyMin (some (row[j] * (1 + delta))) hi) lo =
      some (clip lo hi (row[j] * (1 + delta))) := by
    unfold pyMax pyMin clip
    simp only [Option.map_some, Option.some.injEq]
    grind
  rw [hclip]
  simp only [pyPure, Except.ok.injEq]
  rw [← List.map_set, List.set_set]
  simp [List.getD, List.getElem?_eq_getElem hjr]

theorem fdBlock_eq (D : Nat) (bounds : List (List α)) (lo hi : Nat → α) (delta : α) (X : Mat α)
    (hb : ∀ j < D, ∃ rest, bounds[j]? = some (lo j :: hi j :: rest)) (st : Mat (Num α) × Nat) (i : Nat)
    (row : List α) (hrow : X[i]? = some row) (hr : row.length = D) :
    fdBlock D bounds delta (X.map (·.map some)) st i =
      (fdRows D lo hi delta row).foldlM (putRow D) st := by
  unfold fdBlock
  have g : pyGet (X.map (·.map some)) i = .ok (row.map (some : α → Num α)) := by
    unfold pyGet; simp [hrow]
  rw [g, pyBind_ok]
  unfold fdRows
  rw [List.foldlM_cons]
  congr 1
  funext st
  rw [List.foldlM_map]
  apply foldlM_congr_mem
  intro j hj st
  have hj := List.mem_range.mp hj
  obtain ⟨rest, hbj⟩ := hb j hj
  rw [fdRow_eq D bounds delta row j (lo j) (hi j) rest hbj hr hj, pyBind_ok]

theorem length_fdRows (D : Nat) (lo hi : Nat → α) (delta : α) (row : List α) :
    (fdRows D lo hi delta row).length = D + 1 := by
  simp [fdRows]

theorem hasCols_fdRows (D : Nat) (lo hi : Nat → α) (delta : α) (row : List α) (hr : row.length = D) :
    HasCols D (fdRows D lo hi delta row) := by
  intro r h
  unfold fdRows at h
  rcases List.mem_cons.mp h with h | h
  · rw [h]; simpa using hr
  · obtain ⟨j, -, rfl⟩ := List.mem_map.mp h
    simpa using hr

/-- The whole loop: one block of rows after the other. -/
theorem finiteDiff_eq (F : Ppf α) (gen : Nat → Nat → Py (Mat α)) (junk : Num α) (pb pb' : Problem α)
    (N : Nat) (delta : α) (skip : Nat) (U : Mat α) (X : Mat α) (lo hi : Nat → α)
    (hgen : gen (N + skip) pb.numVars = .ok U)
    (hscale : scaleSamples F pb.numVars U pb = .ok (X.map (·.map some), pb'))
    (hX : X.length = N + skip) (hcols : HasCols pb.numVars X)
    (hb : ∀ j < pb.numVars, ∃ rest, pb.bounds[j]? = some (lo j :: hi j :: rest)) :
    finiteDiffSample F gen junk pb N delta skip =
      .ok ((X.drop skip).flatMap (fdRows pb.numVars lo hi delta), pb') := by
  unfold finiteDiffSample
  simp only [hgen, pyBind_ok, hscale]
  have hrange : List.range' skip N = (List.range N).map (skip + ·) := by
    rw [List.range'_eq_map_range]
  have hdrop : X.drop skip = (List.range N).map fun i => X.getD (skip + i) [] := by
    apply List.ext_getElem
    · simp [hX]
    · intro i h1 h2
      have : skip + i < X.length := by simp at h1; omega
      simp [List.getD, List.getElem?_eq_getElem this]
  have hfold : ∀ st, (List.range' skip N).foldlM
      (fdBlock pb.numVars pb.bounds delta (X.map (·.map some))) st =
      ((X.drop skip).flatMap (fdRows pb.numVars lo hi delta)).foldlM (putRow pb.numVars) st := by
    intro st
    rw [foldlM_flatMap, hdrop, hrange, List.foldlM_map, List.foldlM_map]
    apply foldlM_congr_mem
    intro i hi st
    have : skip + i < X.length := by rw [hX]; have := List.mem_range.mp hi; omega
    refine (fdBlock_eq pb.numVars pb.bounds lo _ delta X hb st (skip + i) X[skip + i]
      (List.getElem?_eq_getElem this) (hcols _ (List.getElem_mem _))).trans ?_
    simp [List.getD, List.getElem?_eq_getElem this]
  have hlen : ((X.drop skip).flatMap (fdRows pb.numVars lo hi delta)).length =
      N * (pb.numVars + 1) := by
    rw [List.length_flatMap]
    simp only [length_fdRows]
    simp [hX]
  rw [hfold, putRow_seq]
  · simp only [pyBind_ok, List.take_zero, List.nil_append, Nat.zero_add, hlen, pyPure]
    simp
  · intro r hr
    obtain ⟨row, hrow, hr⟩ := List.mem_flatMap.mp hr
    exact hasCols_fdRows _ _ _ _ _ (hcols _ (List.drop_subset _ _ hrow)) r hr
  · simp [hlen]

/-- Row `i * w + a` of a list of blocks of `w` rows. -/
theorem flatMap_block {β γ : Type} (l : List β) (f : β → List γ) (w : Nat) (hw : ∀ x ∈ l, (f x).length = w)
    (i a : Nat) (x : β) (hx : l[i]? = some x) (ha : a < w) : (l.flatMap f)[i * w + a]? = (f x)[a]? := by
  induction l generalizing i with
  | nil => simp at hx
  | cons y l ih =>
    rw [List.flatMap_cons]
    cases i with
    | zero =>
      simp only [List.getElem?_cons_zero, Option.some.injEq] at hx
      subst hx
      rw [Nat.zero_mul, Nat.zero_add, List.getElem?_append_left (by rw [hw y (by simp)]; exact ha)]
    | succ i =>
      rw [List.getElem?_cons_succ] at hx
      have hy := hw y (by simp)
      rw [List.getElem?_append_right (by rw [hy]; nlinarith), hy]
      rw [show (i + 1) * w + a - w = i * w + a by rw [Nat.add_mul]; omega]
      exact ih (fun x hx => hw x (List.mem_cons_of_mem _ hx)) i hx

/-- **C48.** For every base sequence whose scaled values are finite: `N * (D + 1)` rows of `D` entries; block
`i` starts with base point `skip + i`, and its row `1 + j` is that point with coordinate `j` replaced by
`base * (1 + delta)` clipped to the bounds of parameter `j`. -/
theorem C48_blocks (F : Ppf α) (gen : Nat → Nat → Py (Mat α)) (junk : Num α) (pb pb' : Problem α)
    (N : Nat) (delta : α) (skip : Nat) (U : Mat α) (X : Mat α) (lo hi : Nat → α)
    (hgen : gen (N + skip) pb.numVars = .ok U)
    (hscale : scaleSamples F pb.numVars U pb = .ok (X.map (·.map some), pb'))
    (hX : X.length = N + skip) (hcols : HasCols pb.numVars X)
    (hb : ∀ j < pb.numVars, ∃ rest, pb.bounds[j]? = some (lo j :: hi j :: rest)) :
    ∃ out, finiteDiffSample F gen junk pb N delta skip = .ok (out, pb') ∧
      out.length = N * (pb.numVars + 1) ∧ HasCols pb.numVars out ∧
      ∀ i < N, ∀ c < pb.numVars, ∃ x, entry X (skip + i) c = some x ∧
        entry out (i * (pb.numVars + 1)) c = some (some x) ∧
        ∀ j < pb.numVars, entry out (i * (pb.numVars + 1) + (1 + j)) c =
          some (some (if c = j then clip (lo j) (hi j) (x * (1 + delta)) else x)) := by
  refine ⟨_, finiteDiff_eq F gen junk pb pb' N delta skip U X lo hi hgen hscale hX hcols hb, ?_, ?_, ?_⟩
  · rw [List.length_flatMap]
    simp only [length_fdRows]
    simp [hX]
  · intro r hr
    obtain ⟨row, hrow, hr⟩ := List.mem_flatMap.mp hr
    exact hasCols_fdRows _ _ _ _ _ (hcols _ (List.drop_subset _ _ hrow)) r hr
  · intro i hiN c hc
    have hi' : skip + i < X.length := by omega
    have hrl : (X[skip + i]).length = pb.numVars := hcols _ (List.getElem_mem _)
    have hget : (X.drop skip)[i]? = some X[skip + i] := by
      rw [List.getElem?_drop, List.getElem?_eq_getElem hi']
    have hrow : ∀ a < pb.numVars + 1, ((X.drop skip).flatMap (fdRows pb.numVars lo hi delta))[
        i * (pb.numVars + 1) + a]? = (fdRows pb.numVars lo hi delta X[skip + i])[a]? := fun a ha =>
      flatMap_block _ _ _ (fun _ _ => length_fdRows _ _ _ _ _) i a _ hget ha
    have hc' : c < (X[skip + i]).length := by omega
    refine ⟨X[skip + i][c], ?_, ?_, ?_⟩
    · unfold entry; rw [List.getElem?_eq_getElem hi']; simp
    · have := hrow 0 (by omega)
      rw [Nat.add_zero] at this
      unfold entry
      rw [this]
      simp [fdRows, hc']
    · intro j hj
      unfold entry
      rw [hrow (1 + j) (by omega), Nat.add_comm 1 j]
      simp only [fdRows, List.getElem?_cons_succ, List.getElem?_map, List.getElem?_range hj,
        Option.map_some, Option.bind_some, List.getElem?_set, hrl, hj, if_true]
      by_cases hcj : j = c
      · subst hcj
        simp [List.getD, List.getElem?_eq_getElem hc']
      · rw [if_neg hcj, if_neg (Ne.symm hcj), List.getElem?_eq_getElem hc']; rfl

theorem clip_mem (lo hi x : α) (h : lo ≤ hi) : lo ≤ clip lo hi x ∧ clip lo hi x ≤ hi := by
  unfold clip; grind

/-- **C48**, uniform inputs: for every base sequence in the unit cube and legal bounds without distributions,
every value of the sample lies within the bounds of its parameter. -/
theorem C48_in_bounds (F : Ppf α) (gen : Nat → Nat → Py (Mat α)) (junk : Num α) (pb : Problem α)
    (bs : List (α × α)) (N : Nat) (delta : α) (skip : Nat) (U : Mat α)
    (hb : pb.bounds = boundsTable bs) (hn : pb.numVars = bs.length) (hd : pb.dists = none) (hne : bs ≠ [])
    (hlegal : ∀ p ∈ bs, p.1 < p.2) (hgen : gen (N + skip) pb.numVars = .ok U) (hU : U.length = N + skip)
    (hcols : HasCols pb.numVars U) (hunit : ∀ row ∈ U, ∀ u ∈ row, 0 ≤ u ∧ u ≤ 1) :
    ∃ out pb', finiteDiffSample F gen junk pb N delta skip = .ok (out, pb') ∧
      out.length = N * (pb.numVars + 1) ∧ HasCols pb.numVars out ∧
      ∀ (r c : Nat) (v : Num α) (lo hi : α), entry out r c = some v → bs[c]? = some (lo, hi) →
        ∃ x, v = some x ∧ lo ≤ x ∧ x ≤ hi := by
  have hsc := scaleSamples_legal F pb bs U hb hd hne hlegal
  rw [← hn] at hsc
  set X := U.map (applyCols (bs.map fun p x => x * (p.2 - p.1) + p.1)) with hXdef
  have hXc : HasCols pb.numVars X := by
    intro row hrow
    obtain ⟨u, hu, rfl⟩ := List.mem_map.mp hrow
    simp [applyCols, hcols u hu, hn]
  have hbb : ∀ j < pb.numVars, ∃ rest, pb.bounds[j]? = some ((bs.getD j (0, 0)).1 ::
      (bs.getD j (0, 0)).2 :: rest) := by
    intro j hj
    have : j < bs.length := by omega
    refine ⟨[], ?_⟩
    rw [hb]
    simp [boundsTable, List.getD, List.getElem?_eq_getElem this]
  obtain ⟨out, ho, hl, hc, hent⟩ := C48_blocks F gen junk pb _ N delta skip U X
    (fun j => (bs.getD j (0, 0)).1) (fun j => (bs.getD j (0, 0)).2) hgen hsc (by simp [hXdef, hU]) hXc hbb
  refine ⟨out, _, ho, hl, hc, ?_⟩
  intro r c v lo hi hv hbc
  have hcn : c < pb.numVars := by rw [hn]; exact (List.getElem?_eq_some_iff.mp hbc).1
  have hr : r < N * (pb.numVars + 1) := by
    rw [← hl]
    unfold entry at hv
    by_contra hge
    rw [List.getElem?_eq_none (by omega)] at hv
    simp at hv
  have hdiv : r / (pb.numVars + 1) < N := Nat.div_lt_of_lt_mul (by rw [Nat.mul_comm]; exact hr)
  obtain ⟨x, h1, h2, h3⟩ := hent (r / (pb.numVars + 1)) hdiv c hcn
  have hlohi : lo < hi := hlegal _ (List.mem_of_getElem? hbc)
  have hbd : bs.getD c (0, 0) = (lo, hi) := by simp [List.getD, hbc]
  have hx : lo ≤ x ∧ x ≤ hi := by
    unfold entry at h1
    rw [Option.bind_eq_some_iff] at h1
    obtain ⟨row, hrow, hxc⟩ := h1
    rw [hXdef, List.getElem?_map, Option.map_eq_some_iff] at hrow
    obtain ⟨u, hu, rfl⟩ := hrow
    have huU := List.mem_of_getElem? hu
    have hcu : c < u.length := by rw [hcols u huU]; exact hcn
    have hx : u[c] * (hi - lo) + lo = x := by
      have := hxc
      simp only [applyCols, List.getElem?_zipWith, List.getElem?_map, hbc,
        List.getElem?_eq_getElem hcu, Option.map_some] at this
      exact Option.some.inj this
    obtain ⟨h0, h1⟩ := hunit u huU _ (List.getElem_mem hcu)
    rw [← hx]
    constructor
    · nlinarith [mul_nonneg h0 (sub_nonneg.mpr hlohi.le)]
    · nlinarith [mul_nonneg (sub_nonneg.mpr h1) (sub_nonneg.mpr hlohi.le)]
  have hsplit : r = r / (pb.numVars + 1) * (pb.numVars + 1) + r % (pb.numVars + 1) :=
    (Nat.div_add_mod' r (pb.numVars + 1)).symm
  rcases Nat.eq_zero_or_pos (r % (pb.numVars + 1)) with h0 | hpos
  · rw [hsplit, h0, Nat.add_zero, h2] at hv
    exact ⟨x, (Option.some.inj hv).symm, hx⟩
  · have hlt : r % (pb.numVars + 1) < pb.numVars + 1 := Nat.mod_lt r (Nat.succ_pos pb.numVars)
    have := h3 (r % (pb.numVars + 1) - 1) (by omega)
    rw [show 1 + (r % (pb.numVars + 1) - 1) = r % (pb.numVars + 1) by omega, ← hsplit, hv] at this
    refine ⟨_, Option.some.inj this, ?_⟩
    split
    · rename_i hcj
      rw [← hcj, hbd]
      exact clip_mem lo hi _ hlohi.le
    · exact hx

/-- The hypotheses of both theorems at two parameters, one point and a step of 1/10: the first coordinate is
moved, the second one clipped. -/
example (F : Ppf ℚ) : finiteDiffSample F (fun _ _ => .ok [[1 / 2, 1]]) none
    { names := ["x", "y"], bounds := [[0, 2], [1, 3]] } 1 (1 / 10) 0 =
    .ok ([[some 1, some 3], [some (11 / 10), some 3], [some 1, some 3]],
      { names := ["x", "y"], bounds := [[0, 2], [1, 3]], sampleScaled := true }) := by
  refine (finiteDiff_eq F _ none _
    { names := ["x", "y"], bounds := [[0, 2], [1, 3]], sampleScaled := true } 1 (1 / 10) 0 [[1 / 2, 1]] [[1, 3]] (fun j => if j = 0 then 0 else 1)
    (fun j => if j = 0 then 2 else 3) rfl ?_ rfl (by simp [HasCols]) ?_).trans ?_
  · refine (scaleSamples_legal F _ [((0 : ℚ), 2), (1, 3)] _ rfl rfl (by simp) ?_).trans ?_
    · intro p hp; simp at hp; rcases hp with h | h <;> rw [h] <;> norm_num
    · simp [applyCols]
  · intro j hj
    have : j < 2 := hj
    interval_cases j <;> exact ⟨[], rfl⟩
  · simp [fdRows, clip, List.range_succ]; norm_num

end SALib
