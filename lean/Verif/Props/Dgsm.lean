import Verif.Props.FiniteDiff
import Verif.Lemmas.Stats
import Verif.Lemmas.Strided
import Verif.Lemmas.MorrisAnalyze
import Mathlib.Algebra.BigOperators.Ring.Finset
import Mathlib.Analysis.SpecialFunctions.Sqrt

/-! # DGSM analysis (C49, C72) -/

set_option linter.unusedSectionVars false

namespace SALib
open Spec

variable {α : Type} [Field α] [LinearOrder α] [IsStrictOrderedRing α]

theorem strided_eq {β : Type} (l : List β) (N step a : Nat) (d : β) (hl : l.length = N * step)
    (ha : a < step) : strided l a step = (List.range N).map fun i => l.getD (i * step + a) d := by
  obtain ⟨blocks, rfl, hN, hb⟩ := exists_blocks step N l hl
  rw [strided_flatten blocks a step hb ha]
  have h1 : blocks.filterMap (·[a]?) = blocks.map fun b => b.getD a d := by
    rw [← List.filterMap_eq_map]
    apply List.filterMap_congr
    intro b hbm
    have : a < b.length := by rw [hb b hbm]; exact ha
    simp [List.getD, List.getElem?_eq_getElem this]
  rw [h1]
  apply List.ext_getElem
  · simp [hN]
  · intro i h2 h3
    have hi : i < blocks.length := by simpa using h2
    have hab : a < (blocks[i]).length := by rw [hb _ (List.getElem_mem _)]; exact ha
    have := flatMap_block blocks id step (fun x hx => hb x hx) i a blocks[i]
      (List.getElem?_eq_getElem hi) ha
    simp only [List.flatMap_id] at this
    simp only [List.getElem_map, List.getElem_range, List.getD]
    rw [this]
    rfl

/-- The quotients of one parameter: change of the output over change of the input, squared. -/
def quot (w : Nat) (X : Mat α) (Y : List α) (j i : Nat) : Num α :=
  (npDiv (Y.getD (i * w + (1 + j)) 0 - Y.getD (i * w) 0)
    ((X.getD (i * w + (1 + j)) []).getD j 0 - (X.getD (i * w) []).getD j 0)).map (· ^ 2)

theorem dfdxSq_map (N : Nat) (b p x : Nat → α) :
    dfdxSq ((List.range N).map b) ((List.range N).map p) ((List.range N).map x) =
      (List.range N).map fun i => (npDiv (p i - b i) (x i)).map (· ^ 2) := by
  unfold dfdxSq
  rw [List.zipWith_map, List.zipWith_self, List.zipWith_map, List.zipWith_self]

theorem takeIdx_map (N : Nat) (f : Nat → α) (r : List Nat) (hr : ∀ i ∈ r, i < N) :
    takeIdx ((List.range N).map f) r = r.map f := by
  unfold takeIdx
  apply List.map_congr_left
  intro i hi
  simp [List.getD, hr i hi]

theorem dfdxSq_idx (r : List Nat) (b p x : Nat → α) :
    dfdxSq (r.map b) (r.map p) (r.map x) = r.map fun i => (npDiv (p i - b i) (x i)).map (· ^ 2) := by
  unfold dfdxSq
  rw [List.zipWith_map, List.zipWith_self, List.zipWith_map, List.zipWith_self]

/-- One parameter in closed form. -/
theorem dgsmOne_eq (sqrt : α → α) (pi2 z : α) (pb : Problem α) (X : Mat α) (Y : List α)
    (draws : Nat → List (List Nat)) (N j : Nat) (lo hi : α) (rest : List α)
    (hY : Y.length = N * (pb.numVars + 1)) (hX : X.length = N * (pb.numVars + 1))
    (hcols : HasCols pb.numVars X) (hj : j < pb.numVars)
    (hb : pb.bounds[j]? = some (lo :: hi :: rest))
    (hdraws : ∀ r ∈ draws j, ∀ i ∈ r, i < N) :
    dgsmOne sqrt pi2 z pb X Y draws j = .ok
      ((npMeanN ((List.range N).map (quot (pb.numVars + 1) X Y j)),
        (((List.range N).map (quot (pb.numVars + 1) X Y j)).mapM id).bind (npStd0 sqrt)),
       ((npVar ((List.range N).map fun i => Y.getD (i * (pb.numVars + 1)) 0)).bind fun D =>
          (npMeanN ((List.range N).map (quot (pb.numVars + 1) X Y j))).bind fun vi =>
            npDiv (vi * (hi - lo) ^ 2) (D * pi2)),
       (npStd1N sqrt ((draws j).map fun r => npMeanN (r.map (quot (pb.numVars + 1) X Y j)))).map (z * ·)) := by
  set w := pb.numVars + 1 with hw
  have e0 : strided Y 0 w = (List.range N).map fun i => Y.getD (i * w) 0 := by
    simpa using strided_eq Y N w 0 0 hY (by omega)
  have e1 : strided Y (j + 1) w = (List.range N).map fun i => Y.getD (i * w + (1 + j)) 0 := by
    rw [strided_eq Y N w (j + 1) 0 hY (by omega), Nat.add_comm j 1]
  have x0 : strided X 0 w = (List.range N).map fun i => X.getD (i * w) [] := by
    simpa using strided_eq X N w 0 [] hX (by omega)
  have x1 : strided X (j + 1) w = (List.range N).map fun i => X.getD (i * w + (1 + j)) [] := by
    rw [strided_eq X N w (j + 1) [] hX (by omega), Nat.add_comm j 1]
  have hrow : ∀ i < N, ∀ a < w, pyGet (X.getD (i * w + a) []) j = .ok ((X.getD (i * w + a) []).getD j 0) := by
    intro i hi a ha
    have hlt : i * w + a < X.length := by
      rw [hX]
      calc i * w + a < i * w + w := by omega
        _ = (i + 1) * w := by ring
        _ ≤ N * w := Nat.mul_le_mul_right _ hi
    have hl : (X.getD (i * w + a) []).length = pb.numVars := by
      rw [List.getD, List.getElem?_eq_getElem hlt]
      exact hcols _ (List.getElem_mem _)
    have key : ∀ row : List α, j < row.length → pyGet row j = .ok (row.getD j 0) := by
      intro row hr
      unfold pyGet
      simp [List.getD, List.getElem?_eq_getElem hr]
    exact key _ (by rw [hl]; exact hj)
  have m0 : ((List.range N).map fun i => X.getD (i * w) []).mapM (fun row => pyGet row j) =
      .ok ((List.range N).map fun i => (X.getD (i * w) []).getD j 0) := by
    rw [mapM_ok_of (g := fun row => row.getD j 0)]
    · rw [List.map_map]; rfl
    · intro row hr
      obtain ⟨i, hi, rfl⟩ := List.mem_map.mp hr
      have := hrow i (List.mem_range.mp hi) 0 (by omega)
      simpa using this
  have m1 : ((List.range N).map fun i => X.getD (i * w + (1 + j)) []).mapM (fun row => pyGet row j) =
      .ok ((List.range N).map fun i => (X.getD (i * w + (1 + j)) []).getD j 0) := by
    rw [mapM_ok_of (g := fun row => row.getD j 0)]
    · rw [List.map_map]; rfl
    · intro row hr
      obtain ⟨i, hi, rfl⟩ := List.mem_map.mp hr
      exact hrow i (List.mem_range.mp hi) (1 + j) (by omega)
  unfold dgsmOne
  simp only [← hw]
  rw [x0, x1, m0, pyBind_ok, m1, pyBind_ok]
  have g : pyGet pb.bounds j = .ok (lo :: hi :: rest) := by unfold pyGet; rw [hb]
  rw [g, pyBind_ok, e0, e1, List.zipWith_map, List.zipWith_self]
  unfold calcDgsm
  have g3 : pyGet (lo :: hi :: rest) 1 = .ok hi := rfl
  have g4 : pyGet (lo :: hi :: rest) 0 = .ok lo := rfl
  rw [g3, pyBind_ok, g4, pyBind_ok]
  have hq : dfdxSq ((List.range N).map fun i => Y.getD (i * w) 0)
      ((List.range N).map fun i => Y.getD (i * w + (1 + j)) 0)
      ((List.range N).map fun i => (X.getD (i * w + (1 + j)) []).getD j 0 - (X.getD (i * w) []).getD j 0) =
      (List.range N).map (quot w X Y j) := dfdxSq_map _ _ _ _
  have hs : ((draws j).map fun r => calcViMean (takeIdx ((List.range N).map fun i => Y.getD (i * w) 0) r)
      (takeIdx ((List.range N).map fun i => Y.getD (i * w + (1 + j)) 0) r)
      (takeIdx ((List.range N).map fun i => (X.getD (i * w + (1 + j)) []).getD j 0 -
        (X.getD (i * w) []).getD j 0) r)) =
      (draws j).map fun r => npMeanN (r.map (quot w X Y j)) := by
    apply List.map_congr_left
    intro r hr
    rw [takeIdx_map N _ r (hdraws r hr), takeIdx_map N _ r (hdraws r hr), takeIdx_map N _ r (hdraws r hr)]
    unfold calcViMean
    rw [dfdxSq_idx]
    rfl
  simp only [calcViStats, calcViMean] at hs ⊢
  rw [hs, hq]
  rfl

/-- The result of the analysis of a sample with the right shape. -/
theorem dgsmAnalyze_eq (sqrt : α → α) (pi2 z conf : α) (pb : Problem α) (X : Mat α) (Y : List α)
    (draws : Nat → List (List Nat)) (N : Nat) (lo hi : Nat → α)
    (hconf : 0 < conf ∧ conf < 1)
    (hY : Y.length = N * (pb.numVars + 1)) (hX : X.length = N * (pb.numVars + 1))
    (hcols : HasCols pb.numVars X)
    (hb : ∀ j < pb.numVars, ∃ rest, pb.bounds[j]? = some (lo j :: hi j :: rest))
    (hdraws : ∀ j < pb.numVars, ∀ r ∈ draws j, ∀ i ∈ r, i < N) :
    ∃ res, dgsmAnalyze sqrt pi2 z conf pb X Y draws = .ok res ∧ res.names = pb.names ∧
      ∀ j < pb.numVars,
        res.vi[j]? = some (npMeanN ((List.range N).map (quot (pb.numVars + 1) X Y j))) ∧
        res.viStd[j]? = some ((((List.range N).map (quot (pb.numVars + 1) X Y j)).mapM id).bind
          (npStd0 sqrt)) ∧
        res.dgsm[j]? = some ((npVar ((List.range N).map fun i => Y.getD (i * (pb.numVars + 1)) 0)).bind
          fun D => (npMeanN ((List.range N).map (quot (pb.numVars + 1) X Y j))).bind fun vi =>
            npDiv (vi * (hi j - lo j) ^ 2) (D * pi2)) ∧
        res.dgsmConf[j]? = some ((npStd1N sqrt ((draws j).map fun r =>
          npMeanN (r.map (quot (pb.numVars + 1) X Y j)))).map (z * ·)) := by
  have htake : X.take Y.length = X := by rw [List.take_of_length_le (by omega)]
  have hm := mapM_ok_of (l := List.range pb.numVars) (f := dgsmOne sqrt pi2 z pb X Y draws) (g := fun j =>
      ((npMeanN ((List.range N).map (quot (pb.numVars + 1) X Y j)),
        (((List.range N).map (quot (pb.numVars + 1) X Y j)).mapM id).bind (npStd0 sqrt)),
       ((npVar ((List.range N).map fun i => Y.getD (i * (pb.numVars + 1)) 0)).bind fun D =>
          (npMeanN ((List.range N).map (quot (pb.numVars + 1) X Y j))).bind fun vi =>
            npDiv (vi * (hi j - lo j) ^ 2) (D * pi2)),
       (npStd1N sqrt ((draws j).map fun r => npMeanN (r.map (quot (pb.numVars + 1) X Y j)))).map (z * ·)))
    (by
      intro j hj
      have hj := List.mem_range.mp hj
      obtain ⟨rest, hbj⟩ := hb j hj
      exact dgsmOne_eq sqrt pi2 z pb X Y draws N j (lo j) (hi j) rest hY hX hcols hj hbj (hdraws j hj))
  unfold dgsmAnalyze
  rw [if_neg (by rw [hY]; simp), if_neg (by simpa using hconf), if_neg (by omega), htake, hm, pyBind_ok]
  refine ⟨_, rfl, rfl, ?_⟩
  intro j hj
  simp [hj]

/-- Wrong number of outputs, or a confidence level outside (0, 1): rejected. -/
theorem C72_reject (sqrt : α → α) (pi2 z conf : α) (pb : Problem α) (X : Mat α) (Y : List α)
    (draws : Nat → List (List Nat))
    (h : ¬ (pb.numVars + 1) ∣ Y.length ∨ ¬ (0 < conf ∧ conf < 1)) :
    dgsmAnalyze sqrt pi2 z conf pb X Y draws = .error .runtimeError := by
  unfold dgsmAnalyze
  by_cases h1 : Y.length % (pb.numVars + 1) = 0
  · rw [if_neg (by simpa using h1)]
    rcases h with h | h
    · exact absurd (Nat.dvd_of_mod_eq_zero h1) h
    · rw [if_pos h]
  · rw [if_pos h1]

/-! ### Linear models -/

/-- A step of the sampler is lost exactly when the base value or `delta` is zero, or when the value sits on the
bound towards which it is moved. -/
theorem C49_zero_step (lo hi x delta : α) (hlo : lo ≤ x) (hhi : x ≤ hi) :
    clip lo hi (x * (1 + delta)) = x ↔
      x = 0 ∨ delta = 0 ∨ (x = hi ∧ 0 < x * delta) ∨ (x = lo ∧ x * delta < 0) := by
  have e : x * (1 + delta) = x + x * delta := by ring
  rw [e]
  have h0 : x = 0 ∨ delta = 0 ↔ x * delta = 0 := by rw [mul_eq_zero]
  rw [← or_assoc, h0]
  generalize x * delta = d
  unfold clip
  grind

/-- `fdRows` without the wrapper for finite values. -/
def fdRowsR (D : Nat) (lo hi : Nat → α) (delta : α) (row : List α) : Mat α :=
  row :: (List.range D).map fun j => row.set j (clip (lo j) (hi j) (row.getD j 0 * (1 + delta)))

theorem fdRows_eq_map (D : Nat) (lo hi : Nat → α) (delta : α) (row : List α) :
    fdRows D lo hi delta row = (fdRowsR D lo hi delta row).map (·.map some) := by
  simp [fdRows, fdRowsR]

theorem linear_set (D j : Nat) (hj : j < D) (c : Nat → α) (row : List α) (hr : row.length = D) (v : α) :
    (∑ k ∈ Finset.range D, c k * (row.set j v).getD k 0) - ∑ k ∈ Finset.range D, c k * row.getD k 0 =
      c j * (v - row.getD j 0) := by
  rw [← Finset.sum_sub_distrib, Finset.sum_eq_single j]
  · simp [List.getD, hr, hj]; ring
  · intro k _ hkj
    simp [List.getD, List.getElem?_set, Ne.symm hkj]
  · intro h; exact absurd (Finset.mem_range.mpr hj) h

/-- The squared difference quotient of input `j` at the base point `row`. -/
def fdQuot (lo hi : Nat → α) (delta : α) (model : List α → α) (j : Nat) (row : List α) : Num α :=
  (npDiv (model (row.set j (clip (lo j) (hi j) (row.getD j 0 * (1 + delta)))) - model row)
    (clip (lo j) (hi j) (row.getD j 0 * (1 + delta)) - row.getD j 0)).map (· ^ 2)

/-- Sample, run any model, analyse: the result in terms of the base points. -/
theorem dgsm_sampled_full (F : Ppf α) (gen : Nat → Nat → Py (Mat α)) (junk : Num α) (pb pb' : Problem α)
    (N : Nat) (delta : α) (skip : Nat) (U : Mat α) (X : Mat α) (lo hi : Nat → α)
    (hgen : gen (N + skip) pb.numVars = .ok U)
    (hscale : scaleSamples F pb.numVars U pb = .ok (X.map (·.map some), pb'))
    (hX : X.length = N + skip) (hcols : HasCols pb.numVars X)
    (hb : ∀ j < pb.numVars, ∃ rest, pb.bounds[j]? = some (lo j :: hi j :: rest))
    (sqrt : α → α) (pi2 z conf : α) (hconf : 0 < conf ∧ conf < 1)
    (draws : Nat → List (List Nat)) (hdraws : ∀ j < pb.numVars, ∀ r ∈ draws j, ∀ i ∈ r, i < N)
    (model : List α → α) :
    ∃ Xs res, finiteDiffSample F gen junk pb N delta skip = .ok (Xs.map (·.map some), pb') ∧
      dgsmAnalyze sqrt pi2 z conf pb' Xs (Xs.map model) draws = .ok res ∧
      ∀ j < pb.numVars,
        res.vi[j]? = some (npMeanN ((X.drop skip).map (fdQuot lo hi delta model j))) ∧
        res.viStd[j]? = some ((((X.drop skip).map (fdQuot lo hi delta model j)).mapM id).bind (npStd0 sqrt)) ∧
        res.dgsm[j]? = some ((npVar ((X.drop skip).map model)).bind fun D =>
          (npMeanN ((X.drop skip).map (fdQuot lo hi delta model j))).bind fun vi =>
            npDiv (vi * (hi j - lo j) ^ 2) (D * pi2)) ∧
        res.dgsmConf[j]? = some ((npStd1N sqrt ((draws j).map fun r =>
          npMeanN (r.map fun i => fdQuot lo hi delta model j ((X.drop skip).getD i [])))).map (z * ·)) := by
  have hpb' : pb' = { pb with sampleScaled := true } := by
    rcases scaleSamples_columns F pb.numVars pb with ⟨e, he⟩ | ⟨fs, -, hfs⟩
    · rw [he] at hscale; cases hscale
    · rw [hfs] at hscale
      exact (congrArg Prod.snd (Except.ok.inj hscale)).symm
  set Xs : Mat α := (X.drop skip).flatMap (fdRowsR pb.numVars lo hi delta) with hXs
  have hout : (X.drop skip).flatMap (fdRows pb.numVars lo hi delta) = Xs.map (·.map some) := by
    rw [hXs, List.map_flatMap]
    congr 1
    funext row
    exact fdRows_eq_map _ _ _ _ _
  have hlenR : ∀ row : List α, (fdRowsR pb.numVars lo hi delta row).length = pb.numVars + 1 := by
    intro row; simp [fdRowsR]
  have hXl : Xs.length = N * (pb.numVars + 1) := by
    rw [hXs, List.length_flatMap]
    simp only [hlenR]
    simp [hX]
  have hXc : HasCols pb.numVars Xs := by
    intro r hr
    obtain ⟨row, hrow, hr⟩ := List.mem_flatMap.mp hr
    have hl := hcols _ (List.drop_subset _ _ hrow)
    unfold fdRowsR at hr
    rcases List.mem_cons.mp hr with h | h
    · rw [h]; exact hl
    · obtain ⟨j, -, rfl⟩ := List.mem_map.mp h
      simpa using hl
  have hn' : pb'.numVars = pb.numVars := by rw [hpb']
  have hb' : pb'.bounds = pb.bounds := by rw [hpb']
  obtain ⟨res, hres, -, hval⟩ := dgsmAnalyze_eq sqrt pi2 z conf pb' Xs (Xs.map model) draws N lo hi hconf
    (by rw [List.length_map, hXl, hn']) (by rw [hXl, hn']) (by rw [hn']; exact hXc)
    (by rw [hn', hb']; exact hb) (by rw [hn']; exact hdraws)
  rw [hn'] at hval
  refine ⟨Xs, res, ?_, hres, ?_⟩
  · rw [finiteDiff_eq F gen junk pb pb' N delta skip U X lo hi hgen hscale hX hcols hb, hout]
  intro j hj
  obtain ⟨h1, h2, h3, h4⟩ := hval j hj
  -- the rows of block `i`
  have hrows : ∀ i < N, ∃ row, (X.drop skip)[i]? = some row ∧ row.length = pb.numVars ∧
      Xs[i * (pb.numVars + 1)]? = some row ∧
      Xs[i * (pb.numVars + 1) + (1 + j)]? =
        some (row.set j (clip (lo j) (hi j) (row.getD j 0 * (1 + delta)))) := by
    intro i hi
    have hlt : skip + i < X.length := by omega
    have hl : (X[skip + i]).length = pb.numVars := hcols _ (List.getElem_mem _)
    have hget : (X.drop skip)[i]? = some X[skip + i] := by
      rw [List.getElem?_drop, List.getElem?_eq_getElem hlt]
    refine ⟨X[skip + i], hget, hl, ?_, ?_⟩
    · have := flatMap_block (X.drop skip) (fdRowsR pb.numVars lo (fun k => _) delta) (pb.numVars + 1)
        (fun _ _ => hlenR _) i 0 _ hget (by omega)
      rw [Nat.add_zero] at this
      rw [hXs, this]
      rfl
    · have := flatMap_block (X.drop skip) (fdRowsR pb.numVars lo (fun k => _) delta) (pb.numVars + 1)
        (fun _ _ => hlenR _) i (1 + j) _ hget (by omega)
      rw [hXs, this, Nat.add_comm 1 j]
      simp [fdRowsR, hj]
  have hmap : ∀ {γ : Type} (f : Nat → γ) (g : List α → γ),
      (∀ i < N, ∀ row, (X.drop skip)[i]? = some row → f i = g row) →
      (List.range N).map f = (X.drop skip).map g := by
    intro γ f g hfg
    apply List.ext_getElem?
    intro i
    rw [List.getElem?_map, List.getElem?_map]
    by_cases hi : i < N
    · obtain ⟨row, hr, -⟩ := hrows i hi
      rw [hr, List.getElem?_range hi, Option.map_some, Option.map_some, hfg i hi row hr]
    · rw [List.getElem?_eq_none (by simpa using hi), List.getElem?_eq_none (by simp; omega)]
      rfl
  have hqi : ∀ i < N, ∀ row, (X.drop skip)[i]? = some row →
      quot (pb.numVars + 1) Xs (Xs.map model) j i = fdQuot lo hi delta model j row := by
    intro i hi row hr
    obtain ⟨row', hr', hl, e1, e2⟩ := hrows i hi
    obtain rfl : row' = row := Option.some.inj (hr'.symm.trans hr)
    unfold quot fdQuot
    simp only [List.getD, List.getElem?_map, e1, e2, Option.map_some, Option.getD_some]
    congr 2
    rw [List.getElem?_set_self (by omega), Option.getD_some]
  have hq : (List.range N).map (quot (pb.numVars + 1) Xs (Xs.map model) j) =
      (X.drop skip).map (fdQuot lo hi delta model j) := hmap _ _ hqi
  have hy : (List.range N).map (fun i => (Xs.map model).getD (i * (pb.numVars + 1)) 0) =
      (X.drop skip).map model := by
    apply hmap
    intro i hi row hr
    obtain ⟨row', hr', hl, e1, e2⟩ := hrows i hi
    obtain rfl : row' = row := Option.some.inj (hr'.symm.trans hr)
    simp only [List.getD, List.getElem?_map, e1, Option.map_some, Option.getD_some]
  rw [hq] at h1 h2 h3
  rw [hy] at h3
  refine ⟨h1, h2, h3, ?_⟩
  rw [h4]
  congr 3
  apply List.map_congr_left
  intro r hr
  congr 1
  apply List.map_congr_left
  intro i hi
  obtain ⟨row, hrow, -⟩ := hrows i (hdraws j hj r hr i hi)
  rw [hqi i (hdraws j hj r hr i hi) row hrow, List.getD, hrow]
  rfl

/-- Sample, run any model, analyse: the result in terms of the base points. -/
theorem dgsm_sampled (F : Ppf α) (gen : Nat → Nat → Py (Mat α)) (junk : Num α) (pb pb' : Problem α)
    (N : Nat) (delta : α) (skip : Nat) (U : Mat α) (X : Mat α) (lo hi : Nat → α)
    (hgen : gen (N + skip) pb.numVars = .ok U)
    (hscale : scaleSamples F pb.numVars U pb = .ok (X.map (·.map some), pb'))
    (hX : X.length = N + skip) (hcols : HasCols pb.numVars X)
    (hb : ∀ j < pb.numVars, ∃ rest, pb.bounds[j]? = some (lo j :: hi j :: rest))
    (sqrt : α → α) (pi2 z conf : α) (hconf : 0 < conf ∧ conf < 1)
    (draws : Nat → List (List Nat)) (hdraws : ∀ j < pb.numVars, ∀ r ∈ draws j, ∀ i ∈ r, i < N)
    (model : List α → α) :
    ∃ Xs res, finiteDiffSample F gen junk pb N delta skip = .ok (Xs.map (·.map some), pb') ∧
      dgsmAnalyze sqrt pi2 z conf pb' Xs (Xs.map model) draws = .ok res ∧
      ∀ j < pb.numVars,
        res.vi[j]? = some (npMeanN ((X.drop skip).map (fdQuot lo hi delta model j))) ∧
        res.viStd[j]? = some ((((X.drop skip).map (fdQuot lo hi delta model j)).mapM id).bind (npStd0 sqrt)) ∧
        res.dgsm[j]? = some ((npVar ((X.drop skip).map model)).bind fun D =>
          (npMeanN ((X.drop skip).map (fdQuot lo hi delta model j))).bind fun vi =>
            npDiv (vi * (hi j - lo j) ^ 2) (D * pi2)) := by
  obtain ⟨Xs, res, h1, h2, h3⟩ := dgsm_sampled_full F gen junk pb pb' N delta skip U X lo hi hgen hscale hX hcols hb sqrt pi2 z conf
    hconf draws hdraws model
  exact ⟨Xs, res, h1, h2, fun j hj => ⟨(h3 j hj).1, (h3 j hj).2.1, (h3 j hj).2.2.1⟩⟩

/-- **C49.** Sample, run any model, analyse.  If the model is linear, `vi` of a parameter none of whose steps
is lost is the square of its coefficient (and `vi_std` is the square root of 0); if some step is lost, `vi`,
`vi_std` and `dgsm` are not finite, whatever the model.  `C49_zero_step` says when a step is lost. -/
theorem C49_linear (F : Ppf α) (gen : Nat → Nat → Py (Mat α)) (junk : Num α) (pb pb' : Problem α)
    (N : Nat) (delta : α) (skip : Nat) (U : Mat α) (X : Mat α) (lo hi : Nat → α)
    (hgen : gen (N + skip) pb.numVars = .ok U)
    (hscale : scaleSamples F pb.numVars U pb = .ok (X.map (·.map some), pb'))
    (hX : X.length = N + skip) (hcols : HasCols pb.numVars X)
    (hb : ∀ j < pb.numVars, ∃ rest, pb.bounds[j]? = some (lo j :: hi j :: rest))
    (hN : 0 < N) (sqrt : α → α) (pi2 z conf : α) (hconf : 0 < conf ∧ conf < 1)
    (draws : Nat → List (List Nat)) (hdraws : ∀ j < pb.numVars, ∀ r ∈ draws j, ∀ i ∈ r, i < N)
    (model : List α → α) :
    ∃ Xs res, finiteDiffSample F gen junk pb N delta skip = .ok (Xs.map (·.map some), pb') ∧
      dgsmAnalyze sqrt pi2 z conf pb' Xs (Xs.map model) draws = .ok res ∧
      ∀ j < pb.numVars,
        ((∀ i < N, ∀ x, entry X (skip + i) j = some x → clip (lo j) (hi j) (x * (1 + delta)) ≠ x) →
          ∀ (c0 : α) (c : Nat → α), (∀ xs : List α, xs.length = pb.numVars →
            model xs = c0 + ∑ k ∈ Finset.range pb.numVars, c k * xs.getD k 0) →
          res.vi[j]? = some (some (c j ^ 2)) ∧ res.viStd[j]? = some (some (sqrt 0))) ∧
        ((∃ i < N, ∃ x, entry X (skip + i) j = some x ∧ clip (lo j) (hi j) (x * (1 + delta)) = x) →
          res.vi[j]? = some none ∧ res.viStd[j]? = some none ∧ res.dgsm[j]? = some none) := by
  obtain ⟨Xs, res, hs, hres, hval⟩ := dgsm_sampled F gen junk pb pb' N delta skip U X lo hi hgen hscale hX hcols hb
    sqrt pi2 z conf hconf draws hdraws model
  refine ⟨Xs, res, hs, hres, ?_⟩
  intro j hj
  obtain ⟨h1, h2, h3⟩ := hval j hj
  have hent : ∀ row ∈ X.drop skip, row.length = pb.numVars ∧
      ∃ i < N, entry X (skip + i) j = some (row.getD j 0) := by
    intro row hrow
    have hl := hcols _ (List.drop_subset _ _ hrow)
    obtain ⟨i, hi, hget⟩ := List.mem_iff_getElem.mp hrow
    refine ⟨hl, i, by simp at hi; omega, ?_⟩
    rw [List.getElem_drop] at hget
    unfold entry
    rw [List.getElem?_eq_getElem (by simp at hi; omega), hget]
    simp [List.getD, List.getElem?_eq_getElem (show j < row.length by omega)]
  constructor
  · intro hnz c0 c hlin
    have hq : (X.drop skip).map (fdQuot lo hi delta model j) =
        (X.drop skip).map fun _ => some (c j ^ 2) := by
      apply List.map_congr_left
      intro row hrow
      obtain ⟨hl, i, hlt, he⟩ := hent row hrow
      have hne := sub_ne_zero.mpr (hnz i hlt _ he)
      unfold fdQuot
      rw [npDiv_some _ _ hne, hlin row hl, hlin _ (by simpa using hl)]
      have := linear_set pb.numVars j hj c row hl (clip (lo j) (hi j) (row.getD j 0 * (1 + delta)))
      rw [add_sub_add_left_eq_sub, this, mul_div_assoc, div_self hne, mul_one]
      rfl
    rw [hq] at h1 h2
    rw [h1, h2]
    refine ⟨by rw [npMeanN_const _ (c j ^ 2) (by simp; omega) (by simp)], ?_⟩
    have hm : ((X.drop skip).map fun _ => (some (c j ^ 2) : Num α)).mapM id =
        some ((X.drop skip).map fun _ => c j ^ 2) := by
      rw [optMapM_id, List.map_map]; rfl
    rw [hm]
    simp only [Option.bind_some, npStd0]
    rw [npVar_const _ (by intro h; have := congrArg List.length h; simp at this; omega) (c j ^ 2) (by simp)]
    rfl
  · rintro ⟨i, hiN, x, hx, hclip⟩
    have hmem : (none : Num α) ∈ (X.drop skip).map (fdQuot lo hi delta model j) := by
      have hlt : skip + i < X.length := by omega
      refine List.mem_map.mpr ⟨X[skip + i], List.mem_iff_getElem.mpr ⟨i, by simp; omega, by simp⟩, ?_⟩
      have hx' : (X[skip + i]).getD j 0 = x := by
        unfold entry at hx
        rw [List.getElem?_eq_getElem hlt] at hx
        simp only [Option.bind_some] at hx
        simp [List.getD, hx]
      unfold fdQuot
      rw [hx', hclip, sub_self]
      simp [npDiv]
    have hnone : ((X.drop skip).map (fdQuot lo hi delta model j)).mapM id = none := by
      cases hm : ((X.drop skip).map (fdQuot lo hi delta model j)).mapM id with
      | none => rfl
      | some l' =>
        rw [optMapM_id] at hm
        rw [hm] at hmem
        simp at hmem
    have hmean : npMeanN ((X.drop skip).map (fdQuot lo hi delta model j)) = none := by
      unfold npMeanN; rw [hnone]; rfl
    rw [h1, h2, h3, hmean, hnone]
    simp

/-- The hypotheses of `C49_linear` at two parameters, two points and a step of 1/10 with nothing lost. -/
example (F : Ppf ℚ) : ∃ Xs res, finiteDiffSample F (fun _ _ => .ok [[1 / 2, 1 / 2], [1 / 4, 0]]) none
      { names := ["x", "y"], bounds := [[0, 2], [1, 3]] } 2 (1 / 10) 0 = .ok (Xs.map (·.map some),
        { names := ["x", "y"], bounds := [[0, 2], [1, 3]], sampleScaled := true }) ∧
    dgsmAnalyze id (10 : ℚ) 2 (19 / 20)
      { names := ["x", "y"], bounds := [[(0 : ℚ), 2], [1, 3]], sampleScaled := true }
      Xs (Xs.map fun xs => 7 + 3 * xs.getD 0 0 - 2 * xs.getD 1 0) (fun _ => [[0, 1], [1, 1]]) = .ok res ∧
    res.vi[0]? = some (some 9) ∧ res.vi[1]? = some (some 4) := by
  obtain ⟨Xs, res, h1, h2, h3⟩ := C49_linear F (fun _ _ => .ok [[(1 / 2 : ℚ), 1 / 2], [1 / 4, 0]]) none
    { names := ["x", "y"], bounds := [[0, 2], [1, 3]] }
    { names := ["x", "y"], bounds := [[0, 2], [1, 3]], sampleScaled := true } 2 (1 / 10) 0
    [[1 / 2, 1 / 2], [1 / 4, 0]] [[1, 2], [1 / 2, 1]] (fun j => if j = 0 then 0 else 1)
    (fun j => if j = 0 then 2 else 3) rfl
    (by
      refine (scaleSamples_legal F _ [((0 : ℚ), 2), (1, 3)] _ rfl rfl (by simp) ?_).trans ?_
      · intro p hp; simp at hp; rcases hp with h | h <;> rw [h] <;> norm_num
      · simp [applyCols]; norm_num)
    rfl (by simp [HasCols])
    (by
      intro j hj
      have : j < 2 := hj
      interval_cases j <;> exact ⟨[], rfl⟩)
    (by norm_num) id 10 2 (19 / 20) (by norm_num) (fun _ => [[0, 1], [1, 1]])
    (by
      intro j _ r hr i hi
      simp at hr
      rcases hr with h | h <;> rw [h] at hi <;> simp at hi <;> omega)
    (fun xs => 7 + 3 * xs.getD 0 0 - 2 * xs.getD 1 0)
  have hlin : ∀ xs : List ℚ, xs.length = 2 → 7 + 3 * xs.getD 0 0 - 2 * xs.getD 1 0 =
      7 + ∑ k ∈ Finset.range 2, (if k = 0 then 3 else -2) * xs.getD k 0 := by
    intro xs _
    simp [Finset.sum_range_succ]; ring
  refine ⟨Xs, res, h1, h2, ?_, ?_⟩
  · refine ((h3 0 (by simp)).1 ?_ 7 _ hlin).1.trans (by norm_num)
    intro i hi x hx
    interval_cases i <;> simp [entry] at hx <;> subst hx <;> simp [clip] <;> norm_num
  · refine ((h3 1 (by simp)).1 ?_ 7 _ hlin).1.trans (by norm_num)
    intro i hi x hx
    interval_cases i <;> simp [entry] at hx <;> subst hx <;> simp [clip] <;> norm_num

/-! ### Signs, units and ignored factors -/

section general
variable (sqrt : α → α) (pi2 z conf : α) (pb : Problem α) (X : Mat α) (Y : List α)
  (draws : Nat → List (List Nat)) (N : Nat) (lo hi : Nat → α)

theorem quot_nonneg (w j i : Nat) (v : α) (h : quot w X Y j i = some v) : 0 ≤ v := by
  unfold quot at h
  rw [Option.map_eq_some_iff] at h
  obtain ⟨u, -, rfl⟩ := h
  positivity

theorem npMeanN_quot_nonneg (w j : Nat) (l : List Nat) (v : α)
    (h : npMeanN (l.map (quot w X Y j)) = some v) : 0 ≤ v := by
  obtain ⟨l', h1, hne, rfl⟩ := npMeanN_eq_some _ v h
  apply div_nonneg
  · apply List.sum_nonneg
    intro x hx
    have : some x ∈ l.map (quot w X Y j) := by rw [h1]; exact List.mem_map_of_mem hx
    obtain ⟨i, -, hi⟩ := List.mem_map.mp this
    exact quot_nonneg X Y w j i x hi
  · exact Nat.cast_nonneg _

/-- **C72**, signs: every reported number is non-negative. -/
theorem C72_nonneg (hconf : 0 < conf ∧ conf < 1)
    (hY : Y.length = N * (pb.numVars + 1)) (hX : X.length = N * (pb.numVars + 1))
    (hcols : HasCols pb.numVars X)
    (hb : ∀ j < pb.numVars, ∃ rest, pb.bounds[j]? = some (lo j :: hi j :: rest))
    (hdraws : ∀ j < pb.numVars, ∀ r ∈ draws j, ∀ i ∈ r, i < N)
    (hpi : 0 < pi2) (hz : 0 ≤ z) (hs : ∀ x, 0 ≤ sqrt x) :
    ∃ res, dgsmAnalyze sqrt pi2 z conf pb X Y draws = .ok res ∧ ∀ j < pb.numVars, ∀ v : α,
      (res.vi[j]? = some (some v) → 0 ≤ v) ∧ (res.viStd[j]? = some (some v) → 0 ≤ v) ∧
      (res.dgsm[j]? = some (some v) → 0 ≤ v) ∧ (res.dgsmConf[j]? = some (some v) → 0 ≤ v) := by
  obtain ⟨res, h, -, hv⟩ := dgsmAnalyze_eq sqrt pi2 z conf pb X Y draws N lo hi hconf hY hX hcols hb hdraws
  refine ⟨res, h, ?_⟩
  intro j hj v
  obtain ⟨h1, h2, h3, h4⟩ := hv j hj
  rw [h1, h2, h3, h4]
  refine ⟨?_, ?_, ?_, ?_⟩
  · intro hv
    exact npMeanN_quot_nonneg X Y _ j _ v (Option.some.inj hv)
  · intro hv
    have hv := Option.some.inj hv
    rw [Option.bind_eq_some_iff] at hv
    obtain ⟨l, -, hl⟩ := hv
    unfold npStd0 at hl
    rw [Option.map_eq_some_iff] at hl
    obtain ⟨u, -, rfl⟩ := hl
    exact hs u
  · intro hv
    have hv := Option.some.inj hv
    rw [Option.bind_eq_some_iff] at hv
    obtain ⟨D, hD, hv⟩ := hv
    rw [Option.bind_eq_some_iff] at hv
    obtain ⟨vi, hvi, hv⟩ := hv
    unfold npDiv at hv
    split at hv
    · cases hv
    · cases hv
      have := npVar_nonneg _ D hD
      have := npMeanN_quot_nonneg X Y _ j _ vi hvi
      positivity
  · intro hv
    have hv := Option.some.inj hv
    rw [Option.map_eq_some_iff] at hv
    obtain ⟨u, hu, rfl⟩ := hv
    exact mul_nonneg hz (npStd1N_nonneg sqrt hs _ u hu)

theorem quot_affine (a b : α) (w j i : Nat) (h : i * w + (1 + j) < Y.length) :
    quot w X (Y.map fun y => a * y + b) j i = (quot w X Y j i).map (a ^ 2 * ·) := by
  unfold quot npDiv
  have h0 : i * w < Y.length := by omega
  simp only [List.getD, List.getElem?_map, List.getElem?_eq_getElem h, List.getElem?_eq_getElem h0,
    Option.map_some, Option.getD_some]
  split
  · rfl
  · simp only [Option.map_some, Option.some.injEq]
    ring

theorem npStd0_smul (hs : ∀ a v, 0 ≤ v → sqrt (a ^ 2 * v) = |a| * sqrt v) (a : α) (l : List α) :
    npStd0 sqrt (l.map (a * ·)) = (npStd0 sqrt l).map (|a| * ·) := by
  unfold npStd0
  have := npVar_affine l a 0
  simp only [add_zero] at this
  rw [this]
  cases hv : npVar l with
  | none => rfl
  | some v => simp [hs a v (npVar_nonneg l v hv)]

/-- **C72**, units of the output: replacing every output `y` by `a * y + b`, `a` not 0, multiplies `vi` and
`vi_std` by `a ^ 2` and leaves `dgsm` unchanged.  The value reported as the confidence interval of `dgsm` is
multiplied by `a ^ 2` like `vi`: it is the one of `vi`, not of `dgsm` (recorded in DESIGN.md). -/
theorem C72_affine (hconf : 0 < conf ∧ conf < 1)
    (hY : Y.length = N * (pb.numVars + 1)) (hX : X.length = N * (pb.numVars + 1))
    (hcols : HasCols pb.numVars X)
    (hb : ∀ j < pb.numVars, ∃ rest, pb.bounds[j]? = some (lo j :: hi j :: rest))
    (hdraws : ∀ j < pb.numVars, ∀ r ∈ draws j, ∀ i ∈ r, i < N)
    (hs : ∀ a v, 0 ≤ v → sqrt (a ^ 2 * v) = |a| * sqrt v) (a b : α) (ha : a ≠ 0) :
    ∃ res res', dgsmAnalyze sqrt pi2 z conf pb X Y draws = .ok res ∧
      dgsmAnalyze sqrt pi2 z conf pb X (Y.map fun y => a * y + b) draws = .ok res' ∧
      ∀ j < pb.numVars, ∃ vi sd g ci, res.vi[j]? = some vi ∧ res.viStd[j]? = some sd ∧
        res.dgsm[j]? = some g ∧ res.dgsmConf[j]? = some ci ∧
        res'.vi[j]? = some (vi.map (a ^ 2 * ·)) ∧ res'.viStd[j]? = some (sd.map (a ^ 2 * ·)) ∧
        res'.dgsm[j]? = some g ∧ res'.dgsmConf[j]? = some (ci.map (a ^ 2 * ·)) := by
  obtain ⟨res, h, -, hv⟩ := dgsmAnalyze_eq sqrt pi2 z conf pb X Y draws N lo hi hconf hY hX hcols hb hdraws
  obtain ⟨res', h', -, hv'⟩ := dgsmAnalyze_eq sqrt pi2 z conf pb X (Y.map fun y => a * y + b) draws N lo hi
    hconf (by simpa using hY) hX hcols hb hdraws
  refine ⟨res, res', h, h', ?_⟩
  intro j hj
  obtain ⟨h1, h2, h3, h4⟩ := hv j hj
  obtain ⟨h1', h2', h3', h4'⟩ := hv' j hj
  have hin : ∀ i < N, i * (pb.numVars + 1) + (1 + j) < Y.length := by
    intro i hi
    rw [hY]
    calc i * (pb.numVars + 1) + (1 + j) < i * (pb.numVars + 1) + (pb.numVars + 1) := by omega
      _ = (i + 1) * (pb.numVars + 1) := by ring
      _ ≤ N * (pb.numVars + 1) := Nat.mul_le_mul_right _ hi
  have habs : |a ^ 2| = a ^ 2 := abs_of_nonneg (sq_nonneg a)
  have hq : ∀ l : List Nat, (∀ i ∈ l, i < N) → l.map (quot (pb.numVars + 1) X (Y.map fun y => a * y + b) j) =
      (l.map (quot (pb.numVars + 1) X Y j)).map (Option.map (a ^ 2 * ·)) := by
    intro l hl
    rw [List.map_map]
    apply List.map_congr_left
    intro i hi
    exact quot_affine X Y a b _ j i (hin i (hl i hi))
  have hqN := hq (List.range N) (fun i hi => List.mem_range.mp hi)
  have hbase : ((List.range N).map fun i => (Y.map fun y => a * y + b).getD (i * (pb.numVars + 1)) 0) =
      ((List.range N).map fun i => Y.getD (i * (pb.numVars + 1)) 0).map fun y => a * y + b := by
    rw [List.map_map]
    apply List.map_congr_left
    intro i hi
    have := hin i (List.mem_range.mp hi)
    simp [List.getD, List.getElem?_eq_getElem (show i * (pb.numVars + 1) < Y.length by omega)]
  refine ⟨_, _, _, _, h1, h2, h3, h4, ?_, ?_, ?_, ?_⟩
  · rw [h1', hqN, npMeanN_smul]
  · rw [h2', hqN, optMapM_map]
    cases hm : ((List.range N).map (quot (pb.numVars + 1) X Y j)).mapM id with
    | none => rfl
    | some l =>
      simp only [Option.map_some, Option.bind_some]
      rw [npStd0_smul sqrt hs, habs]
  · rw [h3', hqN, hbase, npMeanN_smul, npVar_affine]
    have ha2 : a ^ 2 ≠ 0 := pow_ne_zero 2 ha
    cases npVar ((List.range N).map fun i => Y.getD (i * (pb.numVars + 1)) 0) with
    | none => rfl
    | some D =>
      cases npMeanN ((List.range N).map (quot (pb.numVars + 1) X Y j)) with
      | none => rfl
      | some vi =>
        simp only [Option.map_some, Option.bind_some, npDiv]
        by_cases h0 : D * pi2 = 0
        · rw [if_pos h0, if_pos (by rw [mul_assoc, h0, mul_zero])]
        · rw [if_neg h0, if_neg (by rw [mul_assoc]; exact mul_ne_zero ha2 h0), mul_assoc, mul_assoc,
            mul_div_mul_left _ _ ha2]
  · rw [h4']
    have : ((draws j).map fun r => npMeanN (r.map (quot (pb.numVars + 1) X (Y.map fun y => a * y + b) j))) =
        ((draws j).map fun r => npMeanN (r.map (quot (pb.numVars + 1) X Y j))).map
          (Option.map (a ^ 2 * ·)) := by
      rw [List.map_map]
      apply List.map_congr_left
      intro r hr
      rw [hq r (hdraws j hj r hr), npMeanN_smul]
      rfl
    rw [this, npStd1N_smul sqrt hs, habs]
    cases npStd1N sqrt ((draws j).map fun r => npMeanN (r.map (quot (pb.numVars + 1) X Y j))) with
    | none => rfl
    | some s => simp; ring

/-- **C72**, ignored factor: when moving parameter `j` never changes the output and no step is lost, `vi`,
`vi_std` and `dgsm` of `j` are 0 (provided the outputs of the base points are not constant). -/
theorem C72_ignored (hconf : 0 < conf ∧ conf < 1)
    (hY : Y.length = N * (pb.numVars + 1)) (hX : X.length = N * (pb.numVars + 1))
    (hcols : HasCols pb.numVars X)
    (hb : ∀ j < pb.numVars, ∃ rest, pb.bounds[j]? = some (lo j :: hi j :: rest))
    (hdraws : ∀ j < pb.numVars, ∀ r ∈ draws j, ∀ i ∈ r, i < N) (hN : 0 < N) (hpi : pi2 ≠ 0)
    (hs0 : sqrt 0 = 0) (j : Nat) (hj : j < pb.numVars)
    (hign : ∀ i < N, Y[i * (pb.numVars + 1) + (1 + j)]? = Y[i * (pb.numVars + 1)]?)
    (hstep : ∀ i < N, entry X (i * (pb.numVars + 1) + (1 + j)) j ≠ entry X (i * (pb.numVars + 1)) j) :
    ∃ res, dgsmAnalyze sqrt pi2 z conf pb X Y draws = .ok res ∧
      res.vi[j]? = some (some 0) ∧ res.viStd[j]? = some (some 0) ∧
      ((∃ i < N, ∃ i' < N, Y[i * (pb.numVars + 1)]? ≠ Y[i' * (pb.numVars + 1)]?) →
        res.dgsm[j]? = some (some 0)) := by
  obtain ⟨res, h, -, hv⟩ := dgsmAnalyze_eq sqrt pi2 z conf pb X Y draws N lo hi hconf hY hX hcols hb hdraws
  refine ⟨res, h, ?_⟩
  obtain ⟨h1, h2, h3, h4⟩ := hv j hj
  have hin : ∀ i < N, i * (pb.numVars + 1) + (1 + j) < N * (pb.numVars + 1) := by
    intro i hi
    calc i * (pb.numVars + 1) + (1 + j) < i * (pb.numVars + 1) + (pb.numVars + 1) := by omega
      _ = (i + 1) * (pb.numVars + 1) := by ring
      _ ≤ N * (pb.numVars + 1) := Nat.mul_le_mul_right _ hi
  have hent : ∀ r < X.length, entry X r j = some ((X.getD r []).getD j 0) := by
    intro r hr
    have hl : (X[r]).length = pb.numVars := hcols _ (List.getElem_mem _)
    unfold entry
    simp [List.getD, List.getElem?_eq_getElem hr,
      List.getElem?_eq_getElem (show j < (X[r]).length by omega)]
  have hq : (List.range N).map (quot (pb.numVars + 1) X Y j) = (List.range N).map fun _ => some 0 := by
    apply List.map_congr_left
    intro i hi
    have hi := List.mem_range.mp hi
    have hlt := hin i hi
    have hne := hstep i hi
    rw [hent _ (by omega), hent _ (by omega)] at hne
    unfold quot
    rw [npDiv_some _ _ (sub_ne_zero.mpr fun e => hne (by rw [e]))]
    simp [List.getD, hign i hi]
  have hmean : npMeanN ((List.range N).map fun _ => (some 0 : Num α)) = some 0 :=
    npMeanN_const _ 0 (by simp; omega) (by simp)
  rw [h1, h2, h3, hq, hmean]
  refine ⟨rfl, ?_, ?_⟩
  · have hm : ((List.range N).map fun _ => (some 0 : Num α)).mapM id =
        some ((List.range N).map fun _ => (0 : α)) := by
      rw [optMapM_id, List.map_map]; rfl
    rw [hm]
    simp only [Option.bind_some, npStd0]
    rw [npVar_const _ (by intro h; have := congrArg List.length h; simp at this; omega) 0 (by simp)]
    simp [hs0]
  · rintro ⟨i, hi, i', hi', hne⟩
    have hp : ptpZero ((List.range N).map fun i => Y.getD (i * (pb.numVars + 1)) 0) = false := by
      rw [Bool.eq_false_iff]
      intro hp
      rw [ptpZero_iff _ (by intro h; have := congrArg List.length h; simp at this; omega)] at hp
      obtain ⟨c, hc⟩ := hp
      apply hne
      have hval : ∀ i < N, Y[i * (pb.numVars + 1)]? = some c := by
        intro i hi
        have hlt := hin i hi
        have := hc _ (List.mem_map_of_mem (List.mem_range.mpr hi))
        rw [List.getD, List.getElem?_eq_getElem (by omega)] at this
        rw [List.getElem?_eq_getElem (by omega)]
        exact congrArg some this
      rw [hval i hi, hval i' hi']
    obtain ⟨v, hv1, hv2⟩ := npVar_pos _ (by intro h; have := congrArg List.length h; simp at this; omega) hp
    rw [hv1]
    simp only [Option.bind_some, zero_mul]
    rw [npDiv_some _ _ (mul_ne_zero hv2.ne' hpi), zero_div]

end general

/-- The hypothesis on the square root in `C72_affine`. -/
example : ∀ a v : ℝ, 0 ≤ v → Real.sqrt (a ^ 2 * v) = |a| * Real.sqrt v := by
  intro a v _
  rw [Real.sqrt_mul (sq_nonneg a), Real.sqrt_sq_eq_abs]

/-- The hypotheses of `C72_ignored` and `C72_affine` at two parameters and two points; the second parameter
is ignored by the outputs. -/
example : dgsmAnalyze id (10 : ℚ) 2 (19 / 20) { names := ["x", "y"], bounds := [[0, 2], [1, 3]] }
    [[1, 2], [2, 2], [1, 3], [1 / 2, 1], [1, 1], [1 / 2, 2]] [1, 2, 1, 1 / 2, 1, 1 / 2]
    (fun _ => [[0, 1], [1, 1]]) |>.map (fun r => (r.vi, r.dgsm)) |> (· =
      .ok ([some 1, some 0], [some (32 / 5), some 0])) := by
  decide +kernel

end SALib
