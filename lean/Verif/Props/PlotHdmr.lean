import Verif.Model.PlotHdmr
import Verif.Props.Plotting
import Verif.Props.MorrisAnalyze

/-!
# Plots of HDMR results, of Morris results by groups and of several outputs (C133)

The bootstrap trials of HDMR are drawn for at most ten trials and for multiples of ten; for every other accepted number
the plot fails.  After `emulate` without observations it fails as well.  The covariance plot never takes the branch for
groups: a group of two or more inputs has no point.  With several outputs there is no plot of RSA and HDMR results.
-/

namespace SALib

open Spec

variable {α β : Type}

/-- The loops over panels, started at a multiple of the number of panels in a figure. -/
theorem panel_loop (per s : Nat) (hper : 0 < per) (hs : s % per = 0) (step : PanelState β → Nat → Draw (PanelState β))
    (c : Nat → β) (it0 : Option Nat) (n : Nat)
    (hstep : ∀ st i, s ≤ i → i < s + n → step st i = addPanel per (newFigure per st i) (c i)) :
    ∃ it, (List.range' s n).foldlM step { figs := 0, it := it0, panels := [] } =
      .ok { figs := (n + per - 1) / per, it := it,
            panels := (List.range n).map fun t => ⟨t / per + 1, t % per + 1, c (s + t)⟩ } ∧
      (0 < n → it = some ((n - 1) % per + 2)) := by
  induction n with
  | zero => exact ⟨it0, by simp [pure, Except.pure, Nat.div_eq_of_lt (Nat.sub_lt hper one_pos)], by simp⟩
  | succ n ih =>
    obtain ⟨it, h1, h2⟩ := ih fun st i ha hb => hstep st i ha (by omega)
    refine ⟨some (n % per + 2), ?_, by simp⟩
    rw [List.range'_concat, List.foldlM_append, h1]
    show (List.foldlM step _ [s + 1 * n]) = _
    rw [List.foldlM_cons, hstep _ _ (by omega) (by omega)]
    have hm : (s + 1 * n) % per = n % per := by rw [one_mul, Nat.add_mod, hs, zero_add, Nat.mod_mod]
    have hlt := Nat.mod_lt n hper
    have key : ∀ ps : List (Panel β), addPanel per (newFigure per { figs := (n + per - 1) / per, it := it, panels := ps }
        (s + 1 * n)) (c (s + 1 * n)) = .ok { figs := n / per + 1, it := some (n % per + 2),
                                             panels := ps ++ [⟨n / per + 1, n % per + 1, c (s + n)⟩] } := by
      intro ps
      unfold newFigure
      by_cases h0 : n % per = 0
      · rw [if_pos (Or.inl (hm.trans h0))]
        have hd : (n + per - 1) / per = n / per := by
          obtain ⟨q, rfl⟩ := Nat.dvd_of_mod_eq_zero h0
          rw [Nat.mul_div_cancel_left _ hper, show per * q + per - 1 = (per - 1) + per * q by omega,
            Nat.add_mul_div_left _ _ hper, Nat.div_eq_of_lt (by omega)]
          omega
        unfold addPanel
        simp [h0, hd, hper.ne']
      · have hn : 0 < n := by
          rcases Nat.eq_zero_or_pos n with rfl | h
          · simp at h0
          · exact h
        rw [if_neg (by rw [hm]; omega)]
        have hd : (n + per - 1) / per = n / per + 1 := by
          have := Nat.div_add_mod n per
          rw [show n + per - 1 = (n % per - 1) + per * (n / per + 1) by rw [Nat.mul_add]; omega,
            Nat.add_mul_div_left _ _ hper, Nat.div_eq_of_lt (by omega)]
          omega
        have hi : it = some (n % per + 1) := by
          rw [h2 hn]
          have := Nat.div_add_mod n per
          have e : (n - 1) % per = n % per - 1 := by
            rw [show n - 1 = (n % per - 1) + per * (n / per) by omega, Nat.add_mul_mod_self_left, Nat.mod_eq_of_lt (by omega)]
          rw [e]
          congr 1
          omega
        unfold addPanel
        simp only [hi, hd]
        rw [if_pos ⟨by omega, by omega⟩]
        simp
    rw [key]
    show Except.ok _ = Except.ok _
    congr 1
    rw [List.range_succ, List.map_append]
    congr 1
    rw [show n + 1 + per - 1 = n + per by omega, Nat.add_div_right _ hper]

theorem takeAll_ok (Y : List α) (idx : List Nat) (dflt : α) (h : ∀ i ∈ idx, i < Y.length) :
    takeAll Y idx = .ok (idx.map fun i => Y.getD i dflt) :=
  mapM_ok_of _ _ idx fun i hi => by
    unfold pyGet
    rw [List.getElem?_eq_getElem (h i hi)]
    simp [List.getD_eq_getElem?_getD, List.getElem?_eq_getElem (h i hi)]

/-- For at most ten bootstrap trials and for multiples of ten, one figure shows the last `min K 10` trials in order, each
on its own place, emulated values against the outputs of its own rows; the titles count from the last trial. -/
theorem C133_trials_partial (K : Nat) (hK : 0 < K) (h10 : K ≤ 10 ∨ K % 10 = 0) (Ye : Nat → List α) (idx : Nat → List Nat)
    (Y : List α) (dflt : α) (hidx : ∀ k, k < K → ∀ i ∈ idx k, i < Y.length) :
    hdmrTrials K Ye idx Y = .ok ((List.range (min K 10)).map fun t =>
      ⟨1, t + 1, { title := min K 10 - t, xs := Ye (K - min K 10 + t),
                   ys := (idx (K - min K 10 + t)).map fun i => Y.getD i dflt }⟩) := by
  have hs : (K - 10) % 10 = 0 := by omega
  have hn : K - (K - 10) = min K 10 := by omega
  obtain ⟨it, h1, -⟩ := panel_loop 10 (K - 10) (by norm_num) hs (trialStep K Ye idx Y)
    (fun i => { title := K - i, xs := Ye i, ys := (idx i).map fun i => Y.getD i dflt }) none (min K 10) (by
      intro st i hi1 hi2
      unfold trialStep
      rw [takeAll_ok Y (idx i) dflt (hidx i (by omega))]
      rfl)
  unfold hdmrTrials
  rw [hn, h1]
  show (if _ then _ else _) = _
  rw [if_neg (by show (min K 10 + 10 - 1) / 10 ≠ 0; omega)]
  show Except.ok _ = Except.ok _
  congr 1
  refine List.map_congr_left fun t ht => ?_
  rw [List.mem_range] at ht
  have e1 : t / 10 = 0 := Nat.div_eq_of_lt (by omega)
  have e2 : t % 10 = t := Nat.mod_eq_of_lt (by omega)
  have e3 : K - 10 = K - min K 10 := by omega
  rw [e1, e2, e3]
  congr 2
  omega

/-- For every other number of trials no figure has been made when the first panel is drawn. -/
theorem C133_trials_fail (K : Nat) (h10 : 10 < K) (hm : K % 10 ≠ 0) (Ye : Nat → List α) (idx : Nat → List Nat) (Y : List α)
    (hidx : ∀ i ∈ idx (K - 10), i < Y.length) : hdmrTrials K Ye idx Y = .error .unboundLocal := by
  have hn : K - (K - 10) = 9 + 1 := by omega
  unfold hdmrTrials
  rw [hn, List.range'_succ, List.foldlM_cons]
  have : trialStep K Ye idx Y { figs := 0, it := none, panels := [] } (K - 10) = .error .unboundLocal := by
    unfold trialStep
    rcases Y with _ | ⟨y, Y⟩
    · have : idx (K - 10) = [] := List.eq_nil_iff_forall_not_mem.mpr fun i hi => by simpa using hidx i hi
      rw [this]
      show addPanel 10 (newFigure 10 _ (K - 10)) _ = _
      unfold newFigure
      rw [if_neg (by omega)]
      rfl
    · rw [takeAll_ok _ _ y hidx]
      show addPanel 10 (newFigure 10 _ (K - 10)) _ = _
      unfold newFigure
      rw [if_neg (by omega)]
      rfl
  rw [this]
  rfl

/-- 81 of the 100 numbers of trials that `hdmr.analyze` accepts. -/
example : ((List.range' 1 100).filter fun K => decide (10 < K ∧ K % 10 ≠ 0)).length = 81 := by decide

example : hdmrTrials 2 (fun k => [(k : ℚ), 5]) (fun k => [k, 1 - k]) [10, 20] =
    .ok [⟨1, 1, ⟨2, [0, 5], [10, 20]⟩⟩, ⟨1, 2, ⟨1, [1, 5], [20, 10]⟩⟩] := by
  rw [C133_trials_partial 2 (by norm_num) (by norm_num) _ _ _ 0 (by intro k hk i; interval_cases k <;> simp <;> omega)]
  rfl

example : hdmrTrials 15 (fun k => [(k : ℚ), 5]) (fun _ => [0, 1]) [10, 20] = .error .unboundLocal :=
  C133_trials_fail 15 (by norm_num) (by norm_num) _ _ _ (by simp)

/-- Every first-order component function has one panel, three to a figure, titled with its parameter, showing the inputs
of that parameter in the last trial against the outputs and against the fitted values. -/
theorem C133_regressions [Add α] (d : Nat) (names : List String) (X : Mat α) (Y : List α) (last : List Nat) (f0 : α)
    (Yem : Nat → List α) (dflt : α) (hn : d ≤ names.length) (hX : ∀ row ∈ X, row.length = d)
    (hlX : ∀ i ∈ last, i < X.length) (hlY : ∀ i ∈ last, i < Y.length) :
    hdmrRegressions d names X Y last f0 Yem = .ok ((List.range d).map fun i =>
      ⟨i / 3 + 1, i % 3 + 1, { title := names.getD i "", xs := last.map fun r => (X.getD r []).getD i dflt,
                               ys := last.map fun r => Y.getD r dflt, fitted := (Yem i).map fun t => f0 + t }⟩) := by
  have hrow : ∀ r ∈ last, X.getD r [] ∈ X := by
    intro r hr
    rw [List.getD_eq_getElem?_getD, List.getElem?_eq_getElem (hlX r hr)]
    exact List.getElem_mem _
  obtain ⟨it, h1, -⟩ := panel_loop 3 0 (by norm_num) (by norm_num) (regressStep names X Y last f0 Yem)
    (fun i => { title := names.getD i "", xs := last.map fun r => (X.getD r []).getD i dflt,
                ys := last.map fun r => Y.getD r dflt, fitted := (Yem i).map fun t => f0 + t }) none d (by
      intro st i _ hi
      have hi' : i < names.length := by omega
      have e1 : pyGet names i = .ok (names.getD i "") := by
        unfold pyGet
        simp [List.getD_eq_getElem?_getD, List.getElem?_eq_getElem hi']
      have e2 : (last.map fun r => X.getD r []).mapM (fun row => pyGet row i) =
          .ok (last.map fun r => (X.getD r []).getD i dflt) := by
        rw [List.mapM_map]
        refine mapM_ok_of _ _ last fun r hr => ?_
        have : i < (X.getD r []).length := by rw [hX _ (hrow r hr)]; omega
        show pyGet (X.getD r []) i = _
        unfold pyGet
        rw [List.getElem?_eq_getElem this]
        simp only [List.getD_eq_getElem?_getD (l := X.getD r []), List.getElem?_eq_getElem this, Option.getD_some]
      unfold regressStep
      rw [e1, takeAll_ok X last [] hlX, takeAll_ok Y last dflt hlY]
      show (do let xs ← liftPy ((last.map fun r => X.getD r []).mapM fun row => pyGet row i); _) = _
      rw [e2]
      rfl)
  unfold hdmrRegressions
  rw [← List.range_eq_range'] at h1
  rw [h1]
  show Except.ok (List.map _ _) = Except.ok _
  congr 1
  refine List.map_congr_left fun i _ => ?_
  simp only [zero_add]

example : hdmrRegressions 2 ["a", "b"] [[1, 2], [3, 4]] [10, 20] [1, 0] (100 : ℚ) (fun i => [(i : ℚ), 1]) =
    .ok [⟨1, 1, ⟨"a", [3, 1], [20, 10], [100, 101]⟩⟩, ⟨1, 2, ⟨"b", [4, 2], [20, 10], [101, 101]⟩⟩] := by
  rw [C133_regressions 2 _ _ _ _ _ _ 0 (by simp) (by simp) (by simp) (by simp)]
  decide +kernel

section
variable [Field α]

/-- After `emulate(X, Y)` the last figure has the point of each new row and the sum of the squared differences. -/
theorem C133_test (st : Emulated α) (sums Y : List α) (h : sums.length = Y.length) :
    ∃ e : List α, e = sums.map (fun s => s + Y.sum / (Y.length : α)) ∧
      hdmrTest (storeEmulated st sums (some Y)) = .ok (some (e.zip Y, ((e.zip Y).map fun p => (p.1 - p.2) ^ 2).sum)) := by
  refine ⟨_, rfl, ?_⟩
  show (if _ then _ else _) = _
  rw [if_pos (by simpa using h)]
  congr 3
  rw [List.map_zip_eq_zipWith]
  rfl

/-- After `emulate(X)` without observations the plot fails. -/
theorem C133_test_fail (sums : List α) : hdmrTest (storeEmulated ⟨none, none⟩ sums none) = .error (.py .keyError) := rfl

/-- After `emulate(X, Y)` and `emulate(X')` the new values are compared with the old observations. -/
theorem C133_test_stale (st : Emulated α) (sums sums' Y : List α) (h : sums'.length = Y.length) :
    ∃ s, hdmrTest (storeEmulated (storeEmulated st sums (some Y)) sums' none) = .ok (some (sums'.zip Y, s)) := by
  refine ⟨(List.zipWith (fun a b => (a - b) ^ 2) sums' Y).sum, ?_⟩
  have e : sums'.map (fun s => s + (0 : α)) = sums' := by simp
  show (if (sums'.map fun s => s + (0 : α)).length = Y.length then _ else _) = _
  rw [e, if_pos h]

example : hdmrTest (storeEmulated ⟨none, none⟩ [1, -1] (some [4, (2 : ℚ)])) = .ok (some ([(4, 4), (2, 2)], 0)) := by
  obtain ⟨e, rfl, h⟩ := C133_test ⟨none, none⟩ [1, -1] [4, (2 : ℚ)] rfl
  rw [h]
  norm_num

end

/-! ## Covariance plot -/

section
variable [Field α] [LinearOrder α] [IsStrictOrderedRing α]

theorem two_le_sum (l : List Nat) (p q : Nat) (hpq : p < q) (hp : l[p]? = some 1) (hq : l[q]? = some 1) : 2 ≤ l.sum := by
  induction l generalizing p q with
  | nil => simp at hp
  | cons a l ih =>
    cases q with
    | zero => omega
    | succ q =>
      rw [List.getElem?_cons_succ] at hq
      rw [List.sum_cons]
      cases p with
      | zero =>
        rw [List.getElem?_cons_zero] at hp
        have := List.le_sum_of_mem (List.mem_of_getElem? hq)
        simp only [Option.some.injEq] at hp
        omega
      | succ p =>
        rw [List.getElem?_cons_succ] at hp
        have := ih p q (by omega) hp hq
        omega

/-- In the result of a Morris analysis the `sigma` of a group of two or more inputs is nan. -/
theorem morris_sigma_group (sqrt : α → α) (z conf : α) (resample : Nat → List (List Nat)) (pb : Problem α) (X : Mat α)
    (D : Nat) (Y : List α) (scaled : Bool) (p : Nat) (r : MorrisResult α)
    (h : morrisAnalyze sqrt z conf resample pb X D Y scaled p = .ok r)
    (hlab : (effectiveLabels pb).length = pb.numVars) (c i j : Nat) (g : String) (hij : i < j)
    (hi : (effectiveLabels pb)[i]? = some g) (hj : (effectiveLabels pb)[j]? = some g) (hc : r.names[c]? = some g) :
    r.sigma[c]? = some none := by
  unfold morrisAnalyze at h
  rw [defineProblem_ok pb hlab, pyBind_ok] at h
  obtain ⟨d, -, h⟩ := pyBind_inv _ _ _ h
  obtain ⟨G, names, hG, -, hGl, hcols, hent⟩ := C07_groups_matrix (effectiveLabels pb)
  simp only [Option.getD_some, hG, pyBind_ok] at h
  split at h
  · cases h
  obtain ⟨EE, -, h⟩ := pyBind_inv _ _ _ h
  unfold statisticalOutputs at h
  simp only [] at h
  obtain ⟨mc, -, h⟩ := pyBind_inv _ _ _ h
  obtain ⟨m1, -, h⟩ := pyBind_inv _ _ _ h
  obtain ⟨m2, -, h⟩ := pyBind_inv _ _ _ h
  obtain ⟨m3, h3, h⟩ := pyBind_inv _ _ _ h
  obtain ⟨m4, -, h⟩ := pyBind_inv _ _ _ h
  cases h
  simp only at hc ⊢
  unfold groupedSigma at h3
  obtain ⟨agg, -, h3⟩ := pyBind_inv _ _ _ h3
  cases h3
  have hcl : c < names.length := (List.getElem?_eq_some_iff.mp hc).1
  rw [List.getElem?_map, List.getElem?_range hcl]
  simp only [Option.map_some]
  have h2 : 2 ≤ (G.map (·.getD c 0)).sum := by
    have hget : ∀ k : Nat, (effectiveLabels pb)[k]? = some g → (G.map (·.getD c 0))[k]? = some 1 := by
      intro k hk
      have := hent k c g g hk hc
      rw [if_pos rfl] at this
      unfold entry at this
      cases hGk : G[k]? with
      | none => rw [hGk] at this; simp at this
      | some row =>
        rw [hGk] at this
        simp only [Option.bind_some] at this
        rw [List.getElem?_map, hGk]
        simp [List.getD_eq_getElem?_getD, this]
    exact two_le_sum _ i j hij (hget i hi) (hget j hj)
  rw [if_neg (by omega)]

/-- The covariance plot of a Morris analysis has a point for every input or group, `mu_star` against `sigma`.  It never
takes the branch that shows the confidence interval for groups: the point of a group of two or more inputs has a nan. -/
theorem C133_covariance (sqrt : α → α) (z conf : α) (resample : Nat → List (List Nat)) (pb : Problem α) (X : Mat α)
    (D : Nat) (Y : List α) (scaled : Bool) (p : Nat) (r : MorrisResult α)
    (h : morrisAnalyze sqrt z conf resample pb X D Y scaled p = .ok r) :
    ∃ q, covariancePlot r.muStar r.muStarConf (some r.sigma) = .ok q ∧ q.yLabel = "sigma" ∧
      q.points.length = r.names.length ∧ (∀ c : Nat, q.points[c]? = (r.muStar[c]?).bind fun m => (r.sigma[c]?).map fun s => (m, s)) ∧
      ((effectiveLabels pb).length = pb.numVars → ∀ (c i j : Nat) (g : String), i < j → (effectiveLabels pb)[i]? = some g →
        (effectiveLabels pb)[j]? = some g → r.names[c]? = some g → ∃ m, q.points[c]? = some (m, none)) := by
  obtain ⟨t, ht, -⟩ := C88_morris sqrt z conf resample pb X D Y scaled p r h
  have hl := dataFrame_lengths _ _ _ ht
  have l1 : r.muStar.length = r.names.length := hl ("mu_star", r.muStar) (by simp)
  have l2 : r.sigma.length = r.names.length := hl ("sigma", r.sigma) (by simp)
  refine ⟨_, show (if _ then _ else _) = _ from if_pos (l1.trans l2.symm), rfl, ?_, fun c => ?_, ?_⟩
  · show (r.muStar.zip r.sigma).length = _
    rw [List.length_zip, l1, l2, min_self]
  · show (r.muStar.zip r.sigma)[c]? = _
    rw [List.zip, List.getElem?_zipWith]
    cases r.muStar[c]? <;> cases r.sigma[c]? <;> rfl
  · intro hlab c i j g hij hi hj hc
    have hs := morris_sigma_group sqrt z conf resample pb X D Y scaled p r h hlab c i j g hij hi hj hc
    have hcl : c < r.muStar.length := by rw [l1]; exact (List.getElem?_eq_some_iff.mp hc).1
    refine ⟨r.muStar[c], ?_⟩
    show (r.muStar.zip r.sigma)[c]? = _
    rw [List.getElem?_zip_eq_some]
    exact ⟨List.getElem?_eq_getElem hcl, hs⟩

end

/-- Three parameters, two of them in one group. -/
def covProblem : Problem ℚ where
  numVars := 3
  names := ["a", "b", "c"]
  bounds := [[0, 1], [0, 1], [0, 1]]
  groups := some ["g", "g", "h"]
  dists := none

/-- The analysis of two trajectories: the point of the group has no second coordinate and is not drawn. -/
example : morrisAnalyze (fun x : ℚ => x) 2 (19 / 20) (fun _ => [[0], [0]]) covProblem
      [[0, 0, 0], [2 / 3, 2 / 3, 0], [2 / 3, 2 / 3, 2 / 3], [0, 0, 0], [2 / 3, 2 / 3, 0], [2 / 3, 2 / 3, 2 / 3]] 3
      [1, 3, 4, 1, 5, 9] false 4 = .ok ⟨["g", "h"], [some (9 / 2), some (15 / 4)],
        [some (9 / 2), some (15 / 4)], [none, some (81 / 8)], [some 0, some 0]⟩ ∧
    (effectiveLabels covProblem).length = covProblem.numVars ∧
    ∃ q, covariancePlot [some (9 / 2), some (15 / 4 : ℚ)] [some 0, some 0] (some [none, some (81 / 8)]) = .ok q ∧
      q.drawn = [(15 / 4, 81 / 8)] :=
  ⟨by decide +kernel, rfl, _, rfl, by decide +kernel⟩

/-! ## Several outputs -/

/-- With one output, and with several outputs of the other analyses, every output is drawn. -/
theorem C133_outputs_partial (kind : PlotKind) (draws : List β) (hne : draws ≠ [])
    (hk : kind = .resultDict ∨ draws.length = 1) : specPlot true kind (draws.map fun b => .ok b) = .ok draws := by
  match draws, hne with
  | [d], _ => rfl
  | a :: b :: l, _ =>
    rcases hk with rfl | hk
    · show List.mapM _ _ = _
      show ((a :: b :: l).map fun b => (Except.ok b : Py β)).mapM _ = _
      rw [List.mapM_map]
      exact (mapM_ok_of _ (fun b => b) _ fun b _ => rfl).trans (by simp)
    · simp at hk

/-- With several outputs the results of RSA and of HDMR are not drawn: their `plot` takes no axes. -/
theorem C133_outputs_fail (kind : PlotKind) (hk : kind = .rsa ∨ kind = .hdmr) (draws : List (Py β)) (h2 : 2 ≤ draws.length) :
    specPlot true kind draws = .error .typeError := by
  match draws with
  | [] => simp at h2
  | [_] => simp at h2
  | a :: b :: l =>
    show List.mapM (plotWithAx kind) (a :: b :: l) = _
    rw [List.mapM_cons]
    rcases hk with rfl | rfl <;> rfl

example : specPlot true .hdmr [.ok 1, .ok 2] = (.error .typeError : Py (List Nat)) :=
  C133_outputs_fail .hdmr (Or.inr rfl) _ (by simp)

example : specPlot true .resultDict [.ok 1, .ok 2] = (.ok [1, 2] : Py (List Nat)) :=
  C133_outputs_partial .resultDict [1, 2] (by simp) (Or.inl rfl)

end SALib
