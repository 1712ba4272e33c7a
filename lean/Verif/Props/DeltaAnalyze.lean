import Verif.Model.DeltaAnalyze
import Verif.Props.DeltaFirst

/-! # Delta method: the analysis (C51, C74) -/

set_option linter.unusedSectionVars false

namespace SALib

/-- The class count is between 1 and the number of rows (and at most 48). -/
theorem deltaM_range (y : Nat) (hy : 1 ≤ y) : 1 ≤ deltaM y ∧ deltaM y ≤ y ∧ deltaM y ≤ 48 := by
  have h1 : (1 : ℝ) ≤ y := by exact_mod_cast hy
  have hexp0 : 0 < deltaExp y := by
    unfold deltaExp
    have := Real.neg_one_lt_tanh ((1500 - (y : ℝ)) / 500)
    apply div_pos <;> linarith
  have hexp1 : deltaExp y ≤ 1 := by
    unfold deltaExp
    have := Real.neg_one_lt_tanh ((1500 - (y : ℝ)) / 500)
    rw [div_le_one (by linarith)]
    linarith
  unfold deltaM
  refine ⟨?_, ?_, min_le_right _ _⟩
  · apply le_min
    · rw [Nat.one_le_ceil_iff]
      exact Real.rpow_pos_of_pos (by linarith) _
    · omega
  · refine (min_le_left _ _).trans ?_
    rw [Nat.ceil_le]
    calc (y : ℝ) ^ deltaExp y ≤ (y : ℝ) ^ (1 : ℝ) := Real.rpow_le_rpow_of_exponent_le h1 hexp1
      _ = y := Real.rpow_one _

/-- **C51**, as the analysis computes it: with the class count chosen by `analyze` and any rows drawn, the
first-order index is a number between 0 and 1. -/
theorem C51_analyze (Y X : List ℝ) (y : Nat) (hy : 1 ≤ y) (ind : List Nat) (hind : ind.length = y) :
    ∃ s, deltaS1 Y X (deltaM y) y ind = some s ∧ 0 ≤ s ∧ s ≤ 1 := by
  obtain ⟨h1, h2, -⟩ := deltaM_range y hy
  have hl : (takeIdx X ind).length = y := by simp [takeIdx, hind]
  have := (C51_range (takeIdx Y ind) (takeIdx X ind) (by simp [takeIdx]) (deltaM y) h1 (by rw [hl]; exact h2)).2.1
  rw [hl] at this
  exact this

/-- The hypotheses of `C51_analyze`. -/
example : ∃ s, deltaS1 [(1 : ℝ), 2, 4] [3, 1, 2] (deltaM 3) 3 [0, 2, 2] = some s ∧ 0 ≤ s ∧ s ≤ 1 :=
  C51_analyze _ _ 3 (by omega) [0, 2, 2] rfl

section
variable {α : Type} [Field α] [LinearOrder α] [IsStrictOrderedRing α]

theorem sum_map_sub_left (l : List α) (c : α) :
    (l.map fun x => c - x).sum = (l.length : α) * c - l.sum := by
  induction l with
  | nil => simp
  | cons a l ih => simp only [List.map_cons, List.sum_cons, ih, List.length_cons]; push_cast; ring

/-- **C74**, bias reduction: the reported delta is the raw delta corrected by the mean bias of the resamples,
`2·d̂ − mean(d)`; its confidence half-width is `z` times the standard deviation of the resampled deltas, and it
is not negative when `z` is not. -/
theorem C74_bias (kde : List α → List α → Option (List α)) (sqrt : α → α) (hsq : ∀ x, 0 ≤ sqrt x) (z : α)
    (hz : 0 ≤ z) (Y grid X m : List α) (ind : List Nat) (rs : List (List Nat)) (hrs : rs ≠ [])
    (r : Num α × Num α) (h : biasReducedDelta kde sqrt z Y grid X m ind rs = .ok r) :
    ∃ dHat d, calcDelta kde (takeIdx Y ind) grid (takeIdx X ind) m = .ok dHat ∧
      List.Forall₂ (fun i x => calcDelta kde (takeIdx Y i) grid (takeIdx X i) m = .ok x) rs d ∧
      r.1 = some (2 * dHat - Spec.mean d) ∧ r.2 = (npStd1 sqrt d).map (fun s => z * s) ∧
      ∀ c, r.2 = some c → 0 ≤ c := by
  unfold biasReducedDelta at h
  cases h1 : calcDelta kde (takeIdx Y ind) grid (takeIdx X ind) m with
  | error e => rw [h1] at h; cases h
  | ok dHat =>
    rw [h1] at h
    cases h2 : rs.mapM (fun r => calcDelta kde (takeIdx Y r) grid (takeIdx X r) m) with
    | error e => rw [h2] at h; cases h
    | ok d =>
      rw [h2] at h
      cases h
      have hf := (mapM_ok_iff _ _ _).mp h2
      have hd : d ≠ [] := by
        intro h0
        subst h0
        exact hrs (List.length_eq_zero_iff.mp (by simpa using hf.length_eq))
      have hlen : (d.length : α) ≠ 0 := by
        have := List.length_pos_iff.mpr hd
        positivity
      have hmean : (d.map fun x => 2 * dHat - x).sum / (d.length : α) = 2 * dHat - Spec.mean d := by
        rw [sum_map_sub_left]; unfold Spec.mean; field_simp
      have hstd : npStd1 sqrt (d.map fun x => 2 * dHat - x) = npStd1 sqrt d := by
        unfold npStd1
        rw [npMean_some _ (by simpa using hd), npMean_some _ hd]
        simp only [Option.bind_eq_bind, Option.bind_some, List.length_map]
        rw [hmean]
        congr 2
        rw [List.map_map]
        congr 1
        apply List.map_congr_left
        intro x _
        simp only [Function.comp, Spec.mean]
        ring
      refine ⟨dHat, d, rfl, hf, ?_, by simp only [hstd], ?_⟩
      · simp only []
        rw [npMean_some _ (by simpa using hd), List.length_map, hmean]
      · intro c hc
        simp only [hstd] at hc
        cases hs : npStd1 sqrt d with
        | none => rw [hs] at hc; cases hc
        | some s =>
          rw [hs] at hc
          cases hc
          exact mul_nonneg hz (npStd1_nonneg sqrt hsq d s hs)

/-- A density estimator for examples. -/
def exKde (data grid : List ℚ) : Option (List ℚ) := some (grid.map fun g => g * data.length + data.headD 0)

/-- The hypotheses of `C74_bias`. -/
example : biasReducedDelta exKde id 2 [1, 2, 3, 5] [1, 3, 5] [4, 1, 2, 3] (linspace 0 4 3) [0, 1, 2, 3]
      [[0, 1, 2, 2], [3, 3, 0, 1]] = .ok (some (21 / 2), some 1) := by
  decide +kernel

/-! ### Upper bound -/

theorem trapezoid_range (f grid : List α) (h : f.length = grid.length) :
    trapezoid f grid = ((List.range (grid.length - 1)).map fun i =>
      (grid.getD (i + 1) 0 - grid.getD i 0) * ((f.getD i 0 + f.getD (i + 1) 0) / 2)).sum := by
  unfold trapezoid
  congr 1
  apply List.ext_getElem
  · simp [h]
  · intro i h1 h2
    simp only [List.length_zipWith, List.length_tail] at h1
    have a1 : i + 1 < grid.length := by omega
    have a2 : i + 1 < f.length := by omega
    simp [List.getD, List.getElem?_eq_getElem a1, List.getElem?_eq_getElem a2,
      List.getElem?_eq_getElem (show i < grid.length by omega),
      List.getElem?_eq_getElem (show i < f.length by omega)]

theorem trapezoid_abs_sub (f g grid : List α) (hf : f.length = grid.length) (hg : g.length = grid.length)
    (hs : grid.Pairwise (· ≤ ·)) (f0 : ∀ x ∈ f, 0 ≤ x) (g0 : ∀ x ∈ g, 0 ≤ x) :
    trapezoid (List.zipWith (fun a b => |a - b|) f g) grid ≤ trapezoid f grid + trapezoid g grid := by
  rw [trapezoid_range _ _ (by simp [hf, hg]), trapezoid_range f grid hf, trapezoid_range g grid hg,
    ← List.sum_map_add]
  apply List.sum_le_sum
  intro i hi
  have hi := List.mem_range.mp hi
  have hd : 0 ≤ grid.getD (i + 1) 0 - grid.getD i 0 :=
    sub_nonneg.mpr (getD_mono grid hs i (i + 1) (by omega) (by omega))
  have hz : ∀ k, k < grid.length → (List.zipWith (fun a b => |a - b|) f g).getD k 0 ≤ f.getD k 0 + g.getD k 0 := by
    intro k hk
    have h1 : k < f.length := by omega
    have h2 : k < g.length := by omega
    have e1 := f0 _ (List.getElem_mem h1)
    have e2 := g0 _ (List.getElem_mem h2)
    simp only [List.getD, List.getElem?_zipWith, List.getElem?_eq_getElem h1, List.getElem?_eq_getElem h2,
      Option.getD_some]
    rw [abs_le]
    constructor <;> linarith
  have h1 := hz i (by omega)
  have h2 := hz (i + 1) (by omega)
  rw [← mul_add]
  apply mul_le_mul_of_nonneg_left _ hd
  linarith

/-- **C74**, upper bound: when the estimated densities are non-negative and have (trapezoidal) integral at most
one on the grid, the raw delta is at most one. -/
theorem C74_le_one (kde : List α → List α → Option (List α)) (Y grid X : List α) (hlen : Y.length = X.length)
    (M : Nat) (hM : 1 ≤ M) (hg : grid.Pairwise (· ≤ ·))
    (hk : ∀ data l, kde data grid = some l →
      l.length = grid.length ∧ (∀ x ∈ l, 0 ≤ x) ∧ trapezoid l grid ≤ 1)
    (d : α) (h : calcDelta kde Y grid X (linspace 0 (X.length : α) (M + 1)) = .ok d) : 0 ≤ d ∧ d ≤ 1 := by
  refine ⟨C74_nonneg kde Y grid X _ hg d h, ?_⟩
  obtain ⟨p1, p2, p3, p4⟩ := linspace_partition (α := α) X.length M hM
  set m := linspace (0 : α) X.length (M + 1) with hm
  unfold calcDelta at h
  cases hk0 : kde Y grid with
  | none => rw [hk0] at h; cases h
  | some fy =>
    rw [hk0] at h
    simp only [pyBind_ok] at h
    obtain ⟨k1, k2, k3⟩ := hk Y fy hk0
    have key : ∀ (l : List Nat) (acc : α), ∀ d, l.foldlM (fun acc j =>
        if (classOf (rankOrdinal X) m j).length = 0 then (Except.ok acc : Py α)
        else if ptpZero ((classOf (rankOrdinal X) m j).map fun i => Y.getD i 0) then .ok acc
        else match kde ((classOf (rankOrdinal X) m j).map fun i => Y.getD i 0) grid with
          | none => .error .valueError
          | some fyc => .ok (acc + ((classOf (rankOrdinal X) m j).length : α) / (2 * (Y.length : α)) *
            trapezoid (List.zipWith (fun a b => |a - b|) fy fyc) grid)) acc = .ok d →
        d ≤ acc + (l.map fun j => ((classOf (rankOrdinal X) m j).length : α) / (Y.length : α)).sum := by
      intro l
      induction l with
      | nil => intro acc d hd; cases hd; simp
      | cons j l ih =>
        intro acc d hd
        rw [List.foldlM_cons] at hd
        have hj : 0 ≤ ((classOf (rankOrdinal X) m j).length : α) / (Y.length : α) := by positivity
        rw [List.map_cons, List.sum_cons]
        split at hd
        · have := ih acc d hd; linarith
        · split at hd
          · have := ih acc d hd; linarith
          · split at hd
            · cases hd
            · rename_i fyc hfyc
              obtain ⟨e1, e2, e3⟩ := hk _ fyc hfyc
              have := ih _ d hd
              have ht := trapezoid_abs_sub fy fyc grid k1 e1 hg k2 e2
              have h2 : ((classOf (rankOrdinal X) m j).length : α) / (2 * (Y.length : α)) *
                  trapezoid (List.zipWith (fun a b => |a - b|) fy fyc) grid ≤
                  ((classOf (rankOrdinal X) m j).length : α) / (2 * (Y.length : α)) * 2 :=
                mul_le_mul_of_nonneg_left (by linarith) (by positivity)
              have h3 : ((classOf (rankOrdinal X) m j).length : α) / (2 * (Y.length : α)) * 2 =
                  ((classOf (rankOrdinal X) m j).length : α) / (Y.length : α) := by
                rw [mul_comm (2 : α), ← div_div]; field_simp
              linarith
    have := key _ 0 d h
    rw [zero_add] at this
    refine this.trans ?_
    have hp := (classOf_partition X m p1 p2 p3 p4).length_eq
    rw [List.length_flatMap, List.length_range] at hp
    have hsum : ((List.range (m.length - 1)).map fun j =>
        ((classOf (rankOrdinal X) m j).length : α) / (Y.length : α)).sum = (X.length : α) / (Y.length : α) := by
      rw [← hp]
      generalize List.range (m.length - 1) = l
      induction l with
      | nil => simp
      | cons a l ih => simp only [List.map_cons, List.sum_cons, ih, Nat.cast_add]; ring
    rw [hsum, hlen]
    exact div_self_le_one _

/-- A piecewise linear density on a grid, for examples. -/
def exKde2 (data : List ℚ) (grid : List ℚ) : Option (List ℚ) :=
  some (grid.map fun g => if data.headD 0 ≤ g then 1 / 4 else 0)

/-- The hypotheses of `C74_le_one` and `C74_nonneg`. -/
example : calcDelta exKde2 [1, 2, 3, 5] [1, 3, 5] [4, 1, 2, 3] (linspace 0 4 3) = .ok (1 / 16) ∧
    ∀ data l, exKde2 data [1, 3, 5] = some l →
      l.length = [(1 : ℚ), 3, 5].length ∧ (∀ x ∈ l, 0 ≤ x) ∧ trapezoid l [1, 3, 5] ≤ 1 := by
  refine ⟨by decide +kernel, ?_⟩
  intro data l h
  cases h
  refine ⟨by simp, ?_, ?_⟩
  · intro x hx
    obtain ⟨g, -, rfl⟩ := List.mem_map.mp hx
    split <;> norm_num
  · simp only [trapezoid, List.map_cons, List.map_nil, List.tail_cons, List.zipWith_cons_cons,
      List.zipWith_nil_right, List.sum_cons, List.sum_nil]
    split <;> split <;> split <;> norm_num

/-! ### C73: units of the output -/

theorem trapezoid_scale (f grid : List α) (a b : α) (ha : a ≠ 0) (h : f.length = grid.length) :
    trapezoid (f.map fun x => x / a) (grid.map fun g => a * g + b) = trapezoid f grid := by
  rw [trapezoid_range _ _ (by simp [h]), trapezoid_range f grid h, List.length_map]
  congr 1
  apply List.map_congr_left
  intro i hi
  have hi := List.mem_range.mp hi
  have a1 : i + 1 < grid.length := by omega
  have a2 : i + 1 < f.length := by omega
  simp only [List.getD, List.getElem?_map, List.getElem?_eq_getElem a1, List.getElem?_eq_getElem a2,
      List.getElem?_eq_getElem (show i < grid.length by omega),
      List.getElem?_eq_getElem (show i < f.length by omega), Option.map_some, Option.getD_some]
  field_simp
  ring

/-- **C73**, output of the raw delta: recording the output as `a·Y + b` with `a > 0` (and so the grid, which
runs from the smallest to the largest output) leaves the raw delta unchanged, for every density estimator that
is equivariant (as SciPy's Gaussian one is): estimates for `a·data + b` at `a·grid + b` are those for `data` at
`grid`, divided by `a`. -/
theorem C73_delta (kde : List α → List α → Option (List α)) (Y grid X m : List α) (hlen : Y.length = X.length)
    (a b : α) (ha : 0 < a)
    (hl : ∀ data l, kde data grid = some l → l.length = grid.length)
    (hk : ∀ data, kde (data.map fun y => a * y + b) (grid.map fun y => a * y + b) =
      (kde data grid).map fun l => l.map fun x => x / a) :
    calcDelta kde (Y.map fun y => a * y + b) (grid.map fun y => a * y + b) X m = calcDelta kde Y grid X m := by
  have hinj : Function.Injective fun y : α => a * y + b := by
    intro x y h
    simpa [ha.ne'] using h
  unfold calcDelta
  rw [hk Y]
  cases hk0 : kde Y grid with
  | none => rfl
  | some fy =>
    simp only [Option.map_some, pyBind_ok]
    congr 1
    funext acc j
    rw [getD_affine Y a b _ (fun i hi => hlen ▸ classOf_lt X m j i hi), ptpZero_map_inj _ hinj, hk,
      List.length_map]
    cases hkj : kde ((classOf (rankOrdinal X) m j).map fun i => Y.getD i 0) grid with
    | none => rfl
    | some fyc =>
      simp only [Option.map_some]
      have : List.zipWith (fun a b => |a - b|) (fy.map fun x => x / a) (fyc.map fun x => x / a) =
          (List.zipWith (fun a b => |a - b|) fy fyc).map fun x => x / a := by
        rw [List.zipWith_map, List.map_zipWith]
        congr 1
        funext x y
        rw [← sub_div, abs_div, abs_of_pos ha]
      rw [this, trapezoid_scale _ _ _ _ ha.ne' (by simp [hl _ _ hk0, hl _ _ hkj])]

/-- A histogram-like estimator which satisfies the hypotheses of `C73_delta`. -/
def exKde3 : List ℚ → List ℚ → Option (List ℚ)
  | d :: l, grid => some (grid.map fun g => 1 / (|g - d| + |l.headD d - d|))
  | [], grid => some (grid.map fun _ => 0)

example : (∀ data, exKde3 (data.map fun y => 2 * y + 5) ([1, 3, 4].map fun y => 2 * y + 5) =
      (exKde3 data [1, 3, 4]).map fun l => l.map fun x => x / 2) ∧
    calcDelta exKde3 [1, 2, 3, 5] [1, 3, 5] [4, 1, 2, 3] (linspace 0 4 3) = .ok (49 / 96) := by
  constructor
  · have e : ∀ x y : ℚ, |2 * x + 5 - (2 * y + 5)| = 2 * |x - y| := by
      intro x y
      rw [show 2 * x + 5 - (2 * y + 5) = 2 * (x - y) by ring, abs_mul]; norm_num
    intro data
    match data with
    | [] => simp [exKde3]
    | d :: l =>
      have h : (l.map fun y => 2 * y + 5).headD (2 * d + 5) = 2 * l.headD d + 5 := by cases l <;> rfl
      simp only [exKde3, List.map_cons, List.map_nil, h, e, Option.map_some, ← mul_add, div_div,
        mul_comm (2 : ℚ) (|_| + |_|)]
  · decide +kernel

end

end SALib
