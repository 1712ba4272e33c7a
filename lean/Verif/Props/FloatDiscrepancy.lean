import Verif.Lemmas.FloatDiscrepancy
import Verif.Props.Discrepancy
import Verif.Props.FloatSaltelli
import Verif.Props.FloatLatin
import Verif.Props.FloatMorris
import Verif.Props.FracFact
import Verif.Props.ScaleNormal
import Verif.Props.ScaleDists

/-! # C130: the discrepancy analysis of the package's own samples, in floating point -/

namespace SALib

open Spec

variable {F : Fmt}

/-- **C130**: rounding adds no rejections.  With arrays that fit the problem, the analysis succeeds exactly when every
range is non-degenerate, every sample (as it is stored) lies within the ranges and the output is not constant;
otherwise it is a `ValueError`. -/
theorem C130_accept (hp : 2 ≤ F.p) (he : F.emin ≤ 0) (order : Nat → SumTree) (disc : List (ℚ × ℚ) → ℚ) (pb : Problem ℚ)
    (X : Mat ℚ) (Y : List ℚ) (P : List (ℚ × ℚ)) (hs : DiscShape pb P X Y)
    (hP : ∀ p ∈ P, IsFloat F p.1 ∧ IsFloat F p.2) (hY : ∀ y ∈ Y, IsFloat F y) :
    ((∃ r, discAnalyzeFl F order disc pb X Y = .ok r) ↔ DiscInputs P X Y) ∧
    (¬DiscInputs P X Y → discAnalyzeFl F order disc pb X Y = .error .valueError) := by
  classical
  have hbad : discParamsFl F order disc pb X Y = .error .valueError →
      discAnalyzeFl F order disc pb X Y = .error .valueError := by
    intro h
    unfold discAnalyzeFl
    rw [h]; rfl
  by_cases hYe : Y = []
  · subst hYe
    have hn : ¬DiscInputs P X [] := by rintro ⟨-, -, y, hy, -⟩; simp at hy
    have hX : X = [] := by have := hs.length; simpa using this
    have hz : discParamsFl F order disc pb X [] = .error .valueError := by
      have b0 : (pb.bounds.mapM fun b => pyGet b 0) = .ok (P.map (·.1)) := by
        rw [hs.bounds, mapM_ok_of _ (fun b => b.getD 0 0)]
        · rw [List.map_map]; rfl
        · intro b hb
          obtain ⟨p, -, rfl⟩ := List.mem_map.mp hb
          rfl
      have b1 : (pb.bounds.mapM fun b => pyGet b 1) = .ok (P.map (·.2)) := by
        rw [hs.bounds, mapM_ok_of _ (fun b => b.getD 1 0)]
        · rw [List.map_map]; rfl
        · intro b hb
          obtain ⟨p, -, rfl⟩ := List.mem_map.mp hb
          rfl
      unfold discParamsFl
      rw [b0, pyBind_ok, b1, pyBind_ok, qmcUnscaleFl_eq X P hs.rows]
      split <;> rfl
    exact ⟨⟨fun ⟨r, hr⟩ => absurd ((hbad hz).symm.trans hr) (by simp), fun h => absurd h hn⟩, fun _ => hbad hz⟩
  · obtain ⟨mn, mx, h1, h2⟩ := exists_extremes Y hYe
    have e := discParamsFl_eq hp he order disc pb X Y P mn mx hs hP hY h1 h2
    by_cases h : DiscInputs P X Y
    · rw [if_pos h] at e
      refine ⟨⟨fun _ => h, fun _ => ?_⟩, fun hn => absurd h hn⟩
      unfold discAnalyzeFl
      rw [e, pyBind_ok]
      cases hg : checkGroups pb with
      | none => exact ⟨_, rfl⟩
      | some grps =>
        have := checkGroups_length pb _ hs.groups grps hg
        simp only []
        rw [if_neg (by simp [this])]
        exact ⟨_, rfl⟩
    · rw [if_neg h] at e
      exact ⟨⟨fun ⟨r, hr⟩ => absurd ((hbad e).symm.trans hr) (by simp), fun h' => absurd h' h⟩, fun _ => hbad e⟩

/-- The hypotheses are met in binary64 by two samples of two parameters, one of them within -5 and 0.2. -/
example : DiscShape { names := ["x", "y"], bounds := [[-5, fl binary64 (1 / 5)], [0, 3]] }
      [(-5, fl binary64 (1 / 5)), (0, 3)] [[-1, 1], [0, 2]] [(4 : ℚ), 7] ∧
    DiscInputs [(-5, fl binary64 (1 / 5)), (0, 3)] [[-1, 1], [0, 2]] [(4 : ℚ), 7] ∧
    IsFloat binary64 (-5) ∧ IsFloat binary64 (fl binary64 (1 / 5)) := by
  refine ⟨⟨rfl, rfl, by simp, rfl, by simp⟩, ⟨?_, ?_, 4, by simp, 7, by simp, by norm_num⟩,
    ⟨-5, 0, by decide, by decide, by norm_num⟩, isFloat_fl (by decide) _⟩
  · intro p hp
    fin_cases hp <;> decide +kernel
  · have h5 : (0 : ℚ) ≤ fl binary64 (1 / 5) := by decide +kernel
    intro row hrow i x p hx hpi
    fin_cases hrow <;> match i with
    | 0 => simp at hx hpi; subst hx hpi; refine ⟨by norm_num, ?_⟩; simp at h5 ⊢; linarith
    | 1 => simp at hx hpi; subst hx hpi; norm_num
    | n + 2 => simp at hx

/-- Shares of non-negative numbers. -/
theorem share_near (hp : 1 ≤ F.p) {order : Nat → SumTree} (ho : SumOrder order) (xs : List ℚ)
    (hf : ∀ x ∈ xs, IsFloat F x) (h0 : ∀ x ∈ xs, 0 ≤ x) (hpos : ∃ x ∈ xs, 0 < x) (he : F.emin ≤ 0)
    (hD : 4 * (xs.length : ℚ) * (2 : ℚ) ^ (-(F.p : ℤ)) ≤ 1) :
    0 < sumFl F xs (order xs.length) ∧ ∀ x ∈ xs,
      0 ≤ fdiv F x (sumFl F xs (order xs.length)) ∧ fdiv F x (sumFl F xs (order xs.length)) ≤ 1 ∧
      |fdiv F x (sumFl F xs (order xs.length)) - x / xs.sum| ≤
        4 * (xs.length : ℚ) * (2 : ℚ) ^ (-(F.p : ℤ)) * (x / xs.sum) + (2 : ℚ) ^ (-(F.p : ℤ)) + (2 : ℚ) ^ F.emin := by
  obtain ⟨x0, hx0, hx0p⟩ := hpos
  have hne : xs ≠ [] := List.ne_nil_of_mem hx0
  have hlen := List.length_pos_iff.mpr hne
  have hle : ∀ x ∈ xs, x ≤ sumFl F xs (order xs.length) := by
    intro x hx
    obtain ⟨i, hi, rfl⟩ := List.mem_iff_getElem.mp hx
    have := (le_sumFl hp hf h0 (order xs.length)).2 i ((ho _ hlen).mem_iff.2 (List.mem_range.2 hi))
    rwa [List.getD_eq_getElem _ _ hi] at this
  have hS : 0 < sumFl F xs (order xs.length) := hx0p.trans_le (hle _ hx0)
  have hsum : 0 < xs.sum := hx0p.trans_le (List.single_le_sum h0 _ hx0)
  have hw := sumFl_within hp ho hne hf h0
  unfold Within at hw
  rw [abs_of_pos hsum] at hw
  have hu := two_zpow_pos (-(F.p : ℤ))
  have ee : (2 : ℚ) ^ (F.emin - 1) ≤ (2 : ℚ) ^ F.emin := zpow_le_zpow_right₀ (by norm_num) (by omega)
  have hn1 : (1 : ℚ) ≤ xs.length := by exact_mod_cast hlen
  have hpow : (1 + (2 : ℚ) ^ (-(F.p : ℤ))) ^ (xs.length - 1) - 1 ≤ 2 * (xs.length : ℚ) * (2 : ℚ) ^ (-(F.p : ℤ)) := by
    generalize (2 : ℚ) ^ (-(F.p : ℤ)) = u at *
    have key : ∀ n : Nat, 4 * (n : ℚ) * u ≤ 1 → (1 + u) ^ n ≤ 1 + 2 * n * u := by
      intro n
      induction n with
      | zero => intro _; simp
      | succ n ih =>
        intro h
        push_cast at h ⊢
        have := ih (by nlinarith)
        rw [pow_succ]
        have hn0 : (0 : ℚ) ≤ n := Nat.cast_nonneg n
        nlinarith [mul_nonneg hn0 hu.le]
    have := key (xs.length - 1) (by
      rw [Nat.cast_sub (by omega)]; push_cast; nlinarith)
    rw [Nat.cast_sub (by omega)] at this
    push_cast at this
    nlinarith
  refine ⟨hS, fun x hx => ?_⟩
  have hx0' := h0 x hx
  have hq0 : 0 ≤ x / sumFl F xs (order xs.length) := div_nonneg hx0' hS.le
  have hq1 : x / sumFl F xs (order xs.length) ≤ 1 := (div_le_one hS).2 (hle x hx)
  refine ⟨fl_nonneg hq0, fl_le_of_le hp (isFloat_one hp he) hq1, ?_⟩
  have e3 := fl_err_any (F := F) (x / sumFl F xs (order xs.length))
  rw [abs_of_nonneg hq0] at e3
  unfold fdiv
  generalize sumFl F xs (order xs.length) = S at *
  generalize (2 : ℚ) ^ (-(F.p : ℤ)) = u at *
  generalize xs.sum = T at *
  generalize (xs.length : ℚ) = n at *
  have hST : |S - T| ≤ 2 * n * u * T := hw.trans (mul_le_mul_of_nonneg_right hpow hsum.le)
  have hSlow : T / 2 ≤ S := by
    have := (abs_le.1 hST).1
    nlinarith
  have key : |x / S - x / T| ≤ 4 * n * u * (x / T) := by
    have e : x / S - x / T = (x / T) * ((T - S) / S) := by field_simp
    rw [e, abs_mul, abs_of_nonneg (by positivity : 0 ≤ x / T), abs_div, abs_of_pos hS, abs_sub_comm, mul_comm]
    refine mul_le_mul_of_nonneg_right ?_ (by positivity)
    rw [div_le_iff₀ hS]
    have : 0 ≤ n * u := by positivity
    nlinarith
  have := abs_sub_le (fl F (x / S)) (x / S) (x / T)
  nlinarith

/-- **C130**, the values.  Each parameter's plot, as computed, has a point per sample, inside the unit square and next to
the exact one; with a non-negative discrepancy of each plot (not all zero) the reported values are the shares of their
total, between 0 and 1 and adding up to 1, up to rounding. -/
theorem C130_shares (hp : 2 ≤ F.p) (he : F.emin ≤ 0) {order : Nat → SumTree} (ho : SumOrder order)
    (disc : List (ℚ × ℚ) → ℚ) (pb : Problem ℚ) (X : Mat ℚ) (Y : List ℚ) (P : List (ℚ × ℚ)) (hs : DiscShape pb P X Y)
    (hg : pb.groups = none) (hP : ∀ p ∈ P, IsFloat F p.1 ∧ IsFloat F p.2) (hX : ∀ row ∈ X, ∀ x ∈ row, IsFloat F x)
    (hY : ∀ y ∈ Y, IsFloat F y) (h : DiscInputs P X Y) (mn mx : ℚ)
    (h1 : mn ∈ Y ∧ ∀ y ∈ Y, mn ≤ y) (h2 : mx ∈ Y ∧ ∀ y ∈ Y, y ≤ mx)
    (hD : 4 * (P.length : ℚ) * (2 : ℚ) ^ (-(F.p : ℤ)) ≤ 1) :
    ∃ plots : List (List (ℚ × ℚ)), plots.length = P.length ∧
      (∀ (i : Nat) pts p, plots[i]? = some pts → P[i]? = some p → pts.length = X.length ∧
        ∀ (n : Nat) q row x y, pts[n]? = some q → X[n]? = some row → row[i]? = some x → Y[n]? = some y →
          (0 ≤ q.1 ∧ q.1 ≤ 1 ∧ 0 ≤ q.2 ∧ q.2 ≤ 1) ∧
          |q.1 - (x - p.1) / (p.2 - p.1)| ≤ (2 : ℚ) ^ (2 - (F.p : ℤ)) + (2 : ℚ) ^ F.emin ∧
          |q.2 - (y - mn) / (mx - mn)| ≤ (2 : ℚ) ^ (2 - (F.p : ℤ)) + (2 : ℚ) ^ F.emin) ∧
      ((∀ pts ∈ plots, 0 ≤ disc pts ∧ IsFloat F (disc pts)) → (∃ pts ∈ plots, 0 < disc pts) →
        ∃ v : List ℚ, discAnalyzeFl F order disc pb X Y = .ok (v.map some, pb.names) ∧ v.length = P.length ∧
          (∀ (i : Nat) pts w, plots[i]? = some pts → v[i]? = some w → 0 ≤ w ∧ w ≤ 1 ∧
            |w - disc pts / (plots.map disc).sum| ≤
              (4 * P.length + 1) * (2 : ℚ) ^ (-(F.p : ℤ)) + (2 : ℚ) ^ F.emin) ∧
          |v.sum - 1| ≤ 5 * P.length * ((2 : ℚ) ^ (-(F.p : ℤ)) + (2 : ℚ) ^ F.emin)) := by
  classical
  have hp1 : 1 ≤ F.p := by omega
  have hlt : mn < mx := by
    obtain ⟨y, hy, y', hy', hne⟩ := h.2.2
    rcases lt_or_gt_of_ne hne with h | h
    · exact lt_of_le_of_lt (h1.2 y hy) (lt_of_lt_of_le h (h2.2 y' hy'))
    · exact lt_of_le_of_lt (h1.2 y' hy') (lt_of_lt_of_le h (h2.2 y hy))
  have e := discParamsFl_eq hp he order disc pb X Y P mn mx hs hP hY h1 h2
  rw [if_pos h] at e
  refine ⟨P.zipIdx.map fun q => scatterFl F X Y q.2 q.1 mn mx, by simp, ?_, ?_⟩
  · intro i pts p hpts hpi
    rw [List.getElem?_map, List.getElem?_zipIdx, hpi] at hpts
    simp only [Option.map_some, zero_add, Option.some.injEq] at hpts
    subst hpts
    refine ⟨by simp [scatterFl, hs.length], ?_⟩
    intro n q row x y hq hrow hx hy
    unfold scatterFl at hq
    rw [List.getElem?_map, List.getElem?_zip_eq_some.2 ⟨hrow, hy⟩ |> (fun h => (show (X.zip Y)[n]? = some (row, y) from h))] at hq
    simp only [Option.map_some, Option.some.injEq, List.getD_eq_getElem?_getD, hx, Option.getD_some] at hq
    subst hq
    have hmem := List.mem_of_getElem? hpi
    obtain ⟨f1, f2⟩ := hP _ hmem
    have hr1 := List.mem_of_getElem? hrow
    have hy1 := List.mem_of_getElem? hy
    obtain ⟨a1, a2⟩ := h.2.1 _ hr1 i _ _ hx hpi
    have u1 := unscaleEntryFl_range hp1 he f1 f2 (h.1 _ hmem) a1 a2
    have u2 := unscaleEntryFl_range hp1 he (hY _ h1.1) (hY _ h2.1) hlt (h1.2 _ hy1) (h2.2 _ hy1)
    exact ⟨⟨u1.1, u1.2, u2.1, u2.2⟩,
      unscaleEntryFl_err hp (hX _ hr1 _ (List.mem_of_getElem? hx)) f1 f2 (h.1 _ hmem) a1 a2,
      unscaleEntryFl_err hp (hY _ hy1) (hY _ h1.1) (hY _ h2.1) hlt (h1.2 _ hy1) (h2.2 _ hy1)⟩
  · intro hd0 hdp
    have hds : (P.zipIdx.map fun q => disc (scatterFl F X Y q.2 q.1 mn mx)) =
        (P.zipIdx.map fun q => scatterFl F X Y q.2 q.1 mn mx).map disc := by
      rw [List.map_map]; rfl
    rw [hds] at e
    generalize hpl : (P.zipIdx.map fun q => scatterFl F X Y q.2 q.1 mn mx) = plots at *
    have hpll : plots.length = P.length := by rw [← hpl]; simp
    have hsh := share_near hp1 ho (plots.map disc)
      (by intro x hx; obtain ⟨pts, hpts, rfl⟩ := List.mem_map.mp hx; exact (hd0 pts hpts).2)
      (by intro x hx; obtain ⟨pts, hpts, rfl⟩ := List.mem_map.mp hx; exact (hd0 pts hpts).1)
      (by obtain ⟨pts, hpts, h⟩ := hdp; exact ⟨_, List.mem_map_of_mem hpts, h⟩) he
      (by rw [List.length_map, hpll]; exact hD)
    rw [List.length_map, hpll] at hsh
    obtain ⟨hS, hsh⟩ := hsh
    have hu := two_zpow_pos (-(F.p : ℤ))
    have hemin := two_zpow_pos F.emin
    have hT : 0 < (plots.map disc).sum := by
      obtain ⟨pts, hpts, h⟩ := hdp
      exact h.trans_le (List.single_le_sum (by
        intro x hx; obtain ⟨pts, hpts, rfl⟩ := List.mem_map.mp hx; exact (hd0 pts hpts).1) _
        (List.mem_map_of_mem hpts))
    have hle1 : ∀ pts ∈ plots, disc pts / (plots.map disc).sum ≤ 1 := by
      intro pts hpts
      rw [div_le_one hT]
      exact List.single_le_sum (by
        intro x hx; obtain ⟨pts, hpts, rfl⟩ := List.mem_map.mp hx; exact (hd0 pts hpts).1) _
        (List.mem_map_of_mem hpts)
    refine ⟨(plots.map disc).map fun x => fdiv F x (sumFl F (plots.map disc) (order P.length)), ?_, by simp [hpll], ?_, ?_⟩
    · unfold discAnalyzeFl
      rw [e, pyBind_ok]
      have : checkGroups pb = none := by unfold checkGroups; rw [hg]
      rw [this]
      simp only []
      rw [pyPure, List.map_map, List.map_map, List.map_map]
      congr 2
      refine List.map_congr_left fun x _ => ?_
      simp only [Function.comp]
      unfold ratioFl
      rw [if_neg hS.ne']
    · intro i pts w hpts hw
      rw [List.getElem?_map, List.getElem?_map, hpts] at hw
      simp only [Option.map_some, Option.some.injEq] at hw
      subst hw
      have hm := List.mem_of_getElem? hpts
      obtain ⟨a, b, c⟩ := hsh _ (List.mem_map_of_mem hm)
      refine ⟨a, b, c.trans ?_⟩
      have := hle1 pts hm
      have h0 : 0 ≤ 4 * (P.length : ℚ) * (2 : ℚ) ^ (-(F.p : ℤ)) := by positivity
      nlinarith
    · have hsum : ∀ (l : List ℚ) (g k : ℚ → ℚ) (a b : ℚ), (∀ x ∈ l, |g x - k x| ≤ a * k x + b) →
          |(l.map g).sum - (l.map k).sum| ≤ a * (l.map k).sum + l.length * b := by
        intro l g k a b hl
        induction l with
        | nil => simp
        | cons x l ih =>
          simp only [List.map_cons, List.sum_cons, List.length_cons, Nat.cast_add, Nat.cast_one]
          have i1 := abs_le.1 (ih fun y hy => hl y (List.mem_cons_of_mem _ hy))
          have i2 := abs_le.1 (hl x List.mem_cons_self)
          rw [abs_le]
          constructor <;> linarith [i1.1, i1.2, i2.1, i2.2]
      have hk : ((plots.map disc).map fun x => x / (plots.map disc).sum).sum = 1 := by
        have : ∀ (l : List ℚ) (c : ℚ), (l.map fun x => x / c).sum = l.sum / c := by
          intro l c
          induction l with
          | nil => simp
          | cons x l ih => simp [ih, add_div]
        rw [this, div_self hT.ne']
      have := hsum (plots.map disc) (fun x => fdiv F x (sumFl F (plots.map disc) (order P.length)))
        (fun x => x / (plots.map disc).sum) (4 * (P.length : ℚ) * (2 : ℚ) ^ (-(F.p : ℤ)))
        ((2 : ℚ) ^ (-(F.p : ℤ)) + (2 : ℚ) ^ F.emin) (fun x hx => by
          have := (hsh x hx).2.2
          linarith)
      rw [hk, List.length_map, hpll] at this
      refine this.trans ?_
      have hn : (0 : ℚ) ≤ P.length := Nat.cast_nonneg _
      nlinarith [mul_nonneg hn hemin.le]

/-- Three equal discrepancies in binary64: each share is 1/3, rounded. -/
example : discAnalyzeFl binary64 (fun _ => .node (.node (.leaf 0) (.leaf 1)) (.leaf 2)) (fun _ => 1 / 4)
    { names := ["x", "y", "z"], bounds := [[0, 1], [0, 2], [-5, 3]] } [[1, 1, 1], [0, 2, 3]] [4, 7] =
      .ok ([some (fl binary64 (1 / 3)), some (fl binary64 (1 / 3)), some (fl binary64 (1 / 3))], ["x", "y", "z"]) := by
  decide +kernel

/-! ### The package's own samples -/

/-- Outputs to analyse: one number of the format per sample, not all equal. -/
def Spec.SomeOutputs (F : Fmt) (n : Nat) (Y : List ℚ) : Prop :=
  Y.length = n ∧ (∀ y ∈ Y, IsFloat F y) ∧ ∃ y ∈ Y, ∃ y' ∈ Y, y ≠ y'

/-- A sample between the bounds is accepted. -/
theorem discAnalyzeFl_within (hp : 2 ≤ F.p) (he : F.emin ≤ 0) (order : Nat → SumTree) (disc : List (ℚ × ℚ) → ℚ)
    (pb : Problem ℚ) (bs : List (ℚ × ℚ)) (X : Mat ℚ) (Y : List ℚ) (hn : pb.numVars = bs.length)
    (hb : pb.bounds = boundsTable bs) (hlegal : ∀ p ∈ bs, p.1 < p.2) (hfl : ∀ p ∈ bs, IsFloat F p.1 ∧ IsFloat F p.2)
    (hlab : ∀ gs, pb.groups = some gs → gs.length = bs.length) (hcols : HasCols bs.length X)
    (hin : ∀ r c lo hi y, bs[c]? = some (lo, hi) → entry X r c = some y → lo ≤ y ∧ y ≤ hi)
    (hY : SomeOutputs F X.length Y) : ∃ r, discAnalyzeFl F order disc pb X Y = .ok r := by
  refine ((C130_accept hp he order disc pb X Y bs ⟨hb, hn, hcols, hY.1.symm, hlab⟩ hfl hY.2.1).1).2
    ⟨hlegal, ?_, hY.2.2⟩
  intro row hrow i x p hx hpi
  obtain ⟨r, hr⟩ := List.mem_iff_getElem?.mp hrow
  exact hin r i p.1 p.2 x hpi (by unfold entry; rw [hr]; exact hx)

theorem entry_zipWith_inv {U : Mat ℚ} {bs : List (ℚ × ℚ)} {f : ℚ → ℚ × ℚ → ℚ} {r c : Nat} {y : ℚ} {b : ℚ × ℚ}
    (hb : bs[c]? = some b) (hy : entry (U.map fun row => List.zipWith f row bs) r c = some y) :
    ∃ x, entry U r c = some x ∧ y = f x b := by
  cases hx : entry U r c with
  | some x =>
    rw [entry_zipWith U bs f r c x b hx hb] at hy
    exact ⟨x, rfl, (Option.some.inj hy).symm⟩
  | none =>
    unfold entry at hx hy
    rw [List.getElem?_map] at hy
    cases hr : U[r]? with
    | none => rw [hr] at hy; cases hy
    | some row =>
      rw [hr] at hx hy
      simp only [Option.bind_some] at hx
      simp [List.getElem?_zipWith, hx] at hy

theorem mem_of_entry {β : Type} {U : Mat β} {r c : Nat} {x : β} (h : entry U r c = some x) : ∃ row ∈ U, x ∈ row := by
  unfold entry at h
  cases hr : U[r]? with
  | none => rw [hr] at h; cases h
  | some row =>
    rw [hr] at h
    exact ⟨row, List.mem_of_getElem? hr, List.mem_of_getElem? h⟩

theorem withinBounds_entry {bs : List (ℚ × ℚ)} {X : Mat ℚ} (h : WithinBounds F bs X) (r c : Nat) (lo hi y : ℚ)
    (hb : bs[c]? = some (lo, hi)) (hy : entry X r c = some y) : lo ≤ y ∧ y ≤ hi := by
  unfold entry at hy
  cases hr : X[r]? with
  | none => rw [hr] at hy; cases hy
  | some row =>
    rw [hr] at hy
    obtain ⟨x, hx, -, h1, h2⟩ := h.2 row (List.mem_of_getElem? hr) c lo hi hb
    simp only [Option.bind_some, hx, Option.some.injEq] at hy
    subst hy
    exact ⟨h1, h2⟩

/-- **C130**: every Saltelli sample (`saltelli.sample`) is accepted, whatever its bounds and groups. -/
theorem C130_saltelli (hp : 32 ≤ F.p) (he : F.emin ≤ -31) (dirs : List (List Nat)) (hT : TableOk dirs) (L k N : Nat)
    (pb : Problem ℚ) (bs : List (ℚ × ℚ)) (second : Bool)
    (skip : Option Int) (hskip : saltelliSkip N skip = .ok k) (hN : 0 < N + k) (hNL : N + k ≤ 2 ^ L) (hL : L ≤ 31)
    (hD : 2 * bs.length ≤ dirs.length + 1) (hn : pb.numVars = bs.length) (hb : pb.bounds = boundsTable bs)
    (hne : bs ≠ []) (hlegal : ∀ p ∈ bs, p.1 < p.2) (hfl : ∀ p ∈ bs, IsFloat F p.1 ∧ IsFloat F p.2)
    (hlab : ∀ gs, pb.groups = some gs → gs.length = bs.length) (order : Nat → SumTree) (disc : List (ℚ × ℚ) → ℚ) :
    ∃ X, saltelliSampleFl F dirs L pb N second skip = .ok X ∧
      ∀ Y, SomeOutputs F X.length Y → ∃ r, discAnalyzeFl F order disc pb X Y = .ok r := by
  obtain ⟨U, labels, g, groupOf, P, -, -, -, hX, -, hw⟩ := C112_saltelli pb bs second N hp he dirs hT L k skip hskip hN
    hNL hL hD hn hb hne hlegal hfl (fun gs h _ => hlab gs h)
  exact ⟨_, hX, fun Y hY => discAnalyzeFl_within (by omega) (by omega) order disc pb bs _ Y hn hb hlegal hfl hlab hw.1
    (withinBounds_entry hw) hY⟩

/-- **C130**: every sample of `sobol.sample` is accepted, provided the engine's points stay below the last number under
1 (SciPy's are multiples of `2^-30` or `2^-64` below 1, see DESIGN). -/
theorem C130_sobol (hp : 2 ≤ F.p) (he : F.emin ≤ 0) (engine : Nat → Nat → Nat → Mat ℚ) (skip N : Nat) (pb : Problem ℚ)
    (bs : List (ℚ × ℚ)) (second : Bool) (hN : 0 < N)
    (hgen : ∀ s n d, (engine s n d).length = n ∧ HasCols d (engine s n d))
    (hunit : ∀ s n d, ∀ row ∈ engine s n d, ∀ u ∈ row, 0 ≤ u ∧ u ≤ 1 - (2 : ℚ) ^ (1 - (F.p : ℤ)))
    (hn : pb.numVars = bs.length) (hb : pb.bounds = boundsTable bs)
    (hne : bs ≠ []) (hlegal : ∀ p ∈ bs, p.1 < p.2) (hfl : ∀ p ∈ bs, IsFloat F p.1 ∧ IsFloat F p.2)
    (hlab : ∀ gs, pb.groups = some gs → gs.length = bs.length) (order : Nat → SumTree) (disc : List (ℚ × ℚ) → ℚ) :
    ∃ X, sobolSampleFl F engine pb N second skip = .ok X ∧
      ∀ Y, SomeOutputs F X.length Y → ∃ r, discAnalyzeFl F order disc pb X Y = .ok r := by
  obtain ⟨labels, g, groupOf, P, -, -, hX, -, hw⟩ := C112_sobol pb bs second N hp engine skip hN hgen hunit
    hn hb hne hlegal hfl (fun gs h _ => hlab gs h)
  exact ⟨_, hX, fun Y hY => discAnalyzeFl_within hp he order disc pb bs _ Y hn hb hlegal hfl hlab hw.1
    (withinBounds_entry hw) hY⟩

/-- **C130**: a Latin hypercube sample is accepted when the widths of the ranges need no rounding (see `C130_reject` for
the others). -/
theorem C130_latin_partial (hF : F.emin + 2 * F.p + 4 ≤ 0) (hp : 2 ≤ F.p) (draws : LatinDraws ℚ)
    (hv : ValidDraws draws) (junk : ℚ) (pb : Problem ℚ) (bs : List (ℚ × ℚ)) (N : Nat) (hN : 0 < N)
    (h8 : 8 * N ≤ 2 ^ F.p) (hlab : ∀ gs, latinLabels pb = some gs → gs.length = pb.numVars)
    (hlab' : ∀ gs, pb.groups = some gs → gs.length = bs.length)
    (hn : pb.numVars = bs.length) (hb : pb.bounds = boundsTable bs) (hne : bs ≠ [])
    (hlegal : ∀ p ∈ bs, p.1 < p.2) (hfl : ∀ p ∈ bs, IsFloat F p.1 ∧ IsFloat F p.2)
    (hw : ∀ p ∈ bs, IsFloat F (p.2 - p.1)) (order : Nat → SumTree) (disc : List (ℚ × ℚ) → ℚ) :
    ∃ X, latinSampleFl F draws junk pb N = .ok X ∧
      ∀ Y, SomeOutputs F X.length Y → ∃ r, discAnalyzeFl F order disc pb X Y = .ok r := by
  obtain ⟨R, hR, -, hcols, h⟩ := C110_scaled hF hp draws hv junk pb bs N hN h8 hlab hn hb hne hlegal hfl
  refine ⟨R, hR, fun Y hY => discAnalyzeFl_within hp (by omega) order disc pb bs _ Y hn hb hlegal hfl hlab' hcols ?_ hY⟩
  intro r c lo hi y hbc hy
  obtain ⟨-, h1, h2⟩ := (h c lo hi hbc).2 r y hy
  exact ⟨h1, h2 (hw _ (List.mem_of_getElem? hbc))⟩

/-- **C130**: a Morris sample is accepted when the widths of the ranges need no rounding. -/
theorem C130_morris_partial (hF : F.emin + 2 * F.p + 4 ≤ 0) (draws : Nat → TrajDraws ℚ) (groups : List String)
    (pb : Problem ℚ) (bs : List (ℚ × ℚ)) (N p : Nat) (hp2 : 2 ≤ p) (h16 : 16 * p ≤ 2 ^ F.p)
    (hv : ∀ i, ValidTrajDraws p (draws i)) (hlen : bs.length = groups.length) (hn : pb.numVars = bs.length)
    (hb : pb.bounds = boundsTable bs) (hlab : ∀ gs, pb.groups = some gs → gs.length = bs.length) (hne : bs ≠ [])
    (hlegal : ∀ p ∈ bs, p.1 < p.2) (hfl : ∀ p ∈ bs, IsFloat F p.1 ∧ IsFloat F p.2)
    (hw : ∀ p ∈ bs, IsFloat F (p.2 - p.1)) (order : Nat → SumTree) (disc : List (ℚ × ℚ) → ℚ) :
    ∃ X, morrisSampleFl F draws groups pb.bounds N p = .ok X ∧
      ∀ Y, SomeOutputs F X.length Y → ∃ r, discAnalyzeFl F order disc pb X Y = .ok r := by
  have h5 := fmt_p_ge hp2 h16
  obtain ⟨g, groupOf, -, d, ts, -, hU, -, htr, href, -⟩ := C109_unit hF draws groups N p hp2 h16 hv
  have hcols : HasCols bs.length ts.flatten := by
    intro row hrow
    obtain ⟨T, hT, hrow⟩ := List.mem_flatten.mp hrow
    rw [hlen]
    exact (htr T hT).cols row hrow
  have hunit : ∀ row ∈ ts.flatten, ∀ x ∈ row, 0 ≤ x ∧ x ≤ 1 := by
    intro row hrow x hx
    obtain ⟨T, hT, hrow⟩ := List.mem_flatten.mp hrow
    exact ((htr T hT).unit row hrow x hx).2
  refine ⟨ts.flatten.map fun row => List.zipWith (scaleEntryFl F) row bs, ?_, fun Y hY => discAnalyzeFl_within (by omega)
    (by omega) order disc pb bs _ Y hn hb hlegal hfl hlab ?_ ?_ hY⟩
  · unfold morrisSampleFl
    rw [hU, pyBind_ok, hb, ← hlen, scaleUniformFl_legal bs hne hlegal]
  · intro row hrow
    obtain ⟨r, hr, rfl⟩ := List.mem_map.mp hrow
    simp [hcols r hr]
  · intro r c lo hi y hbc hy
    obtain ⟨x, hx, rfl⟩ := entry_zipWith_inv hbc hy
    obtain ⟨row, hrow, hxr⟩ := mem_of_entry hx
    have hm := List.mem_of_getElem? hbc
    obtain ⟨h0, h1⟩ := hunit row hrow x hxr
    exact ⟨scaleEntryFl_lower (by omega) (hfl _ hm).1 (hlegal _ hm) h0,
      scaleEntryFl_upper_exact (by omega) (hfl _ hm).2 (hlegal _ hm) (hw _ hm) h1⟩

theorem scaleEntryFl_ends (hp : 2 ≤ F.p) (he : F.emin ≤ 0) {p : ℚ × ℚ} {x : ℚ} (hf : IsFloat F p.1 ∧ IsFloat F p.2)
    (hl : p.1 < p.2) (hx : x = 1 ∨ x = 0) (h : x = 1 → fl F (fl F (p.2 - p.1) + p.1) ≤ p.2 ∨ p = (0, 1)) :
    p.1 ≤ scaleEntryFl F x p ∧ scaleEntryFl F x p ≤ p.2 := by
  have hp1 : 1 ≤ F.p := by omega
  have hone : IsFloat F 1 := isFloat_one hp1 he
  obtain ⟨lo, hi⟩ := p
  simp only at hf hl h ⊢
  rcases hx with rfl | rfl
  · refine ⟨scaleEntryFl_lower hp1 hf.1 hl zero_le_one, ?_⟩
    rcases h rfl with hb | hb
    · rw [scaleEntryFl_one hp1]; exact hb
    · rw [Prod.mk.injEq] at hb
      rw [hb.1, hb.2, scaleEntryFl_one_exact hp1 hone (by rw [sub_zero]; exact hone)]
  · rw [scaleEntryFl_zero hp1 hf.1]
    exact ⟨le_rfl, hl.le⟩

/-- **C130**: exactly when a fractional factorial sample is accepted.  It contains the point with every parameter at its
upper end, computed as `(hi - lo) + lo` with both operations rounded, so that all these must not exceed the bounds. -/
theorem C130_ff (hp : 2 ≤ F.p) (he : F.emin ≤ 0) (pb : Problem ℚ) (bs : List (ℚ × ℚ)) (k : Nat)
    (hb : pb.bounds = boundsTable bs) (hn : pb.numVars = bs.length) (hg : pb.groups = none)
    (hlegal : ∀ p ∈ bs, p.1 < p.2) (hfl : ∀ p ∈ bs, IsFloat F p.1 ∧ IsFloat F p.2)
    (h : pb.numVars ≤ 512) (hk : LeastPower pb.numVars k) (order : Nat → SumTree) (disc : List (ℚ × ℚ) → ℚ) :
    ∃ X pb', ffSampleFl F pb = .ok (X, pb') ∧ X.length = 2 * 2 ^ k ∧
      ∀ Y, SomeOutputs F (2 * 2 ^ k) Y →
        ((∃ r, discAnalyzeFl F order disc pb' X Y = .ok r) ↔ ∀ p ∈ bs, fl F (fl F (p.2 - p.1) + p.1) ≤ p.2) ∧
        ((∃ p ∈ bs, p.2 < fl F (fl F (p.2 - p.1) + p.1)) →
          discAnalyzeFl F order disc pb' X Y = .error .valueError) := by
  obtain ⟨k', pb', hk', he', hpb', -⟩ := C47_extension pb h
  have hkk := leastPower_unique _ _ _ hk hk'
  subst hkk
  have h2 : 2 ^ k ≤ 512 := by
    obtain ⟨k', -, hk9, hk'⟩ := findSmallest_some pb.numVars h
    rw [leastPower_unique _ _ _ hk hk']
    exact (Nat.pow_le_pow_right (by norm_num) hk9).trans (by norm_num)
  have hlen : (ffBounds bs k).length = 2 ^ k := by
    have := hk.1
    rw [hn] at this
    simp only [ffBounds, List.length_append, List.length_replicate]; omega
  have hne : ffBounds bs k ≠ [] := by
    intro h0; rw [h0] at hlen; have := Nat.two_pow_pos k; simp at hlen; omega
  have hone : IsFloat F 1 := isFloat_one (by omega) he
  have hzero : IsFloat F 0 := ⟨0, F.emin, le_rfl, by positivity, by simp⟩
  have hmem : ∀ p ∈ ffBounds bs k, p ∈ bs ∨ p = (0, 1) := by
    intro p hp
    rcases List.mem_append.mp hp with hp | hp
    · exact .inl hp
    · rw [List.mem_replicate] at hp; exact .inr hp.2
  have hleg : ∀ p ∈ ffBounds bs k, p.1 < p.2 := by
    intro p hp
    rcases hmem p hp with hp | rfl
    · exact hlegal p hp
    · exact one_pos
  have hfl' : ∀ p ∈ ffBounds bs k, IsFloat F p.1 ∧ IsFloat F p.2 := by
    intro p hp
    rcases hmem p hp with hp | rfl
    · exact hfl p hp
    · exact ⟨hzero, hone⟩
  have hbd : pb.bounds ++ List.replicate (2 ^ k - pb.numVars) [0, 1] = boundsTable (ffBounds bs k) := by
    rw [hb, hn]; simp [boundsTable, ffBounds]
  have hsc := scaleUniformFl_legal (F := F) (ffBounds bs k) hne hleg
    (((List.range (2 * 2 ^ k)).map fun r => (List.range (2 ^ k)).map fun j => coded ℚ k r j).map
      fun row => row.map fun c => (c + 1) / 2)
  rw [hlen] at hsc
  have hcodes : ∀ r j, coded ℚ k r j = 1 ∨ coded ℚ k r j = -1 := coded_pm k
  have htop : ∀ j, coded ℚ k 0 j = 1 := by
    intro j
    rw [coded_low k 0 j (by positivity)]
    simp [sign]
  generalize hU : (((List.range (2 * 2 ^ k)).map fun r => (List.range (2 ^ k)).map fun j => coded ℚ k r j).map
      fun row => row.map fun c => (c + 1) / 2) = U at hsc
  have hUe : ∀ r c x, entry U r c = some x → x = 1 ∨ x = 0 := by
    intro r c x hx
    obtain ⟨row, hrow, hxr⟩ := mem_of_entry hx
    rw [← hU, List.map_map] at hrow
    obtain ⟨r', -, rfl⟩ := List.mem_map.mp hrow
    simp only [Function.comp, List.map_map] at hxr
    obtain ⟨j, -, rfl⟩ := List.mem_map.mp hxr
    rcases hcodes r' j with h | h
    · left; simp [h]
    · right; simp [h]
  have hU0 : ∀ c < 2 ^ k, entry U 0 c = some 1 := by
    intro c hc
    rw [← hU, List.map_map]
    unfold entry
    simp [hc, htop]
  have hUl : U.length = 2 * 2 ^ k := by rw [← hU]; simp
  have hUc : HasCols (2 ^ k) U := by
    intro row hrow
    rw [← hU, List.map_map] at hrow
    obtain ⟨r', -, rfl⟩ := List.mem_map.mp hrow
    simp
  refine ⟨U.map fun row => List.zipWith (scaleEntryFl F) row (ffBounds bs k),
    { pb' with sampleScaled := true }, ?_, by simp [hUl], ?_⟩
  · unfold ffSampleFl
    rw [generateContrast_eq _ k h hk, pyBind_ok, he', pyBind_ok, hpb']
    simp only [hbd]
    rw [ffSize_eq _ k h2 (leastPower_pow k), pyBind_ok, hU, hsc, pyBind_ok, pyPure]
  · intro Y hY
    have hshape : DiscShape { pb' with sampleScaled := true } (ffBounds bs k)
        (U.map fun row => List.zipWith (scaleEntryFl F) row (ffBounds bs k)) Y := by
      refine ⟨?_, ?_, ?_, ?_, ?_⟩
      · rw [hpb']; exact hbd
      · rw [hpb']; exact hlen.symm
      · intro row hrow
        obtain ⟨r, hr, rfl⟩ := List.mem_map.mp hrow
        simp [hUc r hr, hlen]
      · rw [List.length_map, hUl, hY.1]
      · intro gs hgs
        rw [hpb'] at hgs
        simp [hg] at hgs
    obtain ⟨hA, hB⟩ := C130_accept hp he order disc _ _ Y (ffBounds bs k) hshape hfl' hY.2.1
    have hiff : DiscInputs (ffBounds bs k) (U.map fun row => List.zipWith (scaleEntryFl F) row (ffBounds bs k)) Y ↔
        ∀ p ∈ bs, fl F (fl F (p.2 - p.1) + p.1) ≤ p.2 := by
      constructor
      · rintro ⟨-, hin, -⟩ p hpb
        obtain ⟨c, hc⟩ := List.mem_iff_getElem?.mp hpb
        have hcb : (ffBounds bs k)[c]? = some p := by
          unfold ffBounds
          rw [List.getElem?_append_left (List.getElem?_eq_some_iff.mp hc).1, hc]
        have hck : c < 2 ^ k := by rw [← hlen]; exact (List.getElem?_eq_some_iff.mp hcb).1
        have hent := entry_zipWith U (ffBounds bs k) (scaleEntryFl F) 0 c 1 p (hU0 c hck) hcb
        unfold entry at hent
        cases hr : (U.map fun row => List.zipWith (scaleEntryFl F) row (ffBounds bs k))[0]? with
        | none => rw [hr] at hent; cases hent
        | some row =>
          rw [hr] at hent
          have := (hin row (List.mem_of_getElem? hr) c _ p hent hcb).2
          rwa [scaleEntryFl_one (by omega)] at this
      · intro hall
        refine ⟨hleg, ?_, hY.2.2⟩
        intro row hrow c y p hy hpc
        obtain ⟨r, hr⟩ := List.mem_iff_getElem?.mp hrow
        obtain ⟨x, hx, rfl⟩ := entry_zipWith_inv hpc
          (show entry _ r c = some y by unfold entry; rw [hr]; exact hy)
        have hm := List.mem_of_getElem? hpc
        have hf := hfl' p hm
        have hl := hleg p hm
        exact scaleEntryFl_ends hp he hf hl (hUe r c x hx) (fun _ => (hmem _ hm).imp_left (hall p))
    refine ⟨hA.trans hiff, fun ⟨p, hpb, hlt⟩ => hB fun hd => ?_⟩
    exact absurd (hiff.1 hd p hpb) (not_le.2 hlt)

/-- With bounds 0.1 and 3 no top value exceeds its bound: the fractional factorial sample is accepted. -/
example : (∀ p ∈ [(fl binary64 (1 / 10), (3 : ℚ))], fl binary64 (fl binary64 (p.2 - p.1) + p.1) ≤ p.2) ∧
    ffSampleFl binary64 { names := ["x"], bounds := [[fl binary64 (1 / 10), 3]] } =
      .ok ([[3], [fl binary64 (1 / 10)]],
        { names := ["x"], bounds := [[fl binary64 (1 / 10), 3]], sampleScaled := true }) ∧
    SomeOutputs binary64 2 [1, 2] ∧ IsFloat binary64 (3 - (-1 : ℚ)) := by
  refine ⟨?_, by decide +kernel, ⟨rfl, ?_, 1, by simp, 2, by simp, by norm_num⟩, ⟨4, 0, by decide, by decide, by norm_num⟩⟩
  · intro p hp
    rw [List.mem_singleton.1 hp]
    decide +kernel
  · intro y hy
    fin_cases hy
    · exact ⟨1, 0, by decide, by decide, by norm_num⟩
    · exact ⟨2, 0, by decide, by decide, by norm_num⟩

/-- **C130**: the package's own samples can be rejected.  In binary64 with the bounds -5 and 0.2, the fractional factorial
sample, a Morris sample (four levels, one upward trajectory) and a Latin hypercube sample (two points, greatest draws)
each contain a value above 0.2, and the analysis is a `ValueError` whatever the outputs. -/
theorem C130_reject : ∃ (hi : ℚ) (pb : Problem ℚ), RoundsTo binary64 (1 / 5) hi ∧ pb.bounds = [[-5, hi]] ∧
    pb.numVars = 1 ∧ pb.groups = none ∧ ∀ order disc,
      (∃ X pb', ffSampleFl binary64 pb = .ok (X, pb') ∧
        ∀ Y, SomeOutputs binary64 X.length Y → discAnalyzeFl binary64 order disc pb' X Y = .error .valueError) ∧
      (∃ X, morrisSampleFl binary64 (fun _ => upDraws) ["x"] pb.bounds 1 4 = .ok X ∧
        ∀ Y, SomeOutputs binary64 X.length Y → discAnalyzeFl binary64 order disc pb X Y = .error .valueError) ∧
      ∃ u X, IsFloat binary64 u ∧ 0 ≤ u ∧ u < 1 ∧
        latinSampleFl binary64 { u := fun _ _ => u, shuffle := fun _ l => l } 0 pb 2 = .ok X ∧
        ∀ Y, SomeOutputs binary64 X.length Y → discAnalyzeFl binary64 order disc pb X Y = .error .valueError := by
  have hf5 : IsFloat binary64 (-5) := ⟨-5, 0, by decide, by decide, by norm_num⟩
  have hfh : IsFloat binary64 (fl binary64 (1 / 5)) := isFloat_fl (by decide) _
  have key : ∀ order disc (a b : ℚ), fl binary64 (1 / 5) < b → ∀ Y, SomeOutputs binary64 2 Y →
      discAnalyzeFl binary64 order disc { names := ["x"], bounds := [[-5, fl binary64 (1 / 5)]] } [[a], [b]] Y =
        .error .valueError := by
    intro order disc a b hab Y hY
    refine (C130_accept (by decide) (by decide) order disc _ [[a], [b]] Y [(-5, fl binary64 (1 / 5))]
      ⟨rfl, rfl, by simp, by rw [hY.1]; rfl, by simp⟩ (by intro p hp; rw [List.mem_singleton.1 hp]; exact ⟨hf5, hfh⟩) hY.2.1).2 ?_
    rintro ⟨-, hin, -⟩
    have := (hin [b] (by simp) 0 b (-5, fl binary64 (1 / 5)) rfl rfl).2
    exact absurd this (not_le.2 hab)
  refine ⟨fl binary64 (1 / 5), { names := ["x"], bounds := [[-5, fl binary64 (1 / 5)]] }, fl_roundsTo (by decide) _,
    rfl, rfl, rfl, fun order disc => ⟨?_, ?_, ?_⟩⟩
  · obtain ⟨X, pb', h1, h2, h3⟩ := C130_ff (F := binary64) (by decide) (by decide)
      { names := ["x"], bounds := [[-5, fl binary64 (1 / 5)]] } [(-5, fl binary64 (1 / 5))] 0 rfl rfl rfl
      (by simp only [List.mem_singleton, forall_eq]; decide +kernel) (by intro p hp; rw [List.mem_singleton.1 hp]; exact ⟨hf5, hfh⟩) (by decide)
      ⟨by decide, by simp⟩ order disc
    refine ⟨X, pb', h1, fun Y hY => (h3 Y (by rwa [h2] at hY)).2 ⟨_, List.mem_singleton_self _, ?_⟩⟩
    decide +kernel
  · refine ⟨[[scaleEntryFl binary64 (fl binary64 (1 / 3)) (-5, fl binary64 (1 / 5))],
      [scaleEntryFl binary64 1 (-5, fl binary64 (1 / 5))]], by decide +kernel, fun Y hY => ?_⟩
    exact key order disc _ _ (by decide +kernel) Y hY
  · refine ⟨1 - 1 / 2 ^ 53, [[scaleEntryFl binary64 (1 / 2 - 1 / 2 ^ 54) (-5, fl binary64 (1 / 5))],
      [scaleEntryFl binary64 1 (-5, fl binary64 (1 / 5))]],
      ⟨2 ^ 53 - 1, -53, by decide, by decide, by norm_num⟩, by norm_num, by norm_num, by decide +kernel, fun Y hY => ?_⟩
    exact key order disc _ _ (by decide +kernel) Y hY

/-! ### Normal distributions -/

theorem normalCDF_mean (mean sd : ℝ) (hs : 0 < sd) : normalCDF mean sd mean = 1 / 2 := by
  rw [normalCDF_standard _ _ _ hs, sub_self, zero_div]
  unfold normalCDF
  rw [ProbabilityTheory.cdf_eq_real]
  have hv : ((1 : ℝ) ^ 2).toNNReal = 1 := by simp
  rw [hv]
  set μ := ProbabilityTheory.gaussianReal 0 1
  haveI : MeasureTheory.NullSingletonClass μ := ProbabilityTheory.noAtoms_gaussianReal (by norm_num)
  have hneg : μ.real (Set.Ici 0) = μ.real (Set.Iic 0) := by
    have h : μ.map (fun x => -x) = μ := by
      have := ProbabilityTheory.gaussianReal_map_neg (μ := 0) (v := 1)
      simpa [μ] using this
    conv_lhs => rw [← h]
    rw [MeasureTheory.measureReal_def, MeasureTheory.Measure.map_apply (by fun_prop) measurableSet_Ici,
      MeasureTheory.measureReal_def]
    congr 2
    ext x; simp
  have hIoi : μ.real (Set.Ici 0) = μ.real (Set.Ioi 0) := by
    rw [MeasureTheory.measureReal_def, MeasureTheory.measureReal_def, MeasureTheory.measure_congr MeasureTheory.Ioi_ae_eq_Ici]
  have hc := MeasureTheory.probReal_compl_eq_one_sub (μ := μ) (s := Set.Iic (0 : ℝ)) measurableSet_Iic
  rw [Set.compl_Iic, ← hIoi, hneg] at hc
  linarith

/-- **C130**: samples of a normal parameter are rejected, because the bounds of such a parameter are its mean and
standard deviation: at once if the standard deviation is not greater than the mean, otherwise as soon as a value from
the lower half of the distribution was drawn. -/
theorem C130_norm (z : ℝ → ℝ) (hz : IsNormalQuantile z) (disc : List (ℝ × ℝ) → ℝ) (pb : Problem ℝ) (X U : Mat ℝ)
    (Y : List ℝ) (P : List (ℝ × ℝ)) (ds : List String) (q : Problem ℝ) (hs : DiscShape pb P X Y)
    (hd : pb.dists = some ds) (hX : scaleSamples (gaussPpf z) P.length U pb = .ok (X.map (·.map some), q)) (j r : Nat)
    (mean sd u : ℝ) (hj : ds[j]? = some "norm") (hb : P[j]? = some (mean, sd)) (hu : entry U r j = some u)
    (hu0 : 0 < u) (hu1 : u < 1) (h : sd ≤ mean ∨ u < 1 / 2) : discAnalyze disc pb X Y = .error .valueError := by
  refine (C87_accept disc pb X Y P hs).2 ?_
  rintro ⟨hleg, hin, -⟩
  have hlt : mean < sd := hleg _ (List.mem_of_getElem? hb)
  have hjP : j < P.length := (List.getElem?_eq_some_iff.mp hb).1
  obtain ⟨b, d, f, hb', hd', hf, hent⟩ := scaleSamples_entry _ _ _ _ _ _ _ r j u hd hX hjP hu
  rw [hj] at hd'
  cases hd'
  rw [hs.bounds, List.getElem?_map, hb] at hb'
  simp only [Option.map_some, Option.some.injEq] at hb'
  subst hb'
  have hsd : 0 < sd := by
    by_contra hc
    have hc := not_lt.1 hc
    simp [columnMap, rowPair, hc] at hf
  obtain ⟨f', x, hf', hx, hcdf⟩ := C06_norm z hz mean sd u [] hsd hu0 hu1
  rw [hf] at hf'
  cases hf'
  have hlow : u < 1 / 2 := h.resolve_left (not_le.2 hlt)
  have hxm : x < mean := by
    by_contra hc
    have := (normalCDF_strictMono mean sd hsd).monotone (not_lt.1 hc)
    rw [normalCDF_mean mean sd hsd, hcdf] at this
    linarith
  rw [hx] at hent
  unfold entry at hent
  rw [List.getElem?_map] at hent
  cases hr : X[r]? with
  | none => rw [hr] at hent; cases hent
  | some row =>
    rw [hr] at hent
    simp only [Option.map_some, Option.bind_some, List.getElem?_map, Option.map_eq_some_iff, Option.some.injEq] at hent
    obtain ⟨x', hx', rfl⟩ := hent
    have := (hin row (List.mem_of_getElem? hr) j x' _ hx' hb).1
    exact absurd this (not_le.2 hxm)

/-- The hypotheses are met: a normal parameter with mean 0 and standard deviation 1, the unit values 1/4 and 3/4. -/
example (z : ℝ → ℝ) : DiscShape { names := ["x"], bounds := [[(0 : ℝ), 1]], dists := some ["norm"] } [(0, 1)]
      [[z (1 / 4) * 1 + 0], [z (3 / 4) * 1 + 0]] [1, 2] ∧
    (∃ q, scaleSamples (gaussPpf z) 1 [[1 / 4], [3 / 4]]
      { names := ["x"], bounds := [[(0 : ℝ), 1]], dists := some ["norm"] } =
        .ok ([[z (1 / 4) * 1 + 0], [z (3 / 4) * 1 + 0]].map (·.map some), q)) ∧
    entry [[(1 / 4 : ℝ)], [3 / 4]] 0 0 = some (1 / 4) := by
  refine ⟨⟨rfl, rfl, by simp, rfl, by simp⟩,
    ⟨{ names := ["x"], bounds := [[(0 : ℝ), 1]], dists := some ["norm"], sampleScaled := true }, ?_⟩, rfl⟩
  · simp [scaleSamples, nonuniformScale, columnMap, rowPair, pyGet, gaussPpf, realPpf, List.range_succ, pyBind_ok,
      pyPure]
    norm_num
    constructor <;> (unfold normPpf; rw [if_pos (by norm_num)]; simp)

end SALib
