import Verif.Props.FloatDiscrepancy
import Verif.Props.FloatMorrisStats

/-! # Discrepancy indices of groups with their rounding (C130) -/

namespace SALib
open Spec

variable {F : Fmt}

/-- Mean of floats, in any order of additions. -/
theorem meanFl_abs_err (hp : 1 ≤ F.p) {order : Nat → SumTree} (ho : SumOrder order) {xs : List ℚ} (hne : xs ≠ [])
    (hx : ∀ x ∈ xs, IsFloat F x) :
    ∃ m, meanFl F order xs = some m ∧ |m - xs.sum / xs.length| ≤
      ((1 + (2 : ℚ) ^ (-(F.p : ℤ))) ^ xs.length - 1) * ((xs.map (|·|)).sum / xs.length) + (2 : ℚ) ^ (F.emin - 1) := by
  have hpos := List.length_pos_iff.mpr hne
  have hs := sumFl_list_err hp ho hne hx
  have hnq : (0 : ℚ) < xs.length := by exact_mod_cast hpos
  refine ⟨_, by rw [meanFl, if_neg (by omega)], ?_⟩
  have hA : |xs.sum| ≤ (xs.map (|·|)).sum := by
    have := abs_sum_map_le (List.range xs.length) (xs.getD · 0)
    rw [range_map_getD] at this
    refine this.trans (le_of_eq ?_)
    conv_rhs => rw [← range_map_getD xs, List.map_map]
    rfl
  have hr := fl_err_any (F := F) (sumFl F xs (order xs.length) / xs.length)
  unfold fdiv
  have hu := (two_zpow_pos (-(F.p : ℤ))).le
  obtain ⟨n, hn⟩ : ∃ n, xs.length = n + 1 := ⟨xs.length - 1, by omega⟩
  rw [hn] at hs hr ⊢
  rw [hn] at hnq
  rw [Nat.add_sub_cancel] at hs
  generalize (2 : ℚ) ^ (-(F.p : ℤ)) = u at *
  generalize (xs.map (|·|)).sum = A at *
  generalize sumFl F xs (order (n + 1)) = s at *
  generalize xs.sum = S at *
  generalize ((n + 1 : ℕ) : ℚ) = N at *
  generalize (2 : ℚ) ^ (F.emin - 1) = d at *
  have hsA : |s| ≤ (1 + u) ^ n * A := by
    have := abs_sub_abs_le_abs_sub s S
    linarith
  have h1 : |s / N - S / N| ≤ ((1 + u) ^ n - 1) * (A / N) := by
    rw [← sub_div, abs_div, abs_of_pos hnq, ← mul_div_assoc]
    gcongr
  have h2 : |s / N| * u ≤ (1 + u) ^ n * u * (A / N) := by
    rw [abs_div, abs_of_pos hnq]
    calc |s| / N * u ≤ (1 + u) ^ n * A / N * u := by gcongr
      _ = (1 + u) ^ n * u * (A / N) := by ring
  have h3 := abs_sub_le (fl F (s / N)) (s / N) (S / N)
  rw [pow_succ]
  nlinarith

/-- What the analysis returns without groups are floats. -/
theorem discAnalyzeFl_float (hp : 1 ≤ F.p) (order : Nat → SumTree) (disc : List (ℚ × ℚ) → ℚ) (pb : Problem ℚ)
    (X : Mat ℚ) (Y : List ℚ) (v : List ℚ) (h : discParamsFl F order disc pb X Y = .ok (v.map some)) :
    ∀ x ∈ v, IsFloat F x := by
  intro x hx
  have hmem : some x ∈ v.map some := List.mem_map_of_mem hx
  have inv : ∀ {β γ : Type} (a : Py β) (f : β → Py γ) (c : γ), (a >>= f) = .ok c → ∃ b, f b = .ok c := by
    intro β γ a f c h
    cases a with
    | error e => cases h
    | ok b => exact ⟨b, h⟩
  unfold discParamsFl at h
  obtain ⟨lo, h⟩ := inv _ _ _ h
  obtain ⟨hi, h⟩ := inv _ _ _ h
  obtain ⟨X', h⟩ := inv _ _ _ h
  obtain ⟨Y', h⟩ := inv _ _ _ h
  obtain ⟨s, hs⟩ := inv _ _ _ h
  rw [← Except.ok.inj hs] at hmem
  obtain ⟨y, -, hy⟩ := List.mem_map.mp hmem
  unfold ratioFl at hy
  split at hy
  · cases hy
  · rw [← Option.some.inj hy]; exact isFloat_fl hp _

/-- **C130**: with groups, a group's value is the mean of the values its members get without grouping, up to rounding,
one per group in order of first appearance; a list of groups of another length is an `IndexError`. -/
theorem C130_groups (hp : 1 ≤ F.p) {order : Nat → SumTree} (ho : SumOrder order) (disc : List (ℚ × ℚ) → ℚ)
    (pb : Problem ℚ) (X : Mat ℚ) (Y : List ℚ) (gs us : List String) (hgs : pb.groups = some gs)
    (hd : DistinctInOrder gs us) (h2 : 2 ≤ us.length) (hne : gs ≠ pb.names) (v : List ℚ)
    (hv : discAnalyzeFl F order disc { pb with groups := none } X Y = .ok (v.map some, pb.names)) :
    (gs.length ≠ v.length → discAnalyzeFl F order disc pb X Y = .error .indexError) ∧
    (gs.length = v.length →
      ∃ w : List ℚ, discAnalyzeFl F order disc pb X Y = .ok (w.map some, pb.names) ∧ w.length = us.length ∧
        ∀ (k : Nat) g, us[k]? = some g → ∃ e, w[k]? = some e ∧
          |e - (((v.zip gs).filter fun p => p.2 = g).map (·.1)).sum / gs.count g| ≤
            ((1 + (2 : ℚ) ^ (-(F.p : ℤ))) ^ gs.count g - 1) *
              ((((v.zip gs).filter fun p => p.2 = g).map fun p => |p.1|).sum / gs.count g) +
                (2 : ℚ) ^ (F.emin - 1)) := by
  have hus : pdUnique gs = us := by
    have hp := pdUnique_distinct gs
    have hperm : (pdUnique gs).Perm us :=
      (List.perm_ext_iff_of_nodup hp.nodup hd.nodup).mpr fun g => by rw [hp.mem_iff, hd.mem_iff]
    exact hperm.eq_of_pairwise (fun a b _ _ h h' => absurd h (by omega)) hp.first_mention hd.first_mention
  have hc : checkGroups pb = some gs := by
    unfold checkGroups
    rw [hgs]
    cases gs with
    | nil => rw [← hus] at h2; simp [pdUnique] at h2
    | cons g gs =>
      simp only []
      rw [if_neg hne, if_neg (by rw [hus]; omega)]
  have hpar : discParamsFl F order disc pb X Y = .ok (v.map some) := by
    have : discParamsFl F order disc pb X Y = discParamsFl F order disc { pb with groups := none } X Y := rfl
    rw [this]
    unfold discAnalyzeFl at hv
    cases hq : discParamsFl F order disc { pb with groups := none } X Y with
    | error e => rw [hq] at hv; cases hv
    | ok s =>
      rw [hq] at hv
      have : s = v.map some := congrArg Prod.fst (Except.ok.inj hv)
      rw [this]
  have hfl := discAnalyzeFl_float hp order disc pb X Y v hpar
  have e1 : ∀ g, ∀ (l : List ℚ) (m : List String), ((((l.map some).zip m).filter fun p => p.2 = g).map (·.1)) =
      (((l.zip m).filter fun p => p.2 = g).map (·.1)).map some := by
    intro g l
    induction l with
    | nil => intro m; rfl
    | cons a l ih =>
      intro m
      cases m with
      | nil => rfl
      | cons b m =>
        simp only [List.map_cons, List.zip_cons_cons, List.filter_cons]
        split <;> simp [ih]
  have e2 : ∀ g, ∀ (l : List ℚ) (m : List String), l.length = m.length →
      (((l.zip m).filter fun p => p.2 = g).map (·.1)).length = m.count g := by
    intro g l
    induction l with
    | nil => intro m hm; cases m with
      | nil => rfl
      | cons b m => simp at hm
    | cons a l ih =>
      intro m hm
      cases m with
      | nil => simp at hm
      | cons b m =>
        have := ih m (by simpa using hm)
        simp only [List.zip_cons_cons, List.filter_cons, List.count_cons]
        by_cases hb : b = g <;> simp [hb, ← this]
  unfold discAnalyzeFl
  rw [hpar, pyBind_ok, hc]
  simp only [List.length_map]
  constructor
  · intro hl
    rw [if_pos hl]
  · intro hl
    rw [if_neg (by simpa using hl), hus]
    have hmean : ∀ g ∈ us, ∃ m, meanFlN F order ((((v.map some).zip gs).filter fun p => p.2 = g).map (·.1)) = some m ∧
        |m - (((v.zip gs).filter fun p => p.2 = g).map (·.1)).sum / gs.count g| ≤
            ((1 + (2 : ℚ) ^ (-(F.p : ℤ))) ^ gs.count g - 1) *
              ((((v.zip gs).filter fun p => p.2 = g).map fun p => |p.1|).sum / gs.count g) +
                (2 : ℚ) ^ (F.emin - 1) := by
      intro g hg
      have hcount : 0 < gs.count g := List.count_pos_iff.mpr ((hd.mem_iff g).mp hg)
      have hlen := e2 g v gs hl.symm
      obtain ⟨m, hm, herr⟩ := meanFl_abs_err hp ho (xs := ((v.zip gs).filter fun p => p.2 = g).map (·.1))
        (by intro h0; rw [h0] at hlen; simp at hlen; omega)
        (by
          intro x hx
          obtain ⟨p, hp', rfl⟩ := List.mem_map.mp hx
          exact hfl _ (List.of_mem_zip (List.mem_of_mem_filter hp')).1)
      rw [hlen, List.map_map] at herr
      refine ⟨m, ?_, herr⟩
      rw [e1 g v gs]
      unfold meanFlN
      have hid := (optMapM_id ((((v.zip gs).filter fun p => p.2 = g).map (·.1)).map some)
        (((v.zip gs).filter fun p => p.2 = g).map (·.1))).mpr rfl
      rw [hid]
      exact hm
    choose! f hf using hmean
    refine ⟨us.map f, ?_, by simp, ?_⟩
    · rw [List.map_map, pyPure]
      congr 2
      exact List.map_congr_left fun g hg => (hf g hg).1
    · intro k g hk
      exact ⟨f g, by rw [List.getElem?_map, hk]; rfl, (hf g (List.mem_of_getElem? hk)).2⟩

/-- Three inputs of two groups, in binary64: the hypotheses are met, and the values are those of the two groups in order of
first appearance. -/
example :
    let pb : Problem ℚ := { names := ["a", "b", "c"], bounds := [[0, 1], [10, 20], [0, 1]], groups := some ["g", "h", "g"] }
    let X : Mat ℚ := [[0, 10, 1], [1 / 2, 20, 0], [1, 15, 0]]
    let disc : List (ℚ × ℚ) → ℚ := fun pts => (pts.map fun p => p.1).foldl (fun a x => 2 * a + x) 1
    DistinctInOrder ["g", "h", "g"] ["g", "h"] ∧
      discAnalyzeFl binary64 leftOrder disc { pb with groups := none } X [3, 5, 7] =
        .ok ([fl binary64 (4 / 13), fl binary64 (21 / 65), fl binary64 (24 / 65)].map some, pb.names) := by
  refine ⟨?_, by decide +kernel⟩
  exact pdUnique_distinct ["g", "h", "g"]

end SALib
