import Verif.Spec.FloatError
import Verif.Lemmas.FloatDgsm
import Verif.Lemmas.Fourier

/-! # Composition of rounding errors -/

namespace SALib
open Spec

variable {F : Fmt}

/-- One rounding, whatever the size of the number. -/
theorem fl_err_any (x : ℚ) : |fl F x - x| ≤ (2 : ℚ) ^ (-(F.p : ℤ)) * |x| + (2 : ℚ) ^ (F.emin - 1) := by
  have h1 := (two_zpow_pos (-(F.p : ℤ))).le
  have h2 := (two_zpow_pos (F.emin - 1)).le
  rcases le_or_gt ((2 : ℚ) ^ (F.emin + F.p - 1)) |x| with h | h
  · have := fl_err_normal h
    nlinarith [abs_nonneg x]
  · have := fl_err_small (F := F) (x := x) (h.trans_le (two_zpow_le (by omega)))
    have := mul_nonneg h1 (abs_nonneg x)
    linarith

/-- The relation with its constants as variables. -/
def RF (u η : ℚ) (n : Nat) (c X x y : ℚ) : Prop := |y - x| ≤ ((1 + u) ^ n - 1) * X + (1 + u) ^ n * c * η

section
variable {u η : ℚ} (hu : 0 ≤ u) (hη : 0 ≤ η)
include hu hη

theorem RF.mono {n m : Nat} {c d X X' x y : ℚ} (h : RF u η n c X x y) (hnm : n ≤ m) (hcd : c ≤ d) (hc : 0 ≤ c)
    (hX : X ≤ X') (hX0 : 0 ≤ X) : RF u η m d X' x y := by
  unfold RF at *
  have h1 := one_le_pow_u hu n
  have h2 := pow_le_pow_right₀ (show (1 : ℚ) ≤ 1 + u by linarith) hnm
  have h3 : (1 + u) ^ n * c ≤ (1 + u) ^ m * d := mul_le_mul h2 hcd hc (by linarith)
  have h4 : ((1 + u) ^ n - 1) * X ≤ ((1 + u) ^ m - 1) * X' := mul_le_mul (by linarith) hX hX0 (by linarith)
  have h5 := mul_le_mul_of_nonneg_right h3 hη
  linarith

theorem RF.abs_le {n : Nat} {c X x y : ℚ} (h : RF u η n c X x y) (hX : |x| ≤ X) :
    |y| ≤ (1 + u) ^ n * X + (1 + u) ^ n * c * η := by
  unfold RF at h
  have := abs_sub_abs_le_abs_sub y x
  linarith

/-- A rounding with relative error only. -/
theorem RF.round_rel {n : Nat} {c X x y z : ℚ} (h : RF u η n c X x y) (hX : |x| ≤ X)
    (hz : |z - y| ≤ |y| * u) : RF u η (n + 1) c X x z := by
  have ha := h.abs_le hu hη hX
  unfold RF at *
  have h1 := abs_sub_le z y x
  have h2 := mul_le_mul_of_nonneg_right ha hu
  rw [pow_succ]
  nlinarith

/-- Any rounding. -/
theorem RF.round {n : Nat} {c X x y z : ℚ} (h : RF u η n c X x y) (hX : |x| ≤ X)
    (hz : |z - y| ≤ u * |y| + η) : RF u η (n + 1) (c + 1) X x z := by
  have ha := h.abs_le hu hη hX
  unfold RF at *
  have h1 := abs_sub_le z y x
  have h2 := mul_le_mul_of_nonneg_left ha hu
  have h3 := mul_le_mul_of_nonneg_right (one_le_pow_u hu (n + 1)) hη
  rw [pow_succ] at *
  nlinarith

omit hu hη in
theorem RF.add {n : Nat} {c d X X' x x' y y' : ℚ} (h : RF u η n c X x y) (h' : RF u η n d X' x' y') :
    RF u η n (c + d) (X + X') (x + x') (y + y') := by
  unfold RF at *
  have e : y + y' - (x + x') = (y - x) + (y' - x') := by ring
  rw [e]
  have := abs_add_le (y - x) (y' - x')
  linarith

omit hu hη in
theorem RF.neg {n : Nat} {c X x y : ℚ} (h : RF u η n c X x y) : RF u η n c X (-x) (-y) := by
  unfold RF at *
  rwa [show -y - -x = -(y - x) by ring, abs_neg]

omit hu hη in
theorem RF.div {n : Nat} {c X x y : ℚ} (h : RF u η n c X x y) (k : ℚ) (hk : 0 < k) :
    RF u η n (c / k) (X / k) (x / k) (y / k) := by
  unfold RF at *
  rw [← sub_div, abs_div, abs_of_pos hk, div_le_iff₀ hk]
  have : (((1 + u) ^ n - 1) * (X / k) + (1 + u) ^ n * (c / k) * η) * k =
      ((1 + u) ^ n - 1) * X + (1 + u) ^ n * c * η := by field_simp
  rw [this]; exact h

omit hu hη in
theorem RF.of_within {n : Nat} {x y : ℚ} (h : Within u n x y) : RF u η n 0 |x| x y := by
  unfold RF
  unfold Within at h
  simpa using h

end

theorem roundedFrom_iff {n : Nat} {c X x y : ℚ} :
    RoundedFrom F n c X x y ↔ RF ((2 : ℚ) ^ (-(F.p : ℤ))) ((2 : ℚ) ^ (F.emin - 1)) n c X x y := Iff.rfl

theorem Spec.RoundedFrom.mono {n m : Nat} {c d X X' x y : ℚ} (h : RoundedFrom F n c X x y) (hnm : n ≤ m)
    (hcd : c ≤ d) (hc : 0 ≤ c) (hX : X ≤ X') (hX0 : 0 ≤ X) : RoundedFrom F m d X' x y :=
  RF.mono (two_zpow_pos _).le (two_zpow_pos _).le h hnm hcd hc hX hX0

theorem Spec.RoundedFrom.refl (x : ℚ) : RoundedFrom F 0 0 |x| x x := by simp [RoundedFrom]

theorem Spec.RoundedFrom.of_within {n : Nat} {x y : ℚ} (h : Within ((2 : ℚ) ^ (-(F.p : ℤ))) n x y) :
    RoundedFrom F n 0 |x| x y := RF.of_within h

theorem Spec.RoundedFrom.rnd {n : Nat} {c X x y : ℚ} (h : RoundedFrom F n c X x y) (hX : |x| ≤ X) :
    RoundedFrom F (n + 1) (c + 1) X x (fl F y) :=
  RF.round (two_zpow_pos _).le (two_zpow_pos _).le h hX (fl_err_any y)

theorem Spec.RoundedFrom.div {n : Nat} {c X x y : ℚ} (h : RoundedFrom F n c X x y) {k : ℚ} (hk : 0 < k) :
    RoundedFrom F n (c / k) (X / k) (x / k) (y / k) := RF.div h k hk

theorem Spec.RoundedFrom.quot {n : Nat} {c X x y : ℚ} (h : RoundedFrom F n c X x y) (hX : |x| ≤ X) {k : ℚ}
    (hk : 0 < k) : RoundedFrom F (n + 1) (c / k + 1) (X / k) (x / k) (fdiv F y k) :=
  (h.div hk).rnd (by rw [abs_div, abs_of_pos hk]; gcongr)

theorem Spec.RoundedFrom.neg {n : Nat} {c X x y : ℚ} (h : RoundedFrom F n c X x y) :
    RoundedFrom F n c X (-x) (-y) := RF.neg h

theorem Spec.RoundedFrom.plus (hp : 1 ≤ F.p) {n : Nat} {c d X X' x x' y y' : ℚ} (h : RoundedFrom F n c X x y)
    (h' : RoundedFrom F n d X' x' y') (hX : |x| ≤ X) (hX' : |x'| ≤ X') (hy : IsFloat F y) (hy' : IsFloat F y') :
    RoundedFrom F (n + 1) (c + d) (X + X') (x + x') (fadd F y y') :=
  RF.round_rel (two_zpow_pos _).le (two_zpow_pos _).le (RF.add h h')
    ((abs_add_le _ _).trans (add_le_add hX hX')) (fl_add_err hp hy hy')

theorem Spec.RoundedFrom.minus (hp : 1 ≤ F.p) {n : Nat} {c d X X' x x' y y' : ℚ} (h : RoundedFrom F n c X x y)
    (h' : RoundedFrom F n d X' x' y') (hX : |x| ≤ X) (hX' : |x'| ≤ X') (hy : IsFloat F y) (hy' : IsFloat F y') :
    RoundedFrom F (n + 1) (c + d) (X + X') (x - x') (fsub F y y') := by
  have := h.plus hp h'.neg hX (by rwa [abs_neg]) hy hy'.neg
  unfold fadd at this
  rwa [← sub_eq_add_neg, ← sub_eq_add_neg] at this

/-- A sum in any order. -/
theorem sumFl_tree (hp : 1 ≤ F.p) {xs : List ℚ} {n : Nat} {c : ℚ} (hc : 0 ≤ c) {X x : Nat → ℚ}
    (hX : ∀ i, |x i| ≤ X i) (hf : ∀ i, IsFloat F (xs.getD i 0)) (t : SumTree)
    (h : ∀ i ∈ t.leaves, RoundedFrom F n c (X i) (x i) (xs.getD i 0)) :
    IsFloat F (sumFl F xs t) ∧ |(t.leaves.map x).sum| ≤ (t.leaves.map X).sum ∧
      RoundedFrom F (n + (t.leaves.length - 1)) (t.leaves.length * c) (t.leaves.map X).sum (t.leaves.map x).sum
        (sumFl F xs t) := by
  induction t with
  | leaf i =>
    simp only [sumFl, SumTree.leaves, List.map_cons, List.map_nil, List.sum_cons, List.sum_nil, add_zero,
      List.length_cons, List.length_nil]
    exact ⟨hf i, hX i, by simpa using h i (by simp [SumTree.leaves])⟩
  | node l r ihl ihr =>
    obtain ⟨f1, a1, r1⟩ := ihl fun i hi => h i (by simp [SumTree.leaves, hi])
    obtain ⟨f2, a2, r2⟩ := ihr fun i hi => h i (by simp [SumTree.leaves, hi])
    have hl := l.leaves_pos
    have hr := r.leaves_pos
    simp only [sumFl, SumTree.leaves, List.map_append, List.sum_append, List.length_append]
    refine ⟨isFloat_fl hp _, (abs_add_le _ _).trans (add_le_add a1 a2), ?_⟩
    have m1 := r1.mono (m := n + (l.leaves.length + r.leaves.length - 2)) (by omega) le_rfl (by positivity) le_rfl
      ((abs_nonneg _).trans a1)
    have m2 := r2.mono (m := n + (l.leaves.length + r.leaves.length - 2)) (by omega) le_rfl (by positivity) le_rfl
      ((abs_nonneg _).trans a2)
    have := m1.plus hp m2 a1 a2 f1 f2
    rw [show n + (l.leaves.length + r.leaves.length - 2) + 1 = n + (l.leaves.length + r.leaves.length - 1) by omega,
      show (l.leaves.length : ℚ) * c + r.leaves.length * c = ((l.leaves.length + r.leaves.length : Nat) : ℚ) * c by
        push_cast; ring] at this
    exact this

/-- A mean in any order. -/
theorem meanFl_rounded (hp : 1 ≤ F.p) {order : Nat → SumTree} (ho : SumOrder order) {xs : List ℚ} (hne : xs ≠ [])
    {n : Nat} {c : ℚ} (hc : 0 ≤ c) {X x : Nat → ℚ} (hX : ∀ i, |x i| ≤ X i) (hf : ∀ y ∈ xs, IsFloat F y)
    (h : ∀ i < xs.length, RoundedFrom F n c (X i) (x i) (xs.getD i 0)) :
    ∃ m, meanFl F order xs = some m ∧ IsFloat F m ∧
      RoundedFrom F (n + xs.length) (c + 1) (avg xs.length X) (avg xs.length x) m := by
  have hpos := List.length_pos_iff.mpr hne
  have hperm := ho xs.length hpos
  have hf' : ∀ i, IsFloat F (xs.getD i 0) := by
    intro i
    rw [List.getD_eq_getElem?_getD]
    by_cases hi : i < xs.length
    · rw [List.getElem?_eq_getElem hi]; exact hf _ (List.getElem_mem hi)
    · rw [List.getElem?_eq_none (by omega)]; exact isFloat_zero
  obtain ⟨-, ha, hr⟩ := sumFl_tree hp (c := c) hc hX hf' (order xs.length) fun i hi =>
    h i (List.mem_range.mp (hperm.mem_iff.mp hi))
  have hlen : (order xs.length).leaves.length = xs.length := by rw [hperm.length_eq, List.length_range]
  have e : ∀ f : Nat → ℚ, ((order xs.length).leaves.map f).sum = ∑ i ∈ Finset.range xs.length, f i := by
    intro f
    rw [(hperm.map f).sum_eq, sum_range_list]
  rw [hlen, e, e] at hr
  rw [e, e] at ha
  refine ⟨_, if_neg (by omega), isFloat_fl hp _, ?_⟩
  have hq : (0 : ℚ) < xs.length := by exact_mod_cast hpos
  have := hr.quot ha hq
  rw [mul_div_cancel_left₀ _ hq.ne'] at this
  rwa [show n + (xs.length - 1) + 1 = n + xs.length by omega] at this

end SALib
