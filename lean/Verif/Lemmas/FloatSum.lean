import Verif.Spec.FloatSum
import Verif.Lemmas.FloatScale
import Mathlib.Algebra.Order.BigOperators.Group.List
import Mathlib.Tactic.Positivity
import Mathlib.Tactic.GCongr

/-! # Rounding of sums, in whatever order they are taken -/

namespace SALib

variable {F : Fmt}

/-- `y` is `x` after `n` relative errors of at most `u`. -/
def Within (u : ℚ) (n : Nat) (x y : ℚ) : Prop := |y - x| ≤ ((1 + u) ^ n - 1) * |x|

theorem Within.refl (u : ℚ) (x : ℚ) : Within u 0 x x := by simp [Within]

theorem one_le_pow_u {u : ℚ} (hu : 0 ≤ u) (n : Nat) : 1 ≤ (1 + u) ^ n := one_le_pow₀ (by linarith)

theorem Within.abs_le {u : ℚ} {n : Nat} {x y : ℚ} (h : Within u n x y) : |y| ≤ (1 + u) ^ n * |x| := by
  have := abs_sub_abs_le_abs_sub y x
  unfold Within at h
  linarith

theorem Within.mono {u : ℚ} (hu : 0 ≤ u) {n m : Nat} (hnm : n ≤ m) {x y : ℚ} (h : Within u n x y) :
    Within u m x y := by
  unfold Within at *
  refine h.trans (mul_le_mul_of_nonneg_right ?_ (abs_nonneg _))
  have := pow_le_pow_right₀ (show (1 : ℚ) ≤ 1 + u by linarith) hnm
  linarith

theorem Within.trans {u : ℚ} (hu : 0 ≤ u) {n m : Nat} {x y z : ℚ} (h : Within u n x y) (h' : Within u m y z) :
    Within u (n + m) x z := by
  have ha := h.abs_le
  unfold Within at *
  have h1 := abs_sub_le z y x
  have hm := one_le_pow_u hu m
  have h2 : ((1 + u) ^ m - 1) * |y| ≤ ((1 + u) ^ m - 1) * ((1 + u) ^ n * |x|) :=
    mul_le_mul_of_nonneg_left ha (by linarith)
  rw [pow_add]
  nlinarith

theorem Within.mul {u : ℚ} (hu : 0 ≤ u) {n m : Nat} {x y x' y' : ℚ} (h : Within u n x y)
    (h' : Within u m x' y') : Within u (n + m) (x * x') (y * y') := by
  have ha := h.abs_le
  unfold Within at *
  have e : y * y' - x * x' = y * (y' - x') + (y - x) * x' := by ring
  rw [e, abs_mul x]
  have hm := one_le_pow_u hu m
  have hn := one_le_pow_u hu n
  refine (abs_add_le _ _).trans ?_
  rw [abs_mul, abs_mul]
  have h1 : |y| * |y' - x'| ≤ ((1 + u) ^ n * |x|) * (((1 + u) ^ m - 1) * |x'|) :=
    mul_le_mul ha h' (abs_nonneg _) (by positivity)
  have h2 := mul_le_mul_of_nonneg_right h (abs_nonneg x')
  rw [pow_add]
  nlinarith

theorem Within.div_const {u : ℚ} {n : Nat} {x y : ℚ} (c : ℚ) (h : Within u n x y) :
    Within u n (x / c) (y / c) := by
  unfold Within at *
  rw [← sub_div, abs_div, abs_div, ← mul_div_assoc]
  gcongr

/-- One rounding. -/
theorem Within.of_err {u x y : ℚ} (h : |y - x| ≤ |x| * u) : Within u 1 x y := by
  unfold Within
  rw [pow_one]
  linarith

theorem fl_within (x : ℚ) (h : x = 0 ∨ (2 : ℚ) ^ (F.emin + F.p - 1) ≤ |x|) :
    Within ((2 : ℚ) ^ (-(F.p : ℤ))) 1 x (fl F x) := by
  refine Within.of_err ?_
  rcases h with rfl | h
  · rw [fl_zero]; simp
  · exact fl_err_normal h

theorem isFloat_sumFl (hp : 1 ≤ F.p) {xs : List ℚ} (hx : ∀ x ∈ xs, IsFloat F x) (t : SumTree) :
    IsFloat F (sumFl F xs t) := by
  cases t with
  | leaf i =>
    unfold sumFl
    rw [List.getD_eq_getElem?_getD]
    by_cases hi : i < xs.length
    · rw [List.getElem?_eq_getElem hi]; exact hx _ (List.getElem_mem hi)
    · rw [List.getElem?_eq_none (by omega)]; exact isFloat_zero
  | node l r => exact isFloat_fl hp _

theorem SumTree.leaves_pos (t : SumTree) : 1 ≤ t.leaves.length := by
  induction t with
  | leaf i => simp [SumTree.leaves]
  | node l r ih _ => simp [SumTree.leaves]; omega

theorem abs_sum_map_le (l : List Nat) (f : Nat → ℚ) : |(l.map f).sum| ≤ (l.map fun i => |f i|).sum := by
  induction l with
  | nil => simp
  | cons a l ih =>
    simp only [List.map_cons, List.sum_cons]
    exact (abs_add_le _ _).trans (by linarith)

/-- Error of a sum in any order, against the sum of the absolute values. -/
theorem sumFl_err (hp : 1 ≤ F.p) {xs : List ℚ} (hx : ∀ x ∈ xs, IsFloat F x) (t : SumTree) :
    |sumFl F xs t - (t.leaves.map (xs.getD · 0)).sum| ≤
      ((1 + (2 : ℚ) ^ (-(F.p : ℤ))) ^ (t.leaves.length - 1) - 1) *
        (t.leaves.map fun i => |xs.getD i 0|).sum := by
  have hu := (two_zpow_pos (-(F.p : ℤ))).le
  generalize huu : (2 : ℚ) ^ (-(F.p : ℤ)) = u at hu
  induction t with
  | leaf i => simp [sumFl, SumTree.leaves]
  | node l r ihl ihr =>
    have hl := l.leaves_pos
    have hr := r.leaves_pos
    simp only [SumTree.leaves, List.map_append, List.sum_append, List.length_append]
    set A := (l.leaves.map (xs.getD · 0)).sum with hA
    set B := (r.leaves.map (xs.getD · 0)).sum with hB
    set A' := (l.leaves.map fun i => |xs.getD i 0|).sum with hA'
    set B' := (r.leaves.map fun i => |xs.getD i 0|).sum with hB'
    have hAA : |A| ≤ A' := abs_sum_map_le _ _
    have hBB : |B| ≤ B' := abs_sum_map_le _ _
    have hA0 : 0 ≤ A' := (abs_nonneg _).trans hAA
    have hB0 : 0 ≤ B' := (abs_nonneg _).trans hBB
    have hround := fl_add_err hp (isFloat_sumFl hp hx l) (isFloat_sumFl hp hx r)
    rw [huu] at hround
    set n := l.leaves.length + r.leaves.length - 2 with hn
    have e : l.leaves.length + r.leaves.length - 1 = n + 1 := by omega
    have pl := pow_le_pow_right₀ (show (1 : ℚ) ≤ 1 + u by linarith)
      (show l.leaves.length - 1 ≤ n by omega)
    have pr := pow_le_pow_right₀ (show (1 : ℚ) ≤ 1 + u by linarith)
      (show r.leaves.length - 1 ≤ n by omega)
    have pn := one_le_pow_u hu n
    have il : |sumFl F xs l - A| ≤ ((1 + u) ^ n - 1) * A' := ihl.trans (by nlinarith)
    have ir : |sumFl F xs r - B| ≤ ((1 + u) ^ n - 1) * B' := ihr.trans (by nlinarith)
    show |fl F (sumFl F xs l + sumFl F xs r) - (A + B)| ≤ _
    rw [e, pow_succ]
    have h1 : |sumFl F xs l + sumFl F xs r - (A + B)| ≤ ((1 + u) ^ n - 1) * (A' + B') := by
      have := abs_add_le (sumFl F xs l - A) (sumFl F xs r - B)
      rw [show sumFl F xs l + sumFl F xs r - (A + B) = (sumFl F xs l - A) + (sumFl F xs r - B) by ring]
      nlinarith
    have h2 : |sumFl F xs l + sumFl F xs r| ≤ (1 + u) ^ n * (A' + B') := by
      have a := abs_add_le A B
      have b := abs_sub_abs_le_abs_sub (sumFl F xs l + sumFl F xs r) (A + B)
      nlinarith
    have h3 := abs_sub_le (fl F (sumFl F xs l + sumFl F xs r)) (sumFl F xs l + sumFl F xs r) (A + B)
    have h4 : |sumFl F xs l + sumFl F xs r| * u ≤ (1 + u) ^ n * (A' + B') * u :=
      mul_le_mul_of_nonneg_right h2 hu
    nlinarith

theorem range_map_getD (xs : List ℚ) : (List.range xs.length).map (xs.getD · 0) = xs := by
  apply List.ext_getElem
  · simp
  · intro i h1 h2
    simp [List.getD, List.getElem?_eq_getElem h2]

/-- The same for a list. -/
theorem sumFl_list_err (hp : 1 ≤ F.p) {order : Nat → SumTree} (ho : Spec.SumOrder order) {xs : List ℚ}
    (hne : xs ≠ []) (hx : ∀ x ∈ xs, IsFloat F x) :
    |sumFl F xs (order xs.length) - xs.sum| ≤
      ((1 + (2 : ℚ) ^ (-(F.p : ℤ))) ^ (xs.length - 1) - 1) * (xs.map (|·|)).sum := by
  have hpos := List.length_pos_iff.mpr hne
  have hperm := ho xs.length hpos
  have h := sumFl_err hp hx (order xs.length)
  rw [(hperm.map (xs.getD · 0)).sum_eq, (hperm.map fun i => |xs.getD i 0|).sum_eq, hperm.length_eq,
    List.length_range, range_map_getD] at h
  have e : (List.range xs.length).map (fun i => |xs.getD i 0|) = xs.map (|·|) := by
    conv_rhs => rw [← range_map_getD xs, List.map_map]
    rfl
  rwa [e] at h

/-- Sums of non-negative numbers have a small relative error. -/
theorem sumFl_within (hp : 1 ≤ F.p) {order : Nat → SumTree} (ho : Spec.SumOrder order) {xs : List ℚ}
    (hne : xs ≠ []) (hx : ∀ x ∈ xs, IsFloat F x) (h0 : ∀ x ∈ xs, 0 ≤ x) :
    Within ((2 : ℚ) ^ (-(F.p : ℤ))) (xs.length - 1) xs.sum (sumFl F xs (order xs.length)) := by
  have h := sumFl_list_err hp ho hne hx
  have e : xs.map (|·|) = xs := by
    conv_rhs => rw [← List.map_id xs]
    exact List.map_congr_left fun x hx => abs_of_nonneg (h0 x hx)
  rw [e] at h
  unfold Within
  rwa [abs_of_nonneg (List.sum_nonneg h0)]

/-- Sums of numbers that are all zero are zero. -/
theorem sumFl_zeros {xs : List ℚ} (h : ∀ x ∈ xs, x = 0) (t : SumTree) : sumFl F xs t = 0 := by
  induction t with
  | leaf i =>
    unfold sumFl
    rw [List.getD_eq_getElem?_getD]
    by_cases hi : i < xs.length
    · rw [List.getElem?_eq_getElem hi]; exact h _ (List.getElem_mem hi)
    · rw [List.getElem?_eq_none (by omega)]; rfl
  | node l r ihl ihr => rw [sumFl, ihl, ihr, fadd, add_zero, fl_zero]

/-- A sum of non-negative numbers is at least each of them. -/
theorem le_sumFl (hp : 1 ≤ F.p) {xs : List ℚ} (hx : ∀ x ∈ xs, IsFloat F x) (h0 : ∀ x ∈ xs, 0 ≤ x)
    (t : SumTree) : 0 ≤ sumFl F xs t ∧ ∀ i ∈ t.leaves, xs.getD i 0 ≤ sumFl F xs t := by
  induction t with
  | leaf i =>
    refine ⟨?_, fun k hk => ?_⟩
    · unfold sumFl
      rw [List.getD_eq_getElem?_getD]
      by_cases hi : i < xs.length
      · rw [List.getElem?_eq_getElem hi]; exact h0 _ (List.getElem_mem hi)
      · rw [List.getElem?_eq_none (by omega)]; exact le_rfl
    · rw [SumTree.leaves, List.mem_singleton] at hk
      rw [hk, sumFl]
  | node l r ihl ihr =>
    refine ⟨fl_nonneg (add_nonneg ihl.1 ihr.1), fun k hk => ?_⟩
    have a := le_fl_of_le hp (isFloat_sumFl hp hx l) (show sumFl F xs l ≤ sumFl F xs l + sumFl F xs r by linarith [ihr.1])
    have b := le_fl_of_le hp (isFloat_sumFl hp hx r) (show sumFl F xs r ≤ sumFl F xs l + sumFl F xs r by linarith [ihl.1])
    rcases List.mem_append.mp hk with hk | hk
    · exact (ihl.2 k hk).trans a
    · exact (ihr.2 k hk).trans b

theorem meanFl_zeros {order : Nat → SumTree} {xs : List ℚ} (hne : xs ≠ []) (h : ∀ x ∈ xs, x = 0) :
    meanFl F order xs = some 0 := by
  have hpos := List.length_pos_iff.mpr hne
  rw [meanFl, if_neg (by omega), sumFl_zeros h, fdiv, zero_div, fl_zero]

theorem devSqFl_zeros {xs : List ℚ} (h : ∀ x ∈ xs, x = 0) : ∀ y ∈ devSqFl F 0 xs, y = 0 := by
  intro y hy
  obtain ⟨x, hx, rfl⟩ := List.mem_map.mp hy
  rw [h x hx, fsub, sub_zero, fl_zero, fmul, mul_zero, fl_zero]

theorem varFl_zeros {order : Nat → SumTree} {xs : List ℚ} (hne : xs ≠ []) (h : ∀ x ∈ xs, x = 0) :
    varFl F order xs = some 0 := by
  unfold varFl
  rw [meanFl_zeros hne h]
  exact meanFl_zeros (by simpa [devSqFl] using hne) (devSqFl_zeros h)

theorem std1Fl_zeros {order : Nat → SumTree} {sqrt : ℚ → ℚ} (hs : sqrt 0 = 0) {xs : List ℚ}
    (hne : 2 ≤ xs.length) (h : ∀ x ∈ xs, x = 0) : std1Fl F order sqrt xs = some 0 := by
  unfold std1Fl
  rw [meanFl_zeros (by rintro rfl; simp at hne) h]
  show (if xs.length ≤ 1 then none else _) = _
  rw [if_neg (by omega), sumFl_zeros (devSqFl_zeros h), fdiv, zero_div, fl_zero, hs]
  rfl

end SALib
