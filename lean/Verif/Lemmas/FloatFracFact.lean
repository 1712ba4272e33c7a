import Verif.Model.FloatFracFact
import Verif.Lemmas.FloatSum
import Verif.Lemmas.FloatDgsm

/-! # A contrast of floats: the products and the scaling are exact, only the additions round -/

namespace SALib
open Spec

variable {F : Fmt}

/-- A float times a power of two: exact unless it underflows. -/
theorem fl_shift_err (hp : 1 ≤ F.p) {s : ℚ} (hs : IsFloat F s) (m : ℕ) :
    |fl F ((2 : ℚ) ^ (-(m : ℤ)) * s) - (2 : ℚ) ^ (-(m : ℤ)) * s| ≤ (2 : ℚ) ^ (F.emin - 1) := by
  obtain ⟨M, e, he, hM, rfl⟩ := hs
  have h1 : (2 : ℚ) ^ (-(m : ℤ)) * (M * (2 : ℚ) ^ e) = M * (2 : ℚ) ^ (e - m) := by
    rw [sub_eq_add_neg, zpow_add₀ (by norm_num)]; ring
  rw [h1]
  by_cases hem : F.emin ≤ e - m
  · rw [fl_eq hp ⟨M, e - m, hem, hM, rfl⟩, sub_self, abs_zero]
    exact (two_zpow_pos _).le
  · refine fl_err_small ?_
    have hMq : (|(M : ℚ)|) < (2 : ℚ) ^ F.p := by exact_mod_cast hM
    rw [abs_mul, abs_of_pos (two_zpow_pos _), zpow_add₀ (by norm_num), mul_comm, zpow_natCast]
    have h2 : (2 : ℚ) ^ (e - m) ≤ (2 : ℚ) ^ F.emin := two_zpow_le (by omega)
    exact mul_lt_mul_of_le_of_lt_of_nonneg_of_pos h2 hMq (abs_nonneg _) (two_zpow_pos _)

/-- Multiples of one power of two whose absolute values do not add up to too much are added without rounding,
in any order. -/
theorem sumFl_exact (hp : 1 ≤ F.p) {e : ℤ} (he : F.emin ≤ e) {xs : List ℚ}
    (hx : ∀ x ∈ xs, ∃ m : ℤ, x = m * (2 : ℚ) ^ e) (t : SumTree)
    (hs : (t.leaves.map fun i => |xs.getD i 0|).sum ≤ (2 : ℚ) ^ (e + F.p)) :
    sumFl F xs t = (t.leaves.map (xs.getD · 0)).sum ∧
      ∃ m : ℤ, sumFl F xs t = m * (2 : ℚ) ^ e := by
  induction t with
  | leaf i =>
    refine ⟨by simp [sumFl, SumTree.leaves], ?_⟩
    unfold sumFl
    rw [List.getD_eq_getElem?_getD]
    by_cases hi : i < xs.length
    · rw [List.getElem?_eq_getElem hi]; exact hx _ (List.getElem_mem hi)
    · rw [List.getElem?_eq_none (by omega)]; exact ⟨0, by simp⟩
  | node l r ihl ihr =>
    have habs := abs_sum_map_le (l.leaves ++ r.leaves) (xs.getD · 0)
    simp only [SumTree.leaves, List.map_append, List.sum_append] at hs habs ⊢
    have hl0 : 0 ≤ (l.leaves.map fun i => |xs.getD i 0|).sum :=
      List.sum_nonneg (by simp only [List.mem_map]; rintro _ ⟨i, -, rfl⟩; exact abs_nonneg _)
    have hr0 : 0 ≤ (r.leaves.map fun i => |xs.getD i 0|).sum :=
      List.sum_nonneg (by simp only [List.mem_map]; rintro _ ⟨i, -, rfl⟩; exact abs_nonneg _)
    obtain ⟨el, ml, hml⟩ := ihl (by linarith)
    obtain ⟨er, mr, hmr⟩ := ihr (by linarith)
    have hm : sumFl F xs l + sumFl F xs r = ((ml + mr : ℤ) : ℚ) * (2 : ℚ) ^ e := by
      rw [hml, hmr]; push_cast; ring
    have hf : fl F (sumFl F xs l + sumFl F xs r) = sumFl F xs l + sumFl F xs r := by
      refine fl_eq hp (isFloat_of_multiple hp he hm ?_)
      rw [el, er]
      exact habs.trans hs
    refine ⟨?_, ml + mr, ?_⟩
    · rw [sumFl, fadd, hf, el, er]
    · rw [sumFl, fadd, hf, hm]

/-- The products with a contrast. -/
theorem zipWith_fmul_contrast (hp : 1 ≤ F.p) {Y x : List ℚ} (hY : ∀ y ∈ Y, IsFloat F y)
    (hx : ∀ v ∈ x, v = 1 ∨ v = -1) : List.zipWith (fmul F) Y x = List.zipWith (· * ·) Y x := by
  induction Y generalizing x with
  | nil => rfl
  | cons y Y ih =>
    cases x with
    | nil => rfl
    | cons v x =>
      simp only [List.zipWith_cons_cons]
      rw [ih (fun z hz => hY z (by simp [hz])) (fun z hz => hx z (by simp [hz]))]
      congr 1
      have hy := hY y (by simp)
      rcases hx v (by simp) with rfl | rfl
      · rw [fmul, mul_one, fl_eq hp hy]
      · rw [fmul, mul_neg_one, fl_eq hp hy.neg]

theorem zipWith_contrast_abs {Y x : List ℚ} (hl : Y.length = x.length) (hx : ∀ v ∈ x, v = 1 ∨ v = -1) :
    (List.zipWith (· * ·) Y x).map (|·|) = Y.map (|·|) := by
  induction Y generalizing x with
  | nil => rfl
  | cons y Y ih =>
    cases x with
    | nil => simp at hl
    | cons v x =>
      simp only [List.zipWith_cons_cons, List.map_cons]
      rw [ih (by simpa using hl) (fun z hz => hx z (by simp [hz]))]
      congr 1
      rcases hx v (by simp) with rfl | rfl <;> simp

theorem mem_zipWith_contrast {Y x : List ℚ} {P : ℚ → Prop} (hP : ∀ y ∈ Y, P y ∧ P (-y))
    (hx : ∀ v ∈ x, v = 1 ∨ v = -1) : ∀ z ∈ List.zipWith (· * ·) Y x, P z := by
  induction Y generalizing x with
  | nil => simp
  | cons y Y ih =>
    cases x with
    | nil => simp
    | cons v x =>
      simp only [List.zipWith_cons_cons, List.mem_cons, forall_eq_or_imp]
      refine ⟨?_, ih (fun z hz => hP z (by simp [hz])) (fun z hz => hx z (by simp [hz]))⟩
      rcases hx v (by simp) with rfl | rfl
      · rw [mul_one]; exact (hP y (by simp)).1
      · rw [mul_neg_one]; exact (hP y (by simp)).2

theorem ffFactor (k : ℕ) : (1 : ℚ) / (2 * ((2 ^ k : ℕ) : ℚ)) = (2 : ℚ) ^ (-((k + 1 : ℕ) : ℤ)) := by
  rw [zpow_neg, zpow_natCast, pow_succ]; push_cast; rw [one_div, mul_comm]

/-- Error of one effect. -/
theorem ffEffectFl_err (hp : 1 ≤ F.p) (k : ℕ) (he : F.emin ≤ -((k + 1 : ℕ) : ℤ)) {order : Nat → SumTree}
    (ho : SumOrder order) {Y x : List ℚ} (hne : Y ≠ []) (hl : Y.length = x.length)
    (hY : ∀ y ∈ Y, IsFloat F y) (hx : ∀ v ∈ x, v = 1 ∨ v = -1) :
    |ffEffectFl F (order Y.length) (2 ^ k) Y x - 1 / (2 * 2 ^ k) * dotList Y x| ≤
      ((1 + (2 : ℚ) ^ (-(F.p : ℤ))) ^ (Y.length - 1) - 1) * ((Y.map (|·|)).sum / (2 * 2 ^ k)) +
        (2 : ℚ) ^ (F.emin - 1) := by
  have hfac := ffFactor k
  have hzl : (List.zipWith (· * ·) Y x).length = Y.length := by simp [hl]
  have hzf : ∀ z ∈ List.zipWith (· * ·) Y x, IsFloat F z :=
    mem_zipWith_contrast (fun y hy => ⟨hY y hy, (hY y hy).neg⟩) hx
  have hsum := sumFl_list_err hp ho (xs := List.zipWith (· * ·) Y x)
    (by intro h; rw [h] at hzl; exact hne (List.length_eq_zero_iff.mp hzl.symm)) hzf
  rw [hzl, zipWith_contrast_abs hl hx] at hsum
  have hfl := isFloat_sumFl hp hzf (order Y.length)
  have hsh := fl_shift_err hp hfl (k + 1)
  unfold ffEffectFl dotFl dotList fdiv
  rw [zipWith_fmul_contrast hp hY hx, hfac, fl_eq hp (isFloat_two_zpow hp he), fmul]
  have e2 : (1 : ℚ) / (2 * 2 ^ k) = (2 : ℚ) ^ (-((k + 1 : ℕ) : ℤ)) := by rw [← hfac]; push_cast; rfl
  rw [div_eq_mul_one_div (Y.map (|·|)).sum, e2]
  have hpos := two_zpow_pos (-((k + 1 : ℕ) : ℤ))
  generalize (2 : ℚ) ^ (-((k + 1 : ℕ) : ℤ)) = c at *
  generalize sumFl F (List.zipWith (· * ·) Y x) (order Y.length) = s at *
  have h3 : |c * s - c * (List.zipWith (· * ·) Y x).sum| ≤
      c * (((1 + (2 : ℚ) ^ (-(F.p : ℤ))) ^ (Y.length - 1) - 1) * (Y.map (|·|)).sum) := by
    rw [← mul_sub, abs_mul, abs_of_pos hpos]
    exact mul_le_mul_of_nonneg_left hsum hpos.le
  have := abs_sub_le (fl F (c * s)) (c * s) (c * (List.zipWith (· * ·) Y x).sum)
  linarith

/-- No error for multiples of one power of two. -/
theorem ffEffectFl_exact (hp : 1 ≤ F.p) (k : ℕ) (he : F.emin ≤ -((k + 1 : ℕ) : ℤ)) {order : Nat → SumTree}
    (ho : SumOrder order) {Y x : List ℚ} (hne : Y ≠ []) (hl : Y.length = x.length) {e : ℤ}
    (hee : F.emin + (k + 1 : ℕ) ≤ e) (hY : ∀ y ∈ Y, ∃ m : ℤ, y = m * (2 : ℚ) ^ e)
    (hs : (Y.map (|·|)).sum ≤ (2 : ℚ) ^ (e + F.p)) (hx : ∀ v ∈ x, v = 1 ∨ v = -1) :
    ffEffectFl F (order Y.length) (2 ^ k) Y x = 1 / (2 * 2 ^ k) * dotList Y x := by
  have hfac := ffFactor k
  have hee' : F.emin ≤ e := by omega
  have hzl : (List.zipWith (· * ·) Y x).length = Y.length := by simp [hl]
  have hzm : ∀ z ∈ List.zipWith (· * ·) Y x, ∃ m : ℤ, z = m * (2 : ℚ) ^ e := by
    refine mem_zipWith_contrast (fun y hy => ?_) hx
    obtain ⟨m, hm⟩ := hY y hy
    exact ⟨⟨m, hm⟩, -m, by rw [hm]; push_cast; ring⟩
  have hYle : ∀ y ∈ Y, |y| ≤ (2 : ℚ) ^ (e + F.p) := by
    intro y hy
    refine le_trans ?_ hs
    exact List.single_le_sum (by simp only [List.mem_map]; rintro _ ⟨i, -, rfl⟩; exact abs_nonneg _) _
      (List.mem_map.mpr ⟨y, hy, rfl⟩)
  have hYf : ∀ y ∈ Y, IsFloat F y := by
    intro y hy
    obtain ⟨m, hm⟩ := hY y hy
    exact isFloat_of_multiple hp hee' hm (hYle y hy)
  have hperm := ho Y.length (List.length_pos_iff.mpr hne)
  have habs := zipWith_contrast_abs hl hx
  have hle : ((order Y.length).leaves.map fun i => |(List.zipWith (· * ·) Y x).getD i 0|).sum =
      (Y.map (|·|)).sum := by
    rw [(hperm.map fun i => |(List.zipWith (· * ·) Y x).getD i 0|).sum_eq, ← habs]
    conv_rhs => rw [← range_map_getD (List.zipWith (· * ·) Y x), List.map_map, hzl]
    rfl
  obtain ⟨hsum, m, hm⟩ := sumFl_exact hp hee' hzm (order Y.length) (hle.trans_le hs)
  have habs2 := abs_sum_map_le (order Y.length).leaves ((List.zipWith (· * ·) Y x).getD · 0)
  rw [← hsum, hle] at habs2
  rw [(hperm.map ((List.zipWith (· * ·) Y x).getD · 0)).sum_eq] at hsum
  have hr : ((List.range Y.length).map ((List.zipWith (· * ·) Y x).getD · 0)) =
      List.zipWith (· * ·) Y x := by
    rw [← hzl]; exact range_map_getD _
  rw [hr] at hsum
  have e2 : (1 : ℚ) / (2 * 2 ^ k) = (2 : ℚ) ^ (-((k + 1 : ℕ) : ℤ)) := by rw [← hfac]; push_cast; rfl
  unfold ffEffectFl dotFl dotList fdiv
  rw [zipWith_fmul_contrast hp hYf hx, hfac, fl_eq hp (isFloat_two_zpow hp he), fmul, e2, ← hsum]
  refine fl_eq hp (isFloat_of_multiple (m := m) (e := e - (k + 1 : ℕ)) hp (by omega) ?_ ?_)
  · rw [hm, sub_eq_add_neg, zpow_add₀ (by norm_num)]; ring
  · rw [abs_mul, abs_of_pos (two_zpow_pos _),
      show e - ((k + 1 : ℕ) : ℤ) + F.p = -((k + 1 : ℕ) : ℤ) + (e + F.p) by ring,
      zpow_add₀ (by norm_num : (2 : ℚ) ≠ 0) (-((k + 1 : ℕ) : ℤ))]
    exact mul_le_mul_of_nonneg_left (habs2.trans hs) (two_zpow_pos _).le

end SALib
