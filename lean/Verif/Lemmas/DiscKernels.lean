import Verif.Lemmas.DiscMeaning

/-! The kernels of the four methods in closed form. -/

namespace SALib
open Spec MeasureTheory Set

theorem unitLine_between (A : Set ℝ) (a b : ℝ) (hab : a ≤ b) (h0 : 0 ≤ a) (h1 : b ≤ 1) (h : ∀ s, a < s → s < b → s ∈ A)
    (h' : ∀ s ∈ A, 0 ≤ s → s ≤ 1 → a ≤ s ∧ s ≤ b) : unitLine.real A = b - a := by
  have hle : unitLine.real A ≤ b - a := by
    have : unitLine A ≤ ENNReal.ofReal (b - a) := by
      rw [← Real.volume_Icc]
      unfold unitLine
      rw [Measure.restrict_apply' measurableSet_Icc]
      exact measure_mono fun s hs => h' s hs.1 hs.2.1 hs.2.2
    have h2 := ENNReal.toReal_mono ENNReal.ofReal_ne_top this
    rwa [ENNReal.toReal_ofReal (by linarith)] at h2
  have hge : b - a ≤ unitLine.real A := by
    have : ENNReal.ofReal (b - a) ≤ unitLine A := by
      rw [← Real.volume_Ioo]
      unfold unitLine
      rw [Measure.restrict_apply' measurableSet_Icc]
      exact measure_mono fun s hs => ⟨h s hs.1 hs.2, by linarith [hs.1], by linarith [hs.2]⟩
    have h2 := ENNReal.toReal_mono (measure_ne_top _ _) this
    rwa [ENNReal.toReal_ofReal (by linarith)] at h2
  exact le_antisymm hle hge

theorem unitSquare_first (A : Set ℝ) : unitSquare.real {s : ℝ × ℝ | s.1 ∈ A} = unitLine.real A := by
  have : {s : ℝ × ℝ | s.1 ∈ A} = A ×ˢ univ := by ext s; simp
  rw [this, unitSquare, measureReal_prod_prod]
  simp

theorem unitLine_empty (A : Set ℝ) (h : ∀ s ∈ A, 0 ≤ s → s ≤ 1 → False) : unitLine.real A = 0 := by
  have := unitLine_between A 0 0 le_rfl le_rfl zero_le_one (fun s h1 h2 => by linarith) fun s hs h1 h2 => (h s hs h1 h2).elim
  rw [this]; ring

theorem overlap_whole (x y : ℝ) : overlap wholeSide x y = 1 := by
  have : {s : ℝ × ℝ | x ∈ wholeSide s ∧ y ∈ wholeSide s} = univ := by ext s; simp [wholeSide]
  rw [overlap, this]; simp

theorem overlap_origin {x y : ℝ} (hx : x ∈ Icc (0 : ℝ) 1) (hy : y ∈ Icc (0 : ℝ) 1) :
    overlap originSide x y = 1 - 1 / 2 * x - 1 / 2 * y - 1 / 2 * |y - x| := by
  have : overlap originSide x y = unitLine.real {s | x < s ∧ y < s} := unitSquare_first {s | x < s ∧ y < s}
  rw [this]
  rcases le_total x y with h | h
  · have hb : unitLine.real {s | x < s ∧ y < s} = 1 - y :=
      unitLine_between _ y 1 hy.2 hy.1 le_rfl (fun s h1 _ => ⟨by linarith, h1⟩) (fun s hs _ h2 => ⟨hs.2.le, h2⟩)
    rw [hb, abs_of_nonneg (by linarith)]
    ring
  · have hb : unitLine.real {s | x < s ∧ y < s} = 1 - x :=
      unitLine_between _ x 1 hx.2 hx.1 le_rfl (fun s h1 _ => ⟨h1, by linarith⟩) (fun s hs _ h2 => ⟨hs.1.le, h2⟩)
    rw [hb, abs_of_nonpos (by linarith)]
    ring

theorem overlap_corner {x y : ℝ} (hx : x ∈ Icc (0 : ℝ) 1) (hy : y ∈ Icc (0 : ℝ) 1) :
    overlap cornerSide x y = 1 / 2 * |x - 1 / 2| + 1 / 2 * |y - 1 / 2| - 1 / 2 * |y - x| := by
  have e : overlap cornerSide x y = unitLine.real {s | ((s < 1 / 2 ∧ x ≤ s) ∨ (1 / 2 ≤ s ∧ s ≤ x)) ∧
      ((s < 1 / 2 ∧ y ≤ s) ∨ (1 / 2 ≤ s ∧ s ≤ y))} :=
    unitSquare_first {s | ((s < 1 / 2 ∧ x ≤ s) ∨ (1 / 2 ≤ s ∧ s ≤ x)) ∧ ((s < 1 / 2 ∧ y ≤ s) ∨ (1 / 2 ≤ s ∧ s ≤ y))}
  rw [e]
  have hlow : ∀ a b : ℝ, a ≤ 1 / 2 → b ≤ a → 0 ≤ a → unitLine.real {s | ((s < 1 / 2 ∧ a ≤ s) ∨ (1 / 2 ≤ s ∧ s ≤ a)) ∧
      ((s < 1 / 2 ∧ b ≤ s) ∨ (1 / 2 ≤ s ∧ s ≤ b))} = 1 / 2 - a := by
    intro a b h1 h2 h3
    refine unitLine_between _ a (1 / 2) h1 h3 (by norm_num) (fun s g1 g2 => ⟨Or.inl ⟨g2, g1.le⟩, Or.inl ⟨g2, by linarith⟩⟩) ?_
    rintro s ⟨g1, -⟩ - -
    rcases g1 with ⟨g1, g2⟩ | ⟨g1, g2⟩ <;> constructor <;> linarith
  have hhigh : ∀ a b : ℝ, 1 / 2 ≤ a → a ≤ b → a ≤ 1 → unitLine.real {s | ((s < 1 / 2 ∧ a ≤ s) ∨ (1 / 2 ≤ s ∧ s ≤ a)) ∧
      ((s < 1 / 2 ∧ b ≤ s) ∨ (1 / 2 ≤ s ∧ s ≤ b))} = a - 1 / 2 := by
    intro a b h1 h2 h3
    refine unitLine_between _ (1 / 2) a h1 (by norm_num) h3
      (fun s g1 g2 => ⟨Or.inr ⟨g1.le, g2.le⟩, Or.inr ⟨g1.le, by linarith⟩⟩) ?_
    rintro s ⟨g1, -⟩ - -
    rcases g1 with ⟨g1, g2⟩ | ⟨g1, g2⟩ <;> constructor <;> linarith
  have hmid : ∀ a b : ℝ, a ≤ 1 / 2 → 1 / 2 ≤ b → unitLine.real {s | ((s < 1 / 2 ∧ a ≤ s) ∨ (1 / 2 ≤ s ∧ s ≤ a)) ∧
      ((s < 1 / 2 ∧ b ≤ s) ∨ (1 / 2 ≤ s ∧ s ≤ b))} = 0 := by
    intro a b h1 h2
    have := unitLine_between {s | ((s < 1 / 2 ∧ a ≤ s) ∨ (1 / 2 ≤ s ∧ s ≤ a)) ∧
      ((s < 1 / 2 ∧ b ≤ s) ∨ (1 / 2 ≤ s ∧ s ≤ b))} (1 / 2) (1 / 2) le_rfl (by norm_num) (by norm_num)
      (fun s g1 g2 => by linarith) (by
        rintro s ⟨g1, g2⟩ - -
        rcases g1 with ⟨g1, g3⟩ | ⟨g1, g3⟩ <;> rcases g2 with ⟨g2, g4⟩ | ⟨g2, g4⟩ <;> constructor <;> linarith)
    rw [this]; ring
  have hsymm : ∀ a b : ℝ, {s : ℝ | ((s < 1 / 2 ∧ a ≤ s) ∨ (1 / 2 ≤ s ∧ s ≤ a)) ∧
      ((s < 1 / 2 ∧ b ≤ s) ∨ (1 / 2 ≤ s ∧ s ≤ b))} = {s | ((s < 1 / 2 ∧ b ≤ s) ∨ (1 / 2 ≤ s ∧ s ≤ b)) ∧
      ((s < 1 / 2 ∧ a ≤ s) ∨ (1 / 2 ≤ s ∧ s ≤ a))} := fun a b => by ext s; exact and_comm
  rcases le_total x (1 / 2) with h1 | h1 <;> rcases le_total y (1 / 2) with h2 | h2 <;> rcases le_total x y with h | h
  · rw [hsymm, hlow y x h2 h hy.1, abs_of_nonpos (by linarith), abs_of_nonpos (by linarith), abs_of_nonneg (by linarith)]; ring
  · rw [hlow x y h1 h hx.1, abs_of_nonpos (by linarith), abs_of_nonpos (by linarith), abs_of_nonpos (by linarith)]; ring
  · rw [hmid x y h1 h2, abs_of_nonpos (by linarith), abs_of_nonneg (by linarith), abs_of_nonneg (by linarith)]; ring
  · rw [hmid x y h1 h2, abs_of_nonpos (by linarith), abs_of_nonneg (by linarith), abs_of_nonpos (by linarith)]; linarith
  · rw [hsymm, hmid y x h2 h1, abs_of_nonneg (by linarith), abs_of_nonpos (by linarith), abs_of_nonneg (by linarith)]; linarith
  · rw [hsymm, hmid y x h2 h1, abs_of_nonneg (by linarith), abs_of_nonpos (by linarith), abs_of_nonpos (by linarith)]; ring
  · rw [hhigh x y h1 h hx.2, abs_of_nonneg (by linarith), abs_of_nonneg (by linarith), abs_of_nonneg (by linarith)]; ring
  · rw [hsymm, hhigh y x h2 h hy.2, abs_of_nonneg (by linarith), abs_of_nonneg (by linarith), abs_of_nonpos (by linarith)]; ring

theorem overlap_far {x y : ℝ} (hx : x ∈ Icc (0 : ℝ) 1) (hy : y ∈ Icc (0 : ℝ) 1) :
    overlap farSide x y = 1 - 1 / 2 * |x - 1 / 2| - 1 / 2 * |y - 1 / 2| - 1 / 2 * |y - x| := by
  have e : overlap farSide x y = unitLine.real {s | ((s < 1 / 2 ∧ s ≤ x) ∨ (1 / 2 ≤ s ∧ x ≤ s)) ∧
      ((s < 1 / 2 ∧ s ≤ y) ∨ (1 / 2 ≤ s ∧ y ≤ s))} :=
    unitSquare_first {s | ((s < 1 / 2 ∧ s ≤ x) ∨ (1 / 2 ≤ s ∧ x ≤ s)) ∧ ((s < 1 / 2 ∧ s ≤ y) ∨ (1 / 2 ≤ s ∧ y ≤ s))}
  have hu : {s : ℝ | ((s < 1 / 2 ∧ s ≤ x) ∨ (1 / 2 ≤ s ∧ x ≤ s)) ∧ ((s < 1 / 2 ∧ s ≤ y) ∨ (1 / 2 ≤ s ∧ y ≤ s))} =
      {s | s < 1 / 2 ∧ s ≤ x ∧ s ≤ y} ∪ {s | 1 / 2 ≤ s ∧ x ≤ s ∧ y ≤ s} := by
    ext s
    simp only [mem_setOf_eq, mem_union]
    constructor
    · rintro ⟨g1 | g1, g2 | g2⟩
      · exact Or.inl ⟨g1.1, g1.2, g2.2⟩
      · exact absurd g1.1 (not_lt.mpr g2.1)
      · exact absurd g2.1 (not_lt.mpr g1.1)
      · exact Or.inr ⟨g1.1, g1.2, g2.2⟩
    · rintro (⟨g1, g2, g3⟩ | ⟨g1, g2, g3⟩)
      · exact ⟨Or.inl ⟨g1, g2⟩, Or.inl ⟨g1, g3⟩⟩
      · exact ⟨Or.inr ⟨g1, g2⟩, Or.inr ⟨g1, g3⟩⟩
  have hd : Disjoint {s : ℝ | s < 1 / 2 ∧ s ≤ x ∧ s ≤ y} {s | 1 / 2 ≤ s ∧ x ≤ s ∧ y ≤ s} := by
    rw [Set.disjoint_left]
    rintro s ⟨g1, -⟩ ⟨g2, -⟩
    linarith
  have hms : MeasurableSet {s : ℝ | 1 / 2 ≤ s ∧ x ≤ s ∧ y ≤ s} := measurableSet_Ici.inter (measurableSet_Ici.inter measurableSet_Ici)
  rw [e, hu, measureReal_union hd hms]
  have hm : 0 ≤ min (1 / 2) (min x y) := le_min (by norm_num) (le_min hx.1 hy.1)
  have hM : max (1 / 2) (max x y) ≤ 1 := max_le (by norm_num) (max_le hx.2 hy.2)
  rw [unitLine_between {s : ℝ | s < 1 / 2 ∧ s ≤ x ∧ s ≤ y} 0 (min (1 / 2) (min x y)) hm le_rfl ((min_le_left _ _).trans (by norm_num))
      (fun s _ g => by
        rw [lt_min_iff, lt_min_iff] at g
        exact ⟨g.1, g.2.1.le, g.2.2.le⟩)
      (fun s g g0 _ => ⟨g0, le_min g.1.le (le_min g.2.1 g.2.2)⟩),
    unitLine_between {s : ℝ | 1 / 2 ≤ s ∧ x ≤ s ∧ y ≤ s} (max (1 / 2) (max x y)) 1 hM
      ((by norm_num : (0 : ℝ) ≤ 1 / 2).trans (le_max_left _ _)) le_rfl
      (fun s g _ => by
        rw [max_lt_iff, max_lt_iff] at g
        exact ⟨g.1.le, g.2.1.le, g.2.2.le⟩)
      (fun s g _ g1 => ⟨max_le g.1 (max_le g.2.1 g.2.2), g1⟩)]
  rcases le_total x (1 / 2) with h1 | h1 <;> rcases le_total y (1 / 2) with h2 | h2 <;> rcases le_total x y with h | h
  · rw [abs_of_nonpos (by linarith), abs_of_nonpos (by linarith), abs_of_nonneg (by linarith), min_eq_left h, max_eq_right h,
      min_eq_right h1, max_eq_left h2]; ring
  · rw [abs_of_nonpos (by linarith), abs_of_nonpos (by linarith), abs_of_nonpos (by linarith), min_eq_right h, max_eq_left h,
      min_eq_right h2, max_eq_left h1]; ring
  · rw [abs_of_nonpos (by linarith), abs_of_nonneg (by linarith), abs_of_nonneg (by linarith), min_eq_left h, max_eq_right h,
      min_eq_right h1, max_eq_right h2]; ring
  · rw [abs_of_nonpos (by linarith), abs_of_nonneg (by linarith), abs_of_nonpos (by linarith), min_eq_right h, max_eq_left h,
      min_eq_left h2, max_eq_left h1]; linarith
  · rw [abs_of_nonneg (by linarith), abs_of_nonpos (by linarith), abs_of_nonneg (by linarith), min_eq_left h, max_eq_right h,
      min_eq_left h1, max_eq_left h2]; linarith
  · rw [abs_of_nonneg (by linarith), abs_of_nonpos (by linarith), abs_of_nonpos (by linarith), min_eq_right h, max_eq_left h,
      min_eq_right h2, max_eq_right h1]; ring
  · rw [abs_of_nonneg (by linarith), abs_of_nonneg (by linarith), abs_of_nonneg (by linarith), min_eq_left h, max_eq_right h,
      min_eq_left h1, max_eq_right h2]; ring
  · rw [abs_of_nonneg (by linarith), abs_of_nonneg (by linarith), abs_of_nonpos (by linarith), min_eq_right h, max_eq_left h,
      min_eq_left h2, max_eq_right h1]; ring

theorem unitLine_integral (f : ℝ → ℝ) : ∫ y, f y ∂unitLine = ∫ y in (0 : ℝ)..1, f y := by
  unfold unitLine
  rw [integral_Icc_eq_integral_Ioc, intervalIntegral.integral_of_le zero_le_one]

theorem unitLine_congr (f g : ℝ → ℝ) (h : ∀ y ∈ Icc (0 : ℝ) 1, f y = g y) : ∫ y, f y ∂unitLine = ∫ y, g y ∂unitLine :=
  setIntegral_congr_fun measurableSet_Icc h

theorem integral_dist (a : ℝ) (ha : a ∈ Icc (0 : ℝ) 1) : ∫ y in (0 : ℝ)..1, |y - a| = (a ^ 2 + (1 - a) ^ 2) / 2 := by
  have hc : Continuous fun y : ℝ => |y - a| := by fun_prop
  rw [← intervalIntegral.integral_add_adjacent_intervals (hc.intervalIntegrable 0 a) (hc.intervalIntegrable a 1)]
  have e1 : ∫ y in (0 : ℝ)..a, |y - a| = ∫ y in (0 : ℝ)..a, (a - y) := by
    apply intervalIntegral.integral_congr
    intro y hy
    rw [uIcc_of_le ha.1] at hy
    show |y - a| = a - y
    rw [abs_of_nonpos (by linarith [hy.2])]; ring
  have e2 : ∫ y in a..1, |y - a| = ∫ y in a..1, (y - a) := by
    apply intervalIntegral.integral_congr
    intro y hy
    rw [uIcc_of_le ha.2] at hy
    show |y - a| = y - a
    rw [abs_of_nonneg (by linarith [hy.1])]
  rw [e1, e2, intervalIntegral.integral_sub (by simp) (by simp), intervalIntegral.integral_sub (by simp) (by simp)]
  simp
  ring

/-- Everything the kernels are made of. -/
theorem integral_parts (c0 c1 c2 c3 c4 x : ℝ) (hx : x ∈ Icc (0 : ℝ) 1) :
    ∫ y, (c0 + c1 * |y - 1 / 2| + c2 * |y - x| + c3 * (y - x) ^ 2 + c4 * y) ∂unitLine =
      c0 + c1 / 4 + c2 * ((x ^ 2 + (1 - x) ^ 2) / 2) + c3 * ((x ^ 3 + (1 - x) ^ 3) / 3) + c4 / 2 := by
  rw [unitLine_integral]
  have i0 : IntervalIntegrable (fun _ : ℝ => c0) volume 0 1 := by simp
  have i1 : IntervalIntegrable (fun y : ℝ => c1 * |y - 1 / 2|) volume 0 1 := (by fun_prop : Continuous fun y : ℝ => c1 * |y - 1 / 2|).intervalIntegrable 0 1
  have i2 : IntervalIntegrable (fun y : ℝ => c2 * |y - x|) volume 0 1 := (by fun_prop : Continuous fun y : ℝ => c2 * |y - x|).intervalIntegrable 0 1
  have i3 : IntervalIntegrable (fun y : ℝ => c3 * (y - x) ^ 2) volume 0 1 := (by fun_prop : Continuous fun y : ℝ => c3 * (y - x) ^ 2).intervalIntegrable 0 1
  have i4 : IntervalIntegrable (fun y : ℝ => c4 * y) volume 0 1 := (by fun_prop : Continuous fun y : ℝ => c4 * y).intervalIntegrable 0 1
  rw [intervalIntegral.integral_add (((i0.add i1).add i2).add i3) i4, intervalIntegral.integral_add ((i0.add i1).add i2) i3,
    intervalIntegral.integral_add (i0.add i1) i2, intervalIntegral.integral_add i0 i1]
  simp only [intervalIntegral.integral_const_mul, intervalIntegral.integral_const]
  rw [integral_dist _ hx, integral_dist _ (by norm_num)]
  have e3 : ∫ y in (0 : ℝ)..1, (y - x) ^ 2 = (x ^ 3 + (1 - x) ^ 3) / 3 := by
    rw [intervalIntegral.integral_comp_sub_right (fun y => y ^ 2) x]
    simp
    ring
  rw [e3, intervalIntegral.integral_const_mul, integral_id]
  simp only [smul_eq_mul]
  ring

theorem real_prod_section (T : Set (ℝ × ℝ)) (hT : MeasurableSet T) :
    unitSquare.real T = ∫ s, unitLine.real {t | (s, t) ∈ T} ∂unitLine := by
  have hint : Integrable (T.indicator fun _ => (1 : ℝ)) (unitLine.prod unitLine) := (integrable_const _).indicator hT
  have h1 := integral_prod _ hint
  rw [integral_indicator_const _ hT, smul_eq_mul, mul_one] at h1
  rw [unitSquare, h1]
  congr 1
  funext a
  have hm : MeasurableSet {b | (a, b) ∈ T} := measurable_prodMk_left hT
  have : (fun b => T.indicator (fun _ => (1 : ℝ)) (a, b)) = {b | (a, b) ∈ T}.indicator fun _ => 1 := by
    funext b
    by_cases h : (a, b) ∈ T
    · rw [indicator_of_mem h, indicator_of_mem (by exact h)]
    · rw [indicator_of_notMem h, indicator_of_notMem (by exact h)]
  rw [this, integral_indicator_const _ hm, smul_eq_mul, mul_one]

theorem measSide_whole : MeasSide wholeSide := by
  have : {q : (ℝ × ℝ) × ℝ | q.2 ∈ wholeSide q.1} = univ := by ext q; simp [wholeSide]
  rw [MeasSide, this]; exact MeasurableSet.univ

theorem measSide_origin : MeasSide originSide :=
  measurableSet_lt (f := fun q : (ℝ × ℝ) × ℝ => q.2) (g := fun q => q.1.1) (by fun_prop) (by fun_prop)

theorem measSide_corner : MeasSide cornerSide := by
  have m1 : Measurable fun q : (ℝ × ℝ) × ℝ => q.1.1 := by fun_prop
  have m2 : Measurable fun q : (ℝ × ℝ) × ℝ => q.2 := by fun_prop
  exact ((measurableSet_lt m1 measurable_const).inter (measurableSet_le m2 m1)).union
    ((measurableSet_le measurable_const m1).inter (measurableSet_le m1 m2))

theorem measSide_far : MeasSide farSide := by
  have m1 : Measurable fun q : (ℝ × ℝ) × ℝ => q.1.1 := by fun_prop
  have m2 : Measurable fun q : (ℝ × ℝ) × ℝ => q.2 := by fun_prop
  exact ((measurableSet_lt m1 measurable_const).inter (measurableSet_le m1 m2)).union
    ((measurableSet_le measurable_const m1).inter (measurableSet_le m2 m1))

theorem measSide_wrap : MeasSide wrapSide := by
  have m1 : Measurable fun q : (ℝ × ℝ) × ℝ => q.1.1 := by fun_prop
  have m3 : Measurable fun q : (ℝ × ℝ) × ℝ => q.1.2 := by fun_prop
  have m2 : Measurable fun q : (ℝ × ℝ) × ℝ => q.2 := by fun_prop
  exact ((measurableSet_le m1 m3).inter ((measurableSet_le m1 m2).inter (measurableSet_lt m2 m3))).union
    ((measurableSet_lt m3 m1).inter ((measurableSet_lt m2 m3).union (measurableSet_le m1 m2)))

theorem overlap_comm (J : ℝ × ℝ → Set ℝ) (x y : ℝ) : overlap J x y = overlap J y x := by
  unfold overlap
  congr 1
  ext s
  exact and_comm

theorem overlap_wrap_le {x y : ℝ} (hx : x ∈ Icc (0 : ℝ) 1) (hy : y ∈ Icc (0 : ℝ) 1) (h : x ≤ y) :
    overlap wrapSide x y = 1 / 2 - (y - x) + (y - x) ^ 2 := by
  have hT : MeasurableSet {s : ℝ × ℝ | x ∈ wrapSide s ∧ y ∈ wrapSide s} :=
    (measurable_prodMk_right (y := x) measSide_wrap).inter (measurable_prodMk_right (y := y) measSide_wrap)
  have hsec : ∀ s ∈ Icc (0 : ℝ) 1, unitLine.real {t | (s, t) ∈ {s : ℝ × ℝ | x ∈ wrapSide s ∧ y ∈ wrapSide s}} =
      s + (Iic x).indicator (fun _ => 1 - y) s - (Ioc x y).indicator (fun _ => x) s - (Ioi y).indicator (fun _ => y) s := by
    intro s hs
    simp only [wrapSide, mem_setOf_eq]
    rcases le_or_gt s x with h1 | h1
    · rw [indicator_of_mem (by exact h1), indicator_of_notMem (by rintro ⟨g, -⟩; linarith),
        indicator_of_notMem (by intro g; have : y < s := g; linarith)]
      have hu : {t : ℝ | (s ≤ t ∧ s ≤ x ∧ x < t ∨ t < s ∧ (x < t ∨ s ≤ x)) ∧ (s ≤ t ∧ s ≤ y ∧ y < t ∨ t < s ∧ (y < t ∨ s ≤ y))} =
          {t | t < s} ∪ {t | y < t} := by
        ext t
        simp only [mem_setOf_eq, mem_union]
        constructor
        · rintro ⟨-, g | g⟩
          · exact Or.inr g.2.2
          · exact Or.inl g.1
        · rintro (g | g)
          · exact ⟨Or.inr ⟨g, Or.inr h1⟩, Or.inr ⟨g, Or.inr (h1.trans h)⟩⟩
          · exact ⟨Or.inl ⟨by linarith, h1, by linarith⟩, Or.inl ⟨by linarith, by linarith, g⟩⟩
      have hd : Disjoint {t : ℝ | t < s} {t | y < t} := by
        rw [Set.disjoint_left]
        rintro t g1 g2
        have a1 : t < s := g1
        have a2 : y < t := g2
        linarith
      rw [hu, measureReal_union hd measurableSet_Ioi,
        unitLine_between {t | t < s} 0 s hs.1 le_rfl hs.2 (fun t _ g => g) (fun t g g0 _ => ⟨g0, le_of_lt g⟩),
        unitLine_between {t | y < t} y 1 hy.2 hy.1 le_rfl (fun t g _ => g) (fun t g _ g1 => ⟨le_of_lt g, g1⟩)]
      ring
    · rcases le_or_gt s y with h2 | h2
      · rw [indicator_of_notMem (by intro g; have : s ≤ x := g; linarith), indicator_of_mem (by exact ⟨h1, h2⟩),
          indicator_of_notMem (by intro g; have : y < s := g; linarith)]
        refine Eq.trans (unitLine_between _ x s h1.le hx.1 hs.2 ?_ ?_) ?_
        · intro t g1 g2
          exact ⟨Or.inr ⟨g2, Or.inl g1⟩, Or.inr ⟨g2, Or.inr h2⟩⟩
        · rintro t ⟨g, -⟩ - -
          rcases g with ⟨g1, g2, g3⟩ | ⟨g1, g2 | g2⟩
          · linarith
          · exact ⟨g2.le, g1.le⟩
          · linarith
        · ring
      · rw [indicator_of_notMem (by intro g; have : s ≤ x := g; linarith), indicator_of_notMem (by rintro ⟨-, g⟩; linarith),
          indicator_of_mem (by exact h2)]
        refine Eq.trans (unitLine_between _ y s h2.le hy.1 hs.2 ?_ ?_) ?_
        · intro t g1 g2
          exact ⟨Or.inr ⟨g2, Or.inl (by linarith)⟩, Or.inr ⟨g2, Or.inl g1⟩⟩
        · rintro t ⟨-, g⟩ - -
          rcases g with ⟨g1, g2, g3⟩ | ⟨g1, g2 | g2⟩
          · linarith
          · exact ⟨g2.le, g1.le⟩
          · linarith
        · ring
  rw [overlap, real_prod_section _ hT, unitLine_congr _ _ hsec]
  have i0 : Integrable (fun s : ℝ => s) unitLine := (continuous_id.integrableOn_Icc (a := 0) (b := 1))
  have i1 : Integrable ((Iic x).indicator (fun _ : ℝ => 1 - y)) unitLine := (integrable_const _).indicator measurableSet_Iic
  have i2 : Integrable ((Ioc x y).indicator (fun _ : ℝ => x)) unitLine := (integrable_const _).indicator measurableSet_Ioc
  have i3 : Integrable ((Ioi y).indicator (fun _ : ℝ => y)) unitLine := (integrable_const _).indicator measurableSet_Ioi
  have s1 := integral_sub (μ := unitLine) ((i0.add i1).sub i2) i3
  have s2 := integral_sub (μ := unitLine) (i0.add i1) i2
  have s3 := integral_add (μ := unitLine) i0 i1
  simp only [Pi.sub_apply, Pi.add_apply] at s1 s2 s3
  rw [s1, s2, s3, integral_indicator_const _ measurableSet_Iic, integral_indicator_const _ measurableSet_Ioc,
    integral_indicator_const _ measurableSet_Ioi,
    unitLine_between (Iic x) 0 x hx.1 le_rfl hx.2 (fun t _ g => g.le) (fun t g g0 _ => ⟨g0, g⟩),
    unitLine_between (Ioc x y) x y h hx.1 hy.2 (fun t g1 g2 => ⟨g1, g2.le⟩) (fun t g _ _ => ⟨g.1.le, g.2⟩),
    unitLine_between (Ioi y) y 1 hy.2 hy.1 le_rfl (fun t g _ => g) (fun t g _ g1 => ⟨le_of_lt g, g1⟩), unitLine_integral]
  simp only [smul_eq_mul, integral_id]
  ring

theorem overlap_wrap {x y : ℝ} (hx : x ∈ Icc (0 : ℝ) 1) (hy : y ∈ Icc (0 : ℝ) 1) :
    overlap wrapSide x y = 1 / 2 - |y - x| + (y - x) ^ 2 := by
  rcases le_total x y with h | h
  · rw [overlap_wrap_le hx hy h, abs_of_nonneg (by linarith)]
  · rw [overlap_comm, overlap_wrap_le hy hx h, abs_of_nonpos (by linarith)]
    ring

theorem overlap1_whole (x : ℝ) : overlap1 wholeSide x = 1 := by
  simp [overlap1, overlap_whole]

theorem overlap2_whole : overlap2 wholeSide = 1 := by
  simp [overlap2, overlap1_whole]

theorem overlap1_origin {x : ℝ} (hx : x ∈ Icc (0 : ℝ) 1) : overlap1 originSide x = (1 - x ^ 2) / 2 := by
  rw [overlap1, unitLine_congr _ (fun y => (1 - 1 / 2 * x) + 0 * |y - 1 / 2| + (-(1 / 2)) * |y - x| + 0 * (y - x) ^ 2 + (-(1 / 2)) * y)
    (fun y hy => by rw [overlap_origin hx hy]; ring), integral_parts _ _ _ _ _ _ hx]
  ring

theorem overlap2_origin : overlap2 originSide = 1 / 3 := by
  rw [overlap2, unitLine_congr _ (fun y => 1 / 2 + 0 * |y - 1 / 2| + 0 * |y - 0| + (-(1 / 2)) * (y - 0) ^ 2 + 0 * y)
    (fun y hy => by rw [overlap1_origin hy]; ring), integral_parts _ _ _ _ _ _ (by simp)]
  norm_num

theorem overlap1_corner {x : ℝ} (hx : x ∈ Icc (0 : ℝ) 1) :
    overlap1 cornerSide x = 1 / 2 * |x - 1 / 2| - 1 / 2 * |x - 1 / 2| ^ 2 := by
  rw [overlap1, unitLine_congr _ (fun y => (1 / 2 * |x - 1 / 2|) + 1 / 2 * |y - 1 / 2| + (-(1 / 2)) * |y - x| + 0 * (y - x) ^ 2 + 0 * y)
    (fun y hy => by rw [overlap_corner hx hy]; ring), integral_parts _ _ _ _ _ _ hx, sq_abs]
  ring

theorem overlap2_corner : overlap2 cornerSide = 1 / 12 := by
  rw [overlap2, unitLine_congr _ (fun y => 0 + 1 / 2 * |y - 1 / 2| + 0 * |y - 1 / 2| + (-(1 / 2)) * (y - 1 / 2) ^ 2 + 0 * y)
    (fun y hy => by rw [overlap1_corner hy, sq_abs]; ring), integral_parts _ _ _ _ _ _ (by norm_num)]
  norm_num

theorem overlap1_far {x : ℝ} (hx : x ∈ Icc (0 : ℝ) 1) :
    overlap1 farSide x = 3 / 4 - 1 / 2 * |x - 1 / 2| - 1 / 2 * |x - 1 / 2| ^ 2 := by
  rw [overlap1, unitLine_congr _ (fun y => (1 - 1 / 2 * |x - 1 / 2|) + (-(1 / 2)) * |y - 1 / 2| + (-(1 / 2)) * |y - x| + 0 * (y - x) ^ 2 + 0 * y)
    (fun y hy => by rw [overlap_far hx hy]; ring), integral_parts _ _ _ _ _ _ hx, sq_abs]
  ring

theorem overlap2_far : overlap2 farSide = 7 / 12 := by
  rw [overlap2, unitLine_congr _ (fun y => 3 / 4 + (-(1 / 2)) * |y - 1 / 2| + 0 * |y - 1 / 2| + (-(1 / 2)) * (y - 1 / 2) ^ 2 + 0 * y)
    (fun y hy => by rw [overlap1_far hy, sq_abs]; ring), integral_parts _ _ _ _ _ _ (by norm_num)]
  norm_num

theorem overlap1_wrap {x : ℝ} (hx : x ∈ Icc (0 : ℝ) 1) : overlap1 wrapSide x = 1 / 3 := by
  rw [overlap1, unitLine_congr _ (fun y => 1 / 2 + 0 * |y - 1 / 2| + (-1) * |y - x| + 1 * (y - x) ^ 2 + 0 * y)
    (fun y hy => by rw [overlap_wrap hx hy]; ring), integral_parts _ _ _ _ _ _ hx]
  ring

theorem overlap2_wrap : overlap2 wrapSide = 1 / 3 := by
  rw [overlap2, unitLine_congr _ (fun _ => 1 / 3) (fun y hy => overlap1_wrap hy)]
  simp

end SALib
