import Verif.Props.MorrisEndToEnd
import Mathlib.Analysis.SpecialFunctions.Pow.Real
import Mathlib.Tactic.IntervalCases

/-! # C121: scaled elementary effects -/

namespace SALib
open Spec

/-- On the trajectory `T` parameter `j` has the value `x` up to row `t` and `x'` from row `t + 1` on. -/
structure Spec.MovesOnce (T : Mat ℝ) (j t : Nat) (x x' : ℝ) : Prop where
  before : ∀ s ≤ t, entry T s j = some x
  after : ∀ s, t < s → s < T.length → entry T s j = some x'
  inside : t + 1 < T.length
  moved : x ≠ x'

/-- The variance of a list of numbers, each equally likely. -/
noncomputable def Spec.listVar (l : List ℝ) : ℝ := (l.map fun v => (v - l.sum / l.length) ^ 2).sum / l.length

theorem npVar_listVar (l : List ℝ) (h : l ≠ []) : npVar l = some (listVar l) := npVar_some l h

theorem listMax_replicate {x x' : ℝ} {p q : Nat} (hp : 0 < p) (hq : 0 < q) :
    listMax (List.replicate p x ++ List.replicate q x') = max x x' := by
  have h : ∀ (n : Nat) (a v : ℝ), (List.replicate n v).foldl max a = if n = 0 then a else max a v := by
    intro n
    induction n with
    | zero => intro a v; rfl
    | succ n ih =>
      intro a v
      rw [List.replicate_succ, List.foldl_cons, ih]
      by_cases h0 : n = 0 <;> simp [h0]
  unfold listMax
  obtain ⟨p, rfl⟩ : ∃ k, p = k + 1 := ⟨p - 1, by omega⟩
  rw [List.foldl_append, h, h, if_neg (by omega), if_neg (by omega)]
  simp [List.replicate_succ]

theorem listMin_replicate {x x' : ℝ} {p q : Nat} (hp : 0 < p) (hq : 0 < q) :
    listMin (List.replicate p x ++ List.replicate q x') = min x x' := by
  have h : ∀ (n : Nat) (a v : ℝ), (List.replicate n v).foldl min a = if n = 0 then a else min a v := by
    intro n
    induction n with
    | zero => intro a v; rfl
    | succ n ih =>
      intro a v
      rw [List.replicate_succ, List.foldl_cons, ih]
      by_cases h0 : n = 0 <;> simp [h0]
  unfold listMin
  obtain ⟨p, rfl⟩ : ∃ k, p = k + 1 := ⟨p - 1, by omega⟩
  rw [List.foldl_append, h, h, if_neg (by omega), if_neg (by omega)]
  simp [List.replicate_succ]

theorem listVar_replicate (x x' : ℝ) {p q : Nat} (hp : 0 < p) (hq : 0 < q) :
    listVar (List.replicate p x ++ List.replicate q x') = p * q * (x' - x) ^ 2 / ((p : ℝ) + q) ^ 2 := by
  have hpr : (0 : ℝ) < p := by exact_mod_cast hp
  have hqr : (0 : ℝ) < q := by exact_mod_cast hq
  unfold listVar
  simp only [List.map_append, List.map_replicate, List.sum_append, List.sum_replicate, List.length_append,
    List.length_replicate, nsmul_eq_mul]
  push_cast
  field_simp
  ring

/-- The column of a parameter that moves once. -/
theorem Spec.MovesOnce.column {T : Mat ℝ} {j t : Nat} {x x' : ℝ} (h : MovesOnce T j t x x') :
    (T.map fun r => r.getD j 0) = List.replicate (t + 1) x ++ List.replicate (T.length - 1 - t) x' := by
  have hin := h.inside
  apply List.ext_getElem
  · simp; omega
  · intro s h1 h2
    have hs : s < T.length := by simpa using h1
    rw [List.getElem_map, List.getElem_append]
    have hv : (T[s]).getD j 0 = (entry T s j).getD 0 := by
      unfold entry
      rw [List.getElem?_eq_getElem hs]
      simp [List.getD_eq_getElem?_getD]
    rw [hv]
    split
    · rename_i h3
      rw [List.length_replicate] at h3
      rw [h.before s (by omega), List.getElem_replicate]; rfl
    · rename_i h3
      rw [List.length_replicate] at h3
      rw [h.after s (by omega) hs, List.getElem_replicate]; rfl

theorem Spec.MovesOnce.changes {T : Mat ℝ} {j t : Nat} {x x' : ℝ} (h : MovesOnce T j t x x') : ChangesOnlyAt T j t := by
  intro s hs hl
  rcases lt_or_gt_of_ne hs with h1 | h1
  · rw [h.before s h1.le, h.before (s + 1) h1]
  · rw [h.after s h1 (by omega), h.after (s + 1) (by omega) hl]

/-- **C121** (value).  On a trajectory of `n` rows on which parameter `j` moves once, between rows `t` and `t + 1`, the
scaled effect is the jump of the output towards the larger value, over the standard deviation of the outputs of the
trajectory, times `√((t + 1) (n - 1 - t)) / n`: the size of the move drops out, its place in the trajectory does not.
For constant outputs it is 0. -/
theorem C121_value {T : Mat ℝ} {y : List ℝ} {j t : Nat} {x x' : ℝ} (h : MovesOnce T j t x x') (hl : y.length = T.length)
    {a b : ℝ} (ha : y[t]? = some a) (hb : y[t + 1]? = some b) :
    ((∃ c, ∀ v ∈ y, v = c) → scaledEffect Real.sqrt T y j = some 0) ∧
    ((¬ ∃ c, ∀ v ∈ y, v = c) → 0 < listVar y ∧ scaledEffect Real.sqrt T y j =
      some ((if x < x' then b - a else a - b) / Real.sqrt (listVar y) *
        (Real.sqrt (((t : ℝ) + 1) * (T.length - 1 - t)) / T.length))) := by
  have hin := h.inside
  have hyne : y ≠ [] := by rintro rfl; simp at hl; omega
  have hn : (0 : ℝ) < T.length := by exact_mod_cast (by omega : 0 < T.length)
  have hq : ((T.length - 1 - t : Nat) : ℝ) = T.length - 1 - t := by
    rw [Nat.cast_sub (by omega), Nat.cast_sub (by omega)]; simp
  have hga : y.getD t 0 = a := by rw [List.getD_eq_getElem?_getD, ha]; rfl
  have hgb : y.getD (t + 1) 0 = b := by rw [List.getD_eq_getElem?_getD, hb]; rfl
  have hdx : max x x' - min x x' = |x' - x| := by rw [max_sub_min_eq_abs, abs_sub_comm]
  have hx0 : |x' - x| ≠ 0 := by
    rw [abs_ne_zero, sub_ne_zero]; exact h.moved.symm
  have hd : effectDifference T y j = if x < x' then b - a else a - b := by
    rw [effectDifference_eq T y j t hl hin h.changes, h.before t le_rfl, h.after (t + 1) (by omega) hin, hga, hgb]
    simp only [Option.getD_some, sub_pos, sub_neg]
    by_cases hlt : x < x'
    · rw [if_pos hlt, if_pos hlt]
    · rw [if_neg hlt, if_neg hlt, if_pos (lt_of_le_of_ne (not_lt.mp hlt) h.moved.symm)]
  have hcolne : (T.map fun r => r.getD j 0) ≠ [] := by
    intro h0
    rw [List.map_eq_nil_iff] at h0
    rw [h0] at hin; simp at hin
  have hsx : npStd0 Real.sqrt (T.map fun r => r.getD j 0) =
      some (|x' - x| * Real.sqrt (((t : ℝ) + 1) * (T.length - 1 - t)) / T.length) := by
    unfold npStd0
    rw [npVar_listVar _ hcolne, h.column, listVar_replicate _ _ (by omega) (by omega), Option.map_some, hq]
    push_cast
    rw [show ((t : ℝ) + 1 + (T.length - 1 - t)) = T.length by ring, Real.sqrt_div' _ (sq_nonneg _), Real.sqrt_sq hn.le,
      Real.sqrt_mul' _ (sq_nonneg _), Real.sqrt_sq_eq_abs, mul_comm |x' - x|]
  have hsy : npStd0 Real.sqrt y = some (Real.sqrt (listVar y)) := by
    unfold npStd0
    rw [npVar_listVar _ hyne, Option.map_some]
  have hval : scaledEffect Real.sqrt T y j = some ((if x < x' then b - a else a - b) / |x' - x| *
      (if Real.sqrt (listVar y) = 0 then 0 else
        |x' - x| * Real.sqrt (((t : ℝ) + 1) * (T.length - 1 - t)) / T.length / Real.sqrt (listVar y))) := by
    unfold scaledEffect
    simp only [hsx, hsy, hd]
    rw [h.column, listMax_replicate (by omega) (by omega), listMin_replicate (by omega) (by omega), hdx]
    unfold npDiv
    rw [if_neg hx0]
    simp only [Option.bind_eq_bind, Option.bind_some]
    by_cases h0 : Real.sqrt (listVar y) = 0
    · rw [if_pos h0, if_pos h0]; rfl
    · rw [if_neg h0, if_neg h0, if_neg h0]; rfl
  refine ⟨?_, ?_⟩
  · rintro ⟨c, hc⟩
    have := npVar_const y hyne c hc
    rw [npVar_listVar _ hyne] at this
    rw [hval, Option.some.inj this, Real.sqrt_zero, if_pos rfl, mul_zero]
  · intro hc
    have hpos : 0 < listVar y := by
      obtain ⟨v, hv, hv0⟩ := npVar_pos y hyne (by
        cases hy : ptpZero y with
        | false => rfl
        | true =>
          exfalso
          apply hc
          cases y with
          | nil => exact ⟨0, by simp⟩
          | cons v y =>
            refine ⟨v, ?_⟩
            simpa [ptpZero] using hy)
      rw [npVar_listVar _ hyne] at hv
      rwa [Option.some.inj hv]
    refine ⟨hpos, ?_⟩
    have hs0 : Real.sqrt (listVar y) ≠ 0 := (Real.sqrt_pos.mpr hpos).ne'
    rw [hval, if_neg hs0]
    congr 1
    field_simp

theorem listVar_affine (l : List ℝ) (hl : l ≠ []) (c d : ℝ) : listVar (l.map fun v => c * v + d) = c ^ 2 * listVar l := by
  have h := npVar_affine l c d
  rw [npVar_listVar _ hl, npVar_listVar _ (by simpa using hl), Option.map_some] at h
  exact Option.some.inj h

theorem entry_mapIdx (T : Mat ℝ) (A B : Nat → ℝ) (s j : Nat) :
    entry (T.map fun r => r.mapIdx fun k v => A k * v + B k) s j = (entry T s j).map fun v => A j * v + B j := by
  unfold entry
  rw [List.getElem?_map]
  cases T[s]? with
  | none => rfl
  | some r => simp

/-- A move in other units. -/
theorem Spec.MovesOnce.affine {T : Mat ℝ} {j t : Nat} {x x' : ℝ} (h : MovesOnce T j t x x') (A B : Nat → ℝ) (hA : A j ≠ 0) :
    MovesOnce (T.map fun r => r.mapIdx fun k v => A k * v + B k) j t (A j * x + B j) (A j * x' + B j) where
  before s hs := by rw [entry_mapIdx, h.before s hs]; rfl
  after s h1 h2 := by rw [entry_mapIdx, h.after s h1 (by simpa using h2)]; rfl
  inside := by simpa using h.inside
  moved := by simpa [hA] using h.moved

/-- The scaled effect in other units of the inputs and the output. -/
theorem scaledEffect_units {T : Mat ℝ} {y : List ℝ} {j t : Nat} {x x' : ℝ} (h : MovesOnce T j t x x')
    (hl : y.length = T.length) (A B : Nat → ℝ) (hA : 0 < A j) {c d : ℝ} (hc : c ≠ 0) :
    scaledEffect Real.sqrt (T.map fun r => r.mapIdx fun k v => A k * v + B k) (y.map fun v => c * v + d) j =
      (scaledEffect Real.sqrt T y j).map ((c / |c|) * ·) := by
  have hin := h.inside
  have hyne : y ≠ [] := by rintro rfl; simp at hl; omega
  obtain ⟨a, ha⟩ : ∃ a, y[t]? = some a := ⟨_, List.getElem?_eq_getElem (by omega)⟩
  obtain ⟨b, hb⟩ : ∃ b, y[t + 1]? = some b := ⟨_, List.getElem?_eq_getElem (by omega)⟩
  have hT : (T.map fun r => r.mapIdx fun k v => A k * v + B k).length = T.length := List.length_map _
  obtain ⟨h1, h2⟩ := C121_value h hl ha hb
  obtain ⟨g1, g2⟩ := C121_value (y := y.map fun v => c * v + d) (a := c * a + d) (b := c * b + d) (h.affine A B hA.ne')
    (by simpa using hl) (by rw [List.getElem?_map, ha]; rfl) (by rw [List.getElem?_map, hb]; rfl)
  by_cases hcst : ∃ k, ∀ v ∈ y, v = k
  · rw [h1 hcst, g1]
    · simp
    · obtain ⟨k, hk⟩ := hcst
      refine ⟨c * k + d, ?_⟩
      intro v hv
      obtain ⟨w, hw, rfl⟩ := List.mem_map.mp hv
      rw [hk w hw]
  · obtain ⟨hpos, he⟩ := h2 hcst
    obtain ⟨-, he'⟩ := g2 (by
      rintro ⟨k, hk⟩
      apply hcst
      refine ⟨(k - d) / c, ?_⟩
      intro v hv
      rw [eq_div_iff hc, ← hk _ (List.mem_map.mpr ⟨v, hv, rfl⟩)]
      ring)
    rw [he, he', Option.map_some, listVar_affine y hyne, Real.sqrt_mul (sq_nonneg c), Real.sqrt_sq_eq_abs, hT]
    have hlt : A j * x + B j < A j * x' + B j ↔ x < x' := by
      rw [add_lt_add_iff_right, mul_lt_mul_iff_of_pos_left hA]
    have hs : Real.sqrt (listVar y) ≠ 0 := (Real.sqrt_pos.mpr hpos).ne'
    have hc' : |c| ≠ 0 := abs_ne_zero.mpr hc
    congr 1
    simp only [hlt]
    split
    · field_simp
      ring
    · field_simp
      ring

/-- **C121** (units).  With `scaled=True` and trajectories on which each parameter moves once, changing the units of the
inputs (`x_j ↦ A_j x_j + B_j`, `A_j > 0`) and of the output (`y ↦ c y + d`, `c ≠ 0`) leaves `mu_star` and `sigma` alone and
multiplies `mu` by the sign of `c`; for positive `c` the whole result stays the same. -/
theorem C121_units (z conf : ℝ) (resample : Nat → List (List Nat)) (pb : Problem ℝ)
    (zs : List (Mat ℝ × List ℝ)) (p : Nat) (hp : 2 ≤ p) (hc : 0 < conf ∧ conf < 1)
    (hlab : (effectiveLabels pb).length = pb.numVars) (names : List String)
    (hnames : DistinctInOrder (effectiveLabels pb) names) (hne : zs ≠ [])
    (hz : ∀ z ∈ zs, z.1.length = names.length + 1 ∧ z.2.length = names.length + 1)
    (hmov : ∀ z ∈ zs, ∀ j < pb.numVars, ∃ t x x', MovesOnce z.1 j t x x')
    (A B : Nat → ℝ) (hA : ∀ j < pb.numVars, 0 < A j) (c d : ℝ) (hc0 : c ≠ 0) :
    ∃ res res', morrisAnalyze Real.sqrt z conf resample pb (zs.map Prod.fst).flatten pb.numVars
        (zs.map Prod.snd).flatten true p = .ok res ∧
      morrisAnalyze Real.sqrt z conf resample pb ((zs.map Prod.fst).flatten.map fun r => r.mapIdx fun k v => A k * v + B k)
        pb.numVars ((zs.map Prod.snd).flatten.map fun y => c * y + d) true p = .ok res' ∧
      res'.names = res.names ∧ res'.mu = res.mu.map (Option.map ((c / |c|) * ·)) ∧ res'.muStar = res.muStar ∧
      res'.sigma = res.sigma ∧ (0 < c → res' = res) := by
  let f : Mat ℝ × List ℝ → Mat ℝ × List ℝ := fun z =>
    (z.1.map fun r => r.mapIdx fun k v => A k * v + B k, z.2.map fun y => c * y + d)
  obtain ⟨res, G, h1, hG, h2⟩ := morrisAnalyze_blocks Real.sqrt z conf resample pb zs true p hp hc hlab names hnames hne hz
  obtain ⟨res', G', h1', hG', h2'⟩ := morrisAnalyze_blocks Real.sqrt z conf resample pb (zs.map f) true p hp hc hlab
    names hnames (by simpa using hne) (by
      intro z hz'
      obtain ⟨w, hw, rfl⟩ := List.mem_map.mp hz'
      simpa [f] using hz w hw)
  have e1 : ((zs.map f).map Prod.fst).flatten =
      (zs.map Prod.fst).flatten.map fun r => r.mapIdx fun k v => A k * v + B k := by
    rw [List.map_flatten]; simp [f, List.map_map, Function.comp_def]
  have e2 : ((zs.map f).map Prod.snd).flatten = (zs.map Prod.snd).flatten.map fun y => c * y + d := by
    rw [List.map_flatten]; simp [f, List.map_map, Function.comp_def]
  rw [e1, e2] at h1'
  rw [hG] at hG'
  cases hG'
  have hEE : ((List.range pb.numVars).map fun j => (zs.map f).map (effect Real.sqrt (morrisDelta p) true j)) =
      ((List.range pb.numVars).map fun j => zs.map (effect Real.sqrt (morrisDelta p) true j)).map
        (List.map (Option.map ((c / |c|) * ·))) := by
    rw [List.map_map]
    apply List.map_congr_left
    intro j hj
    simp only [Function.comp, List.map_map]
    apply List.map_congr_left
    intro w hw
    obtain ⟨t, x, x', hm⟩ := hmov w hw j (List.mem_range.mp hj)
    exact scaledEffect_units hm (by rw [(hz w hw).1, (hz w hw).2]) A B (hA j (List.mem_range.mp hj)) hc0
  have habs : abs (c / |c|) = 1 := by rw [abs_div, abs_abs, div_self (abs_ne_zero.mpr hc0)]
  have hs : ∀ a v : ℝ, 0 ≤ v → Real.sqrt (a ^ 2 * v) = |a| * Real.sqrt v := by
    intro a v _
    rw [Real.sqrt_mul (sq_nonneg a), Real.sqrt_sq_eq_abs]
  obtain ⟨-, a1, a2, a3, a4⟩ := statisticalOutputs_eq _ _ _ _ _ _ _ _ _ h2
  obtain ⟨-, b1, b2, b3, b4⟩ := statisticalOutputs_eq _ _ _ _ _ _ _ _ _ h2'
  rw [hEE] at b2 b3 b4 h2'
  clear hEE
  generalize ((List.range pb.numVars).map fun j => zs.map (effect Real.sqrt (morrisDelta p) true j)) = EE
    at a2 a3 a4 b2 b3 b4 h2 h2'
  refine ⟨res, res', h1, h1', by rw [a1, b1], ?_, ?_, ?_, ?_⟩
  · rw [a2, b2, List.map_map]
    apply List.map_congr_left
    intro k _
    simp only [Function.comp]
    rw [groupRows_map, List.map_map, ← npMeanN_smul, List.map_map]
    congr 2
    funext ee
    exact npMeanN_smul _ ee
  · rw [a3, b3]
    apply List.map_congr_left
    intro k _
    rw [groupRows_map, List.map_map]
    congr 2
    funext ee
    simp only [Function.comp, List.map_map]
    congr 2
    funext e
    cases e with
    | none => rfl
    | some e => simp [abs_mul, habs]
  · rw [a4, b4]
    apply List.map_congr_left
    intro k _
    congr 1
    rw [groupRows_map, List.map_map]
    congr 2
    funext ee
    have := npStd1N_smul Real.sqrt hs (c / |c|) ee
    rw [habs] at this
    simp only [one_mul, Option.map_id'] at this
    exact this
  · intro hpos
    rw [abs_of_pos hpos, div_self hc0] at h2'
    have hid : (List.map (Option.map fun x : ℝ => 1 * x)) = id := by
      funext l
      simp
    rw [hid, List.map_id, h2] at h2'
    exact (Except.ok.inj h2').symm

/-- A jump is at most `√(2 n)` standard deviations. -/
theorem sq_jump_le {y : List ℝ} {t : Nat} {a b : ℝ} (ha : y[t]? = some a) (hb : y[t + 1]? = some b) :
    (b - a) ^ 2 ≤ 2 * y.length * listVar y := by
  obtain ⟨h1, rfl⟩ := List.getElem?_eq_some_iff.mp ha
  obtain ⟨h2, rfl⟩ := List.getElem?_eq_some_iff.mp hb
  have hn : (0 : ℝ) < y.length := by exact_mod_cast (by omega : 0 < y.length)
  unfold listVar
  generalize y.sum / y.length = m
  have hle : (y[t] - m) ^ 2 + (y[t + 1] - m) ^ 2 ≤ (y.map fun v => (v - m) ^ 2).sum := by
    have hy : y = y.take t ++ y[t] :: y[t + 1] :: y.drop (t + 2) := by
      conv_lhs => rw [← List.take_append_drop t y]
      rw [List.drop_eq_getElem_cons (by omega), List.drop_eq_getElem_cons (by omega)]
    have hnn : ∀ l : List ℝ, 0 ≤ (l.map fun v => (v - m) ^ 2).sum := by
      intro l
      apply List.sum_nonneg
      intro v hv
      obtain ⟨w, -, rfl⟩ := List.mem_map.mp hv
      exact sq_nonneg _
    have e : (y.map fun v => (v - m) ^ 2).sum = ((y.take t).map fun v => (v - m) ^ 2).sum + ((y[t] - m) ^ 2 +
        ((y[t + 1] - m) ^ 2 + ((y.drop (t + 2)).map fun v => (v - m) ^ 2).sum)) := by
      conv_lhs => rw [hy]
      rw [List.map_append, List.sum_append, List.map_cons, List.map_cons, List.sum_cons, List.sum_cons]
    rw [e]
    linarith [hnn (y.take t), hnn (y.drop (t + 2))]
  rw [show 2 * (y.length : ℝ) * ((y.map fun v => (v - m) ^ 2).sum / y.length) = 2 * (y.map fun v => (v - m) ^ 2).sum by
    field_simp]
  nlinarith [sq_nonneg ((y[t] - m) + (y[t + 1] - m))]

/-- A scaled effect on `n` rows is at most `√(n / 2)`. -/
theorem scaledEffect_bound {T : Mat ℝ} {y : List ℝ} {j t : Nat} {x x' : ℝ} (h : MovesOnce T j t x x')
    (hl : y.length = T.length) : ∃ e, scaledEffect Real.sqrt T y j = some e ∧ |e| ≤ Real.sqrt (T.length / 2) := by
  have hin := h.inside
  obtain ⟨a, ha⟩ : ∃ a, y[t]? = some a := ⟨_, List.getElem?_eq_getElem (by omega)⟩
  obtain ⟨b, hb⟩ : ∃ b, y[t + 1]? = some b := ⟨_, List.getElem?_eq_getElem (by omega)⟩
  obtain ⟨h1, h2⟩ := C121_value h hl ha hb
  by_cases hcst : ∃ k, ∀ v ∈ y, v = k
  · exact ⟨0, h1 hcst, by rw [abs_zero]; exact Real.sqrt_nonneg _⟩
  · obtain ⟨hpos, he⟩ := h2 hcst
    refine ⟨_, he, ?_⟩
    have hn : (0 : ℝ) < T.length := by exact_mod_cast (by omega : 0 < T.length)
    have hw0 : (0 : ℝ) ≤ ((t : ℝ) + 1) * (T.length - 1 - t) := by
      have : (t : ℝ) + 1 ≤ T.length := by exact_mod_cast hin.le
      exact mul_nonneg (by positivity) (by linarith)
    apply Real.le_sqrt_of_sq_le
    rw [sq_abs, mul_pow, div_pow, div_pow, Real.sq_sqrt hpos.le, Real.sq_sqrt hw0]
    have hj : (if x < x' then b - a else a - b) ^ 2 ≤ 2 * T.length * listVar y := by
      have := sq_jump_le ha hb
      rw [hl] at this
      split
      · exact this
      · rw [show (a - b) ^ 2 = (b - a) ^ 2 by ring]; exact this
    have h3 : (if x < x' then b - a else a - b) ^ 2 / listVar y ≤ 2 * T.length := by
      rw [div_le_iff₀ hpos]; exact hj
    have h4 : ((t : ℝ) + 1) * (T.length - 1 - t) / (T.length : ℝ) ^ 2 ≤ 1 / 4 := by
      rw [div_le_iff₀ (by positivity)]
      nlinarith [sq_nonneg ((t : ℝ) + 1 - (T.length - 1 - t))]
    calc _ ≤ 2 * (T.length : ℝ) * (1 / 4) :=
          mul_le_mul h3 h4 (div_nonneg hw0 (sq_nonneg _)) (by positivity)
      _ = T.length / 2 := by ring

theorem npMeanN_le {l : List (Num ℝ)} {B m : ℝ} (h : ∀ e ∈ l, ∀ v, e = some v → v ≤ B) (hm : npMeanN l = some m) :
    m ≤ B := by
  unfold npMeanN at hm
  rw [Option.bind_eq_bind, Option.bind_eq_some_iff] at hm
  obtain ⟨k, hk, hm⟩ := hm
  have hlk := (optMapM_id _ _).mp hk
  by_cases hne : k = []
  · subst hne; simp [npMean_nil] at hm
  · rw [npMean_some k hne] at hm
    rw [← Option.some.inj hm]
    have hpos : (0 : ℝ) < k.length := by exact_mod_cast List.length_pos_iff.mpr hne
    rw [div_le_iff₀ hpos, mul_comm]
    have := List.sum_le_card_nsmul k B (fun v hv => h (some v) (by rw [hlk]; exact List.mem_map.mpr ⟨v, hv, rfl⟩) v rfl)
    simpa using this

/-- **C121** (range).  With `scaled=True` and trajectories on which each parameter moves once, `mu_star` is a number and at
most `√((g + 1) / 2)` for `g` groups, whatever the model. -/
theorem C121_range (z conf : ℝ) (resample : Nat → List (List Nat)) (pb : Problem ℝ)
    (zs : List (Mat ℝ × List ℝ)) (p : Nat) (hp : 2 ≤ p) (hc : 0 < conf ∧ conf < 1)
    (hlab : (effectiveLabels pb).length = pb.numVars) (names : List String)
    (hnames : DistinctInOrder (effectiveLabels pb) names) (hne : zs ≠ [])
    (hz : ∀ z ∈ zs, z.1.length = names.length + 1 ∧ z.2.length = names.length + 1)
    (hmov : ∀ z ∈ zs, ∀ j < pb.numVars, ∃ t x x', MovesOnce z.1 j t x x') :
    ∃ res, morrisAnalyze Real.sqrt z conf resample pb (zs.map Prod.fst).flatten pb.numVars
        (zs.map Prod.snd).flatten true p = .ok res ∧ res.muStar.length = names.length ∧
      ∀ m, some m ∈ res.muStar → 0 ≤ m ∧ m ≤ Real.sqrt (((names.length : ℝ) + 1) / 2) := by
  obtain ⟨res, G, h1, hG, h2⟩ := morrisAnalyze_blocks Real.sqrt z conf resample pb zs true p hp hc hlab names hnames hne hz
  obtain ⟨-, -, -, a3, -⟩ := statisticalOutputs_eq _ _ _ _ _ _ _ _ _ h2
  refine ⟨res, h1, by rw [a3]; simp, fun m hm => ⟨?_, ?_⟩⟩
  · obtain ⟨c, hc', hmc⟩ := List.getElem_of_mem hm
    exact (C30_mu_star_dominates Real.sqrt Real.sqrt_nonneg z conf resample pb _ _ _ true p res h1 c).2.1 m
      (by rw [List.getElem?_eq_getElem hc', hmc])
  · rw [a3] at hm
    obtain ⟨c, -, hm⟩ := List.mem_map.mp hm
    refine npMeanN_le ?_ hm
    intro e he v hv
    obtain ⟨ee, hee, rfl⟩ := List.mem_map.mp he
    refine npMeanN_le ?_ hv
    intro e' he' v' hv'
    obtain ⟨w, hw, rfl⟩ := List.mem_map.mp he'
    have hmem : ee ∈ ((List.range pb.numVars).map fun j => zs.map (effect Real.sqrt (morrisDelta p) true j)) := by
      unfold groupRows at hee
      obtain ⟨q, hq, rfl⟩ := List.mem_map.mp hee
      exact (List.of_mem_zip (List.mem_of_mem_filter hq)).1
    obtain ⟨j, hj, rfl⟩ := List.mem_map.mp hmem
    obtain ⟨zz, hzz, rfl⟩ := List.mem_map.mp hw
    obtain ⟨t, x, x', hmo⟩ := hmov zz hzz j (List.mem_range.mp hj)
    obtain ⟨b, hb, hble⟩ := scaledEffect_bound (y := zz.2) hmo (by rw [(hz zz hzz).1, (hz zz hzz).2])
    have he2 : effect Real.sqrt (morrisDelta p) true j zz = some b := hb
    rw [he2] at hv'
    rw [← Option.some.inj hv']
    rw [(hz zz hzz).1] at hble
    push_cast at hble
    exact hble

/-- **C121** (place).  Two parameters that move on the same trajectory: the scaled effects compare like the jumps of the
output weighted with `√((t + 1) (n - 1 - t))`, where `t` is the row before the move. -/
theorem C121_place {T : Mat ℝ} {y : List ℝ} {j k t s : Nat} {x x' u u' : ℝ} (hj : MovesOnce T j t x x')
    (hk : MovesOnce T k s u u') (hl : y.length = T.length) (hy : ¬ ∃ c, ∀ v ∈ y, v = c) :
    ∃ e f a b a' b', scaledEffect Real.sqrt T y j = some e ∧ scaledEffect Real.sqrt T y k = some f ∧
      y[t]? = some a ∧ y[t + 1]? = some b ∧ y[s]? = some a' ∧ y[s + 1]? = some b' ∧
      (|e| < |f| ↔ (b - a) ^ 2 * (((t : ℝ) + 1) * (T.length - 1 - t)) < (b' - a') ^ 2 * (((s : ℝ) + 1) * (T.length - 1 - s)))
      := by
  have hin := hj.inside
  have hin' := hk.inside
  obtain ⟨a, ha⟩ : ∃ a, y[t]? = some a := ⟨_, List.getElem?_eq_getElem (by omega)⟩
  obtain ⟨b, hb⟩ : ∃ b, y[t + 1]? = some b := ⟨_, List.getElem?_eq_getElem (by omega)⟩
  obtain ⟨a', ha'⟩ : ∃ a, y[s]? = some a := ⟨_, List.getElem?_eq_getElem (by omega)⟩
  obtain ⟨b', hb'⟩ : ∃ b, y[s + 1]? = some b := ⟨_, List.getElem?_eq_getElem (by omega)⟩
  obtain ⟨hpos, he⟩ := (C121_value hj hl ha hb).2 hy
  obtain ⟨-, hf⟩ := (C121_value hk hl ha' hb').2 hy
  have hn : (0 : ℝ) < T.length := by exact_mod_cast (by omega : 0 < T.length)
  refine ⟨_, _, a, b, a', b', he, hf, ha, hb, ha', hb', ?_⟩
  rw [← sq_lt_sq, mul_pow, mul_pow, div_pow, div_pow, div_pow, div_pow, Real.sq_sqrt hpos.le, Real.sq_sqrt, Real.sq_sqrt]
  · rw [show (if x < x' then b - a else a - b) ^ 2 = (b - a) ^ 2 by split <;> ring,
      show (if u < u' then b' - a' else a' - b') ^ 2 = (b' - a') ^ 2 by split <;> ring, div_mul_div_comm,
      div_mul_div_comm, div_lt_div_iff_of_pos_right (by positivity)]
  · have : (s : ℝ) + 1 ≤ T.length := by exact_mod_cast hin'.le
    exact mul_nonneg (by positivity) (by linarith)
  · have : (t : ℝ) + 1 ≤ T.length := by exact_mod_cast hin.le
    exact mul_nonneg (by positivity) (by linarith)

/-- **C121** (ranking).  So scaled effects do not rank parameters by influence: on this trajectory every parameter moves from
0 to 1 and the model is `11 x₀ + 10 x₁ + x₂`, yet the first parameter has the smaller scaled effect. -/
theorem C121_ranking_fail :
    let T : Mat ℝ := [[0, 0, 0], [1, 0, 0], [1, 1, 0], [1, 1, 1]]
    let y : List ℝ := T.map fun r => 11 * r.getD 0 0 + 10 * r.getD 1 0 + r.getD 2 0
    MovesOnce T 0 0 0 1 ∧ MovesOnce T 1 1 0 1 ∧ MovesOnce T 2 2 0 1 ∧
    ∃ e f, scaledEffect Real.sqrt T y 0 = some e ∧ scaledEffect Real.sqrt T y 1 = some f ∧ |e| < |f| := by
  intro T y
  have h0 : MovesOnce T 0 0 0 1 := ⟨by intro s hs; interval_cases s; rfl, by
    intro s h1 h2
    have h2 : s < 4 := h2
    interval_cases s <;> rfl, by simp [T], by norm_num⟩
  have h1 : MovesOnce T 1 1 0 1 := ⟨by intro s hs; interval_cases s <;> rfl, by
    intro s h1 h2
    have h2 : s < 4 := h2
    interval_cases s <;> rfl, by simp [T], by norm_num⟩
  have h2 : MovesOnce T 2 2 0 1 := ⟨by intro s hs; interval_cases s <;> rfl, by
    intro s h1 h2
    have h2 : s < 4 := h2
    interval_cases s; rfl, by simp [T], by norm_num⟩
  have hy : y = [0, 11, 21, 22] := by
    simp only [y, T, List.map_cons, List.map_nil, List.getD_cons_zero, List.getD_cons_succ]
    norm_num
  refine ⟨h0, h1, h2, ?_⟩
  obtain ⟨e, f, a, b, a', b', he, hf, ha, hb, ha', hb', hiff⟩ := C121_place h0 h1 (y := y) (by simp [y]) (by
    rintro ⟨c, hc⟩
    rw [hy] at hc
    have q0 := hc 0 (by simp)
    have q1 := hc 11 (by simp)
    linarith)
  refine ⟨e, f, he, hf, hiff.mpr ?_⟩
  rw [hy] at ha hb ha' hb'
  simp only [List.getElem?_cons_zero, List.getElem?_cons_succ, Option.some.injEq] at ha hb ha' hb'
  rw [← ha, ← hb, ← ha', ← hb']
  simp only [T, List.length_cons, List.length_nil]
  norm_num

/-- **C121** (documented ranking).  The docstring of `analyze` says that the ranking of the scaled effects should be the
ranking of the ordinary ones (morris.py 48-49).  It is not: the analysis of this trajectory (levels `0, 1/2, 1, 3/2`, so
each parameter moves by two thirds of its range) ranks the first parameter first without, and second with scaling. -/
theorem C121_ranking_docs (z conf : ℝ) (hc : 0 < conf ∧ conf < 1) (resample : Nat → List (List Nat)) :
    let T : Mat ℝ := [[0, 0, 0], [1, 0, 0], [1, 1, 0], [1, 1, 1]]
    let y : List ℝ := T.map fun r => 11 * r.getD 0 0 + 10 * r.getD 1 0 + r.getD 2 0
    let pb : Problem ℝ := { names := ["a", "b", "c"], bounds := [[0, 3 / 2], [0, 3 / 2], [0, 3 / 2]] }
    ∃ (res res' : MorrisResult ℝ) (m₀ m₁ m₂ s₀ s₁ s₂ : ℝ),
      morrisAnalyze Real.sqrt z conf resample pb T 3 y false 4 = .ok res ∧
      morrisAnalyze Real.sqrt z conf resample pb T 3 y true 4 = .ok res' ∧
      res.muStar = [some m₀, some m₁, some m₂] ∧ res'.muStar = [some s₀, some s₁, some s₂] ∧
      m₁ < m₀ ∧ s₀ < s₁ := by
  intro T y pb
  obtain ⟨h0, h1, h2, e, f, he, hf, hef⟩ := C121_ranking_fail
  have hmean : ∀ v : ℝ, npMeanN [some v] = some v := by
    intro v
    have : npMeanN [some v] = npMean [v] := rfl
    rw [this, npMean_some _ (by simp)]
    simp
  have hG : computeGroupsMatrix (effectiveLabels pb) = .ok ([[1, 0, 0], [0, 1, 0], [0, 0, 1]], ["a", "b", "c"]) := rfl
  have hd : DistinctInOrder (effectiveLabels pb) ["a", "b", "c"] := ⟨by decide, by intro n; rfl, by decide⟩
  have key : ∀ scaled : Bool, ∀ e₀ e₁ e₂ : ℝ, effect Real.sqrt (morrisDelta 4) scaled 0 (T, y) = some e₀ →
      effect Real.sqrt (morrisDelta 4) scaled 1 (T, y) = some e₁ →
      effect Real.sqrt (morrisDelta 4) scaled 2 (T, y) = some e₂ →
      ∃ res, morrisAnalyze Real.sqrt z conf resample pb T 3 y scaled 4 = .ok res ∧
        res.muStar = [some |e₀|, some |e₁|, some |e₂|] := by
    intro scaled e₀ e₁ e₂ q0 q1 q2
    obtain ⟨res, G, a1, hG', a2⟩ := morrisAnalyze_blocks Real.sqrt z conf resample pb [(T, y)] scaled 4 (by norm_num) hc rfl
      ["a", "b", "c"] hd (by simp) (by simp [T, y])
    rw [hG] at hG'
    obtain rfl : _ = G := congrArg Prod.fst (Except.ok.inj hG')
    obtain ⟨-, -, -, a3, -⟩ := statisticalOutputs_eq _ _ _ _ _ _ _ _ _ a2
    refine ⟨res, ?_, ?_⟩
    · have hn : pb.numVars = 3 := rfl
      rw [hn] at a1
      simpa using a1
    · rw [a3]
      have hr : (List.range pb.numVars).map (fun j => [(T, y)].map (effect Real.sqrt (morrisDelta 4) scaled j)) =
          [[some e₀], [some e₁], [some e₂]] := by
        change [[effect Real.sqrt (morrisDelta 4) scaled 0 (T, y)], [effect Real.sqrt (morrisDelta 4) scaled 1 (T, y)],
          [effect Real.sqrt (morrisDelta 4) scaled 2 (T, y)]] = _
        rw [q0, q1, q2]
      rw [hr]
      change [npMeanN [npMeanN [some |e₀|]], npMeanN [npMeanN [some |e₁|]], npMeanN [npMeanN [some |e₂|]]] = _
      simp only [hmean]
  have hy : y = [0, 11, 21, 22] := by
    simp only [y, T, List.map_cons, List.map_nil, List.getD_cons_zero, List.getD_cons_succ]
    norm_num
  have hdelta : morrisDelta (α := ℝ) 4 = 2 / 3 := by unfold morrisDelta; norm_num
  have hun : ∀ (j t : Nat), MovesOnce T j t 0 1 → effect Real.sqrt (morrisDelta 4) false j (T, y) =
      some ((y.getD (t + 1) 0 - y.getD t 0) / (2 / 3)) := by
    intro j t h
    unfold effect
    simp only [Bool.false_eq_true, if_false]
    rw [effectDifference_eq T y j t (by simp [y]) h.inside h.changes, h.before t le_rfl, h.after (t + 1) (by omega) h.inside,
      hdelta]
    simp [npDiv]
  obtain ⟨g, hg⟩ : ∃ g, scaledEffect Real.sqrt T y 2 = some g := by
    obtain ⟨b, hb, -⟩ := scaledEffect_bound (y := y) h2 (by simp [y, T])
    exact ⟨b, hb⟩
  obtain ⟨res, r1, r2⟩ := key false _ _ _ (hun 0 0 h0) (hun 1 1 h1) (hun 2 2 h2)
  obtain ⟨res', r1', r2'⟩ := key true e f g he hf hg
  refine ⟨res, res', _, _, _, _, _, _, r1, r1', r2, r2', ?_, hef⟩
  rw [hy]
  simp only [List.getD_cons_zero, List.getD_cons_succ]
  norm_num

theorem movesOnce_of_changes {T : Mat ℝ} {j t : Nat} {x x' : ℝ} (hch : ChangesOnlyAt T j t) (hx : entry T t j = some x)
    (hx' : entry T (t + 1) j = some x') (hne : x ≠ x') : MovesOnce T j t x x' := by
  have hin : t + 1 < T.length := by
    by_contra hlt
    unfold entry at hx'
    rw [List.getElem?_eq_none (by omega)] at hx'
    cases hx'
  refine ⟨?_, ?_, hin, hne⟩
  · have : ∀ d s, s + d = t → entry T s j = some x := by
      intro d
      induction d with
      | zero => intro s hs; rw [Nat.add_zero] at hs; rw [hs, hx]
      | succ d ih => intro s hs; rw [hch s (by omega) (by omega)]; exact ih (s + 1) (by omega)
    intro s hs
    exact this (t - s) s (by omega)
  · have : ∀ d, t + 1 + d < T.length → entry T (t + 1 + d) j = some x' := by
      intro d
      induction d with
      | zero => intro _; exact hx'
      | succ d ih => intro h; rw [← ih (by omega)]; exact (hch (t + 1 + d) (by omega) (by omega)).symm
    intro s hs hl
    have := this (s - (t + 1)) (by omega)
    rwa [show t + 1 + (s - (t + 1)) = s by omega] at this

/-- **C121** (sample).  A sample of the Morris sampler, optimised or not, with legal uniform bounds, and any model: the
blocks are trajectories on which each parameter moves once, so the theorems above apply; `mu_star` with `scaled=True` is
in `[0, √((g + 1) / 2)]`. -/
theorem C121_sample (F : Ppf ℝ) (sqrt : ℝ → ℝ) (argsort : List ℝ → List Nat) (ha : ValidArgsort argsort)
    (draws : Nat → TrajDraws ℝ) (pb pbA : Problem ℝ) (bs : List (ℝ × ℝ)) (N p : Nat) (hp : 2 ≤ p) (hN : 0 < N)
    (hv : ∀ i, ValidTrajDraws p (draws i)) (hlab : (effectiveLabels pb).length = pb.numVars)
    (hb : pb.bounds = boundsTable bs) (hbl : bs.length = pb.numVars) (hd : pb.dists = none)
    (hlegal : ∀ b ∈ bs, b.1 < b.2)
    (hD : 0 < pb.numVars) (opt : OptArg ℝ) (localOpt : Bool) (X : Mat ℝ) (q : Problem ℝ)
    (h : morrisSample F sqrt argsort draws pb N p opt localOpt = .ok (X.map (·.map some), q))
    (hA : effectiveLabels pbA = effectiveLabels pb) (hAn : pbA.numVars = pb.numVars)
    (z conf : ℝ) (hc : 0 < conf ∧ conf < 1) (resample : Nat → List (List Nat)) (f : List ℝ → ℝ) :
    ∃ (names : List String) (Ts : List (Mat ℝ)), DistinctInOrder (effectiveLabels pb) names ∧ X = Ts.flatten ∧
      (∀ T ∈ Ts, T.length = names.length + 1 ∧ ∀ j < pb.numVars, ∃ t x x', MovesOnce T j t x x') ∧
      ∃ res, morrisAnalyze Real.sqrt z conf resample pbA X pb.numVars (X.map f) true p = .ok res ∧
        ∀ m, some m ∈ res.muStar → 0 ≤ m ∧ m ≤ Real.sqrt (((names.length : ℝ) + 1) / 2) := by
  have hbne : bs ≠ [] := by rintro rfl; simp at hbl; omega
  obtain ⟨names, ts, -, h1, h2, -, -, hsc⟩ := morrisSample_finite F sqrt argsort ha draws pb N p hp hN hv hlab hD
    opt localOpt X q h
  let gs : List (ℝ → ℝ) := bs.map fun p x => x * (p.2 - p.1) + p.1
  have hgl : gs.length = pb.numVars := by simpa [gs] using hbl
  have hX : X = (ts.map (·.map (applyCols gs))).flatten := by
    have hs2 := scaleSamples_legal F { pb with groups := some (effectiveLabels pb) } bs ts.flatten hb hd hbne hlegal
    rw [hbl, hsc] at hs2
    have e : X.map (·.map some) = (ts.flatten.map (applyCols gs)).map (·.map some) :=
      congrArg Prod.fst (Except.ok.inj hs2)
    have hinj : ∀ A B : Mat ℝ, A.map (·.map some) = B.map (·.map some) → A = B := by
      intro A B hAB
      have := congrArg (List.map (List.map fun v : Num ℝ => v.getD 0)) hAB
      simpa [List.map_map, Function.comp_def] using this
    rw [hinj _ _ e, List.map_flatten]
  let S := fun T : Mat ℝ => T.map (applyCols gs)
  have hrows := h2.isSample.rows
  have hmov : ∀ T ∈ ts, ∀ j < pb.numVars, ∃ t x x', MovesOnce (S T) j t x x' := by
    intro T hT j hj
    have hjl : j < (effectiveLabels pb).length := by omega
    obtain ⟨t, ht, hch, ⟨x, y, hx, hy, hxy⟩, -⟩ := trajectory_step _ _ p ts h2 T hT j _ (List.getElem?_eq_getElem hjl)
    have hpd := morrisDelta_pos (α := ℝ) p hp
    have hne : x ≠ y := by
      rintro rfl
      rcases hxy with h | h <;> linarith
    have hgj : gs[j]'(by omega) = fun x => x * ((bs[j]'(by omega)).2 - (bs[j]'(by omega)).1) + (bs[j]'(by omega)).1 := by
      simp [gs]
    have hlt := hlegal _ (List.getElem_mem (show j < bs.length by omega))
    refine ⟨t, _, _, movesOnce_of_changes ?_ (by
      simp only [S]; rw [entry_map_applyCols gs T t j (by omega), hx]; rfl) (by
      simp only [S]; rw [entry_map_applyCols gs T (t + 1) j (by omega), hy]; rfl) ?_⟩
    · intro s hs hl
      simp only [S]
      rw [entry_map_applyCols gs T s j (by omega), entry_map_applyCols gs T (s + 1) j (by omega),
        hch s hs (by simpa [S] using hl)]
    · rw [hgj]
      intro he
      apply hne
      have : (x - y) * ((bs[j]'(by omega)).2 - (bs[j]'(by omega)).1) = 0 := by linarith
      rcases mul_eq_zero.mp this with h | h
      · linarith
      · linarith
  refine ⟨names, ts.map S, h2.distinct, hX, ?_, ?_⟩
  · intro T' hT'
    obtain ⟨T, hT, rfl⟩ := List.mem_map.mp hT'
    exact ⟨by simp [S, hrows T hT], hmov T hT⟩
  · let zs := ts.map fun T => (S T, (S T).map f)
    have hz : ∀ z ∈ zs, z.1.length = names.length + 1 ∧ z.2.length = names.length + 1 := by
      intro z hz
      obtain ⟨T, hT, rfl⟩ := List.mem_map.mp hz
      simp [S, hrows T hT]
    have e1 : (zs.map Prod.fst).flatten = X := by rw [hX]; simp [zs, S, List.map_map, Function.comp_def]
    have e2 : (zs.map Prod.snd).flatten = X.map f := by
      rw [← e1, List.map_flatten]; simp [zs, List.map_map, Function.comp_def]
    obtain ⟨res, h3, -, h4⟩ := C121_range z conf resample pbA zs p hp hc (by rw [hA, hAn, hlab]) names
      (by rw [hA]; exact h2.distinct) (by simpa [zs] using h1) hz (by
        intro z hz
        obtain ⟨T, hT, rfl⟩ := List.mem_map.mp hz
        rw [hAn]
        exact hmov T hT)
    rw [e1, e2, hAn] at h3
    exact ⟨res, h3, h4⟩

/-- The hypotheses of `C121_units` and `C121_range` are met: three parameters, one trajectory. -/
example :
    let T : Mat ℝ := [[0, 0, 0], [1, 0, 0], [1, 1, 0], [1, 1, 1]]
    let y : List ℝ := T.map fun r => 11 * r.getD 0 0 + 10 * r.getD 1 0 + r.getD 2 0
    let pb : Problem ℝ := { names := ["a", "b", "c"], bounds := [[0, 1], [0, 1], [0, 1]] }
    (effectiveLabels pb).length = pb.numVars ∧ DistinctInOrder (effectiveLabels pb) ["a", "b", "c"] ∧
    (∀ z ∈ [(T, y)], z.1.length = 3 + 1 ∧ z.2.length = 3 + 1) ∧
    ∀ z ∈ [(T, y)], ∀ j < pb.numVars, ∃ t x x', MovesOnce z.1 j t x x' := by
  intro T y pb
  obtain ⟨h0, h1, h2, -⟩ := C121_ranking_fail
  refine ⟨rfl, ⟨by decide, by intro n; rfl, by decide⟩, by simp [T, y], ?_⟩
  intro z hz j hj
  obtain rfl : z = (T, y) := by simpa using hz
  have hj : j < 3 := hj
  interval_cases j
  · exact ⟨0, 0, 1, h0⟩
  · exact ⟨1, 0, 1, h1⟩
  · exact ⟨2, 0, 1, h2⟩

end SALib
