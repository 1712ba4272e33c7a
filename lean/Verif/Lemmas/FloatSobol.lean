import Verif.Model.FloatSobol
import Verif.Lemmas.FloatError
import Verif.Lemmas.Stats

/-! # Sobol estimators, rounded -/

namespace SALib
open Spec

variable {F : Fmt}

theorem fsub_within (hp : 1 ≤ F.p) {x y : ℚ} (hx : IsFloat F x) (hy : IsFloat F y) :
    Within ((2 : ℚ) ^ (-(F.p : ℤ))) 1 (x - y) (fsub F x y) := Within.of_err (fl_sub_err hp hx hy)

/-- A product of a number and a difference. -/
theorem fmul_fsub_rounded (hp : 1 ≤ F.p) {b x y : ℚ} (hx : IsFloat F x) (hy : IsFloat F y) :
    RoundedFrom F 2 1 |b * (x - y)| (b * (x - y)) (fmul F b (fsub F x y)) := by
  have h := (Within.refl ((2 : ℚ) ^ (-(F.p : ℤ))) b).mul (two_zpow_pos _).le (fsub_within hp hx hy)
  have := (RoundedFrom.of_within h).rnd le_rfl
  rwa [zero_add, zero_add] at this

/-- The square of a difference. -/
theorem sq_fsub_rounded (hp : 1 ≤ F.p) {x y : ℚ} (hx : IsFloat F x) (hy : IsFloat F y) :
    RoundedFrom F 3 1 ((x - y) ^ 2) ((x - y) ^ 2) (fmul F (fsub F x y) (fsub F x y)) := by
  have h := (fsub_within hp hx hy).mul (two_zpow_pos _).le (fsub_within hp hx hy)
  have := (RoundedFrom.of_within h).rnd le_rfl
  rw [zero_add, ← sq, abs_of_nonneg (sq_nonneg (x - y))] at this
  exact this

theorem fmul_rounded (x y : ℚ) : RoundedFrom F 1 1 |x * y| (x * y) (fmul F x y) := by
  have := (RoundedFrom.refl (F := F) (x * y)).rnd le_rfl
  rwa [zero_add, zero_add] at this

theorem avg_nonneg {n : Nat} {f : Nat → ℚ} (h : ∀ i, 0 ≤ f i) : 0 ≤ avg n f :=
  div_nonneg (Finset.sum_nonneg fun i _ => h i) (Nat.cast_nonneg _)

theorem abs_avg_le {n : Nat} {f g : Nat → ℚ} (h : ∀ i, |f i| ≤ g i) : |avg n f| ≤ avg n g := by
  unfold avg
  rw [abs_div, abs_of_nonneg (Nat.cast_nonneg n : (0 : ℚ) ≤ n)]
  gcongr
  exact (Finset.abs_sum_le_sum_abs _ _).trans (Finset.sum_le_sum fun i _ => h i)

/-- Mean square around any centre. -/
theorem avg_sq_shift {n : Nat} (hn : 0 < n) (f : Nat → ℚ) (m : ℚ) :
    avg n (fun i => (f i - m) ^ 2) = avg n (fun i => (f i - avg n f) ^ 2) + (m - avg n f) ^ 2 := by
  have hq : (n : ℚ) ≠ 0 := by positivity
  have hs : ∑ i ∈ Finset.range n, f i = n * avg n f := by unfold avg; field_simp
  generalize avg n f = c at hs
  unfold avg
  have e : ∀ t : ℚ, ∑ i ∈ Finset.range n, (f i - t) ^ 2 =
      ∑ i ∈ Finset.range n, f i ^ 2 - 2 * t * (n * c) + n * t ^ 2 := by
    intro t
    rw [← hs, Finset.mul_sum]
    have : (n : ℚ) * t ^ 2 = ∑ i ∈ Finset.range n, t ^ 2 := by simp
    rw [this, ← Finset.sum_sub_distrib, ← Finset.sum_add_distrib]
    exact Finset.sum_congr rfl fun i _ => by ring
  rw [e, e]
  field_simp
  ring

theorem meanFl_nonneg {order : Nat → SumTree} (hp : 1 ≤ F.p) {xs : List ℚ} (hf : ∀ y ∈ xs, IsFloat F y)
    (h0 : ∀ y ∈ xs, 0 ≤ y) {m : ℚ} (h : meanFl F order xs = some m) : 0 ≤ m := by
  unfold meanFl at h
  split at h
  · cases h
  · cases h
    exact fl_nonneg (div_nonneg (le_sumFl hp hf h0 _).1 (Nat.cast_nonneg _))

theorem devSqFl_spec (hp : 1 ≤ F.p) (m : ℚ) (xs : List ℚ) : ∀ y ∈ devSqFl F m xs, IsFloat F y ∧ 0 ≤ y := by
  intro y hy
  obtain ⟨x, -, rfl⟩ := List.mem_map.mp hy
  exact ⟨isFloat_fl hp _, fl_nonneg (mul_self_nonneg _)⟩

/-- A variance in any order. -/
theorem varFl_rounded (hp : 1 ≤ F.p) {order : Nat → SumTree} (ho : SumOrder order) {xs : List ℚ} (hne : xs ≠ [])
    (hf : ∀ y ∈ xs, IsFloat F y) (z : Nat → ℚ) (hz : ∀ i < xs.length, xs.getD i 0 = z i) :
    ∃ μ v, varFl F order xs = some v ∧ meanFl F order xs = some μ ∧ 0 ≤ v ∧ IsFloat F v ∧ IsFloat F μ ∧
      RoundedFrom F xs.length 1 (avg xs.length fun i => |z i|) (avg xs.length z) μ ∧
      RoundedFrom F (xs.length + 3) 2 (avg xs.length (fun i => (z i - avg xs.length z) ^ 2) + (μ - avg xs.length z) ^ 2)
        (avg xs.length (fun i => (z i - avg xs.length z) ^ 2) + (μ - avg xs.length z) ^ 2) v := by
  have hpos := List.length_pos_iff.mpr hne
  obtain ⟨μ, hμ, hμf, hμr⟩ := meanFl_rounded hp ho hne (n := 0) (c := 0) le_rfl (X := fun i => |z i|) (x := z)
    (fun i => le_rfl) hf (fun i hi => by rw [hz i hi]; exact RoundedFrom.refl _)
  have hlen : (devSqFl F μ xs).length = xs.length := by simp [devSqFl]
  obtain ⟨v, hv, hvf, hvr⟩ := meanFl_rounded hp ho (xs := devSqFl F μ xs) (by rw [← List.length_pos_iff]; omega)
    (n := 3) (c := 1) zero_le_one (X := fun i => (z i - μ) ^ 2) (x := fun i => (z i - μ) ^ 2)
    (fun i => by rw [abs_of_nonneg (sq_nonneg _)]) (fun y hy => (devSqFl_spec hp μ xs y hy).1) (by
      intro i hi
      rw [hlen] at hi
      have e : (devSqFl F μ xs).getD i 0 = fmul F (fsub F (z i) μ) (fsub F (z i) μ) := by
        rw [← hz i hi]
        simp [devSqFl, List.getD, List.getElem?_eq_getElem hi]
      rw [e]
      refine sq_fsub_rounded hp ?_ hμf
      rw [← hz i hi, List.getD_eq_getElem?_getD, List.getElem?_eq_getElem hi]
      exact hf _ (List.getElem_mem hi))
  refine ⟨μ, v, ?_, hμ, meanFl_nonneg hp (fun y hy => (devSqFl_spec hp μ xs y hy).1)
    (fun y hy => (devSqFl_spec hp μ xs y hy).2) hv, hvf, hμf, by simpa using hμr, ?_⟩
  · unfold varFl
    rw [hμ]
    exact hv
  · rw [hlen, avg_sq_shift hpos] at hvr
    rw [show xs.length + 3 = 3 + xs.length by omega]
    norm_num at hvr
    exact hvr

/-! ### Columns given as functions -/

/-- The first `N` values of `f`. -/
abbrev col (N : Nat) (f : Nat → ℚ) : List ℚ := (List.range N).map f

theorem col_zipWith (N : Nat) (op : ℚ → ℚ → ℚ) (f g : Nat → ℚ) :
    List.zipWith op (col N f) (col N g) = col N fun i => op (f i) (g i) := by
  unfold col
  rw [List.zipWith_map]
  simp [List.zipWith_self]

theorem col_getD {N : Nat} (f : Nat → ℚ) {i : Nat} (hi : i < N) : (col N f).getD i 0 = f i := by
  simp [col, List.getD, hi]

theorem length_col (N : Nat) (f : Nat → ℚ) : (col N f).length = N := by simp [col]

/-- The two columns one after the other. -/
def twoCols (N : Nat) (a b : Nat → ℚ) (i : Nat) : ℚ := if i < N then a i else b (i - N)

theorem avg_twoCols {N : Nat} (a b : Nat → ℚ) (g : ℚ → ℚ) :
    avg (N + N) (fun i => g (twoCols N a b i)) = avg2 N (fun i => g (a i)) fun i => g (b i) := by
  unfold avg avg2
  rw [Finset.sum_range_add]
  congr 1
  · congr 1
    · exact Finset.sum_congr rfl fun i hi => by rw [twoCols, if_pos (Finset.mem_range.mp hi)]
    · exact Finset.sum_congr rfl fun i hi => by rw [twoCols, if_neg (by omega), Nat.add_sub_cancel_left]
  · push_cast; ring

theorem append_getD {N : Nat} (a b : Nat → ℚ) {i : Nat} (hi : i < N + N) :
    (col N a ++ col N b).getD i 0 = twoCols N a b i := by
  unfold twoCols
  rw [List.getD_eq_getElem?_getD]
  split_ifs with h
  · rw [List.getElem?_append_left (by simpa [col] using h)]; simp [col, h]
  · rw [List.getElem?_append_right (by simp [col]; omega)]
    simp only [length_col]
    simp [col, show i - N < N by omega]

/-- The denominator of all estimators. -/
theorem var2Fl_rounded (hp : 1 ≤ F.p) {order : Nat → SumTree} (ho : SumOrder order) {N : Nat} (hN : 0 < N)
    {a b : Nat → ℚ} (ha : ∀ i, IsFloat F (a i)) (hb : ∀ i, IsFloat F (b i)) :
    ∃ μ v, varFl F order (col N a ++ col N b) = some v ∧ 0 ≤ v ∧ IsFloat F v ∧
      RoundedFrom F (2 * N) 1 (avg2 N (fun i => |a i|) fun i => |b i|) (avg2 N a b) μ ∧
      RoundedFrom F (2 * N + 3) 2 (var2 N a b + (μ - avg2 N a b) ^ 2) (var2 N a b + (μ - avg2 N a b) ^ 2) v := by
  have hlen : (col N a ++ col N b).length = N + N := by simp [col]
  obtain ⟨μ, v, hv, -, h0, hvf, -, h1, h2⟩ := varFl_rounded hp ho (xs := col N a ++ col N b)
    (by rw [← List.length_pos_iff]; omega) (by
      intro y hy
      rcases List.mem_append.mp hy with h | h
      · obtain ⟨i, -, rfl⟩ := List.mem_map.mp h; exact ha i
      · obtain ⟨i, -, rfl⟩ := List.mem_map.mp h; exact hb i)
    (twoCols N a b) (fun i hi => append_getD a b (by omega))
  have e1 := avg_twoCols (N := N) a b id
  simp only [id] at e1
  have e1' : avg (N + N) (twoCols N a b) = avg2 N a b := e1
  have e2 := avg_twoCols (N := N) a b fun t => (t - avg2 N a b) ^ 2
  have e3 := avg_twoCols (N := N) a b fun t => |t|
  rw [hlen, e1', e3] at h1
  rw [hlen, e1', e2] at h2
  refine ⟨μ, v, hv, h0, hvf, ?_, ?_⟩
  · rwa [two_mul]
  · rw [two_mul]; exact h2

variable {order : Nat → SumTree} {N : Nat} {a ab abk baj b : Nat → ℚ}

theorem ratioFl_rounded {n : Nat} {c X x m v : ℚ} (h : RoundedFrom F n c X x m) (hX : |x| ≤ X) (hv : 0 ≤ v) :
    (v = 0 ∧ ratioFl F m v = none) ∨ (0 < v ∧ ∃ S, ratioFl F m v = some S ∧
      RoundedFrom F (n + 1) (c / v + 1) (X / v) (x / v) S) := by
  rcases hv.eq_or_lt with h0 | h0
  · exact Or.inl ⟨h0.symm, if_pos h0.symm⟩
  · exact Or.inr ⟨h0, _, if_neg h0.ne', h.quot hX h0⟩

theorem isFloat_ratioFl (hp : 1 ≤ F.p) {m v S : ℚ} (h : ratioFl F m v = some S) : IsFloat F S := by
  unfold ratioFl at h
  split at h
  · cases h
  · cases h; exact isFloat_fl hp _

theorem col_ne_nil (hN : 0 < N) (f : Nat → ℚ) : col N f ≠ [] := by
  rw [← List.length_pos_iff, length_col]; exact hN

/-- First order. -/
theorem firstRatioFl_rounded (hp : 1 ≤ F.p) (ho : SumOrder order) (hN : 0 < N) (ha : ∀ i, IsFloat F (a i))
    (hab : ∀ i, IsFloat F (ab i)) {v : ℚ} (hv : varFl F order (col N a ++ col N b) = some v) (hv0 : 0 ≤ v) :
    (v = 0 ∧ firstRatioFl F order (col N a) (col N ab) (col N b) = none) ∨ (0 < v ∧ ∃ S,
      firstRatioFl F order (col N a) (col N ab) (col N b) = some S ∧ IsFloat F S ∧
      RoundedFrom F (N + 3) (2 / v + 1) (avg N (fun i => |b i * (ab i - a i)|) / v)
        (avg N (fun i => b i * (ab i - a i)) / v) S) := by
  obtain ⟨m, hm, -, hr⟩ := meanFl_rounded hp ho (order := order) (xs := col N fun i => fmul F (b i) (fsub F (ab i) (a i)))
    (col_ne_nil hN _) (n := 2) (c := 1) zero_le_one (X := fun i => |b i * (ab i - a i)|)
    (x := fun i => b i * (ab i - a i)) (fun i => le_rfl) (by
      intro y hy; obtain ⟨i, -, rfl⟩ := List.mem_map.mp hy; exact isFloat_fl hp _) (by
      intro i hi
      rw [length_col] at hi
      rw [col_getD _ hi]
      exact fmul_fsub_rounded hp (hab i) (ha i))
  rw [length_col] at hr
  have e : firstRatioFl F order (col N a) (col N ab) (col N b) = ratioFl F m v := by
    unfold firstRatioFl
    rw [col_zipWith, col_zipWith, hm, hv]
    rfl
  rw [e]
  rw [show (1 : ℚ) + 1 = 2 by norm_num] at hr
  rcases ratioFl_rounded hr (abs_avg_le fun i => le_rfl) hv0 with h | ⟨h0, S, hS, h⟩
  · exact Or.inl h
  · exact Or.inr ⟨h0, S, hS, isFloat_ratioFl hp hS, by rwa [show N + 3 = 2 + N + 1 by omega]⟩

/-- Total order. -/
theorem totalRatioFl_rounded (hp : 1 ≤ F.p) (ho : SumOrder order) (hN : 0 < N) (ha : ∀ i, IsFloat F (a i))
    (hab : ∀ i, IsFloat F (ab i)) {v : ℚ} (hv : varFl F order (col N a ++ col N b) = some v) (hv0 : 0 ≤ v) :
    (v = 0 ∧ totalRatioFl F order (col N a) (col N ab) (col N b) = none) ∨ (0 < v ∧ ∃ S,
      totalRatioFl F order (col N a) (col N ab) (col N b) = some S ∧ IsFloat F S ∧ 0 ≤ S ∧
      RoundedFrom F (N + 5) (2 / v + 1) (1 / 2 * avg N (fun i => (a i - ab i) ^ 2) / v)
        (1 / 2 * avg N (fun i => (a i - ab i) ^ 2) / v) S) := by
  have hfl : ∀ y ∈ col N fun i => fmul F (fsub F (a i) (ab i)) (fsub F (a i) (ab i)), IsFloat F y ∧ 0 ≤ y := by
    intro y hy; obtain ⟨i, -, rfl⟩ := List.mem_map.mp hy
    exact ⟨isFloat_fl hp _, fl_nonneg (mul_self_nonneg _)⟩
  obtain ⟨m, hm, hmf, hr⟩ := meanFl_rounded hp ho (order := order)
    (xs := col N fun i => fmul F (fsub F (a i) (ab i)) (fsub F (a i) (ab i)))
    (col_ne_nil hN _) (n := 3) (c := 1) zero_le_one (X := fun i => (a i - ab i) ^ 2)
    (x := fun i => (a i - ab i) ^ 2) (fun i => by rw [abs_of_nonneg (sq_nonneg _)]) (fun y hy => (hfl y hy).1) (by
      intro i hi
      rw [length_col] at hi
      rw [col_getD _ hi]
      exact sq_fsub_rounded hp (ha i) (hab i))
  rw [length_col] at hr
  have hm0 : 0 ≤ m := meanFl_nonneg hp (fun y hy => (hfl y hy).1) (fun y hy => (hfl y hy).2) hm
  have e : totalRatioFl F order (col N a) (col N ab) (col N b) = ratioFl F (fmul F (1 / 2) m) v := by
    unfold totalRatioFl
    rw [col_zipWith]
    have : (col N fun i => fsub F (a i) (ab i)).map (fun d => fmul F d d) =
        col N fun i => fmul F (fsub F (a i) (ab i)) (fsub F (a i) (ab i)) := by
      simp [col]
    rw [this, hm, hv]
    rfl
  have hav : 0 ≤ avg N fun i => (a i - ab i) ^ 2 := avg_nonneg fun i => sq_nonneg _
  have hh := ((hr.div (k := 2) (by norm_num)).rnd (by rw [abs_of_nonneg (by positivity)]))
  have e2 : SALib.fl F (m / 2) = fmul F (1 / 2) m := by unfold fmul; congr 1; ring
  rw [e2] at hh
  norm_num at hh
  rw [e]
  rcases ratioFl_rounded hh (by rw [abs_of_nonneg (by positivity)]) hv0 with h | ⟨h0, S, hS, h⟩
  · exact Or.inl h
  · refine Or.inr ⟨h0, S, hS, isFloat_ratioFl hp hS, ?_, ?_⟩
    · unfold ratioFl at hS
      rw [if_neg h0.ne'] at hS
      cases hS
      exact fl_nonneg (div_nonneg (fl_nonneg (by positivity)) hv0)
    · rw [show N + 5 = 3 + N + 1 + 1 by omega, show (1 : ℚ) / 2 * avg N (fun i => (a i - ab i) ^ 2) =
        avg N (fun i => (a i - ab i) ^ 2) / 2 by ring]
      exact h

/-- The cross term of the second order. -/
theorem crossRatioFl_rounded (hp : 1 ≤ F.p) (ho : SumOrder order) (hN : 0 < N) {v : ℚ}
    (hv : varFl F order (col N a ++ col N b) = some v) (hv0 : 0 ≤ v) :
    (v = 0 ∧ crossRatioFl F order (col N a) (col N abk) (col N baj) (col N b) = none) ∨ (0 < v ∧ ∃ S,
      crossRatioFl F order (col N a) (col N abk) (col N baj) (col N b) = some S ∧ IsFloat F S ∧
      RoundedFrom F (N + 3) (3 / v + 1) (avg N (fun i => |baj i * abk i| + |a i * b i|) / v)
        (avg N (fun i => baj i * abk i - a i * b i) / v) S) := by
  have hX : ∀ i, |baj i * abk i - a i * b i| ≤ |baj i * abk i| + |a i * b i| := fun i => abs_sub _ _
  obtain ⟨m, hm, -, hr⟩ := meanFl_rounded hp ho (order := order)
    (xs := col N fun i => fsub F (fmul F (baj i) (abk i)) (fmul F (a i) (b i)))
    (col_ne_nil hN _) (n := 2) (c := 2) (by norm_num) (X := fun i => |baj i * abk i| + |a i * b i|)
    (x := fun i => baj i * abk i - a i * b i) hX (by
      intro y hy; obtain ⟨i, -, rfl⟩ := List.mem_map.mp hy; exact isFloat_fl hp _) (by
      intro i hi
      rw [length_col] at hi
      rw [col_getD _ hi]
      have := (fmul_rounded (F := F) (baj i) (abk i)).minus hp (fmul_rounded (a i) (b i)) le_rfl le_rfl
        (isFloat_fl hp _) (isFloat_fl hp _)
      norm_num at this
      rw [← abs_mul, ← abs_mul] at this
      exact this)
  rw [length_col] at hr
  have e : crossRatioFl F order (col N a) (col N abk) (col N baj) (col N b) = ratioFl F m v := by
    unfold crossRatioFl
    rw [col_zipWith, col_zipWith, col_zipWith, hm, hv]
    rfl
  rw [e]
  norm_num at hr
  simp only [← abs_mul] at hr
  rcases ratioFl_rounded hr (abs_avg_le hX) hv0 with h | ⟨h0, S, hS, h⟩
  · exact Or.inl h
  · exact Or.inr ⟨h0, S, hS, isFloat_ratioFl hp hS, by rwa [show N + 3 = 2 + N + 1 by omega]⟩

theorem foldl_max_top (x : ℚ) (xs : List ℚ) : xs.foldl max x ∈ x :: xs ∧ ∀ y ∈ x :: xs, y ≤ xs.foldl max x := by
  induction xs generalizing x with
  | nil => simp
  | cons z zs ih =>
    obtain ⟨h1, h2⟩ := ih (max x z)
    rw [List.foldl_cons]
    refine ⟨?_, ?_⟩
    · rcases List.mem_cons.mp h1 with h | h
      · rw [h]; rcases max_choice x z with h | h <;> simp [h]
      · simp [h]
    · intro y hy
      have h0 := h2 (max x z) (by simp)
      rcases List.mem_cons.mp hy with rfl | hy
      · exact (le_max_left _ _).trans h0
      · rcases List.mem_cons.mp hy with rfl | hy
        · exact (le_max_right _ _).trans h0
        · exact h2 y (by simp [hy])

theorem foldl_min_bot (x : ℚ) (xs : List ℚ) : xs.foldl min x ∈ x :: xs ∧ ∀ y ∈ x :: xs, xs.foldl min x ≤ y := by
  induction xs generalizing x with
  | nil => simp
  | cons z zs ih =>
    obtain ⟨h1, h2⟩ := ih (min x z)
    rw [List.foldl_cons]
    refine ⟨?_, ?_⟩
    · rcases List.mem_cons.mp h1 with h | h
      · rw [h]; rcases min_choice x z with h | h <;> simp [h]
      · simp [h]
    · intro y hy
      have h0 := h2 (min x z) (by simp)
      rcases List.mem_cons.mp hy with rfl | hy
      · exact h0.trans (min_le_left _ _)
      · rcases List.mem_cons.mp hy with rfl | hy
        · exact h0.trans (min_le_right _ _)
        · exact h2 y (by simp [hy])

/-- Rounding does not change the test for constant outputs. -/
theorem ptpZeroFl_eq (hp : 1 ≤ F.p) {l : List ℚ} (hf : ∀ y ∈ l, IsFloat F y) : ptpZeroFl F l = ptpZero l := by
  cases l with
  | nil => rfl
  | cons x xs =>
    obtain ⟨h1, h2⟩ := foldl_max_top x xs
    obtain ⟨h3, h4⟩ := foldl_min_bot x xs
    rw [Bool.eq_iff_iff]
    simp only [ptpZeroFl, ptpZero, decide_eq_true_eq, List.all_eq_true, beq_iff_eq]
    constructor
    · intro h y hy
      have hle : xs.foldl min x ≤ xs.foldl max x := (h4 x (by simp)).trans (h2 x (by simp))
      rcases hle.eq_or_lt with he | hlt
      · have a1 := h2 y (by simp [hy])
        have a2 := h4 y (by simp [hy])
        have a3 := h2 x (by simp)
        have a4 := h4 x (by simp)
        linarith
      · exact absurd h (width_pos hp (hf _ h3) (hf _ h1) hlt).ne'
    · intro h
      have e : ∀ y ∈ x :: xs, y = x := by
        intro y hy
        rcases List.mem_cons.mp hy with rfl | hy
        · rfl
        · exact h y hy
      rw [e _ h1, e _ h3, fsub, sub_self, fl_zero]

/-! ### Runs of the analysis -/

/-- Number of rows per base point. -/
abbrev rowsPer (second : Bool) (D : Nat) : Nat := if second then 2 * D + 2 else D + 2

/-- The four arrays as functions of the base point. -/
def sepOf (second : Bool) (D N : Nat) (y : Nat → ℚ) : Separated ℚ where
  A := col N fun i => y (i * rowsPer second D)
  B := col N fun i => y (i * rowsPer second D + (rowsPer second D - 1))
  AB := (List.range D).map fun j => col N fun i => y (i * rowsPer second D + (j + 1))
  BA := if second then (List.range D).map fun j => col N fun i => y (i * rowsPer second D + (j + 1 + D)) else []

theorem mapM_assign (N D : Nat) (f : Nat → List ℚ) (h : ∀ j < D, (f j).length = N) :
    (List.range D).mapM (fun j => assignColumn N (f j)) = .ok ((List.range D).map f) := by
  rw [mapM_ok_iff, List.forall₂_map_right_iff]
  exact List.forall₂_same.mpr fun j hj => by
    unfold assignColumn
    rw [if_pos (h j (List.mem_range.mp hj))]

theorem separate_cols (Y : List ℚ) (second : Bool) (D N : Nat) (hY : Y.length = N * rowsPer second D) :
    separateOutputValues Y D N second = .ok (sepOf second D N fun i => Y.getD i 0) := by
  have hs : ∀ o < rowsPer second D, strided Y o (rowsPer second D) =
      col N fun i => Y.getD (i * rowsPer second D + o) 0 := fun o ho => strided_eq Y N _ o 0 hY ho
  have h0 := hs 0 (by unfold rowsPer; split <;> omega)
  have h1 := hs (rowsPer second D - 1) (by unfold rowsPer; split <;> omega)
  have h2 : ∀ j < D, strided Y (j + 1) (rowsPer second D) = _ := fun j hj => hs (j + 1) (by unfold rowsPer; split <;> omega)
  have m1 := mapM_assign N D (fun j => strided Y (j + 1) (rowsPer second D)) (fun j hj => by
    rw [h2 j hj]; exact length_col _ _)
  have e1 : (List.range D).map (fun j => strided Y (j + 1) (rowsPer second D)) =
      (List.range D).map fun j => col N fun i => Y.getD (i * rowsPer second D + (j + 1)) 0 :=
    List.map_congr_left fun j hj => h2 j (List.mem_range.mp hj)
  unfold separateOutputValues
  cases second
  · simp only [rowsPer, Bool.false_eq_true, if_false] at *
    rw [m1, e1, h0, h1]
    rfl
  · simp only [rowsPer, if_true] at *
    have h3 : ∀ j < D, strided Y (j + 1 + D) (2 * D + 2) = _ := fun j hj => hs (j + 1 + D) (by omega)
    have m2 := mapM_assign N D (fun j => strided Y (j + 1 + D) (2 * D + 2)) (fun j hj => by
      rw [h3 j hj]; exact length_col _ _)
    have e2 : (List.range D).map (fun j => strided Y (j + 1 + D) (2 * D + 2)) =
        (List.range D).map fun j => col N fun i => Y.getD (i * (2 * D + 2) + (j + 1 + D)) 0 :=
      List.map_congr_left fun j hj => h3 j (List.mem_range.mp hj)
    rw [m1, e1, m2, e2, h0, h1]
    rfl

theorem sobolCheck_ok (pb : Problem ℚ) (second : Bool) (conf : ℚ) (D N : Nat) (hD : (extractGroupNames pb).2 = D)
    (hconf : 0 < conf ∧ conf < 1) : sobolCheck pb (N * rowsPer second D) second conf = .ok (D, N) := by
  unfold sobolCheck
  rw [hD]
  cases second
  · simp only [rowsPer, hconf, and_self, not_true_eq_false, if_false, Bool.false_eq_true, false_and,
      not_false_eq_true, true_and]
    rw [if_pos (by simp), Nat.mul_div_cancel _ (by omega)]
  · simp only [rowsPer, hconf, and_self, not_true_eq_false, if_false, if_true, true_and]
    rw [if_pos (by simp), Nat.mul_div_cancel _ (by omega)]

/-- What a run returns. -/
def runFl (F : Fmt) (order orderR : Nat → SumTree) (sqrt : ℚ → ℚ) (Z : ℚ) (D N : Nat) (second : Bool)
    (r : List (List Nat)) : Num (List ℚ) → SobolResult ℚ
  | none => nanResult D r.length false second
  | some Y => serialIndicesFl F order orderR sqrt Z (sepOf second D N fun i => Y.getD i 0) r D second

theorem normaliseFl_length {order : Nat → SumTree} {sqrt : ℚ → ℚ} {Y Y' : List ℚ}
    (h : normaliseFl F order sqrt Y = some Y') : ∃ m s, meanFl F order Y = some m ∧ std0Fl F order sqrt Y = some s ∧
      s ≠ 0 ∧ Y' = Y.map fun y => fdiv F (fsub F y m) s := by
  unfold normaliseFl at h
  cases hm : meanFl F order Y with
  | none => simp [hm] at h
  | some m =>
    cases hs : std0Fl F order sqrt Y with
    | none => simp [hm, hs] at h
    | some s =>
      simp only [hm, hs, Option.bind_eq_bind, Option.bind_some] at h
      split at h
      · cases h
      · rename_i h0
        cases h
        exact ⟨m, s, rfl, rfl, h0, rfl⟩

theorem sobolAnalyzeFl_eq (order orderR : Nat → SumTree) (sqrt : ℚ → ℚ) (Z : ℚ) (pb : Problem ℚ) (Y : List ℚ)
    (second : Bool) (conf : ℚ) (r : List (List Nat)) (D N : Nat) (hD : (extractGroupNames pb).2 = D)
    (hconf : 0 < conf ∧ conf < 1) (hr : r ≠ []) (hN : 0 < N) (hY : Y.length = N * rowsPer second D) :
    sobolAnalyzeFl F order orderR sqrt Z pb Y second conf r =
      .ok (runFl F order orderR sqrt Z D N second r (normaliseFl F order sqrt Y)) := by
  have hr' : r.length ≠ 0 := by simpa using hr
  unfold sobolAnalyzeFl
  rw [hY, sobolCheck_ok pb second conf D N hD hconf]
  simp only [pyBind_ok, hr', hN.ne', or_self, if_false]
  cases hn : normaliseFl F order sqrt Y with
  | none => rfl
  | some Y' =>
    obtain ⟨m, s, -, -, -, rfl⟩ := normaliseFl_length hn
    simp only
    rw [separate_cols _ second D N (by rw [List.length_map]; exact hY)]
    rfl

end SALib
