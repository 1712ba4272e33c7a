import Verif.Lemmas.DiscKernels
import Verif.Lemmas.Frequency
import Mathlib.MeasureTheory.Function.Floor

/-! Double means over samples and their limits; the values of the four methods as double means. -/

namespace SALib
open Spec MeasureTheory Set Filter Topology

/-- The unit square. -/
def unitBox : Set (ℝ × ℝ) := Icc (0 : ℝ) 1 ×ˢ Icc (0 : ℝ) 1

theorem mem_unitBox (p : ℝ × ℝ) : p ∈ unitBox ↔ p.1 ∈ Icc (0 : ℝ) 1 ∧ p.2 ∈ Icc (0 : ℝ) 1 := Iff.rfl

theorem isCompact_unitBox : IsCompact unitBox := isCompact_Icc.prod isCompact_Icc

/-- The mean over all pairs. -/
noncomputable def doubleMean {β : Type} (f : β → β → ℝ) (l : List β) : ℝ :=
  (l.map fun p => (l.map fun q => f p q).sum).sum / (l.length : ℝ) ^ 2

noncomputable def twoOf (m : String) (x y : ℝ) : ℝ :=
  if m = "CD" then 1 + 1 / 2 * |x - 1 / 2| + 1 / 2 * |y - 1 / 2| - 1 / 2 * |x - y|
  else if m = "WD" then 3 / 2 - |x - y| + |x - y| ^ 2
  else if m = "MD" then 15 / 8 - 1 / 4 * |x - 1 / 2| - 1 / 4 * |y - 1 / 2| - 3 / 4 * |x - y| + 1 / 2 * |x - y| ^ 2
  else 1 - max x y

noncomputable def oneOf (m : String) (x : ℝ) : ℝ :=
  if m = "CD" then 1 + 1 / 2 * |x - 1 / 2| - 1 / 2 * |x - 1 / 2| ^ 2
  else if m = "WD" then 4 / 3
  else if m = "MD" then 5 / 3 - 1 / 4 * |x - 1 / 2| - 1 / 4 * |x - 1 / 2| ^ 2
  else (1 - x ^ 2) / 2

noncomputable def zeroOf (m : String) : ℝ :=
  if m = "CD" then 13 / 12 else if m = "WD" then 4 / 3 else if m = "MD" then 19 / 12 else 1 / 3

theorem methodSides_meas (m : String) : ∀ a ∈ methodSides m, MeasSide a.region := by
  intro a ha
  unfold methodSides at ha
  split_ifs at ha <;> simp only [List.mem_cons, List.not_mem_nil, or_false] at ha
  · rcases ha with rfl | rfl
    · exact measSide_whole
    · exact measSide_corner
  · rcases ha with rfl | rfl
    · exact measSide_whole
    · exact measSide_wrap
  · rcases ha with rfl | rfl | rfl
    · exact measSide_whole
    · exact measSide_wrap
    · exact measSide_far
  · subst ha
    exact measSide_origin

theorem sideSum_list (L : List Side) (f : (ℝ × ℝ → Set ℝ) → ℝ) : sideSum L f = (L.map fun a => a.weight * f a.region).sum := by
  unfold sideSum
  rw [← List.sum_ofFn]
  congr 1
  exact (List.ofFn_get (l := L.map fun a => a.weight * f a.region)).symm ▸ by
    apply List.ext_getElem <;> simp

theorem sides_two (m : String) {x y : ℝ} (hx : x ∈ Icc (0 : ℝ) 1) (hy : y ∈ Icc (0 : ℝ) 1) :
    sideSum (methodSides m) (fun J => overlap J x y) = twoOf m x y := by
  rw [sideSum_list]
  unfold methodSides twoOf
  split_ifs
  · simp [overlap_whole, overlap_corner hx hy, abs_sub_comm y x]
    ring
  · simp [overlap_whole, overlap_wrap hx hy, abs_sub_comm y x]
    ring
  · simp [overlap_whole, overlap_wrap hx hy, overlap_far hx hy, abs_sub_comm y x]
    ring
  · simp [overlap_origin hx hy]
    rcases le_total x y with h | h
    · rw [max_eq_right h, abs_of_nonneg (by linarith)]; ring
    · rw [max_eq_left h, abs_of_nonpos (by linarith)]; ring

theorem sides_one (m : String) {x : ℝ} (hx : x ∈ Icc (0 : ℝ) 1) :
    sideSum (methodSides m) (fun J => overlap1 J x) = oneOf m x := by
  rw [sideSum_list]
  unfold methodSides oneOf
  split_ifs
  · simp [overlap1_whole, overlap1_corner hx]
    ring
  · simp [overlap1_whole, overlap1_wrap hx]
    norm_num
  · simp [overlap1_whole, overlap1_wrap hx, overlap1_far hx]
    ring
  · simp [overlap1_origin hx]

theorem sides_zero (m : String) : sideSum (methodSides m) overlap2 = zeroOf m := by
  rw [sideSum_list]
  unfold methodSides zeroOf
  split_ifs
  · simp [overlap2_whole, overlap2_corner]
    norm_num
  · simp [overlap2_whole, overlap2_wrap]
    norm_num
  · simp [overlap2_whole, overlap2_wrap, overlap2_far]
    norm_num
  · simp [overlap2_origin]

/-- The kernel of a method. -/
noncomputable def methodKernel (m : String) (p q : ℝ × ℝ) : ℝ := boxKernel (twoOf m) (oneOf m) (zeroOf m) p q

theorem continuous_kernel (m : String) : Continuous fun r : (ℝ × ℝ) × (ℝ × ℝ) => methodKernel m r.1 r.2 := by
  unfold methodKernel boxKernel twoOf oneOf zeroOf
  split_ifs <;> fun_prop

theorem boxDiscrepancy_kernel (m : String) (μ : Measure (ℝ × ℝ)) [IsProbabilityMeasure μ] (hμ : ∀ᵐ p ∂μ, p ∈ unitBox) :
    boxDiscrepancy (methodSides m) μ = ∫ r, methodKernel m r.1 r.2 ∂μ.prod μ := by
  rw [boxDiscrepancy_eq _ (methodSides_meas m)]
  apply integral_congr_ae
  have h1 : ∀ᵐ r ∂μ.prod μ, r.1 ∈ unitBox := Measure.quasiMeasurePreserving_fst.ae hμ
  have h2 : ∀ᵐ r ∂μ.prod μ, r.2 ∈ unitBox := Measure.quasiMeasurePreserving_snd.ae hμ
  filter_upwards [h1, h2] with r hr1 hr2
  unfold methodKernel boxKernel
  simp only [sides_two m hr1.1 hr2.1, sides_two m hr1.2 hr2.2, sides_one m hr1.1, sides_one m hr1.2, sides_one m hr2.1,
    sides_one m hr2.2, sides_zero m]

theorem sum_map_pair {β : Type} (l : List β) (f : β → β → ℝ) (g : β → ℝ) (c : ℝ) :
    (l.map fun p => (l.map fun q => f p q - g p - g q + c).sum).sum =
      (l.map fun p => (l.map fun q => f p q).sum).sum - 2 * (l.length : ℝ) * (l.map g).sum + (l.length : ℝ) ^ 2 * c := by
  have inner : ∀ (l' : List β) p, (l'.map fun q => f p q - g p - g q + c).sum =
      (l'.map fun q => f p q).sum - (l'.length : ℝ) * g p - (l'.map g).sum + (l'.length : ℝ) * c := by
    intro l' p
    induction l' with
    | nil => simp
    | cons q l' ih => simp only [List.map_cons, List.sum_cons, ih, List.length_cons]; push_cast; ring
  simp only [inner]
  have outer : ∀ (l' : List β) (h : β → ℝ) (n s : ℝ), (l'.map fun p => h p - n * g p - s + n * c).sum =
      (l'.map h).sum - n * (l'.map g).sum - (l'.length : ℝ) * s + (l'.length : ℝ) * (n * c) := by
    intro l' h n s
    induction l' with
    | nil => simp
    | cons q l' ih => simp only [List.map_cons, List.sum_cons, ih, List.length_cons]; push_cast; ring
  rw [outer]
  ring

/-- The kernel form of the three parts of a discrepancy. -/
theorem double_parts (pts : List (ℝ × ℝ)) (hne : pts ≠ []) (k : ℝ → ℝ → ℝ) (k1 : ℝ → ℝ) (k2 : ℝ) :
    doubleMean (boxKernel k k1 k2) pts = k2 ^ 2 - 2 / (pts.length : ℝ) * (pts.map fun p => k1 p.1 * k1 p.2).sum +
      1 / (pts.length : ℝ) ^ 2 * (pts.map fun p => (pts.map fun q => k p.1 q.1 * k p.2 q.2).sum).sum := by
  have hN : (pts.length : ℝ) ≠ 0 := by simpa using hne
  have h := sum_map_pair pts (fun p q => k p.1 q.1 * k p.2 q.2) (fun p => k1 p.1 * k1 p.2) (k2 ^ 2)
  unfold doubleMean boxKernel
  rw [h]
  field_simp
  ring

/-- The values of the methods are double means of their kernels. -/
theorem disc_double (m : String) (disc : List (ℝ × ℝ) → ℝ) (hm : discMethod Real.sqrt m = .ok disc) (pts : List (ℝ × ℝ))
    (hne : pts ≠ []) :
    disc pts = if m = "L2-star" then Real.sqrt (doubleMean (methodKernel m) pts) else doubleMean (methodKernel m) pts := by
  have hk : doubleMean (methodKernel m) pts = doubleMean (boxKernel (twoOf m) (oneOf m) (zeroOf m)) pts := rfl
  have hN : (pts.length : ℝ) ≠ 0 := by simpa using hne
  rw [hk, double_parts pts hne]
  unfold discMethod at hm
  by_cases h1 : m = "CD"
  · rw [if_pos h1] at hm
    obtain rfl := Except.ok.inj hm
    subst h1
    rw [if_neg (by decide)]
    simp only [discCD, twoOf, oneOf, zeroOf, if_true]
  · rw [if_neg h1] at hm
    by_cases h2 : m = "WD"
    · rw [if_pos h2] at hm
      obtain rfl := Except.ok.inj hm
      subst h2
      rw [if_neg (by decide)]
      simp only [discWD, twoOf, oneOf, zeroOf, if_true, if_neg h1]
      have : (pts.map fun _ : ℝ × ℝ => (4 / 3 : ℝ) * (4 / 3)).sum = (pts.length : ℝ) * (4 / 3 * (4 / 3)) := by
        rw [List.map_const', List.sum_replicate, nsmul_eq_mul]
      rw [this]
      field_simp
      ring
    · rw [if_neg h2] at hm
      by_cases h3 : m = "MD"
      · rw [if_pos h3] at hm
        obtain rfl := Except.ok.inj hm
        subst h3
        rw [if_neg (by decide)]
        simp only [discMD, twoOf, oneOf, zeroOf, if_true, if_neg h1, if_neg h2]
      · rw [if_neg h3] at hm
        by_cases h4 : m = "L2-star"
        · rw [if_pos h4] at hm
          obtain rfl := Except.ok.inj hm
          rw [if_pos h4]
          simp only [discL2, twoOf, oneOf, zeroOf, if_neg h1, if_neg h2, if_neg h3]
          congr 1
          have : (pts.map fun p : ℝ × ℝ => (1 - p.1 ^ 2) / 2 * ((1 - p.2 ^ 2) / 2)).sum =
              1 / 4 * (pts.map fun p : ℝ × ℝ => (1 - p.1 ^ 2) * (1 - p.2 ^ 2)).sum := by
            rw [← List.sum_map_mul_left]
            congr 1
            apply List.map_congr_left
            intro p _
            ring
          rw [this]
          ring
        · rw [if_neg h4] at hm
          exact absurd hm (by simp)

/-! ### The points as a distribution -/

theorem empirical_prob (pts : List (ℝ × ℝ)) (hne : pts ≠ []) : IsProbabilityMeasure (empirical pts) := by
  constructor
  unfold empirical
  have hs : ∀ l : List (ℝ × ℝ), (l.map Measure.dirac).sum univ = l.length := by
    intro l
    induction l with
    | nil => simp
    | cons p l ih => simp only [List.map_cons, List.sum_cons, Measure.add_apply, ih, List.length_cons]; simp [add_comm]
  rw [Measure.smul_apply, hs, smul_eq_mul]
  exact ENNReal.inv_mul_cancel (by simpa using hne) (ENNReal.natCast_ne_top _)

theorem empirical_ae (pts : List (ℝ × ℝ)) (A : Set (ℝ × ℝ)) (hA : MeasurableSet A) (h : ∀ p ∈ pts, p ∈ A) :
    ∀ᵐ p ∂empirical pts, p ∈ A := by
  rw [ae_iff]
  have hs : ∀ l : List (ℝ × ℝ), (∀ p ∈ l, p ∈ A) → (l.map Measure.dirac).sum {p | p ∉ A} = 0 := by
    intro l
    induction l with
    | nil => simp
    | cons p l ih =>
      intro hl
      simp only [List.map_cons, List.sum_cons, Measure.add_apply]
      have : Measure.dirac p {p | p ∉ A} = 0 := by
        rw [show {p | p ∉ A} = Aᶜ from rfl, Measure.dirac_apply' _ hA.compl]
        simp [hl p List.mem_cons_self]
      rw [ih fun q hq => hl q (List.mem_cons_of_mem _ hq), this, add_zero]
  unfold empirical
  rw [Measure.smul_apply, hs pts h, smul_zero]

theorem integrable_diracs (l : List (ℝ × ℝ)) (g : ℝ × ℝ → ℝ) : Integrable g (l.map Measure.dirac).sum := by
  induction l with
  | nil => simp
  | cons p l ih =>
    simp only [List.map_cons, List.sum_cons]
    exact (integrable_dirac (by simp)).add_measure ih

theorem integral_empirical (pts : List (ℝ × ℝ)) (g : ℝ × ℝ → ℝ) : ∫ p, g p ∂empirical pts = (pts.map g).sum / pts.length := by
  have hs : ∀ l : List (ℝ × ℝ), ∫ p, g p ∂(l.map Measure.dirac).sum = (l.map g).sum := by
    intro l
    induction l with
    | nil => simp
    | cons p l ih =>
      simp only [List.map_cons, List.sum_cons]
      rw [integral_add_measure (integrable_dirac (by simp)) (integrable_diracs l g), ih, integral_dirac]
  unfold empirical
  rw [integral_smul_measure, hs]
  simp
  ring

theorem integrable_box (μ : Measure (ℝ × ℝ)) [IsProbabilityMeasure μ] (hμ : ∀ᵐ p ∂μ, p ∈ unitBox)
    (f : (ℝ × ℝ) × (ℝ × ℝ) → ℝ) (hf : Continuous f) : Integrable f (μ.prod μ) := by
  obtain ⟨C, hC⟩ := (isCompact_unitBox.prod isCompact_unitBox).exists_bound_of_continuousOn hf.continuousOn
  refine Integrable.of_bound hf.aestronglyMeasurable C ?_
  have h1 : ∀ᵐ r ∂μ.prod μ, r.1 ∈ unitBox := Measure.quasiMeasurePreserving_fst.ae hμ
  have h2 : ∀ᵐ r ∂μ.prod μ, r.2 ∈ unitBox := Measure.quasiMeasurePreserving_snd.ae hμ
  filter_upwards [h1, h2] with r hr1 hr2
  exact hC r ⟨hr1, hr2⟩

theorem measurableSet_unitBox : MeasurableSet unitBox := measurableSet_Icc.prod measurableSet_Icc

theorem double_empirical (pts : List (ℝ × ℝ)) (hne : pts ≠ []) (h : ∀ p ∈ pts, p ∈ unitBox)
    (f : ℝ × ℝ → ℝ × ℝ → ℝ) (hf : Continuous fun r : (ℝ × ℝ) × (ℝ × ℝ) => f r.1 r.2) :
    ∫ r, f r.1 r.2 ∂(empirical pts).prod (empirical pts) = doubleMean f pts := by
  have := empirical_prob pts hne
  rw [integral_prod _ (integrable_box _ (empirical_ae pts _ measurableSet_unitBox h) _ hf)]
  simp only [integral_empirical]
  unfold doubleMean
  have : (pts.map fun p => (pts.map fun q => f p q).sum / (pts.length : ℝ)).sum =
      (pts.map fun p => (pts.map fun q => f p q).sum).sum / (pts.length : ℝ) := by
    simp only [div_eq_mul_inv]
    rw [List.sum_map_mul_right]
  rw [this, div_div, sq]

/-! ### Limits -/

section

variable {β : Type}

theorem doubleMean_map {γ : Type} (f : γ → γ → ℝ) (g : β → γ) (l : List β) :
    doubleMean f (l.map g) = doubleMean (fun p q => f (g p) (g q)) l := by
  simp [doubleMean, List.map_map, Function.comp_def]

theorem list_sum_abs_sub (l : List β) (f g : β → ℝ) (c : ℝ) (h : ∀ p ∈ l, |f p - g p| ≤ c) :
    |(l.map f).sum - (l.map g).sum| ≤ (l.length : ℝ) * c := by
  induction l with
  | nil => simp
  | cons p l ih =>
    simp only [List.map_cons, List.sum_cons, List.length_cons]
    have h1 := ih fun q hq => h q (List.mem_cons_of_mem _ hq)
    have h2 := h p List.mem_cons_self
    rw [add_sub_add_comm]
    refine (abs_add_le _ _).trans ?_
    push_cast
    linarith

theorem doubleMean_near (f g : β → β → ℝ) (l : List β) (c : ℝ) (hc : 0 ≤ c) (h : ∀ p ∈ l, ∀ q ∈ l, |f p q - g p q| ≤ c) :
    |doubleMean f l - doubleMean g l| ≤ c := by
  unfold doubleMean
  by_cases hl : l = []
  · subst hl; simpa using hc
  have hN : (0 : ℝ) < (l.length : ℝ) := by
    have := List.length_pos_iff.mpr hl
    exact_mod_cast this
  rw [← sub_div, abs_div, abs_of_pos (pow_pos hN 2), div_le_iff₀ (pow_pos hN 2)]
  have := list_sum_abs_sub l (fun p => (l.map fun q => f p q).sum) (fun p => (l.map fun q => g p q).sum)
    ((l.length : ℝ) * c) fun p hp => list_sum_abs_sub l _ _ c fun q hq => h p hp q hq
  linarith

theorem doubleMean_prod (g h : β → ℝ) (l : List β) : doubleMean (fun p q => g p * h q) l = rowMean l g * rowMean l h := by
  unfold doubleMean rowMean
  have : (l.map fun p => (l.map fun q => g p * h q).sum).sum = (l.map g).sum * (l.map h).sum := by
    simp only [List.sum_map_mul_left, List.sum_map_mul_right]
  rw [this]
  by_cases hl : (l.length : ℝ) = 0
  · simp [hl]
  · field_simp

theorem doubleMean_sum {ι : Type} [Fintype ι] (f : ι → β → β → ℝ) (l : List β) :
    doubleMean (fun p q => ∑ i, f i p q) l = ∑ i, doubleMean (f i) l := by
  unfold doubleMean
  rw [← Finset.sum_div]
  congr 1
  have h1 : ∀ (l' : List β) (g : ι → β → ℝ), (l'.map fun q => ∑ i, g i q).sum = ∑ i, (l'.map (g i)).sum := by
    intro l' g
    induction l' with
    | nil => simp
    | cons q l' ih => simp only [List.map_cons, List.sum_cons, ih, Finset.sum_add_distrib]
  simp only [h1]

/-- The cells of the grid of mesh `1/m`. -/
def gridCell (m : ℕ) (e : Fin (m + 1) × Fin (m + 1)) : Set (ℝ × ℝ) := {p | ⌊m * p.1⌋₊ = e.1.1 ∧ ⌊m * p.2⌋₊ = e.2.1}

noncomputable def gridPoint (m : ℕ) (e : Fin (m + 1) × Fin (m + 1)) : ℝ × ℝ := ((e.1.1 : ℝ) / m, (e.2.1 : ℝ) / m)

theorem measurableSet_gridCell (m : ℕ) (e : Fin (m + 1) × Fin (m + 1)) : MeasurableSet (gridCell m e) := by
  have h1 : Measurable fun p : ℝ × ℝ => ⌊m * p.1⌋₊ := Nat.measurable_floor.comp (measurable_fst.const_mul _)
  have h2 : Measurable fun p : ℝ × ℝ => ⌊m * p.2⌋₊ := Nat.measurable_floor.comp (measurable_snd.const_mul _)
  exact (h1 (measurableSet_singleton e.1.1)).inter (h2 (measurableSet_singleton e.2.1))

theorem grid_near {m : ℕ} (hm : 0 < m) {x : ℝ} (hx : 0 ≤ x) : |x - (⌊m * x⌋₊ : ℝ) / m| ≤ 1 / m := by
  have h0 : (0 : ℝ) < m := by exact_mod_cast hm
  have h1 := Nat.floor_le (mul_nonneg h0.le hx)
  have h2 := Nat.lt_floor_add_one ((m : ℝ) * x)
  have e : x - (⌊m * x⌋₊ : ℝ) / m = ((m : ℝ) * x - ⌊m * x⌋₊) / m := by field_simp
  rw [e, abs_of_nonneg (div_nonneg (by linarith) h0.le)]
  exact div_le_div_of_nonneg_right (by linarith) h0.le

theorem gridPoint_mem {m : ℕ} (hm : 0 < m) (e : Fin (m + 1) × Fin (m + 1)) : gridPoint m e ∈ unitBox := by
  have h0 : (0 : ℝ) < m := by exact_mod_cast hm
  have : ∀ i : Fin (m + 1), (i.1 : ℝ) / m ∈ Icc (0 : ℝ) 1 := by
    intro i
    refine ⟨by positivity, ?_⟩
    rw [div_le_one h0]
    exact_mod_cast Nat.lt_succ_iff.mp i.2
  exact ⟨this _, this _⟩

theorem exists_cell {m : ℕ} (hm : 0 < m) {p : ℝ × ℝ} (hp : p ∈ unitBox) :
    ∃ e, p ∈ gridCell m e ∧ dist p (gridPoint m e) ≤ 1 / m ∧ ∀ e', p ∈ gridCell m e' → e' = e := by
  have h0 : (0 : ℝ) < m := by exact_mod_cast hm
  have hf : ∀ x ∈ Icc (0 : ℝ) 1, ⌊m * x⌋₊ < m + 1 := by
    intro x hx
    rw [Nat.floor_lt (mul_nonneg h0.le hx.1)]
    push_cast
    have := mul_le_mul_of_nonneg_left hx.2 h0.le
    linarith
  refine ⟨(⟨_, hf _ hp.1⟩, ⟨_, hf _ hp.2⟩), ⟨rfl, rfl⟩, ?_, ?_⟩
  · rw [Prod.dist_eq]
    refine max_le ?_ ?_
    · rw [Real.dist_eq]; exact grid_near hm hp.1.1
    · rw [Real.dist_eq]; exact grid_near hm hp.2.1
  · rintro ⟨a, b⟩ ⟨h1, h2⟩
    exact Prod.ext (Fin.ext h1.symm) (Fin.ext h2.symm)

/-- A kernel that is constant on the cells. -/
noncomputable def gridKernel (m : ℕ) (f : ℝ × ℝ → ℝ × ℝ → ℝ) (p q : ℝ × ℝ) : ℝ :=
  ∑ e, ∑ e', (gridCell m e).indicator (fun _ => (1 : ℝ)) p * (f (gridPoint m e) (gridPoint m e') *
    (gridCell m e').indicator (fun _ => (1 : ℝ)) q)

theorem gridKernel_eq {m : ℕ} (hm : 0 < m) (f : ℝ × ℝ → ℝ × ℝ → ℝ) {p q : ℝ × ℝ} (hp : p ∈ unitBox) (hq : q ∈ unitBox) :
    ∃ p' ∈ unitBox, ∃ q' ∈ unitBox, dist p p' ≤ 1 / m ∧ dist q q' ≤ 1 / m ∧ gridKernel m f p q = f p' q' := by
  obtain ⟨e, he, hd, hu⟩ := exists_cell hm hp
  obtain ⟨e', he', hd', hu'⟩ := exists_cell hm hq
  refine ⟨_, gridPoint_mem hm e, _, gridPoint_mem hm e', hd, hd', ?_⟩
  unfold gridKernel
  rw [Finset.sum_eq_single e, Finset.sum_eq_single e', indicator_of_mem he, indicator_of_mem he']
  · ring
  · intro c _ hc
    rw [indicator_of_notMem (s := gridCell m c) fun h => hc (hu' c h)]; ring
  · simp
  · intro c _ hc
    rw [indicator_of_notMem (s := gridCell m c) fun h => hc (hu c h)]; simp
  · simp

/-- The double mean of a continuous kernel converges to the double integral. -/
theorem double_limit {ι : Type} (l : Filter ι) (μ : Measure (ℝ × ℝ)) [IsProbabilityMeasure μ] (hμ : ∀ᵐ p ∂μ, p ∈ unitBox) (f : ℝ × ℝ → ℝ × ℝ → ℝ)
    (hf : Continuous fun r : (ℝ × ℝ) × (ℝ × ℝ) => f r.1 r.2) (rows : ι → List β) (φ : β → ℝ × ℝ) (ψ : ι → β → ℝ × ℝ)
    (hφ : ∀ N, ∀ r ∈ rows N, φ r ∈ unitBox)
    (hfreq : ∀ m, 0 < m → ∀ e, Tendsto (fun N => freq (rows N) (φ ⁻¹' gridCell m e)) l (𝓝 (μ.real (gridCell m e))))
    (hψ : ∀ δ > 0, ∀ᶠ N in l, ∀ r ∈ rows N, ψ N r ∈ unitBox ∧ dist (ψ N r) (φ r) < δ) :
    Tendsto (fun N => doubleMean f ((rows N).map (ψ N))) l (𝓝 (∫ r, f r.1 r.2 ∂μ.prod μ)) := by
  rw [Metric.tendsto_nhds]
  intro ε hε
  have huc := (isCompact_unitBox.prod isCompact_unitBox).uniformContinuousOn_of_continuous hf.continuousOn
  rw [Metric.uniformContinuousOn_iff] at huc
  obtain ⟨δ, hδ, hclose⟩ := huc (ε / 4) (by linarith)
  have hnear : ∀ p ∈ unitBox, ∀ q ∈ unitBox, ∀ p' ∈ unitBox, ∀ q' ∈ unitBox, dist p p' < δ → dist q q' < δ →
      |f p q - f p' q'| ≤ ε / 4 := by
    intro p hp q hq p' hp' q' hq' h1 h2
    have := hclose (p, q) ⟨hp, hq⟩ (p', q') ⟨hp', hq'⟩ (by rw [Prod.dist_eq]; exact max_lt h1 h2)
    rw [Real.dist_eq] at this
    exact this.le
  obtain ⟨m0, hm0⟩ := exists_nat_one_div_lt hδ
  set m := m0 + 1 with hmdef
  have hm : 0 < m := Nat.succ_pos _
  have hm1 : (1 : ℝ) / m < δ := by rw [hmdef]; push_cast; exact hm0
  -- the limit of the grid kernel
  have hgrid : Tendsto (fun N => doubleMean (gridKernel m f) ((rows N).map φ)) l
      (𝓝 (∑ e, ∑ e', μ.real (gridCell m e) * (f (gridPoint m e) (gridPoint m e') * μ.real (gridCell m e')))) := by
    have e : ∀ N, doubleMean (gridKernel m f) ((rows N).map φ) = ∑ e, ∑ e', freq (rows N) (φ ⁻¹' gridCell m e) *
        (f (gridPoint m e) (gridPoint m e') * freq (rows N) (φ ⁻¹' gridCell m e')) := by
      intro N
      rw [doubleMean_map]
      unfold gridKernel
      rw [doubleMean_sum]
      apply Finset.sum_congr rfl
      intro e _
      rw [doubleMean_sum]
      apply Finset.sum_congr rfl
      intro e' _
      have := doubleMean_prod (fun r => (gridCell m e).indicator (fun _ => (1 : ℝ)) (φ r))
        (fun r => f (gridPoint m e) (gridPoint m e') * (gridCell m e').indicator (fun _ => (1 : ℝ)) (φ r)) (rows N)
      rw [this]
      unfold freq
      congr 1
      unfold rowMean
      rw [List.sum_map_mul_left, mul_div_assoc]
      rfl
    simp only [e]
    refine tendsto_finset_sum _ fun e _ => tendsto_finset_sum _ fun e' _ => ?_
    exact (hfreq m hm e).mul ((hfreq m hm e').const_mul _)
  have hint : ∫ r, gridKernel m f r.1 r.2 ∂μ.prod μ =
      ∑ e, ∑ e', μ.real (gridCell m e) * (f (gridPoint m e) (gridPoint m e') * μ.real (gridCell m e')) := by
    have hi : ∀ e e', Integrable (fun r : (ℝ × ℝ) × (ℝ × ℝ) => (gridCell m e).indicator (fun _ => (1 : ℝ)) r.1 *
        (f (gridPoint m e) (gridPoint m e') * (gridCell m e').indicator (fun _ => (1 : ℝ)) r.2)) (μ.prod μ) := by
      intro e e'
      exact Integrable.mul_prod (f := (gridCell m e).indicator fun _ => (1 : ℝ))
        (g := fun q => f (gridPoint m e) (gridPoint m e') * (gridCell m e').indicator (fun _ => (1 : ℝ)) q)
        ((integrable_const _).indicator (measurableSet_gridCell m e))
        (((integrable_const _).indicator (measurableSet_gridCell m e')).const_mul _)
    unfold gridKernel
    rw [integral_finset_sum _ fun e _ => integrable_finset_sum _ fun e' _ => hi e e']
    apply Finset.sum_congr rfl
    intro e _
    rw [integral_finset_sum _ fun e' _ => hi e e']
    apply Finset.sum_congr rfl
    intro e' _
    have := integral_prod_mul (μ := μ) (ν := μ) ((gridCell m e).indicator fun _ => (1 : ℝ))
      (fun q => f (gridPoint m e) (gridPoint m e') * (gridCell m e').indicator (fun _ => (1 : ℝ)) q)
    rw [this, integral_indicator_const _ (measurableSet_gridCell m e), integral_const_mul,
      integral_indicator_const _ (measurableSet_gridCell m e')]
    simp
  have hkernel : ∀ p ∈ unitBox, ∀ q ∈ unitBox, |f p q - gridKernel m f p q| ≤ ε / 4 := by
    intro p hp q hq
    obtain ⟨p', hp', q', hq', h1, h2, h3⟩ := gridKernel_eq hm f hp hq
    rw [h3]
    exact hnear p hp q hq p' hp' q' hq' (h1.trans_lt hm1) (h2.trans_lt hm1)
  have hintnear : |∫ r, f r.1 r.2 ∂μ.prod μ - ∫ r, gridKernel m f r.1 r.2 ∂μ.prod μ| ≤ ε / 4 := by
    have hgi : Integrable (fun r : (ℝ × ℝ) × (ℝ × ℝ) => gridKernel m f r.1 r.2) (μ.prod μ) := by
      unfold gridKernel
      refine integrable_finset_sum _ fun e _ => integrable_finset_sum _ fun e' _ => ?_
      exact Integrable.mul_prod (f := (gridCell m e).indicator fun _ => (1 : ℝ))
        (g := fun q => f (gridPoint m e) (gridPoint m e') * (gridCell m e').indicator (fun _ => (1 : ℝ)) q)
        ((integrable_const _).indicator (measurableSet_gridCell m e))
        (((integrable_const _).indicator (measurableSet_gridCell m e')).const_mul _)
    rw [← integral_sub (integrable_box μ hμ _ hf) hgi]
    have h1 : ∀ᵐ r ∂μ.prod μ, r.1 ∈ unitBox := Measure.quasiMeasurePreserving_fst.ae hμ
    have h2 : ∀ᵐ r ∂μ.prod μ, r.2 ∈ unitBox := Measure.quasiMeasurePreserving_snd.ae hμ
    have h3 : ∀ᵐ r ∂μ.prod μ, ‖f r.1 r.2 - gridKernel m f r.1 r.2‖ ≤ ε / 4 := by
      filter_upwards [h1, h2] with r hr1 hr2
      exact hkernel _ hr1 _ hr2
    have := norm_integral_le_of_norm_le_const h3
    simpa using this
  rw [← hint] at hgrid
  rw [Metric.tendsto_nhds] at hgrid
  filter_upwards [hgrid (ε / 4) (by linarith), hψ δ hδ] with N g1 g2
  rw [Real.dist_eq] at g1
  have g3 : |doubleMean f ((rows N).map (ψ N)) - doubleMean f ((rows N).map φ)| ≤ ε / 4 := by
    rw [doubleMean_map, doubleMean_map]
    refine doubleMean_near _ _ _ _ (by linarith) fun p hp q hq => ?_
    exact hnear _ (g2 p hp).1 _ (g2 q hq).1 _ (hφ N p hp) _ (hφ N q hq) (g2 p hp).2 (g2 q hq).2
  have g4 : |doubleMean f ((rows N).map φ) - doubleMean (gridKernel m f) ((rows N).map φ)| ≤ ε / 4 := by
    rw [doubleMean_map, doubleMean_map]
    exact doubleMean_near _ _ _ _ (by linarith) fun p hp q hq => hkernel _ (hφ N p hp) _ (hφ N q hq)
  rw [Real.dist_eq]
  have a1 := abs_le.mp g3
  have a2 := abs_le.mp g4
  have a3 := abs_lt.mp g1
  have a4 := abs_le.mp hintnear
  rw [abs_lt]
  constructor <;> linarith [a1.1, a1.2, a2.1, a2.2, a3.1, a3.2, a4.1, a4.2]

end

end SALib
