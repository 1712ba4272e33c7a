import Verif.Lemmas.DiscLimit
import Verif.Lemmas.WrapDisc

/-! Discrepancies of finitely many points are positive; the discrepancy of one variable vanishes only for the uniform
distribution. -/

namespace SALib
open Spec MeasureTheory Set

theorem exists_mem_of_ae {A : Type} [MeasurableSpace A] (ρ : Measure A) (p : A → Prop) (h : ∀ᵐ z ∂ρ, p z) (B : Set A)
    (hB : ρ B ≠ 0) : ∃ z ∈ B, p z := by
  by_contra hcon
  push Not at hcon
  exact hB (measure_mono_null hcon (ae_iff.mp h))

theorem unitLine_Ioo_ne {u v : ℝ} (h0 : 0 ≤ u) (huv : u < v) (h1 : v ≤ 1) : unitLine (Ioo u v) ≠ 0 := by
  have := unitLine_between (Ioo u v) u v huv.le h0 h1 (fun s a b => ⟨a, b⟩) fun s hs _ _ => ⟨hs.1.le, hs.2.le⟩
  intro h
  rw [measureReal_def, h] at this
  simp at this
  linarith

theorem methodSides_weight (m : String) : ∀ a ∈ methodSides m, 0 < a.weight := by
  intro a ha
  unfold methodSides at ha
  split_ifs at ha <;> simp only [List.mem_cons, List.not_mem_nil, or_false] at ha
  · rcases ha with rfl | rfl <;> norm_num
  · rcases ha with rfl | rfl <;> norm_num
  · rcases ha with rfl | rfl | rfl <;> norm_num
  · subst ha; norm_num

theorem boxDiscrepancy_nonneg (L : List Side) (hw : ∀ a ∈ L, 0 < a.weight) (μ : Measure (ℝ × ℝ)) : 0 ≤ boxDiscrepancy L μ :=
  Finset.sum_nonneg fun a _ => Finset.sum_nonneg fun b _ =>
    mul_nonneg (mul_nonneg (hw _ (List.get_mem L a)).le (hw _ (List.get_mem L b)).le) (integral_nonneg fun _ => sq_nonneg _)

/-- One pair of sides. -/
noncomputable def boxTerm (J : ℝ × ℝ → Set ℝ) (μ : Measure (ℝ × ℝ)) : ℝ :=
  ∫ z, (μ.real (J z.1 ×ˢ J z.2) - unitLine.real (J z.1) * unitLine.real (J z.2)) ^ 2 ∂unitSquare.prod unitSquare

theorem boxDiscrepancy_pos (L : List Side) (hw : ∀ a ∈ L, 0 < a.weight) (μ : Measure (ℝ × ℝ)) (a : Side) (ha : a ∈ L)
    (h : 0 < boxTerm a.region μ) : 0 < boxDiscrepancy L μ := by
  obtain ⟨i, rfl⟩ := List.get_of_mem ha
  have hnn : ∀ a b : Fin L.length, 0 ≤ (L.get a).weight * (L.get b).weight *
    ∫ z, (μ.real ((L.get a).region z.1 ×ˢ (L.get b).region z.2) -
      unitLine.real ((L.get a).region z.1) * unitLine.real ((L.get b).region z.2)) ^ 2 ∂unitSquare.prod unitSquare :=
    fun a b => mul_nonneg (mul_nonneg (hw _ (List.get_mem L a)).le (hw _ (List.get_mem L b)).le) (integral_nonneg fun _ => sq_nonneg _)
  have hi : 0 < (L.get i).weight * (L.get i).weight *
    ∫ z, (μ.real ((L.get i).region z.1 ×ˢ (L.get i).region z.2) -
      unitLine.real ((L.get i).region z.1) * unitLine.real ((L.get i).region z.2)) ^ 2 ∂unitSquare.prod unitSquare :=
    mul_pos (mul_pos (hw _ (List.get_mem L i)) (hw _ (List.get_mem L i))) h
  unfold boxDiscrepancy
  refine Finset.sum_pos' (fun a _ => Finset.sum_nonneg fun b _ => hnn a b) ⟨i, Finset.mem_univ _, ?_⟩
  exact Finset.sum_pos' (fun b _ => hnn i b) ⟨i, Finset.mem_univ _, hi⟩

theorem square_integrable {Ja Jb : ℝ × ℝ → Set ℝ} (ha : MeasSide Ja) (hb : MeasSide Jb) (μ : Measure (ℝ × ℝ))
    [IsProbabilityMeasure μ] :
    Integrable (fun z : (ℝ × ℝ) × (ℝ × ℝ) => (μ.real (Ja z.1 ×ˢ Jb z.2) - unitLine.real (Ja z.1) * unitLine.real (Jb z.2)) ^ 2)
      (unitSquare.prod unitSquare) := by
  have m1 : Measurable fun z : (ℝ × ℝ) × (ℝ × ℝ) => μ.real (Ja z.1 ×ˢ Jb z.2) :=
    (measurable_measure_prodMk_left (measurable_boxes ha hb)).ennreal_toReal
  have m2 : Measurable fun s : ℝ × ℝ => unitLine.real (Ja s) := (measurable_measure_prodMk_left ha).ennreal_toReal
  have m3 : Measurable fun s : ℝ × ℝ => unitLine.real (Jb s) := (measurable_measure_prodMk_left hb).ennreal_toReal
  refine Integrable.of_bound ((m1.sub ((m2.comp measurable_fst).mul (m3.comp measurable_snd))).pow_const 2).aestronglyMeasurable 1
    (ae_of_all _ fun z => ?_)
  rw [Real.norm_of_nonneg (sq_nonneg _)]
  have a1 : 0 ≤ μ.real (Ja z.1 ×ˢ Jb z.2) := measureReal_nonneg
  have a2 : μ.real (Ja z.1 ×ˢ Jb z.2) ≤ 1 := measureReal_le_one
  have a3 : 0 ≤ unitLine.real (Ja z.1) * unitLine.real (Jb z.2) := mul_nonneg measureReal_nonneg measureReal_nonneg
  have a4 : unitLine.real (Ja z.1) * unitLine.real (Jb z.2) ≤ 1 := mul_le_one₀ measureReal_le_one measureReal_nonneg measureReal_le_one
  rw [sq_le_one_iff_abs_le_one, abs_le]
  constructor <;> linarith

/-- A family of sides with constant probability and different areas on two sets of parameters. -/
theorem boxTerm_pos (J : ℝ × ℝ → Set ℝ) (hJ : MeasSide J) (μ : Measure (ℝ × ℝ)) [IsProbabilityMeasure μ] (B C : Set ℝ)
    (hB : unitLine B ≠ 0) (hC : unitLine C ≠ 0) (c : ℝ)
    (h1 : ∀ z : (ℝ × ℝ) × (ℝ × ℝ), z.1.1 ∈ B → z.2.1 ∈ B → μ.real (J z.1 ×ˢ J z.2) = c)
    (h2 : ∀ z : (ℝ × ℝ) × (ℝ × ℝ), z.1.1 ∈ C → z.2.1 ∈ C → μ.real (J z.1 ×ˢ J z.2) = c) (t : ℝ) (ht : 0 ≤ t)
    (h3 : ∀ s : ℝ × ℝ, s.1 ∈ B → unitLine.real (J s) < t) (h4 : ∀ s : ℝ × ℝ, s.1 ∈ C → t < unitLine.real (J s)) :
    0 < boxTerm J μ := by
  refine lt_of_le_of_ne (integral_nonneg fun _ => sq_nonneg _) fun h0 => ?_
  have hae := (integral_eq_zero_iff_of_nonneg (μ := unitSquare.prod unitSquare) (fun _ => sq_nonneg _)
    (square_integrable hJ hJ μ)).mp h0.symm
  have hpos : ∀ D : Set ℝ, unitLine D ≠ 0 → (unitSquare.prod unitSquare) ((D ×ˢ univ) ×ˢ (D ×ˢ univ)) ≠ 0 := by
    intro D hD
    simp only [unitSquare, Measure.prod_prod, measure_univ, mul_one]
    exact mul_ne_zero hD hD
  obtain ⟨z, ⟨⟨hz1, -⟩, ⟨hz2, -⟩⟩, hz⟩ := exists_mem_of_ae _ _ hae _ (hpos B hB)
  obtain ⟨w, ⟨⟨hw1, -⟩, ⟨hw2, -⟩⟩, hw⟩ := exists_mem_of_ae _ _ hae _ (hpos C hC)
  have ez : c = unitLine.real (J z.1) * unitLine.real (J z.2) := by
    have : (μ.real (J z.1 ×ˢ J z.2) - unitLine.real (J z.1) * unitLine.real (J z.2)) ^ 2 = 0 := hz
    rw [h1 z hz1 hz2] at this
    have := pow_eq_zero_iff (two_ne_zero) |>.mp this
    linarith
  have ew : c = unitLine.real (J w.1) * unitLine.real (J w.2) := by
    have : (μ.real (J w.1 ×ˢ J w.2) - unitLine.real (J w.1) * unitLine.real (J w.2)) ^ 2 = 0 := hw
    rw [h2 w hw1 hw2] at this
    have := pow_eq_zero_iff (two_ne_zero) |>.mp this
    linarith
  have l1 : unitLine.real (J z.1) * unitLine.real (J z.2) ≤ t * t :=
    mul_le_mul (h3 _ hz1).le (h3 _ hz2).le measureReal_nonneg ht
  have l2 : t * t < unitLine.real (J w.1) * unitLine.real (J w.2) :=
    mul_lt_mul'' (h4 _ hw1) (h4 _ hw2) ht ht
  linarith

theorem exists_top_gap (pts : List (ℝ × ℝ)) : ∃ ε, 0 < ε ∧ ε < 1 / 2 ∧
    ∀ p ∈ pts, (p.1 ≤ 1 - ε ∨ 1 ≤ p.1) ∧ (p.2 ≤ 1 - ε ∨ 1 ≤ p.2) := by
  have one : ∀ x : ℝ, ∃ ε, 0 < ε ∧ ∀ ε' ≤ ε, x ≤ 1 - ε' ∨ 1 ≤ x := by
    intro x
    rcases lt_or_ge x 1 with h | h
    · exact ⟨1 - x, by linarith, fun ε' h' => Or.inl (by linarith)⟩
    · exact ⟨1, one_pos, fun _ _ => Or.inr h⟩
  induction pts with
  | nil => exact ⟨1 / 4, by norm_num, by norm_num, by simp⟩
  | cons p pts ih =>
    obtain ⟨ε, h0, h1, h2⟩ := ih
    obtain ⟨ε1, a1, b1⟩ := one p.1
    obtain ⟨ε2, a2, b2⟩ := one p.2
    refine ⟨min ε (min ε1 ε2), lt_min h0 (lt_min a1 a2), (min_le_left _ _).trans_lt h1, ?_⟩
    have l1 : min ε (min ε1 ε2) ≤ ε := min_le_left _ _
    have l2 : min ε (min ε1 ε2) ≤ ε1 := (min_le_right _ _).trans (min_le_left _ _)
    have l3 : min ε (min ε1 ε2) ≤ ε2 := (min_le_right _ _).trans (min_le_right _ _)
    intro q hq
    rcases List.mem_cons.mp hq with rfl | hq
    · exact ⟨b1 _ l2, b2 _ l3⟩
    · obtain ⟨c1, c2⟩ := h2 q hq
      refine ⟨c1.imp (fun h => by linarith) id, c2.imp (fun h => by linarith) id⟩

/-- Sets that contain the same points have the same probability. -/
theorem empirical_congr (pts : List (ℝ × ℝ)) (A B : Set (ℝ × ℝ)) (hA : MeasurableSet A) (hB : MeasurableSet B)
    (h : ∀ p ∈ pts, p ∈ A ↔ p ∈ B) : (empirical pts).real A = (empirical pts).real B := by
  have hm : MeasurableSet {p | p ∈ A ↔ p ∈ B} := by
    have : {p | p ∈ A ↔ p ∈ B} = (A ∩ B) ∪ (Aᶜ ∩ Bᶜ) := by
      ext p
      simp only [mem_setOf_eq, mem_union, mem_inter_iff, mem_compl_iff]
      tauto
    rw [this]
    exact (hA.inter hB).union (hA.compl.inter hB.compl)
  have hae := empirical_ae pts _ hm h
  refine measureReal_congr ?_
  filter_upwards [hae] with p hp
  exact propext hp

/-- A family of sides whose end moves between the largest coordinate and 1. -/
theorem empirical_term_pos (J : ℝ × ℝ → Set ℝ) (hJ : MeasSide J) (pts : List (ℝ × ℝ)) (hne : pts ≠ [])
    (hmem : ∀ (s t : ℝ × ℝ) (x : ℝ), 1 / 2 ≤ s.1 → 1 / 2 ≤ t.1 → ((x ≤ s.1 ∧ x ≤ t.1) ∨ (s.1 < x ∧ t.1 < x)) →
      x ≠ s.1 → x ≠ t.1 → (x ∈ J s ↔ x ∈ J t))
    (hlen : (∀ s : ℝ × ℝ, 1 / 2 ≤ s.1 → s.1 < 1 → unitLine.real (J s) = s.1) ∨
      ∀ s : ℝ × ℝ, 1 / 2 ≤ s.1 → s.1 < 1 → unitLine.real (J s) = 1 - s.1) : 0 < boxTerm J (empirical pts) := by
  have := empirical_prob pts hne
  obtain ⟨ε, h0, h1, hgap⟩ := exists_top_gap pts
  have hside : ∀ s, MeasurableSet (J s) := fun s => measurable_prodMk_left hJ
  have hconst : ∀ z w : (ℝ × ℝ) × (ℝ × ℝ), z.1.1 ∈ Ioo (1 - ε) 1 → z.2.1 ∈ Ioo (1 - ε) 1 → w.1.1 ∈ Ioo (1 - ε) 1 →
      w.2.1 ∈ Ioo (1 - ε) 1 → (empirical pts).real (J z.1 ×ˢ J z.2) = (empirical pts).real (J w.1 ×ˢ J w.2) := by
    intro z w a1 a2 a3 a4
    refine empirical_congr pts _ _ ((hside _).prod (hside _)) ((hside _).prod (hside _)) fun p hp => ?_
    obtain ⟨g1, g2⟩ := hgap p hp
    have e1 : p.1 ∈ J z.1 ↔ p.1 ∈ J w.1 := by
      refine hmem _ _ _ (by linarith [a1.1]) (by linarith [a3.1]) ?_ ?_ ?_
      · rcases g1 with g | g
        · exact Or.inl ⟨by linarith [a1.1], by linarith [a3.1]⟩
        · exact Or.inr ⟨by linarith [a1.2], by linarith [a3.2]⟩
      · rintro e; rcases g1 with g | g <;> linarith [a1.1, a1.2]
      · rintro e; rcases g1 with g | g <;> linarith [a3.1, a3.2]
    have e2 : p.2 ∈ J z.2 ↔ p.2 ∈ J w.2 := by
      refine hmem _ _ _ (by linarith [a2.1]) (by linarith [a4.1]) ?_ ?_ ?_
      · rcases g2 with g | g
        · exact Or.inl ⟨by linarith [a2.1], by linarith [a4.1]⟩
        · exact Or.inr ⟨by linarith [a2.2], by linarith [a4.2]⟩
      · rintro e; rcases g2 with g | g <;> linarith [a2.1, a2.2]
      · rintro e; rcases g2 with g | g <;> linarith [a4.1, a4.2]
    rw [mem_prod, mem_prod, e1, e2]
  have hz0 : ((1 - ε / 2 : ℝ)) ∈ Ioo (1 - ε) 1 := ⟨by linarith, by linarith⟩
  have hB : unitLine (Ioo (1 - ε) (1 - ε / 2)) ≠ 0 := unitLine_Ioo_ne (by linarith) (by linarith) (by linarith)
  have hC : unitLine (Ioo (1 - ε / 2) 1) ≠ 0 := unitLine_Ioo_ne (by linarith) (by linarith) le_rfl
  have sub1 : ∀ s ∈ Ioo (1 - ε) (1 - ε / 2), s ∈ Ioo (1 - ε) 1 := fun s hs => ⟨hs.1, by linarith [hs.2]⟩
  have sub2 : ∀ s ∈ Ioo (1 - ε / 2) 1, s ∈ Ioo (1 - ε) 1 := fun s hs => ⟨by linarith [hs.1], hs.2⟩
  have k1 := fun (z : (ℝ × ℝ) × (ℝ × ℝ)) (a : z.1.1 ∈ Ioo (1 - ε) (1 - ε / 2)) (b : z.2.1 ∈ Ioo (1 - ε) (1 - ε / 2)) =>
    hconst z ((1 - ε / 2, 0), (1 - ε / 2, 0)) (sub1 _ a) (sub1 _ b) hz0 hz0
  have k2 := fun (z : (ℝ × ℝ) × (ℝ × ℝ)) (a : z.1.1 ∈ Ioo (1 - ε / 2) 1) (b : z.2.1 ∈ Ioo (1 - ε / 2) 1) =>
    hconst z ((1 - ε / 2, 0), (1 - ε / 2, 0)) (sub2 _ a) (sub2 _ b) hz0 hz0
  rcases hlen with hlen | hlen
  · refine boxTerm_pos J hJ _ _ _ hB hC _ k1 k2 (1 - ε / 2) (by linarith) (fun s hs => ?_) (fun s hs => ?_)
    · rw [hlen s (by linarith [hs.1]) (by linarith [hs.2])]; exact hs.2
    · rw [hlen s (by linarith [hs.1]) (by linarith [hs.2])]; exact hs.1
  · refine boxTerm_pos J hJ _ _ _ hC hB _ k2 k1 (ε / 2) (by linarith) (fun s hs => ?_) (fun s hs => ?_)
    · rw [hlen s (by linarith [hs.1]) (by linarith [hs.2])]; linarith [hs.1]
    · rw [hlen s (by linarith [hs.1]) (by linarith [hs.2])]; linarith [hs.2]

theorem length_origin {s : ℝ × ℝ} (h0 : 0 ≤ s.1) (h1 : s.1 ≤ 1) : unitLine.real (originSide s) = s.1 := by
  have := unitLine_between (originSide s) 0 s.1 h0 le_rfl h1 (fun t _ g => g) (fun t g g0 _ => ⟨g0, le_of_lt g⟩)
  rw [this]; ring

theorem length_corner_high {s : ℝ × ℝ} (h0 : 1 / 2 ≤ s.1) (h1 : s.1 ≤ 1) : unitLine.real (cornerSide s) = 1 - s.1 :=
  unitLine_between (cornerSide s) s.1 1 h1 (by linarith) le_rfl (fun t g _ => Or.inr ⟨h0, g.le⟩) (by
    rintro t (⟨a, b⟩ | ⟨a, b⟩) g0 g1
    · linarith
    · exact ⟨b, g1⟩)

theorem length_corner_low {s : ℝ × ℝ} (h0 : 0 ≤ s.1) (h1 : s.1 < 1 / 2) : unitLine.real (cornerSide s) = s.1 := by
  have := unitLine_between (cornerSide s) 0 s.1 h0 le_rfl (by linarith) (fun t _ g => Or.inl ⟨h1, g.le⟩) (by
    rintro t (⟨a, b⟩ | ⟨a, b⟩) g0 g1
    · exact ⟨g0, b⟩
    · linarith)
  rw [this]; ring

theorem length_far_high {s : ℝ × ℝ} (h0 : 1 / 2 ≤ s.1) (h1 : s.1 ≤ 1) : unitLine.real (farSide s) = s.1 := by
  have := unitLine_between (farSide s) 0 s.1 (by linarith) le_rfl h1 (fun t _ g => Or.inr ⟨h0, g.le⟩) (by
    rintro t (⟨a, b⟩ | ⟨a, b⟩) g0 g1
    · linarith
    · exact ⟨g0, b⟩)
  rw [this]; ring

theorem length_far_low {s : ℝ × ℝ} (h0 : 0 ≤ s.1) (h1 : s.1 < 1 / 2) : unitLine.real (farSide s) = 1 - s.1 :=
  unitLine_between (farSide s) s.1 1 (by linarith) h0 le_rfl (fun t g _ => Or.inl ⟨h1, g.le⟩) (by
    rintro t (⟨a, b⟩ | ⟨a, b⟩) g0 g1
    · exact ⟨b, g1⟩
    · linarith)

theorem length_wrap {s : ℝ × ℝ} (h0 : 0 ≤ s.1) (h1 : s.1 ≤ s.2) (h2 : s.2 ≤ 1) : unitLine.real (wrapSide s) = s.2 - s.1 :=
  unitLine_between (wrapSide s) s.1 s.2 h1 h0 h2 (fun t g g' => Or.inl ⟨h1, g.le, g'⟩) (by
    rintro t (⟨a, b, c⟩ | ⟨a, b⟩) g0 g1
    · exact ⟨b, c.le⟩
    · linarith)

/-- Every method gives finitely many points a positive value. -/
theorem empirical_disc_pos (m : String) (disc : List (ℝ × ℝ) → ℝ) (hm : discMethod Real.sqrt m = .ok disc)
    (pts : List (ℝ × ℝ)) (hne : pts ≠ []) (hbox : ∀ p ∈ pts, p ∈ unitBox) :
    0 < boxDiscrepancy (methodSides m) (empirical pts) := by
  have hw := methodSides_weight m
  by_cases h1 : m = "CD"
  · refine boxDiscrepancy_pos _ hw _ ⟨1, cornerSide⟩ (by simp [methodSides, h1]) ?_
    refine empirical_term_pos cornerSide measSide_corner pts hne (fun s t x hs ht h n1 n2 => ?_)
      (Or.inr fun s a b => length_corner_high a b.le)
    constructor
    · rintro (⟨a, b⟩ | ⟨a, b⟩)
      · linarith
      · rcases h with ⟨h, -⟩ | ⟨-, h⟩
        · exact absurd (le_antisymm h b) n1
        · exact Or.inr ⟨ht, h.le⟩
    · rintro (⟨a, b⟩ | ⟨a, b⟩)
      · linarith
      · rcases h with ⟨-, h⟩ | ⟨h, -⟩
        · exact absurd (le_antisymm h b) n2
        · exact Or.inr ⟨hs, h.le⟩
  by_cases h2 : m = "WD"
  · subst h2
    have := empirical_prob pts hne
    have h3 := disc_double "WD" disc hm pts hne
    rw [if_neg (by decide)] at h3
    rw [boxDiscrepancy_kernel _ _ (empirical_ae pts _ measurableSet_unitBox hbox),
      double_empirical pts hne hbox _ (continuous_kernel _), ← h3]
    obtain rfl : discWD = disc := by
      unfold discMethod at hm
      rw [if_neg (by decide), if_pos rfl] at hm
      exact Except.ok.inj hm
    exact discWD_pos _ hne fun p hp => hbox p hp
  by_cases h3 : m = "MD"
  · refine boxDiscrepancy_pos _ hw _ ⟨1 / 2, farSide⟩ (by simp [methodSides, h3]) ?_
    refine empirical_term_pos farSide measSide_far pts hne (fun s t x hs ht h n1 n2 => ?_)
      (Or.inl fun s a b => length_far_high a b.le)
    constructor
    · rintro (⟨a, b⟩ | ⟨a, b⟩)
      · linarith
      · rcases h with ⟨-, h⟩ | ⟨h, -⟩
        · exact Or.inr ⟨ht, h⟩
        · exact absurd b (not_le.mpr h)
    · rintro (⟨a, b⟩ | ⟨a, b⟩)
      · linarith
      · rcases h with ⟨h, -⟩ | ⟨-, h⟩
        · exact Or.inr ⟨hs, h⟩
        · exact absurd b (not_le.mpr h)
  · refine boxDiscrepancy_pos _ hw _ ⟨1, originSide⟩ (by simp [methodSides, h1, h2, h3]) ?_
    refine empirical_term_pos originSide measSide_origin pts hne (fun s t x hs ht h n1 n2 => ?_)
      (Or.inl fun s a b => length_origin (by linarith) b.le)
    constructor
    · intro g
      rcases h with ⟨-, h⟩ | ⟨h, -⟩
      · exact lt_of_le_of_ne h n2
      · exact absurd g (not_lt.mpr h.le)
    · intro g
      rcases h with ⟨h, -⟩ | ⟨-, h⟩
      · exact lt_of_le_of_ne h n1
      · exact absurd g (not_lt.mpr h.le)

/-! ### One variable -/

/-- A distribution on `[0, 1]` with nearly the right distribution function at a dense set of points is uniform. -/
theorem eq_unitLine (ν : Measure ℝ) [IsProbabilityMeasure ν] (h01 : ∀ᵐ y ∂ν, y ∈ Icc (0 : ℝ) 1)
    (h1 : ∀ u v η : ℝ, 0 < u → u < v → v < 1 → 0 < η → ∃ t ∈ Ioo u v, t - η ≤ ν.real (Iic t))
    (h2 : ∀ u v η : ℝ, 0 < u → u < v → v < 1 → 0 < η → ∃ t ∈ Ioo u v, ν.real (Iio t) ≤ t + η) : ν = unitLine := by
  refine Measure.ext_of_Iic ν unitLine fun a => ?_
  have key : ν.real (Iic a) = unitLine.real (Iic a) := by
    rcases lt_or_ge a 0 with ha | ha
    · have hsub : Iic a ⊆ {y | ¬y ∈ Icc (0 : ℝ) 1} := by
        intro y hy hc
        have : y ≤ a := hy
        linarith [hc.1]
      have e1 : ν (Iic a) = 0 := measure_mono_null hsub (ae_iff.mp h01)
      have e2 := unitLine_empty (Iic a) fun s (hs : s ≤ a) g0 _ => by linarith
      rw [e2, measureReal_def, e1]; rfl
    rcases le_or_gt 1 a with ha1 | ha1
    · have e1 : ν (Iic a) = 1 := by
        rw [prob_compl_eq_zero_iff measurableSet_Iic |>.symm]
        have hsub : (Iic a)ᶜ ⊆ {y | ¬y ∈ Icc (0 : ℝ) 1} := by
          intro y hy hc
          exact hy (hc.2.trans ha1)
        exact measure_mono_null hsub (ae_iff.mp h01)
      have e2 := unitLine_between (Iic a) 0 1 zero_le_one le_rfl le_rfl (fun s _ g => g.le.trans ha1) fun s _ g0 g1 => ⟨g0, g1⟩
      rw [e2, measureReal_def, e1]; simp
    · have e2 := unitLine_between (Iic a) 0 a ha le_rfl ha1.le (fun s _ g => g.le) fun s g g0 _ => ⟨g0, g⟩
      rw [e2, sub_zero]
      refine le_antisymm (le_of_forall_pos_le_add fun η hη => ?_) (le_of_forall_pos_le_add fun η hη => ?_)
      · obtain ⟨t, ht, h⟩ := h2 (max a (min (a + η / 4) ((a + 1) / 2))) (min (a + η / 2) ((a + 3) / 4)) (η / 2)
          (by
            refine lt_of_lt_of_le ?_ (le_max_right _ _)
            exact lt_min (by linarith) (by linarith))
          (by
            refine max_lt (lt_min (by linarith) (by linarith)) (lt_min ?_ ?_)
            · exact (min_le_left _ _).trans_lt (by linarith)
            · exact (min_le_right _ _).trans_lt (by linarith))
          ((min_le_right _ _).trans_lt (by linarith)) (by linarith)
        have hat : a < t := lt_of_le_of_lt (le_max_left _ _) ht.1
        have htb : t < a + η / 2 := ht.2.trans_le (min_le_left _ _)
        have : ν.real (Iic a) ≤ ν.real (Iio t) := measureReal_mono fun y (hy : y ≤ a) => lt_of_le_of_lt hy hat
        linarith
      · rcases le_or_gt a η with hs | hs
        · have : 0 ≤ ν.real (Iic a) := measureReal_nonneg
          linarith
        · obtain ⟨t, ht, h⟩ := h1 (a - η / 2) a (η / 2) (by linarith) (by linarith) ha1 (by linarith)
          have : ν.real (Iic t) ≤ ν.real (Iic a) := measureReal_mono fun y (hy : y ≤ t) => hy.trans ht.2.le
          linarith [ht.1]
  rw [measureReal_def, measureReal_def] at key
  exact (ENNReal.toReal_eq_toReal_iff' (measure_ne_top _ _) (measure_ne_top _ _)).mp key

theorem lineDiscrepancy_zero_side (L : List Side) (hw : ∀ a ∈ L, 0 < a.weight) (hL : ∀ a ∈ L, MeasSide a.region) (ν : Measure ℝ)
    [IsProbabilityMeasure ν] (h : lineDiscrepancy L ν = 0) (a : Side) (ha : a ∈ L) :
    ∀ᵐ t ∂unitSquare, ν.real (a.region t) = unitLine.real (a.region t) := by
  obtain ⟨i, rfl⟩ := List.get_of_mem ha
  have hnn : ∀ b ∈ (Finset.univ : Finset (Fin L.length)), 0 ≤ (L.get b).weight *
      ∫ t, (ν.real ((L.get b).region t) - unitLine.real ((L.get b).region t)) ^ 2 ∂unitSquare :=
    fun b _ => mul_nonneg (hw _ (List.get_mem L b)).le (integral_nonneg fun _ => sq_nonneg _)
  have hi := (Finset.sum_eq_zero_iff_of_nonneg hnn).mp h i (Finset.mem_univ _)
  have h0 := (mul_eq_zero.mp hi).resolve_left (hw _ (List.get_mem L i)).ne'
  have hm := hL _ (List.get_mem L i)
  have m1 : Measurable fun s : ℝ × ℝ => ν.real ((L.get i).region s) := (measurable_measure_prodMk_left hm).ennreal_toReal
  have m2 : Measurable fun s : ℝ × ℝ => unitLine.real ((L.get i).region s) := (measurable_measure_prodMk_left hm).ennreal_toReal
  have hint : Integrable (fun t => (ν.real ((L.get i).region t) - unitLine.real ((L.get i).region t)) ^ 2) unitSquare := by
    refine Integrable.of_bound ((m1.sub m2).pow_const 2).aestronglyMeasurable 1 (ae_of_all _ fun z => ?_)
    rw [Real.norm_of_nonneg (sq_nonneg _), sq_le_one_iff_abs_le_one, abs_le]
    have a1 : 0 ≤ ν.real ((L.get i).region z) := measureReal_nonneg
    have a2 : ν.real ((L.get i).region z) ≤ 1 := measureReal_le_one
    have a3 : 0 ≤ unitLine.real ((L.get i).region z) := measureReal_nonneg
    have a4 : unitLine.real ((L.get i).region z) ≤ 1 := measureReal_le_one
    constructor <;> linarith
  filter_upwards [(integral_eq_zero_iff_of_nonneg (fun _ => sq_nonneg _) hint).mp h0] with t ht
  have : (ν.real ((L.get i).region t) - unitLine.real ((L.get i).region t)) ^ 2 = 0 := ht
  have := pow_eq_zero_iff (two_ne_zero) |>.mp this
  linarith

theorem exists_param {p : ℝ × ℝ → Prop} (h : ∀ᵐ t ∂unitSquare, p t) (A B : Set ℝ) (hA : unitLine A ≠ 0) (hB : unitLine B ≠ 0) :
    ∃ t, t.1 ∈ A ∧ t.2 ∈ B ∧ p t := by
  obtain ⟨t, ⟨h1, h2⟩, h3⟩ := exists_mem_of_ae _ _ h (A ×ˢ B) (by
    rw [unitSquare, Measure.prod_prod]; exact mul_ne_zero hA hB)
  exact ⟨t, h1, h2, h3⟩

/-- The discrepancy of one variable vanishes exactly for the uniform distribution. -/
theorem lineDiscrepancy_eq_zero_iff (m : String) (ν : Measure ℝ) [IsProbabilityMeasure ν] (h01 : ∀ᵐ y ∂ν, y ∈ Icc (0 : ℝ) 1) :
    lineDiscrepancy (methodSides m) ν = 0 ↔ ν = unitLine := by
  constructor
  swap
  · rintro rfl
    unfold lineDiscrepancy
    simp
  intro h
  have hz := fun a ha => lineDiscrepancy_zero_side _ (methodSides_weight m) (methodSides_meas m) ν h a ha
  have huniv : unitLine univ ≠ 0 := by simp
  have hcompl : ∀ t : ℝ, ν.real (Ici t) = 1 - ν.real (Iio t) := by
    intro t
    have := measureReal_compl (μ := ν) (s := Iio t) measurableSet_Iio
    rw [compl_Iio] at this
    simpa using this
  have hii : ∀ t : ℝ, ν.real (Iio t) ≤ ν.real (Iic t) := fun t => measureReal_mono Iio_subset_Iic_self
  -- one exact point in every interval is enough
  have done : (∀ u v : ℝ, 0 < u → u < v → v < 1 → ∃ t ∈ Ioo u v, ν.real (Iio t) = t ∨ ν.real (Iic t) = t) → ν = unitLine := by
    intro hd
    refine eq_unitLine ν h01 ?_ ?_
    · intro u v η h0 h1 h2 h3
      obtain ⟨t, ht, e⟩ := hd u v h0 h1 h2
      refine ⟨t, ht, ?_⟩
      rcases e with e | e <;> linarith [hii t]
    · intro u v η h0 h1 h2 h3
      obtain ⟨t, ht, e⟩ := hd u v h0 h1 h2
      refine ⟨t, ht, ?_⟩
      rcases e with e | e <;> linarith [hii t]
  by_cases h1 : m = "CD"
  · refine done fun u v hu huv hv => ?_
    obtain ⟨t, ht, -, e⟩ := exists_param (hz ⟨1, cornerSide⟩ (by simp [methodSides, h1])) (Ioo u v) univ
      (unitLine_Ioo_ne hu.le huv hv.le) huniv
    refine ⟨t.1, ht, ?_⟩
    rcases lt_or_ge t.1 (1 / 2) with h | h
    · right
      rw [length_corner_low (by linarith [ht.1]) h] at e
      have : cornerSide t = Iic t.1 := by
        ext x
        constructor
        · rintro (⟨a, b⟩ | ⟨a, b⟩)
          · exact b
          · linarith
        · intro g; exact Or.inl ⟨h, g⟩
      simp only [this] at e
      exact e
    · left
      rw [length_corner_high h (by linarith [ht.2])] at e
      have : cornerSide t = Ici t.1 := by
        ext x
        constructor
        · rintro (⟨a, b⟩ | ⟨a, b⟩)
          · linarith
          · exact b
        · intro g; exact Or.inr ⟨h, g⟩
      simp only [this, hcompl] at e
      linarith
  by_cases h2 : m = "WD"
  · have hw := hz ⟨1, wrapSide⟩ (by simp [methodSides, h2])
    have hico : ∀ t : ℝ × ℝ, 0 ≤ t.1 → t.1 ≤ t.2 → t.2 ≤ 1 → ν.real (wrapSide t) = unitLine.real (wrapSide t) →
        ν.real (Iio t.2) = ν.real (Iio t.1) + (t.2 - t.1) := by
      intro t g0 g1 g2 e
      rw [length_wrap g0 g1 g2] at e
      have : Iio t.2 = Iio t.1 ∪ wrapSide t := by
        ext x
        constructor
        · intro g
          rcases lt_or_ge x t.1 with h | h
          · exact Or.inl h
          · exact Or.inr (Or.inl ⟨g1, h, g⟩)
        · rintro (g | ⟨a, b, c⟩ | ⟨a, b⟩)
          · exact lt_of_lt_of_le g g1
          · exact c
          · linarith
      have hd : Disjoint (Iio t.1) (wrapSide t) := by
        rw [Set.disjoint_left]
        rintro x g (⟨a, b, c⟩ | ⟨a, b⟩)
        · exact absurd g (not_lt.mpr b)
        · linarith
      have hms : MeasurableSet (wrapSide t) := measurable_prodMk_left measSide_wrap
      rw [this, measureReal_union hd hms, e]
    refine eq_unitLine ν h01 ?_ ?_
    · intro u v η h0 huv h2 h3
      obtain ⟨t, ht1, ht2, e⟩ := exists_param hw (Ioo 0 (min u η)) (Ioo u v)
        (unitLine_Ioo_ne le_rfl (lt_min h0 h3) ((min_le_left _ _).trans (by linarith))) (unitLine_Ioo_ne h0.le huv h2.le)
      have l1 : t.1 < u := ht1.2.trans_le (min_le_left _ _)
      have l2 : t.1 < η := ht1.2.trans_le (min_le_right _ _)
      have := hico t ht1.1.le (by linarith [ht2.1]) (by linarith [ht2.2]) e
      refine ⟨t.2, ht2, ?_⟩
      have : 0 ≤ ν.real (Iio t.1) := measureReal_nonneg
      linarith [hii t.2]
    · intro u v η h0 huv h2 h3
      obtain ⟨t, ht1, ht2, e⟩ := exists_param hw (Ioo u v) (Ioo (max v (1 - η)) 1)
        (unitLine_Ioo_ne h0.le huv h2.le) (unitLine_Ioo_ne ((by linarith : (0 : ℝ) ≤ v).trans (le_max_left _ _)) (max_lt h2 (by linarith)) le_rfl)
      have l1 : v < t.2 := (le_max_left _ _).trans_lt ht2.1
      have l2 : 1 - η < t.2 := (le_max_right _ _).trans_lt ht2.1
      have := hico t (by linarith [ht1.1]) (by linarith [ht1.2]) ht2.2.le e
      refine ⟨t.1, ht1, ?_⟩
      have : ν.real (Iio t.2) ≤ 1 := measureReal_le_one
      linarith
  by_cases h3 : m = "MD"
  · refine done fun u v hu huv hv => ?_
    obtain ⟨t, ht, -, e⟩ := exists_param (hz ⟨1 / 2, farSide⟩ (by simp [methodSides, h3])) (Ioo u v) univ
      (unitLine_Ioo_ne hu.le huv hv.le) huniv
    refine ⟨t.1, ht, ?_⟩
    rcases lt_or_ge t.1 (1 / 2) with h | h
    · left
      rw [length_far_low (by linarith [ht.1]) h] at e
      have : farSide t = Ici t.1 := by
        ext x
        constructor
        · rintro (⟨a, b⟩ | ⟨a, b⟩)
          · exact b
          · linarith
        · intro g; exact Or.inl ⟨h, g⟩
      simp only [this, hcompl] at e
      linarith
    · right
      rw [length_far_high h (by linarith [ht.2])] at e
      have : farSide t = Iic t.1 := by
        ext x
        constructor
        · rintro (⟨a, b⟩ | ⟨a, b⟩)
          · linarith
          · exact b
        · intro g; exact Or.inr ⟨h, g⟩
      simp only [this] at e
      exact e
  · refine done fun u v hu huv hv => ?_
    obtain ⟨t, ht, -, e⟩ := exists_param (hz ⟨1, originSide⟩ (by simp [methodSides, h1, h2, h3])) (Ioo u v) univ
      (unitLine_Ioo_ne hu.le huv hv.le) huniv
    refine ⟨t.1, ht, Or.inl ?_⟩
    rw [length_origin (by linarith [ht.1]) (by linarith [ht.2])] at e
    exact e

end SALib
