import Verif.Lemmas.Frequency
import Verif.Lemmas.LawRows
import Verif.Spec.PawnLimit
import Verif.Props.PawnAnalyze

/-!
# C122: what the PAWN indices estimate
-/

namespace SALib

open MeasureTheory ProbabilityTheory Spec

/-! ### Sample quantiles -/

theorem sorted_count (l : List ℝ) (hl : l.Pairwise (· ≤ ·)) (p : ℝ) (k : Nat) (hk : k < l.length) :
    l.getD k 0 ≤ p ↔ k < (l.filter fun x => decide (x ≤ p)).length := by
  induction l generalizing k with
  | nil => simp at hk
  | cons a l ih =>
    have hl' := List.pairwise_cons.mp hl
    by_cases ha : a ≤ p
    · rw [List.filter_cons_of_pos (by simpa using ha), List.length_cons]
      cases k with
      | zero => simp [ha]
      | succ k =>
        rw [List.getD_cons_succ, ih hl'.2 k (by simpa using hk)]
        omega
    · have hf : l.filter (fun x => decide (x ≤ p)) = [] := by
        rw [List.filter_eq_nil_iff]
        intro x hx
        have := hl'.1 x hx
        simpa using lt_of_lt_of_le (not_le.mp ha) this
      rw [List.filter_cons_of_neg (by simpa using ha), hf]
      simp only [List.length_nil, Nat.not_lt_zero, iff_false, not_le]
      cases k with
      | zero => simpa using ha
      | succ k =>
        have hk' : k < l.length := by simpa using hk
        rw [List.getD_cons_succ, List.getD, List.getElem?_eq_getElem hk', Option.getD_some]
        exact lt_of_lt_of_le (not_le.mp ha) (hl'.1 _ (List.getElem_mem hk'))

theorem quantile_between (X : List ℝ) (hX : X ≠ []) (s S : Nat) (hS : 0 < S) (hs : s ≤ S) :
    sortedAt X (s * (X.length - 1) / S) ≤ npQuantile X s S ∧
      npQuantile X s S ≤ sortedAt X (s * (X.length - 1) / S + 1) := by
  rw [npQuantile_eq X hX s S hs]
  have hmono := sortedAt_mono X hX (s * (X.length - 1) / S) (s * (X.length - 1) / S + 1) (by omega)
  have h0 : 0 ≤ ((s * (X.length - 1) % S : Nat) : ℝ) / (S : ℝ) := by positivity
  have h1 : ((s * (X.length - 1) % S : Nat) : ℝ) / (S : ℝ) ≤ 1 := by
    rw [div_le_one (by exact_mod_cast hS)]
    exact_mod_cast (Nat.mod_lt _ hS).le
  constructor <;> nlinarith

theorem filter_sort_length (X : List ℝ) (p : ℝ) :
    ((npSort X).filter fun x => decide (x ≤ p)).length = (X.filter fun x => decide (x ≤ p)).length :=
  ((npSort_perm X).filter _).length_eq

theorem lt_quantile (X : List ℝ) (hX : X ≠ []) (s S : Nat) (hS : 0 < S) (hs : s ≤ S) (p : ℝ)
    (h : (X.filter fun x => decide (x ≤ p)).length ≤ s * (X.length - 1) / S) : p < npQuantile X s S := by
  have hpos := List.length_pos_iff.mpr hX
  have hi : s * (X.length - 1) / S ≤ X.length - 1 := Nat.div_le_of_le_mul (Nat.mul_le_mul_right _ hs)
  refine lt_of_lt_of_le ?_ (quantile_between X hX s S hS hs).1
  unfold sortedAt
  rw [min_eq_left hi, ← not_le, sorted_count _ (npSort_sorted X) p _ (by rw [npSort_length]; omega), filter_sort_length]
  omega

theorem quantile_le (X : List ℝ) (hX : X ≠ []) (s S : Nat) (hS : 0 < S) (hs : s ≤ S) (p : ℝ)
    (h : s * (X.length - 1) / S + 2 ≤ (X.filter fun x => decide (x ≤ p)).length) : npQuantile X s S ≤ p := by
  have hle : (X.filter fun x => decide (x ≤ p)).length ≤ X.length := List.length_filter_le _ _
  refine (quantile_between X hX s S hS hs).2.trans ?_
  unfold sortedAt
  rw [min_eq_left (by omega), sorted_count _ (npSort_sorted X) p _ (by rw [npSort_length]; omega), filter_sort_length]
  omega

variable {d : Nat}

/-- The points below the boundary between parts `s - 1` and `s`. -/
def below (j : Fin d) (S : Nat) (p : Nat → ℝ) (s : Nat) : Set (Fin d → ℝ) := {x | s ≠ 0 ∧ (s = S ∨ x j < p s)}

/-- Column `j` of the rows. -/
def columnOf (rows : List (Fin d → ℝ)) (j : Fin d) : List ℝ := rows.map fun r => r j

theorem filter_column (rows : List (Fin d → ℝ)) (j : Fin d) (p : ℝ) :
    (((columnOf rows j).filter fun x => decide (x ≤ p)).length : ℝ) = rows.length * freq rows {x | x j ∈ Set.Iic p} := by
  classical
  rcases rows with _ | ⟨r, rows⟩
  · simp [columnOf]
  · rw [freq_eq_filter, columnOf, List.filter_map, List.length_map, mul_div_cancel₀]
    · congr 2
    · simp only [List.length_cons, Nat.cast_add, Nat.cast_one]; positivity

section levels

variable (law : Measure (Fin d → ℝ)) [IsProbabilityMeasure law] (j : Fin d) (S : Nat) (p : Nat → ℝ)

theorem exists_level (h : ∀ a, law.real {x | x j = a} = 0) (v : ℝ) (h0 : 0 < v) (h1 : v < 1) :
    ∃ q, law.real {x | x j ∈ Set.Iic q} = v := by
  have hm : Measurable fun x : Fin d → ℝ => x j := measurable_pi_apply j
  have : IsProbabilityMeasure (Measure.map (fun x : Fin d → ℝ => x j) law) := Measure.isProbabilityMeasure_map hm.aemeasurable
  obtain ⟨q, hq1, hq2⟩ := exists_freq_quantile (Measure.map (fun x : Fin d → ℝ => x j) law) v h0 h1
  rw [map_measureReal_apply hm measurableSet_Iio] at hq1
  rw [map_measureReal_apply hm measurableSet_Iic] at hq2
  refine ⟨q, le_antisymm ?_ hq2⟩
  have : {x : Fin d → ℝ | x j ∈ Set.Iic q} ⊆ ((fun x => x j) ⁻¹' Set.Iio q) ∪ {x | x j = q} := by
    intro x (hx : x j ≤ q)
    rcases lt_or_eq_of_le hx with h | h
    · exact Or.inl h
    · exact Or.inr h
  have := (measureReal_mono this (measure_ne_top law _)).trans (measureReal_union_le _ _)
  rw [h q] at this
  linarith

/-- Two sets of values of input `j` that nearly agree: the rows with a value in the first are below the sample
quantile, and the rows below the sample quantile have a value in the second. -/
theorem level_sets (h : EqualParts law j S p) (hS : 0 < S) (s : Nat) (hs : s ≤ S) (δ : ℝ) (hδ : 0 < δ)
    (hδS : δ * S < 1) :
    ∃ A B : Set ℝ, MeasurableSet A ∧ MeasurableSet B ∧ {x | x j ∈ A} ⊆ below j S p s ∧ below j S p s ⊆ {x | x j ∈ B} ∧
      law.real {x | x j ∈ B} ≤ law.real {x | x j ∈ A} + 2 * δ ∧
      ∀ rows : List (Fin d → ℝ), 4 ≤ δ * rows.length →
        |freq rows {x | x j ∈ A} - law.real {x | x j ∈ A}| ≤ δ / 2 →
        |freq rows {x | x j ∈ B} - law.real {x | x j ∈ B}| ≤ δ / 2 →
        ∀ r ∈ rows, (r j ∈ A → r j < npQuantile (columnOf rows j) s S) ∧ (r j < npQuantile (columnOf rows j) s S → r j ∈ B) := by
  have hSr : (0 : ℝ) < S := by exact_mod_cast hS
  rcases Nat.eq_zero_or_pos s with rfl | hs0
  · refine ⟨∅, ∅, MeasurableSet.empty, MeasurableSet.empty, ?_, ?_, ?_, ?_⟩
    · simp
    · intro x hx; exact absurd rfl hx.1
    · simp; exact hδ.le
    · intro rows _ _ _ r hr
      refine ⟨fun h => absurd h (Set.notMem_empty _), fun h => ?_⟩
      rw [npQuantile_zero] at h
      exact absurd h (not_lt.mpr (npSort_first_le _ _ (List.mem_map.mpr ⟨r, hr, rfl⟩)))
  · have hs1 : (1 : ℝ) ≤ s := by exact_mod_cast hs0
    have hsS : (s : ℝ) ≤ S := by exact_mod_cast hs
    have hv0 : 0 < (s : ℝ) / S - δ := by
      rw [sub_pos, lt_div_iff₀ hSr]; linarith
    have hv1 : (s : ℝ) / S - δ < 1 := by
      have : (s : ℝ) / S ≤ 1 := by rw [div_le_one hSr]; exact hsS
      linarith
    obtain ⟨a, ha⟩ := exists_level law j h.noAtom _ hv0 hv1
    -- the lower set in both cases
    have hlow : ∀ rows : List (Fin d → ℝ), 4 ≤ δ * rows.length →
        |freq rows {x | x j ∈ Set.Iic a} - law.real {x | x j ∈ Set.Iic a}| ≤ δ / 2 →
        a < npQuantile (columnOf rows j) s S := by
      intro rows hn hf
      have hne : columnOf rows j ≠ [] := by
        rintro he
        have : rows = [] := by simpa [columnOf] using he
        rw [this] at hn
        simp at hn
        linarith
      have hlen : (columnOf rows j).length = rows.length := by simp [columnOf]
      apply lt_quantile _ hne s S hS hs
      rw [hlen, Nat.le_div_iff_mul_le hS]
      have hc := filter_column rows j a
      have h1 : 1 ≤ rows.length := by rw [← hlen]; exact List.length_pos_iff.mpr hne
      rw [ha, abs_le] at hf
      have hle : freq rows {x | x j ∈ Set.Iic a} ≤ (s : ℝ) / S - δ / 2 := by linarith [hf.2]
      have hN : (0 : ℝ) ≤ rows.length := Nat.cast_nonneg _
      have h2 := mul_le_mul_of_nonneg_left hle hN
      rw [← hc] at h2
      have h3 : (rows.length : ℝ) * ((s : ℝ) / S - δ / 2) * S ≤ s * ((rows.length : ℝ) - 1) := by
        have e : (rows.length : ℝ) * ((s : ℝ) / S - δ / 2) * S = s * rows.length - (δ * rows.length) * S / 2 := by
          field_simp
        rw [e]
        nlinarith
      have h4 := (mul_le_mul_of_nonneg_right h2 hSr.le).trans h3
      rw [← Nat.cast_one, ← Nat.cast_sub h1] at h4
      exact_mod_cast h4
    rcases Nat.lt_or_ge s S with hlt | hge
    · have hv2 : (s : ℝ) / S + δ < 1 := by
        have : (s : ℝ) + 1 ≤ S := by exact_mod_cast hlt
        have h2 : (s : ℝ) / S + δ = (s + δ * S) / S := by field_simp
        rw [h2, div_lt_one hSr]; linarith
      obtain ⟨b, hb⟩ := exists_level law j h.noAtom _ (by positivity) hv2
      have hp := h.share s hs0 hlt
      have hap : a < p s := by
        by_contra hle
        have : {x : Fin d → ℝ | x j ≤ p s} ⊆ {x | x j ∈ Set.Iic a} := fun x hx => le_trans hx (not_lt.mp hle)
        have := measureReal_mono (μ := law) this
        rw [hp, ha] at this
        linarith
      have hpb : p s < b := by
        by_contra hle
        have : {x : Fin d → ℝ | x j ∈ Set.Iic b} ⊆ {x | x j ≤ p s} := fun x hx => le_trans hx (not_lt.mp hle)
        have := measureReal_mono (μ := law) this
        rw [hp, hb] at this
        linarith
      refine ⟨Set.Iic a, Set.Iic b, measurableSet_Iic, measurableSet_Iic, ?_, ?_, ?_, ?_⟩
      · intro x hx
        exact ⟨by omega, Or.inr (lt_of_le_of_lt hx hap)⟩
      · rintro x ⟨-, h | h⟩
        · omega
        · exact (h.trans hpb).le
      · rw [ha, hb]; linarith
      · intro rows hn hA hB r hr
        have hq := hlow rows hn hA
        refine ⟨fun h => lt_of_le_of_lt h hq, fun h => h.le.trans ?_⟩
        have hne : columnOf rows j ≠ [] := List.ne_nil_of_mem (List.mem_map.mpr ⟨r, hr, rfl⟩)
        have hlen : (columnOf rows j).length = rows.length := by simp [columnOf]
        apply quantile_le _ hne s S hS hs
        rw [hlen]
        have hc := filter_column rows j b
        rw [hb, abs_le] at hB
        have hle : (s : ℝ) / S + δ / 2 ≤ freq rows {x | x j ∈ Set.Iic b} := by linarith [hB.1]
        have h2 := mul_le_mul_of_nonneg_left hle (Nat.cast_nonneg (α := ℝ) rows.length)
        rw [← hc] at h2
        have h3 : ((s * (rows.length - 1) / S : Nat) : ℝ) ≤ (s : ℝ) * rows.length / S := by
          refine (Nat.cast_div_le).trans ?_
          rw [Nat.cast_mul]
          refine div_le_div_of_nonneg_right (mul_le_mul_of_nonneg_left ?_ (Nat.cast_nonneg _)) hSr.le
          exact_mod_cast Nat.sub_le _ _
        have h4 : (s : ℝ) * rows.length / S + 2 ≤ rows.length * ((s : ℝ) / S + δ / 2) := by
          have e : (rows.length : ℝ) * ((s : ℝ) / S + δ / 2) = (s : ℝ) * rows.length / S + (δ * rows.length) / 2 := by ring
          rw [e]; linarith
        have h5 : ((s * (rows.length - 1) / S : Nat) : ℝ) + 2 ≤
            (((columnOf rows j).filter fun x => decide (x ≤ b)).length : ℝ) := by linarith
        exact_mod_cast h5
    · have hsS' : s = S := le_antisymm hs hge
      refine ⟨Set.Iic a, Set.univ, measurableSet_Iic, MeasurableSet.univ, ?_, ?_, ?_, ?_⟩
      · intro x _
        exact ⟨by omega, Or.inl hsS'⟩
      · intro x _; trivial
      · have e : {x : Fin d → ℝ | x j ∈ (Set.univ : Set ℝ)} = Set.univ := by ext; simp
        rw [ha, e, hsS', div_self hSr.ne']
        simp
        linarith
      · intro rows hn hA _ r hr
        exact ⟨fun h => lt_of_le_of_lt h (hlow rows hn hA), fun _ => trivial⟩

theorem below_share (h : EqualParts law j S p) (hS : 0 < S) (s : Nat) (hs : s ≤ S) : law.real (below j S p s) = (s : ℝ) / S := by
  have hSr : (0 : ℝ) < S := by exact_mod_cast hS
  rcases Nat.eq_zero_or_pos s with rfl | hs0
  · have : below j S p 0 = ∅ := by
      ext x; simp [below]
    rw [this]; simp
  · rcases Nat.lt_or_ge s S with hlt | hge
    · rw [← h.share s hs0 hlt]
      apply le_antisymm
      · refine measureReal_mono ?_
        rintro x ⟨-, h | h⟩
        · omega
        · exact le_of_lt h
      · have : {x : Fin d → ℝ | x j ≤ p s} ⊆ below j S p s ∪ {x | x j = p s} := by
          intro x (hx : x j ≤ p s)
          rcases lt_or_eq_of_le hx with h | h
          · exact Or.inl ⟨by omega, Or.inr h⟩
          · exact Or.inr h
        have := (measureReal_mono this (measure_ne_top law _)).trans (measureReal_union_le _ _)
        rw [h.noAtom] at this
        linarith
    · have hsS : s = S := le_antisymm hs hge
      have : below j S p s = Set.univ := by
        ext x
        exact ⟨fun _ => trivial, fun _ => ⟨by omega, Or.inl hsS⟩⟩
      rw [this, hsS, div_self hSr.ne']
      simp

theorem inter_bracket (A B L U : Set (Fin d → ℝ)) (hAB : A ⊆ B) (hLU : L ⊆ U) (mA : MeasurableSet A) (mL : MeasurableSet L)
    (a b : ℝ) (h1 : law.real B ≤ law.real A + a) (h2 : law.real U ≤ law.real L + b) :
    law.real (B ∩ U) ≤ law.real (A ∩ L) + (a + b) := by
  have hsub : B ∩ U ⊆ (A ∩ L) ∪ (B \ A) ∪ (U \ L) := by
    rintro x ⟨hB, hU⟩
    by_cases hA : x ∈ A
    · by_cases hL : x ∈ L
      · exact Or.inl (Or.inl ⟨hA, hL⟩)
      · exact Or.inr ⟨hU, hL⟩
    · exact Or.inl (Or.inr ⟨hB, hA⟩)
  have h3 := (measureReal_mono hsub (measure_ne_top law _)).trans (measureReal_union_le _ _)
  have h4 := measureReal_union_le (μ := law) (A ∩ L) (B \ A)
  rw [measureReal_sdiff hLU mL] at h3
  rw [measureReal_sdiff hAB mA] at h4
  linarith

/-- When finitely many sets have nearly their share of the rows, so have, for all `t` together, the rows below the
sample quantiles with an output of at most `t`. -/
theorem cut_frequencies (G : (Fin d → ℝ) → ℝ) (hG : Measurable G) (h : EqualParts law j S p) (hS : 0 < S) (δ : ℝ)
    (hδ : 0 < δ) (hδS : δ * S < 1) :
    ∃ 𝓐 : Finset (Set (Fin d → ℝ)), (∀ A ∈ 𝓐, MeasurableSet A) ∧
      ∀ rows : List (Fin d → ℝ), 4 ≤ δ * rows.length → (∀ A ∈ 𝓐, |freq rows A - law.real A| ≤ δ / 2) →
        (∀ t, |freq rows {x | G x ≤ t} - law.real {x | G x ≤ t}| ≤ 4 * δ) ∧
        ∀ s ≤ S, |freq rows {x | x j < npQuantile (columnOf rows j) s S} - (s : ℝ) / S| ≤ 4 * δ ∧
          ∀ t, |freq rows ({x | x j < npQuantile (columnOf rows j) s S} ∩ {x | G x ≤ t}) -
            law.real (below j S p s ∩ {x | G x ≤ t})| ≤ 4 * δ := by
  classical
  have hmj : Measurable fun x : Fin d → ℝ => x j := measurable_pi_apply j
  have : IsProbabilityMeasure (Measure.map G law) := Measure.isProbabilityMeasure_map hG.aemeasurable
  obtain ⟨F, hFm, hF⟩ := exists_brackets (Measure.map G law) δ hδ
  have hlev : ∀ s : Nat, ∃ A B : Set ℝ, MeasurableSet A ∧ MeasurableSet B ∧ (s ≤ S →
      {x : Fin d → ℝ | x j ∈ A} ⊆ below j S p s ∧ below j S p s ⊆ {x | x j ∈ B} ∧
      law.real {x | x j ∈ B} ≤ law.real {x | x j ∈ A} + 2 * δ ∧
      ∀ rows : List (Fin d → ℝ), 4 ≤ δ * rows.length →
        |freq rows {x | x j ∈ A} - law.real {x | x j ∈ A}| ≤ δ / 2 →
        |freq rows {x | x j ∈ B} - law.real {x | x j ∈ B}| ≤ δ / 2 →
        ∀ r ∈ rows, (r j ∈ A → r j < npQuantile (columnOf rows j) s S) ∧
          (r j < npQuantile (columnOf rows j) s S → r j ∈ B)) := by
    intro s
    by_cases hs : s ≤ S
    · obtain ⟨A, B, mA, mB, hAB⟩ := level_sets law j S p h hS s hs δ hδ hδS
      exact ⟨A, B, mA, mB, fun _ => hAB⟩
    · exact ⟨∅, ∅, MeasurableSet.empty, MeasurableSet.empty, fun h => absurd h hs⟩
  choose A B mA mB hAB using hlev
  let 𝓓 : Finset (Set ℝ) := {Set.univ} ∪ (Finset.range (S + 1)).image A ∪ (Finset.range (S + 1)).image B
  let 𝓔 : Finset (Set ℝ) := insert Set.univ F
  have hm𝓓 : ∀ D ∈ 𝓓, MeasurableSet D := by
    intro D hD
    simp only [𝓓, Finset.mem_union, Finset.mem_singleton, Finset.mem_image] at hD
    rcases hD with (rfl | ⟨s, -, rfl⟩) | ⟨s, -, rfl⟩
    · exact MeasurableSet.univ
    · exact mA s
    · exact mB s
  have hm𝓔 : ∀ E ∈ 𝓔, MeasurableSet E := by
    intro E hE
    rcases Finset.mem_insert.mp hE with rfl | hE
    · exact MeasurableSet.univ
    · exact hFm E hE
  have huD : Set.univ ∈ 𝓓 := by simp [𝓓]
  have huE : Set.univ ∈ 𝓔 := by simp [𝓔]
  have hAD : ∀ s ≤ S, A s ∈ 𝓓 := fun s hs => Finset.mem_union_left _ (Finset.mem_union_right _
    (Finset.mem_image_of_mem A (Finset.mem_range.mpr (by omega))))
  have hBD : ∀ s ≤ S, B s ∈ 𝓓 := fun s hs => Finset.mem_union_right _
    (Finset.mem_image_of_mem B (Finset.mem_range.mpr (by omega)))
  refine ⟨(𝓓 ×ˢ 𝓔).image fun q => {x | x j ∈ q.1} ∩ {x | G x ∈ q.2}, ?_, ?_⟩
  · intro X hX
    obtain ⟨q, hq, rfl⟩ := Finset.mem_image.mp hX
    rw [Finset.mem_product] at hq
    exact (hmj (hm𝓓 _ hq.1)).inter (hG (hm𝓔 _ hq.2))
  · intro rows hn hf
    have hf' : ∀ D ∈ 𝓓, ∀ E ∈ 𝓔, |freq rows ({x | x j ∈ D} ∩ {x | G x ∈ E}) - law.real ({x | x j ∈ D} ∩ {x | G x ∈ E})| ≤
        δ / 2 := fun D hD E hE => hf _ (Finset.mem_image.mpr ⟨(D, E), Finset.mem_product.mpr ⟨hD, hE⟩, rfl⟩)
    have hfD : ∀ D ∈ 𝓓, |freq rows {x | x j ∈ D} - law.real {x | x j ∈ D}| ≤ δ / 2 := by
      intro D hD
      have := hf' D hD _ huE
      simpa using this
    have hfE : ∀ E ∈ 𝓔, |freq rows {x | G x ∈ E} - law.real {x | G x ∈ E}| ≤ δ / 2 := by
      intro E hE
      have := hf' _ huD E hE
      simpa using this
    have hF' : ∀ t, ∃ L ∈ F, ∃ U ∈ F, {x | G x ∈ L} ⊆ {x | G x ≤ t} ∧ {x | G x ≤ t} ⊆ {x | G x ∈ U} ∧
        law.real {x | G x ∈ U} ≤ law.real {x | G x ∈ L} + δ := by
      intro t
      obtain ⟨L, hL, U, hU, h1, h2, h3⟩ := hF t
      rw [map_measureReal_apply hG (hFm U hU), map_measureReal_apply hG (hFm L hL)] at h3
      exact ⟨L, hL, U, hU, fun x hx => h1 hx, fun x hx => h2 hx, h3⟩
    refine ⟨?_, ?_⟩
    · intro t
      obtain ⟨L, hL, U, hU, h1, h2, h3⟩ := hF' t
      have := freq_bracket law rows _ _ {x | G x ≤ t} {x | G x ≤ t} (fun r _ hr => h1 hr) (fun r _ hr => h2 hr) h1 h2 δ (δ / 2) h3
        (hfE L (Finset.mem_insert_of_mem hL)) (hfE U (Finset.mem_insert_of_mem hU))
      linarith
    · intro s hs
      obtain ⟨hAb, hbB, hAB2, hq⟩ := hAB s hs
      have hq' := hq rows hn (hfD _ (hAD s hs)) (hfD _ (hBD s hs))
      constructor
      · rw [← below_share law j S p h hS s hs]
        have := freq_bracket law rows _ _ {x | x j < npQuantile (columnOf rows j) s S} (below j S p s)
          (fun r hr => (hq' r hr).1) (fun r hr => (hq' r hr).2) hAb hbB (2 * δ) (δ / 2) hAB2
          (hfD _ (hAD s hs)) (hfD _ (hBD s hs))
        linarith
      · intro t
        obtain ⟨L, hL, U, hU, h1, h2, h3⟩ := hF' t
        have hbr := inter_bracket law {x | x j ∈ A s} {x | x j ∈ B s} {x | G x ∈ L} {x | G x ∈ U} (hAb.trans hbB) (h1.trans h2)
          (hmj (mA s)) (hG (hFm L hL)) _ _ hAB2 h3
        have := freq_bracket law rows ({x | x j ∈ A s} ∩ {x | G x ∈ L}) ({x | x j ∈ B s} ∩ {x | G x ∈ U})
          ({x | x j < npQuantile (columnOf rows j) s S} ∩ {x | G x ≤ t})
          (below j S p s ∩ {x | G x ≤ t}) (fun r hr hx => ⟨(hq' r hr).1 hx.1, h1 hx.2⟩)
          (fun r hr hx => ⟨(hq' r hr).2 hx.1, h2 hx.2⟩) (Set.inter_subset_inter hAb h1) (Set.inter_subset_inter hbB h2)
          (2 * δ + δ) (δ / 2) hbr (hf' _ (hAD s hs) L (Finset.mem_insert_of_mem hL))
          (hf' _ (hBD s hs) U (Finset.mem_insert_of_mem hU))
        linarith

end levels

/-! ### The Kolmogorov-Smirnov statistic -/

theorem ksMax_ge (l : List ℝ) (a : ℝ) : a ≤ l.foldl max a ∧ ∀ x ∈ l, x ≤ l.foldl max a := by
  induction l generalizing a with
  | nil => simp
  | cons b l ih =>
    have := ih (max a b)
    refine ⟨(le_max_left a b).trans this.1, ?_⟩
    intro x hx
    rcases List.mem_cons.mp hx with rfl | hx
    · exact (le_max_right a x).trans this.1
    · exact this.2 x hx

theorem ksMax_mem (l : List ℝ) (a : ℝ) : l.foldl max a = a ∨ l.foldl max a ∈ l := by
  induction l generalizing a with
  | nil => simp
  | cons b l ih =>
    rw [List.foldl_cons]
    rcases ih (max a b) with h | h
    · rcases max_choice a b with h' | h'
      · left; rw [h, h']
      · right; rw [h, h']; exact List.mem_cons_self
    · exact Or.inr (List.mem_cons_of_mem _ h)

theorem ecdf_step (l : List ℝ) (z t : ℝ) (hzt : z ≤ t) (h : ∀ x ∈ l, x ≤ t → x ≤ z) : ecdf l z = ecdf l t := by
  unfold ecdf
  have : (l.filter fun x => decide (x ≤ z)) = l.filter fun x => decide (x ≤ t) := by
    apply List.filter_congr
    intro x hx
    simp only [decide_eq_decide]
    exact ⟨fun h' => h'.trans hzt, h x hx⟩
  rw [this]

/-- The statistic bounds the distance everywhere, not only at the data points. -/
theorem le_ksStat (a b : List ℝ) (t : ℝ) : |ecdf a t - ecdf b t| ≤ ksStat a b := by
  by_cases hz : ∃ z ∈ a ++ b, z ≤ t
  · obtain ⟨z, hz, hzt⟩ := hz
    -- the largest data point up to `t`
    have hne : ((a ++ b).filter fun x => decide (x ≤ t)).toFinset.Nonempty :=
      ⟨z, List.mem_toFinset.mpr (List.mem_filter.mpr ⟨hz, by simpa using hzt⟩)⟩
    have hm := List.mem_filter.mp (List.mem_toFinset.mp (Finset.max'_mem _ hne))
    have hmax : ∀ x ∈ a ++ b, x ≤ t → x ≤ Finset.max' _ hne := fun x hx hxt =>
      Finset.le_max' _ x (List.mem_toFinset.mpr (List.mem_filter.mpr ⟨hx, by simpa using hxt⟩))
    have hmt : Finset.max' _ hne ≤ t := by simpa using hm.2
    rw [← ecdf_step a _ t hmt fun x hx => hmax x (List.mem_append_left _ hx),
      ← ecdf_step b _ t hmt fun x hx => hmax x (List.mem_append_right _ hx)]
    exact (ksMax_ge _ 0).2 _ (List.mem_map.mpr ⟨_, hm.1, rfl⟩)
  · have h0 : ∀ l : List ℝ, (∀ x ∈ l, x ∈ a ++ b) → ecdf l t = 0 := by
      intro l hl
      have : (l.filter fun x => decide (x ≤ t)) = [] := by
        rw [List.filter_eq_nil_iff]
        intro x hx
        simp only [decide_eq_true_eq]
        exact fun h => hz ⟨x, hl x hx, h⟩
      simp [ecdf, this]
    rw [h0 a fun x hx => List.mem_append_left _ hx, h0 b fun x hx => List.mem_append_right _ hx, sub_zero, abs_zero]
    exact (ksStat_range a b).1

/-- The statistic is near the largest value of every function that is near the difference. -/
theorem ksStat_near (a b : List ℝ) (g : ℝ → ℝ) (e K : ℝ) (hg : ∀ t, |g t| ≤ K)
    (h : ∀ t, |ecdf a t - ecdf b t - g t| ≤ e) : abs (ksStat a b - ⨆ t, |g t|) ≤ e := by
  have hbdd : BddAbove (Set.range fun t => |g t|) := ⟨K, by rintro _ ⟨t, rfl⟩; exact hg t⟩
  have he : 0 ≤ e := (abs_nonneg _).trans (h 0)
  rw [abs_le]
  constructor
  · have : (⨆ t, |g t|) ≤ ksStat a b + e := by
      refine ciSup_le fun t => ?_
      have h1 := h t
      have h2 := le_ksStat a b t
      rw [abs_le] at h1 h2 ⊢
      constructor <;> linarith [h1.1, h1.2, h2.1, h2.2]
    linarith
  · have h0 : 0 ≤ ⨆ t, |g t| := Real.iSup_nonneg fun t => abs_nonneg _
    rcases ksMax_mem ((a ++ b).map fun z => |ecdf a z - ecdf b z|) 0 with h' | h'
    · unfold ksStat
      rw [h']
      linarith
    · obtain ⟨z, -, hz⟩ := List.mem_map.mp h'
      have h1 : ksStat a b = |ecdf a z - ecdf b z| := hz.symm
      have h2 := h z
      have h3 := le_ciSup hbdd z
      rw [h1]
      have : |ecdf a z - ecdf b z| ≤ |ecdf a z - ecdf b z - g z| + |g z| := by
        have := abs_add_le (ecdf a z - ecdf b z - g z) (g z)
        simpa using this
      linarith

/-! ### Slices of the sample -/

theorem slice_rows (rows : List (Fin d → ℝ)) (j : Fin d) (S : Nat) (G : (Fin d → ℝ) → ℝ) (s : Nat) (hs : s < S) :
    (pawnSlice (pawnEdges (columnOf rows j) S) (columnOf rows j) s).map (fun i => (rows.map G).getD i 0) =
      (rows.filter fun r => decide (npQuantile (columnOf rows j) s S ≤ r j) &&
        decide (r j < npQuantile (columnOf rows j) (s + 1) S)).map G := by
  unfold pawnSlice
  rw [whereIdx_zip _ _ (by simp [columnOf]), pawnEdges_getD _ _ _ (by omega), pawnEdges_getD _ _ _ (by omega)]
  unfold columnOf
  rw [List.zip_map', List.filter_map, List.map_map]
  rfl

theorem ecdf_freq (rows : List (Fin d → ℝ)) (G : (Fin d → ℝ) → ℝ) (t : ℝ) :
    ecdf (rows.map G) t = freq rows {x | G x ≤ t} := by
  classical
  rw [freq_eq_filter]
  unfold ecdf
  rw [List.filter_map, List.length_map, List.length_map]
  congr 3

theorem ecdf_slice (rows : List (Fin d → ℝ)) (hr : rows ≠ []) (G : (Fin d → ℝ) → ℝ) (c : (Fin d → ℝ) → Bool) (t : ℝ) :
    ecdf ((rows.filter c).map G) t = freq rows ({x | c x = true} ∩ {x | G x ≤ t}) / freq rows {x | c x = true} := by
  classical
  have hN : (rows.length : ℝ) ≠ 0 := by exact_mod_cast (List.length_pos_iff.mpr hr).ne'
  rw [freq_eq_filter, freq_eq_filter, div_div_div_cancel_right₀ hN]
  unfold ecdf
  rw [List.filter_map, List.length_map, List.length_map, List.filter_filter]
  congr 3
  · apply List.filter_congr
    intro r _
    simp [Set.mem_inter_iff, Bool.and_comm]
  · apply List.filter_congr
    intro r _
    simp

theorem part_eq (law : Measure (Fin d → ℝ)) [IsProbabilityMeasure law] (j : Fin d) (S : Nat) (p : Nat → ℝ)
    (h : EqualParts law j S p) (s : Nat) (hs : s < S) :
    below j S p s ⊆ below j S p (s + 1) ∧ part j S p s = below j S p (s + 1) \ below j S p s := by
  have hSr : (0 : ℝ) < S := by exact_mod_cast (by omega : 0 < S)
  constructor
  · rintro x ⟨h0, h1 | h1⟩
    · omega
    · refine ⟨by omega, ?_⟩
      by_cases hlast : s + 1 = S
      · exact Or.inl hlast
      · refine Or.inr (lt_of_lt_of_le h1 ?_)
        by_contra hlt
        have : {x : Fin d → ℝ | x j ≤ p (s + 1)} ⊆ {x | x j ≤ p s} := fun x hx => le_trans hx (not_le.mp hlt).le
        have := measureReal_mono (μ := law) this
        rw [h.share s (by omega) hs, h.share (s + 1) (by omega) (by omega), div_le_div_iff_of_pos_right hSr] at this
        push_cast at this
        linarith
  · ext x
    constructor
    · rintro ⟨h1, h2⟩
      refine ⟨⟨by omega, h2⟩, ?_⟩
      rintro ⟨h3, h4 | h4⟩
      · omega
      · rcases h1 with h1 | h1
        · exact h3 h1
        · exact absurd h4 (not_lt.mpr h1)
    · rintro ⟨⟨-, h2⟩, h3⟩
      refine ⟨?_, h2⟩
      by_cases h0 : s = 0
      · exact Or.inl h0
      · right
        by_contra hlt
        exact h3 ⟨h0, Or.inr (not_le.mp hlt)⟩

theorem measurable_below (j : Fin d) (S : Nat) (p : Nat → ℝ) (s : Nat) : MeasurableSet (below j S p s) := by
  have hmj : Measurable fun x : Fin d → ℝ => x j := measurable_pi_apply j
  by_cases h0 : s = 0
  · have : below j S p s = ∅ := by
      ext x; simp [below, h0]
    rw [this]; exact MeasurableSet.empty
  · by_cases hS : s = S
    · have : below j S p s = Set.univ := by
        ext x; exact ⟨fun _ => trivial, fun _ => ⟨h0, Or.inl hS⟩⟩
      rw [this]; exact MeasurableSet.univ
    · have : below j S p s = {x | x j < p s} := by
        ext x; exact ⟨fun h => h.2.resolve_left hS, fun h => ⟨h0, Or.inr h⟩⟩
      rw [this]; exact measurableSet_lt hmj measurable_const

theorem ratio_near (S e a a' b' : ℝ) (hS : 0 < S) (h1 : |b' - 1 / S| ≤ 2 * e) (h2 : |a' - a| ≤ 2 * e) (ha : 0 ≤ a)
    (ha' : a ≤ 1 / S) (he : 4 * (S * e) ≤ 1) : 0 < b' ∧ |a' / b' - S * a| ≤ 8 * S * e := by
  have hS1 : S * (1 / S) = 1 := by field_simp
  have hb : 1 / (2 * S) ≤ b' := by
    have e1 : 1 / (2 * S) = 1 / S - 1 / (2 * S) := by field_simp; ring
    have : 2 * e ≤ 1 / (2 * S) := by rw [le_div_iff₀ (by positivity)]; linarith
    rw [abs_le] at h1
    linarith [h1.1]
  have hb0 : 0 < b' := lt_of_lt_of_le (by positivity) hb
  refine ⟨hb0, ?_⟩
  have e2 : a' / b' - S * a = (a' - S * a * b') / b' := by field_simp
  rw [e2, abs_div, abs_of_pos hb0, div_le_iff₀ hb0]
  have h3 : |a' - S * a * b'| ≤ 4 * e := by
    have e3 : a' - S * a * b' = (a' - a) + S * a * (1 / S - b') := by
      have : S * a * (1 / S - b') = S * (1 / S) * a - S * a * b' := by ring
      rw [this, hS1]; ring
    rw [e3]
    have h4 := abs_add_le (a' - a) (S * a * (1 / S - b'))
    have h5 : |S * a * (1 / S - b')| ≤ 1 * (2 * e) := by
      rw [abs_mul]
      refine mul_le_mul ?_ (by rw [abs_sub_comm]; exact h1) (abs_nonneg _) zero_le_one
      rw [abs_of_nonneg (by positivity)]
      calc S * a ≤ S * (1 / S) := mul_le_mul_of_nonneg_left ha' hS.le
        _ = 1 := hS1
    linarith
  have he0 : 0 ≤ e := by
    have := (abs_nonneg _).trans h2
    linarith
  have : 4 * e ≤ 8 * S * e * b' := by
    have : 1 ≤ 2 * S * b' := by
      have := mul_le_mul_of_nonneg_left hb (by positivity : (0 : ℝ) ≤ 2 * S)
      rwa [mul_one_div_cancel (by positivity)] at this
    nlinarith
  linarith

/-- The statistic of a slice of the sample is near the distance of the part of the distribution. -/
theorem slice_near (law : Measure (Fin d → ℝ)) [IsProbabilityMeasure law] (j : Fin d) (S : Nat) (p : Nat → ℝ)
    (h : EqualParts law j S p) (G : (Fin d → ℝ) → ℝ) (hG : Measurable G) (rows : List (Fin d → ℝ)) (hr : rows ≠ []) (e : ℝ)
    (he : 4 * ((S : ℝ) * e) ≤ 1) (hY : ∀ t, |freq rows {x | G x ≤ t} - law.real {x | G x ≤ t}| ≤ e)
    (hq : ∀ s ≤ S, |freq rows {x | x j < npQuantile (columnOf rows j) s S} - (s : ℝ) / S| ≤ e ∧
      ∀ t, |freq rows ({x | x j < npQuantile (columnOf rows j) s S} ∩ {x | G x ≤ t}) -
        law.real (below j S p s ∩ {x | G x ≤ t})| ≤ e) (s : Nat) (hs : s < S) :
    ∃ v, (pawnColumn (columnOf rows j) (rows.map G) S)[s]? = some (some v) ∧
      |v - partDistance law G j S p s| ≤ (8 * S + 1) * e := by
  have hSr : (0 : ℝ) < S := by exact_mod_cast (by omega : 0 < S)
  have hcol : columnOf rows j ≠ [] := by simpa [columnOf] using hr
  obtain ⟨hsub, hpart⟩ := part_eq law j S p h s hs
  have hqm : npQuantile (columnOf rows j) s S ≤ npQuantile (columnOf rows j) (s + 1) S :=
    npQuantile_mono _ hcol s (s + 1) S (by omega) (by omega) (by omega)
  set c : (Fin d → ℝ) → Bool := fun r => decide (npQuantile (columnOf rows j) s S ≤ r j) &&
        decide (r j < npQuantile (columnOf rows j) (s + 1) S) with hc
  have hcm : ∀ r, c r = true ↔ npQuantile (columnOf rows j) s S ≤ r j ∧ r j < npQuantile (columnOf rows j) (s + 1) S := by
    intro r; simp [hc]
  -- shares of the slice
  have hb : freq rows {x | c x = true} = freq rows {x | x j < npQuantile (columnOf rows j) (s + 1) S} -
      freq rows {x | x j < npQuantile (columnOf rows j) s S} := by
    apply freq_diff
    · intro r _ hx; exact lt_of_lt_of_le hx hqm
    · intro r _
      exact (hcm r).trans ⟨fun hx => ⟨hx.2, not_lt.mpr hx.1⟩, fun hx => ⟨not_lt.mp hx.2, hx.1⟩⟩
  have ha : ∀ t, freq rows ({x | c x = true} ∩ {x | G x ≤ t}) =
      freq rows ({x | x j < npQuantile (columnOf rows j) (s + 1) S} ∩ {x | G x ≤ t}) -
        freq rows ({x | x j < npQuantile (columnOf rows j) s S} ∩ {x | G x ≤ t}) := by
    intro t
    apply freq_diff
    · intro r _ hx; exact ⟨lt_of_lt_of_le hx.1 hqm, hx.2⟩
    · intro r _
      constructor
      · rintro ⟨h1, h2⟩
        have h1' := (hcm r).mp h1
        exact ⟨⟨h1'.2, h2⟩, fun h3 => absurd h3.1 (not_lt.mpr h1'.1)⟩
      · rintro ⟨⟨h1, h2⟩, h3⟩
        refine ⟨(hcm r).mpr ⟨?_, h1⟩, h2⟩
        by_contra h4
        exact h3 ⟨not_le.mp h4, h2⟩
  have hpa : law.real (part j S p s) = 1 / S := by
    rw [hpart, measureReal_sdiff hsub (measurable_below j S p s), below_share law j S p h (by omega) _ (by omega),
      below_share law j S p h (by omega) _ (by omega)]
    push_cast
    ring
  have hpT : ∀ t, law.real (part j S p s ∩ {x | G x ≤ t}) =
      law.real (below j S p (s + 1) ∩ {x | G x ≤ t}) - law.real (below j S p s ∩ {x | G x ≤ t}) := by
    intro t
    have e1 : part j S p s ∩ {x | G x ≤ t} = (below j S p (s + 1) ∩ {x | G x ≤ t}) \ (below j S p s ∩ {x | G x ≤ t}) := by
      rw [hpart]
      ext x
      constructor
      · rintro ⟨⟨h1, h2⟩, h3⟩
        exact ⟨⟨h1, h3⟩, fun h4 => h2 h4.1⟩
      · rintro ⟨⟨h1, h3⟩, h2⟩
        exact ⟨⟨h1, fun h4 => h2 ⟨h4, h3⟩⟩, h3⟩
    rw [e1, measureReal_sdiff (Set.inter_subset_inter_left _ hsub)
      ((measurable_below j S p s).inter (measurableSet_le hG measurable_const))]
  have hcond : ∀ t, law[|part j S p s].real {x | G x ≤ t} = S * law.real (part j S p s ∩ {x | G x ≤ t}) := by
    intro t
    have hm : MeasurableSet (part j S p s) := by
      rw [hpart]; exact (measurable_below j S p (s + 1)).diff (measurable_below j S p s)
    rw [Measure.real, cond_apply hm, ENNReal.toReal_mul, ENNReal.toReal_inv, ← Measure.real, ← Measure.real, hpa]
    field_simp
  have hnear : ∀ t, 0 < freq rows {x | c x = true} ∧
      |freq rows ({x | c x = true} ∩ {x | G x ≤ t}) / freq rows {x | c x = true} -
        S * law.real (part j S p s ∩ {x | G x ≤ t})| ≤ 8 * S * e := by
    intro t
    apply ratio_near S e _ _ _ hSr
    · rw [hb]
      have h1 := (hq (s + 1) (by omega)).1
      have h2 := (hq s (by omega)).1
      have e1 : ((s + 1 : Nat) : ℝ) / S = (s : ℝ) / S + 1 / S := by push_cast; ring
      rw [e1] at h1
      rw [abs_le] at h1 h2 ⊢
      constructor <;> linarith [h1.1, h1.2, h2.1, h2.2]
    · rw [ha, hpT]
      have h1 := (hq (s + 1) (by omega)).2 t
      have h2 := (hq s (by omega)).2 t
      rw [abs_le] at h1 h2 ⊢
      constructor <;> linarith [h1.1, h1.2, h2.1, h2.2]
    · exact measureReal_nonneg
    · rw [← hpa]; exact measureReal_mono Set.inter_subset_left
    · exact he
  have hsel : (rows.filter c).length ≠ 0 := by
    intro h0
    have := (hnear 0).1
    classical
    rw [freq_eq_filter] at this
    have e1 : (rows.filter fun r => decide (r ∈ {x | c x = true})) = rows.filter c := by
      apply List.filter_congr; intro r _; simp
    rw [e1, h0] at this
    simp at this
  refine ⟨ksStat ((rows.filter c).map G) (rows.map G), ?_, ?_⟩
  · unfold pawnColumn
    rw [List.getElem?_map, List.getElem?_range hs, Option.map_some]
    simp only [slice_rows rows j S G s hs]
    rw [List.length_map, if_neg hsel]
  · unfold partDistance
    apply ksStat_near _ _ _ _ 1
    · intro t
      have h1 : 0 ≤ law[|part j S p s].real {x | G x ≤ t} := measureReal_nonneg
      have h2 : 0 ≤ law.real {x | G x ≤ t} := measureReal_nonneg
      have h3 : law.real {x | G x ≤ t} ≤ 1 := measureReal_le_one
      have h4 : law[|part j S p s].real {x | G x ≤ t} ≤ 1 := by
        rw [hcond]
        have := measureReal_mono (μ := law) (Set.inter_subset_left : part j S p s ∩ {x | G x ≤ t} ⊆ part j S p s)
        rw [hpa] at this
        have := mul_le_mul_of_nonneg_left this hSr.le
        rwa [mul_one_div_cancel hSr.ne'] at this
      rw [abs_le]; constructor <;> linarith
    · intro t
      rw [ecdf_slice rows hr G c t, ecdf_freq, hcond]
      have h1 := (hnear t).2
      have h2 := hY t
      rw [abs_le] at h1 h2 ⊢
      constructor <;> linarith [h1.1, h1.2, h2.1, h2.2]

/-! ### The summary of a column -/

theorem sort_ofFn {n : Nat} (v : Fin n → ℝ) (σ : Equiv.Perm (Fin n)) (hσ : ∀ i k, i ≤ k → v (σ i) ≤ v (σ k)) :
    npSort (List.ofFn v) = List.ofFn fun i => v (σ i) := by
  apply List.Perm.eq_of_pairwise (le := (· ≤ ·)) (fun _ _ _ _ => le_antisymm) (npSort_sorted _)
  · rw [List.pairwise_ofFn]
    exact fun i k h => hσ i k h.le
  · refine (npSort_perm _).trans ?_
    exact (Equiv.Perm.ofFn_comp_perm σ v).symm

theorem isMedian_npMedian {n : Nat} (hn : 0 < n) (v : Fin n → ℝ) : IsMedian v (npMedian (List.ofFn v)) := by
  have hs : ∀ i k, i ≤ k → v (Tuple.sort v i) ≤ v (Tuple.sort v k) := fun i k h => Tuple.monotone_sort v h
  refine ⟨Tuple.sort v, hs, ⟨(n - 1) / 2, by omega⟩, ⟨n / 2, by omega⟩, rfl, rfl, ?_⟩
  unfold npMedian
  have hget : ∀ k (hk : k < n), (npSort (List.ofFn v)).getD k 0 = v (Tuple.sort v ⟨k, hk⟩) := by
    intro k hk
    rw [sort_ofFn v _ hs, List.getD, List.getElem?_eq_getElem (by simpa using hk), Option.getD_some, List.getElem_ofFn]
  simp only [List.length_ofFn]
  split
  · rename_i hodd
    rw [hget _ (by omega)]
    have : (⟨n / 2, by omega⟩ : Fin n) = ⟨(n - 1) / 2, by omega⟩ := by ext; simp only; omega
    rw [this]; ring
  · rename_i heven
    rw [hget _ (by omega), hget _ (by omega)]
    have : (⟨n / 2 - 1, by omega⟩ : Fin n) = ⟨(n - 1) / 2, by omega⟩ := by ext; simp only; omega
    rw [this]

/-- Values at the same place of two orders are near each other. -/
theorem order_near {n : Nat} (v w : Fin n → ℝ) (e : ℝ) (h : ∀ i, |v i - w i| ≤ e) (σ τ : Equiv.Perm (Fin n))
    (hσ : ∀ i k, i ≤ k → v (σ i) ≤ v (σ k)) (hτ : ∀ i k, i ≤ k → w (τ i) ≤ w (τ k)) (k : Fin n) :
    w (τ k) - e ≤ v (σ k) := by
  -- one of the places up to `k` in the first order is at `k` or later in the second
  obtain ⟨i, hi, hk⟩ : ∃ i ≤ k, k ≤ τ.symm (σ i) := by
    by_contra hno
    push Not at hno
    have hsub : (Finset.Iic k).image (fun i => τ.symm (σ i)) ⊆ Finset.Iio k := by
      intro x hx
      obtain ⟨i, hi, rfl⟩ := Finset.mem_image.mp hx
      exact Finset.mem_Iio.mpr (hno i (Finset.mem_Iic.mp hi))
    have hc := Finset.card_le_card hsub
    rw [Finset.card_image_of_injective _ (show Function.Injective fun i => τ.symm (σ i) from
      τ.symm.injective.comp σ.injective), Fin.card_Iic, Fin.card_Iio] at hc
    omega
  have h1 := hσ i k hi
  have h2 := hτ k _ hk
  rw [Equiv.apply_symm_apply] at h2
  have h3 := abs_le.mp (h (σ i))
  linarith [h3.1, h3.2]

theorem median_near {n : Nat} (v w : Fin n → ℝ) (e : ℝ) (h : ∀ i, |v i - w i| ≤ e) (m m' : ℝ) (hm : IsMedian v m)
    (hm' : IsMedian w m') : |m - m'| ≤ e := by
  obtain ⟨σ, hσ, a, b, ha, hb, rfl⟩ := hm
  obtain ⟨τ, hτ, a', b', ha', hb', rfl⟩ := hm'
  obtain rfl : a = a' := Fin.ext (ha.trans ha'.symm)
  obtain rfl : b = b' := Fin.ext (hb.trans hb'.symm)
  have h' : ∀ i, |w i - v i| ≤ e := fun i => by rw [abs_sub_comm]; exact h i
  have h1 := order_near v w e h σ τ hσ hτ a
  have h2 := order_near v w e h σ τ hσ hτ b
  have h3 := order_near w v e h' τ σ hτ hσ a
  have h4 := order_near w v e h' τ σ hτ hσ b
  rw [abs_le]
  constructor <;> linarith

theorem mean_near {n : Nat} (hn : 0 < n) (v w : Fin n → ℝ) (e : ℝ) (h : ∀ i, |v i - w i| ≤ e) :
    |meanOf v - meanOf w| ≤ e := by
  have hn' : (0 : ℝ) < n := by exact_mod_cast hn
  unfold meanOf
  rw [← sub_div, ← Finset.sum_sub_distrib, abs_div, abs_of_pos hn', div_le_iff₀ hn']
  refine (Finset.abs_sum_le_sum_abs _ _).trans ((Finset.sum_le_sum fun i _ => h i).trans ?_)
  simp [mul_comm]

theorem std_near {n : Nat} (hn : 0 < n) (v w : Fin n → ℝ) (e : ℝ) (h : ∀ i, |v i - w i| ≤ e) :
    |stdOf v - stdOf w| ≤ e := by
  have hn' : (0 : ℝ) < n := by exact_mod_cast hn
  have he : 0 ≤ e := (abs_nonneg _).trans (h ⟨0, hn⟩)
  have hnorm : ∀ u : Fin n → ℝ, stdOf u = ‖(WithLp.toLp 2 fun i => u i - meanOf u : EuclideanSpace ℝ (Fin n))‖ / Real.sqrt n := by
    intro u
    rw [EuclideanSpace.norm_eq, stdOf, Real.sqrt_div (Finset.sum_nonneg fun i _ => sq_nonneg _)]
    simp only [Real.norm_eq_abs, sq_abs]
  rw [hnorm, hnorm, ← sub_div, abs_div, abs_of_pos (Real.sqrt_pos.mpr hn'), div_le_iff₀ (Real.sqrt_pos.mpr hn')]
  refine (abs_norm_sub_norm_le _ _).trans ?_
  rw [EuclideanSpace.norm_eq, ← Real.sqrt_sq he, ← Real.sqrt_mul (sq_nonneg e)]
  apply Real.sqrt_le_sqrt
  have e1 : ∀ i, ‖((WithLp.toLp 2 fun i => v i - meanOf v : EuclideanSpace ℝ (Fin n)) -
      (WithLp.toLp 2 fun i => w i - meanOf w : EuclideanSpace ℝ (Fin n))) i‖ ^ 2 =
      ((v i - w i) - meanOf fun i => v i - w i) ^ 2 := by
    intro i
    rw [Real.norm_eq_abs, sq_abs]
    have : meanOf (fun i => v i - w i) = meanOf v - meanOf w := by
      unfold meanOf; rw [Finset.sum_sub_distrib, sub_div]
    rw [this]
    simp only [PiLp.sub_apply]
    ring
  rw [Finset.sum_congr rfl fun i _ => e1 i]
  have e2 : ∑ i, ((v i - w i) - meanOf fun i => v i - w i) ^ 2 =
      ∑ i, (v i - w i) ^ 2 - n * (meanOf fun i => v i - w i) ^ 2 := by
    have hs : ∑ i, (v i - w i) = n * meanOf fun i => v i - w i := by
      unfold meanOf; field_simp
    generalize (meanOf fun i => v i - w i) = m at hs ⊢
    have : ∀ i, ((v i - w i) - m) ^ 2 = (v i - w i) ^ 2 - (2 * m) * (v i - w i) + m ^ 2 := fun i => by ring
    rw [Finset.sum_congr rfl fun i _ => this i, Finset.sum_add_distrib, Finset.sum_sub_distrib, ← Finset.mul_sum, hs,
      Finset.sum_const, Finset.card_univ, Fintype.card_fin, nsmul_eq_mul]
    ring
  rw [e2]
  have e3 : ∑ i, (v i - w i) ^ 2 ≤ e ^ 2 * n := by
    refine (Finset.sum_le_sum fun i _ => (sq_le_sq' (abs_le.mp (h i)).1 (abs_le.mp (h i)).2)).trans ?_
    simp [mul_comm]
  have e4 : 0 ≤ n * (meanOf fun i => v i - w i) ^ 2 := by positivity
  linarith


theorem pawnRow_near {n : Nat} (hn : 0 < n) (w : Fin n → ℝ) (ε : ℝ) (hε : 0 < ε) :
    ∃ e > 0, ∀ v : Fin n → ℝ, (∀ i, |v i - w i| ≤ e) →
      RowNear ε (pawnRow Real.sqrt ((List.ofFn v).map some)) w := by
  -- the quotient is continuous
  obtain ⟨e1, he1, hq⟩ : ∃ e1 > 0, meanOf w ≠ 0 → ∀ a b : ℝ, |a - stdOf w| ≤ e1 → |b - meanOf w| ≤ e1 →
      b ≠ 0 ∧ |a / b - stdOf w / meanOf w| < ε := by
    by_cases h0 : meanOf w = 0
    · exact ⟨1, one_pos, fun h => absurd h0 h⟩
    · have hc : ContinuousAt (fun q : ℝ × ℝ => q.1 / q.2) (stdOf w, meanOf w) :=
        continuousAt_fst.div continuousAt_snd h0
      obtain ⟨η, hη, hc⟩ := Metric.continuousAt_iff.mp hc ε hε
      refine ⟨min (η / 2) (|meanOf w| / 2), lt_min (by linarith) (by positivity), fun _ a b ha hb => ⟨?_, ?_⟩⟩
      · rintro rfl
        rw [zero_sub, abs_neg] at hb
        have := hb.trans (min_le_right _ _)
        have : 0 < |meanOf w| := abs_pos.mpr h0
        linarith
      · have : dist (a, b) (stdOf w, meanOf w) < η := by
          rw [Prod.dist_eq, Real.dist_eq, Real.dist_eq]
          refine max_lt ?_ ?_
          · have := ha.trans (min_le_left _ _); simp only; linarith
          · have := hb.trans (min_le_left _ _); simp only; linarith
        have := hc this
        rwa [Real.dist_eq] at this
  refine ⟨min e1 (ε / 2), lt_min he1 (by linarith), fun v hv => ?_⟩
  have hv1 : ∀ i, |v i - w i| ≤ e1 := fun i => (hv i).trans (min_le_left _ _)
  have hv2 : ∀ i, |v i - w i| ≤ ε / 2 := fun i => (hv i).trans (min_le_right _ _)
  have hl : List.ofFn v ≠ [] := by
    intro h
    have := congrArg List.length h
    simp at this
    omega
  have hne : Nonempty (Fin n) := ⟨⟨0, hn⟩⟩
  have hfm : ((List.ofFn v).map some).filterMap id = List.ofFn v := by
    rw [List.filterMap_map]
    simp
  have hsum : (List.ofFn v).sum / ((List.ofFn v).length : ℝ) = meanOf v := by
    rw [List.sum_ofFn, List.length_ofFn]; rfl
  have hmean : npMean (List.ofFn v) = some (meanOf v) := by rw [npMean_some _ hl, hsum]
  have hstd : npStd0 Real.sqrt (List.ofFn v) = some (stdOf v) := by
    unfold npStd0
    rw [npVar_some _ hl, hsum, Option.map_some, List.map_ofFn, List.sum_ofFn, List.length_ofFn]
    rfl
  have hmed := isMedian_npMedian hn v
  have hmedw := isMedian_npMedian hn w
  have hmem : ∀ x, x ∈ List.ofFn v ↔ ∃ i, v i = x := by
    intro x; rw [List.mem_ofFn]
  unfold pawnRow
  rw [hfm]
  generalize hL : List.ofFn v = L at *
  cases L with
  | nil => exact absurd rfl hl
  | cons x xs =>
    have hmin := arrMin_spec (x :: xs) _ rfl
    have hmax := arrMax_spec (x :: xs) _ rfl
    refine ⟨⟨_, rfl, ?_⟩, ⟨_, hmean, ?_⟩, ⟨_, _, rfl, hmedw, ?_⟩, ⟨_, rfl, ?_⟩, ⟨_, hstd, ?_⟩, fun h0 => ?_⟩
    · obtain ⟨i, hi⟩ := (hmem _).mp hmin.1
      have h1 : (⨅ s, w s) ≤ w i := ciInf_le (Set.finite_range w).bddBelow i
      have h2 : xs.foldl min x - ε / 2 ≤ ⨅ s, w s := by
        refine le_ciInf fun k => ?_
        have := hmin.2 _ ((hmem _).mpr ⟨k, rfl⟩)
        have := abs_le.mp (hv2 k)
        linarith [this.2]
      have h3 := abs_le.mp (hv2 i)
      rw [hi] at h3
      rw [abs_lt]
      constructor <;> linarith [h3.1, h3.2]
    · exact lt_of_le_of_lt (mean_near hn v w _ hv2) (by linarith)
    · exact lt_of_le_of_lt (median_near v w _ hv2 _ _ hmed hmedw) (by linarith)
    · obtain ⟨i, hi⟩ := (hmem _).mp hmax.1
      have h1 : w i ≤ ⨆ s, w s := le_ciSup (Set.finite_range w).bddAbove i
      have h2 : (⨆ s, w s) ≤ xs.foldl max x + ε / 2 := by
        refine ciSup_le fun k => ?_
        have := hmax.2 _ ((hmem _).mpr ⟨k, rfl⟩)
        have := abs_le.mp (hv2 k)
        linarith [this.1]
      have h3 := abs_le.mp (hv2 i)
      rw [hi] at h3
      rw [abs_lt]
      constructor <;> linarith [h3.1, h3.2]
    · exact lt_of_le_of_lt (std_near hn v w _ hv2) (by linarith)
    · obtain ⟨hb, hc⟩ := hq h0 _ _ (std_near hn v w _ hv1) (mean_near hn v w _ hv1)
      refine ⟨_, ?_, hc⟩
      simp only [hstd, hmean, Option.bind_eq_bind, Option.bind_some]
      exact npDiv_some _ _ hb

/-- One column of the analysis, for all long lists of rows whose means agree with the distribution. -/
theorem column_near (law : Measure (Fin d → ℝ)) [IsProbabilityMeasure law] (j : Fin d) (S : Nat) (hS : 0 < S) (p : Nat → ℝ)
    (h : EqualParts law j S p) (G : (Fin d → ℝ) → ℝ) (hG : Measurable G) (ε : ℝ) (hε : 0 < ε) :
    ∀ᶠ rows in lawRows law, RowNear ε
      (pawnRow Real.sqrt (pawnColumn (columnOf rows j) (rows.map G) S))
      (fun s : Fin S => partDistance law G j S p s) := by
  have hSr : (0 : ℝ) < S := by exact_mod_cast hS
  obtain ⟨e, he, hrow⟩ := pawnRow_near hS (fun s : Fin S => partDistance law G j S p s) ε hε
  -- frequencies that are good enough
  obtain ⟨k, hk⟩ := exists_nat_gt ((8 * S + 1) * 4 / (S * e) + 16)
  set δ := 1 / (((k : ℝ) + 2) * S) with hδd
  have hδ : 0 < δ := by positivity
  have hδS : δ * S < 1 := by
    have : 1 / (((k : ℝ) + 2) * S) * S = 1 / ((k : ℝ) + 2) := by field_simp
    rw [hδd, this, div_lt_one (by positivity)]
    linarith [(Nat.cast_nonneg k : (0 : ℝ) ≤ k)]
  obtain ⟨𝓐, h𝓐m, h𝓐⟩ := cut_frequencies law j S p G hG h hS δ hδ hδS
  have hk1 : (8 * S + 1) * (4 * δ) ≤ e := by
    have h1 : (8 * (S : ℝ) + 1) * 4 / (S * e) < (k : ℝ) + 2 := by linarith
    rw [div_lt_iff₀ (by positivity)] at h1
    have e1 : (8 * (S : ℝ) + 1) * (4 * δ) = (8 * S + 1) * 4 / ((k + 2) * S) := by rw [hδd]; ring
    rw [e1, div_le_iff₀ (by positivity)]
    nlinarith
  have hk2 : 4 * ((S : ℝ) * (4 * δ)) ≤ 1 := by
    have e1 : 4 * ((S : ℝ) * (4 * δ)) = 16 / (k + 2) := by rw [hδd]; field_simp; ring
    rw [e1, div_le_one (by positivity)]
    have : 0 ≤ (8 * (S : ℝ) + 1) * 4 / (S * e) := by positivity
    linarith
  have hev : ∀ᶠ rows in lawRows law, ∀ A : {A // A ∈ 𝓐}, |freq rows A.1 - law.real A.1| ≤ δ / 2 := by
    rw [Filter.eventually_all]
    intro A
    have := Metric.tendsto_nhds.mp (lawRows_freq law A.1 (h𝓐m A.1 A.2)) (δ / 2) (half_pos hδ)
    filter_upwards [this] with rows hN
    rw [← Real.dist_eq]
    exact hN.le
  obtain ⟨n0, hn0⟩ := exists_nat_gt (4 / δ)
  filter_upwards [hev, (lawRows_length law).eventually_ge_atTop n0, (lawRows_length law).eventually_gt_atTop 0] with
    rows hN hNn hN0
  have hne : rows ≠ [] := List.ne_nil_of_length_pos hN0
  have h4 : 4 ≤ δ * rows.length := by
    have : 4 / δ < rows.length := lt_of_lt_of_le hn0 (by exact_mod_cast hNn)
    rw [div_lt_iff₀ hδ] at this
    linarith
  obtain ⟨hY, hcut⟩ := h𝓐 rows h4 fun A hA => hN ⟨A, hA⟩
  have hs := slice_near law j S p h G hG rows hne (4 * δ) hk2 hY hcut
  choose v hv hvn using fun s : Fin S => hs s.1 s.2
  have hcol : pawnColumn (columnOf rows j) (rows.map G) S = (List.ofFn v).map some := by
    apply List.ext_getElem?
    intro i
    by_cases hi : i < S
    · rw [hv ⟨i, hi⟩, List.getElem?_map, List.getElem?_ofFn, dif_pos hi]
      rfl
    · rw [List.getElem?_eq_none (by simp [pawnColumn]; omega), List.getElem?_eq_none (by simp; omega)]
  rw [hcol]
  exact hrow v fun i => (hvn i).trans hk1

theorem rowNear_mono {n : Nat} {ε ε' : ℝ} (h : ε ≤ ε') {row : PawnRow ℝ} {v : Fin n → ℝ} (hr : RowNear ε row v) :
    RowNear ε' row v := by
  obtain ⟨⟨x1, a1, b1⟩, ⟨x2, a2, b2⟩, ⟨x3, m, a3, c3, b3⟩, ⟨x4, a4, b4⟩, ⟨x5, a5, b5⟩, h6⟩ := hr
  refine ⟨⟨x1, a1, b1.trans_le h⟩, ⟨x2, a2, b2.trans_le h⟩, ⟨x3, m, a3, c3, b3.trans_le h⟩, ⟨x4, a4, b4.trans_le h⟩,
    ⟨x5, a5, b5.trans_le h⟩, fun h0 => ?_⟩
  obtain ⟨x, a, b⟩ := h6 h0
  exact ⟨x, a, b.trans_le h⟩

/-- The analysis reports the summaries of the columns. -/
theorem pawn_table (S : Nat) (hS : 0 < S) (f : List ℝ → ℝ) (pb : Problem ℝ) (hD : pb.numVars = d)
    (hg : checkGroups pb = none) (rows : List (Fin d → ℝ)) :
    ∃ res, pawnAnalyze Real.sqrt pb (rows.map List.ofFn) ((rows.map List.ofFn).map f) S =
        .ok (res, (extractGroupNames pb).1) ∧ res.length = d ∧
      ∀ j : Fin d, res[j.1]? = some
        (pawnRow Real.sqrt (pawnColumn (columnOf rows j) (rows.map fun x => f (List.ofFn x)) S)) := by
  have hY : (rows.map List.ofFn).map f = rows.map fun x => f (List.ofFn x) := by rw [List.map_map]; rfl
  have hin : ∀ j (hj : j < d), inputColumn (rows.map List.ofFn) j = .ok (columnOf rows ⟨j, hj⟩) := by
    intro j hj
    unfold inputColumn columnOf
    rw [mapM_ok_of (fun row : List ℝ => pyGet row j) (fun row => row.getD j 0), List.map_map]
    · congr 1
      apply List.map_congr_left
      intro r _
      simp [List.getD, hj]
    · intro row hrow
      obtain ⟨r, -, rfl⟩ := List.mem_map.mp hrow
      simp [pyGet, List.getD, hj]
  have hpar : pawnParams Real.sqrt pb (rows.map List.ofFn) ((rows.map List.ofFn).map f) S =
      .ok ((List.range d).map fun j => if hj : j < d then
        pawnRow Real.sqrt (pawnColumn (columnOf rows ⟨j, hj⟩) (rows.map fun x => f (List.ofFn x)) S) else
        pawnRow Real.sqrt []) := by
    unfold pawnParams
    rw [hD]
    apply mapM_ok_of
    intro j hj
    have hj' := List.mem_range.mp hj
    rw [hin j hj', hY, dif_pos hj']
    simp only [List.length_map, ne_eq, not_true_eq_false, if_false]
    rfl
  refine ⟨(List.range d).map fun j => if hj : j < d then
        pawnRow Real.sqrt (pawnColumn (columnOf rows ⟨j, hj⟩) (rows.map fun x => f (List.ofFn x)) S) else
        pawnRow Real.sqrt [], ?_, ?_, ?_⟩
  rotate_left
  · simp only [List.length_map, List.length_range]
  · intro j
    rw [List.getElem?_map, List.getElem?_range j.2, Option.map_some, dif_pos j.2]
  · unfold pawnAnalyze
    rw [if_neg (by omega), hpar, hg]
    rfl

/-- The rows of the table are near the summaries of the distances, for all long lists of rows whose means agree with the
distribution. -/
theorem pawn_near (law : Measure (Fin d → ℝ)) [IsProbabilityMeasure law] (S : Nat) (hS : 0 < S) (p : Fin d → Nat → ℝ)
    (h : ∀ j, EqualParts law j S (p j)) (f : List ℝ → ℝ) (hf : Measurable fun x : Fin d → ℝ => f (List.ofFn x))
    (pb : Problem ℝ) (hD : pb.numVars = d) (hg : checkGroups pb = none) (ε : ℝ) (hε : 0 < ε) :
    ∀ᶠ rows in lawRows law, ∃ res,
      pawnAnalyze Real.sqrt pb (rows.map List.ofFn) ((rows.map List.ofFn).map f) S = .ok (res, (extractGroupNames pb).1) ∧
      res.length = d ∧ ∀ j : Fin d, ∃ row, res[j.1]? = some row ∧
        RowNear ε row fun s : Fin S => partDistance law (fun x => f (List.ofFn x)) j S (p j) s := by
  filter_upwards [Filter.eventually_all.mpr fun j => column_near law j S hS (p j) (h j) _ hf ε hε] with rows hrows
  obtain ⟨res, h1, h2, h3⟩ := pawn_table S hS f pb hD hg rows
  exact ⟨res, h1, h2, fun j => ⟨_, h3 j, hrows j⟩⟩

/-- **C122**, limit.  The rows are drawn independently from any distribution of the inputs without single values of
positive probability, the outputs computed row by row.  With probability one the statistics reported for every input
converge to those of the distances between the distribution of the output and its distributions given that the input
lies in one of `S` parts of equal probability. -/
theorem C122_limit (law : Measure (Fin d → ℝ)) [IsProbabilityMeasure law] (S : Nat) (hS : 0 < S) (p : Fin d → Nat → ℝ)
    (h : ∀ j, EqualParts law j S (p j)) (f : List ℝ → ℝ) (hf : Measurable fun x : Fin d → ℝ => f (List.ofFn x))
    (pb : Problem ℝ) (hD : pb.numVars = d) (hg : checkGroups pb = none) {Ω : Type} [MeasurableSpace Ω] (P : Measure Ω)
    (Z : ℕ → Ω → (Fin d → ℝ)) (hZ : RandomRows law P Z) :
    ∀ᵐ ω ∂P, ∀ ε > 0, ∃ N0, ∀ N ≥ N0, ∀ X, X = (firstRows Z N ω).map List.ofFn → ∃ res,
      pawnAnalyze Real.sqrt pb X (X.map f) S = .ok (res, (extractGroupNames pb).1) ∧ res.length = d ∧
      ∀ j : Fin d, ∃ row, res[j.1]? = some row ∧
        RowNear ε row fun s : Fin S => partDistance law (fun x => f (List.ofFn x)) j S (p j) s := by
  have hall := lawRows_ae hZ.meas hZ.law hZ.indep _ fun n : ℕ =>
    pawn_near law S hS p h f hf pb hD hg (1 / ((n : ℝ) + 1)) (by positivity)
  filter_upwards [hall] with ω hω ε hε
  obtain ⟨n, hn⟩ := exists_nat_one_div_lt hε
  obtain ⟨N0, hN0⟩ := Filter.eventually_atTop.mp (hω n)
  refine ⟨N0, fun N hN X hX => ?_⟩
  subst hX
  obtain ⟨res, h1, h2, h3⟩ := hN0 N hN
  refine ⟨res, h1, h2, fun j => ?_⟩
  obtain ⟨row, a, b⟩ := h3 j
  exact ⟨row, a, rowNear_mono hn.le b⟩

end SALib
