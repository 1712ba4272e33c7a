import Verif.Props.PawnLimit
import Verif.Lemmas.DerivMeasure
import Mathlib.Probability.ProductMeasure
import Mathlib.Probability.Independence.InfinitePi
import Mathlib.Order.UpperLower.Basic

/-!
# C122: PAWN indices of an input without influence and of the only input with influence
-/

namespace SALib

open MeasureTheory ProbabilityTheory Spec

variable {d : Nat}

section parts

variable (law : Measure (Fin d → ℝ)) [IsProbabilityMeasure law] (j : Fin d) (S : Nat) (p : Nat → ℝ)

theorem measurable_part (h : EqualParts law j S p) (s : Nat) (hs : s < S) : MeasurableSet (part j S p s) := by
  rw [(part_eq law j S p h s hs).2]
  exact (measurable_below j S p (s + 1)).diff (measurable_below j S p s)

theorem part_share (h : EqualParts law j S p) (s : Nat) (hs : s < S) : law.real (part j S p s) = 1 / S := by
  obtain ⟨hsub, hpart⟩ := part_eq law j S p h s hs
  rw [hpart, measureReal_sdiff hsub (measurable_below j S p s), below_share law j S p h (by omega) _ (by omega),
    below_share law j S p h (by omega) _ (by omega)]
  push_cast
  ring

theorem cond_part (h : EqualParts law j S p) (s : Nat) (hs : s < S) (T : Set (Fin d → ℝ)) :
    law[|part j S p s].real T = S * law.real (part j S p s ∩ T) := by
  rw [Measure.real, cond_apply (measurable_part law j S p h s hs), ENNReal.toReal_mul, ENNReal.toReal_inv,
    ← Measure.real, ← Measure.real, part_share law j S p h s hs]
  field_simp

/-- An output that is independent of the input: all distances are zero. -/
theorem partDistance_inert (h : EqualParts law j S p) (G : (Fin d → ℝ) → ℝ)
    (hi : IndepFun (fun x : Fin d → ℝ => x j) G law) (s : Nat) (hs : s < S) : partDistance law G j S p s = 0 := by
  unfold partDistance
  have : ∀ t, law[|part j S p s].real {x | G x ≤ t} - law.real {x | G x ≤ t} = 0 := by
    intro t
    have hB : part j S p s = (fun x : Fin d → ℝ => x j) ⁻¹'
        {u | (s = 0 ∨ p s ≤ u) ∧ (s + 1 = S ∨ u < p (s + 1))} := rfl
    have hBm : MeasurableSet {u : ℝ | (s = 0 ∨ p s ≤ u) ∧ (s + 1 = S ∨ u < p (s + 1))} := by
      refine MeasurableSet.inter ?_ ?_
      · exact (MeasurableSet.const _).union measurableSet_Ici
      · exact (MeasurableSet.const _).union measurableSet_Iio
    have hind := hi.measure_inter_preimage_eq_mul _ (Set.Iic t) hBm measurableSet_Iic
    have hr : law.real (part j S p s ∩ {x | G x ≤ t}) = law.real (part j S p s) * law.real {x | G x ≤ t} := by
      rw [Measure.real, hB]
      have e : {x | G x ≤ t} = G ⁻¹' Set.Iic t := rfl
      rw [e, hind, ENNReal.toReal_mul]
      rfl
    have hSr : (S : ℝ) ≠ 0 := by
      have : 0 < S := by omega
      exact_mod_cast this.ne'
    rw [cond_part law j S p h s hs, hr, part_share law j S p h s hs]
    field_simp
    ring
  simp [this]

/-- An output that is a strictly increasing function of the input: the distance in part `s` is the larger one of the
shares below and above the part. -/
theorem partDistance_own (h : EqualParts law j S p) (φ : ℝ → ℝ) (hφ : StrictMono φ) (s : Nat) (hs : s < S) :
    partDistance law (fun x => φ (x j)) j S p s = max ((s : ℝ) / S) (1 - ((s : ℝ) + 1) / S) := by
  have hSr : (0 : ℝ) < S := by exact_mod_cast (by omega : 0 < S)
  have hs1 : (s : ℝ) + 1 ≤ S := by exact_mod_cast hs
  obtain ⟨hsub, hpart⟩ := part_eq law j S p h s hs
  have hb0 := below_share law j S p h (by omega) s (by omega)
  have hb1 := below_share law j S p h (by omega) (s + 1) (by omega)
  push_cast at hb1
  -- lower sets of values
  have hlow : ∀ k, ∃ D : Set ℝ, IsLowerSet D ∧ below j S p k = (fun x => x j) ⁻¹' D := by
    intro k
    refine ⟨{u | k ≠ 0 ∧ (k = S ∨ u < p k)}, ?_, rfl⟩
    rintro a b hba ⟨h0, h1⟩
    exact ⟨h0, h1.imp id fun h => lt_of_le_of_lt hba h⟩
  have htot : ∀ k t, {x : Fin d → ℝ | φ (x j) ≤ t} ⊆ below j S p k ∨ below j S p k ⊆ {x | φ (x j) ≤ t} := by
    intro k t
    obtain ⟨D, hD, he⟩ := hlow k
    have hT : IsLowerSet {u | φ u ≤ t} := fun a b hba ha => (hφ.monotone hba).trans ha
    rcases hT.total hD with h1 | h1
    · left; rw [he]; exact fun x hx => h1 hx
    · right; rw [he]; exact fun x hx => h1 hx
  unfold partDistance
  apply le_antisymm
  · refine ciSup_le fun t => ?_
    rw [cond_part law j S p h s hs]
    set T := {x : Fin d → ℝ | φ (x j) ≤ t} with hT
    have hu0 : 0 ≤ law.real T := measureReal_nonneg
    have hu1 : law.real T ≤ 1 := measureReal_le_one
    rcases htot s t with h1 | h1
    · -- the half line ends before the part
      have e : part j S p s ∩ T = ∅ := by
        rw [hpart]
        ext x
        simp only [Set.mem_inter_iff, Set.mem_sdiff, Set.mem_empty_iff_false, iff_false]
        exact fun hx => hx.1.2 (h1 hx.2)
      have : law.real T ≤ (s : ℝ) / S := by rw [← hb0]; exact measureReal_mono h1
      rw [e]
      simp only [measureReal_empty, mul_zero, zero_sub, abs_neg, abs_of_nonneg hu0]
      exact this.trans (le_max_left _ _)
    · rcases htot (s + 1) t with h2 | h2
      · -- it ends in the part
        have e : law.real (part j S p s ∩ T) = law.real T - (s : ℝ) / S := by
          have : part j S p s ∩ T = T \ below j S p s := by
            rw [hpart]
            ext x
            exact ⟨fun hx => ⟨hx.2, hx.1.2⟩, fun hx => ⟨⟨h2 hx.1, hx.2⟩, hx.1⟩⟩
          rw [this, measureReal_sdiff h1 (measurable_below j S p s), hb0]
        have g1 : (s : ℝ) / S ≤ law.real T := by rw [← hb0]; exact measureReal_mono h1
        have g2 : law.real T ≤ ((s : ℝ) + 1) / S := by rw [← hb1]; exact measureReal_mono h2
        rw [e, abs_le]
        have e1 : (S : ℝ) * (s / S) = s := by field_simp
        have e2 : (S : ℝ) * ((s + 1) / S) = s + 1 := by field_simp
        have hS1 : (0 : ℝ) ≤ S - 1 := by
          have : (0 : ℝ) ≤ s := Nat.cast_nonneg _
          linarith
        constructor
        · refine (neg_le_neg (le_max_left _ _)).trans ?_
          nlinarith
        · refine le_trans ?_ (le_max_right _ _)
          nlinarith
      · -- it goes beyond the part
        have e : part j S p s ∩ T = part j S p s := by
          rw [Set.inter_eq_left, hpart]
          exact fun x hx => h2 hx.1
        have : ((s : ℝ) + 1) / S ≤ law.real T := by rw [← hb1]; exact measureReal_mono h2
        rw [e, part_share law j S p h s hs, mul_one_div_cancel hSr.ne', abs_of_nonneg (by linarith)]
        exact le_trans (by linarith) (le_max_right _ _)
  · have hbdd : BddAbove (Set.range fun t : ℝ =>
        |law[|part j S p s].real {x : Fin d → ℝ | φ (x j) ≤ t} - law.real {x : Fin d → ℝ | φ (x j) ≤ t}|) := by
      refine ⟨1, ?_⟩
      rintro _ ⟨t, rfl⟩
      have h1 : 0 ≤ law[|part j S p s].real {x : Fin d → ℝ | φ (x j) ≤ t} := measureReal_nonneg
      have h2 : 0 ≤ law.real {x : Fin d → ℝ | φ (x j) ≤ t} := measureReal_nonneg
      have h3 : law.real {x : Fin d → ℝ | φ (x j) ≤ t} ≤ 1 := measureReal_le_one
      have h4 : law[|part j S p s].real {x : Fin d → ℝ | φ (x j) ≤ t} ≤ 1 := by
        rw [cond_part law j S p h s hs]
        have := measureReal_mono (μ := law) (Set.inter_subset_left : part j S p s ∩ {x | φ (x j) ≤ t} ⊆ part j S p s)
        rw [part_share law j S p h s hs] at this
        have := mul_le_mul_of_nonneg_left this hSr.le
        rwa [mul_one_div_cancel hSr.ne'] at this
      simp only []
      rw [abs_le]; constructor <;> linarith
    have hset : ∀ k, {x : Fin d → ℝ | φ (x j) ≤ φ (p k)} = {x | x j ≤ p k} := by
      intro k; ext x; exact hφ.le_iff_le
    have hTk : ∀ k, 0 < k → k < S → law.real {x : Fin d → ℝ | φ (x j) ≤ φ (p k)} = (k : ℝ) / S := by
      intro k h0 hk
      rw [hset, h.share k h0 hk]
    have hnn : 0 ≤ ⨆ t : ℝ, |law[|part j S p s].real {x : Fin d → ℝ | φ (x j) ≤ t} -
        law.real {x : Fin d → ℝ | φ (x j) ≤ t}| := Real.iSup_nonneg fun t => abs_nonneg _
    refine max_le ?_ ?_
    · rcases Nat.eq_zero_or_pos s with rfl | h0
      · simpa using hnn
      · refine le_trans ?_ (le_ciSup hbdd (φ (p s)))
        have e : law.real (part j S p s ∩ {x | φ (x j) ≤ φ (p s)}) = 0 := by
          have : part j S p s ∩ {x | φ (x j) ≤ φ (p s)} ⊆ {x | x j = p s} := by
            rintro x ⟨hx, hx'⟩
            rw [hset] at hx'
            exact le_antisymm hx' (hx.1.resolve_left (by omega))
          have := measureReal_mono (μ := law) this
          rw [h.noAtom] at this
          exact le_antisymm this measureReal_nonneg
        rw [cond_part law j S p h s hs, e, hTk s h0 hs, mul_zero, zero_sub, abs_neg]
        exact le_abs_self _
    · by_cases hlast : s + 1 = S
      · have : ((s : ℝ) + 1) / S = 1 := by
          rw [div_eq_one_iff_eq hSr.ne']; exact_mod_cast hlast
        rw [this, sub_self]
        exact hnn
      · refine le_trans ?_ (le_ciSup hbdd (φ (p (s + 1))))
        have e : part j S p s ∩ {x | φ (x j) ≤ φ (p (s + 1))} = part j S p s := by
          rw [Set.inter_eq_left, hset]
          exact fun x hx => (hx.2.resolve_left hlast).le
        rw [cond_part law j S p h s hs, e, part_share law j S p h s hs, mul_one_div_cancel hSr.ne',
          hTk (s + 1) (by omega) (by omega)]
        push_cast
        exact le_abs_self _

end parts

/-- **C122**, an input without influence: if the output is independent of the input, all statistics of the input
converge to zero. -/
theorem C122_inert (law : Measure (Fin d → ℝ)) [IsProbabilityMeasure law] (S : Nat) (hS : 0 < S) (p : Fin d → Nat → ℝ)
    (h : ∀ j, EqualParts law j S (p j)) (f : List ℝ → ℝ) (hf : Measurable fun x : Fin d → ℝ => f (List.ofFn x))
    (pb : Problem ℝ) (hD : pb.numVars = d) (hg : checkGroups pb = none) {Ω : Type} [MeasurableSpace Ω] (P : Measure Ω)
    (Z : ℕ → Ω → (Fin d → ℝ)) (hZ : RandomRows law P Z) :
    ∀ᵐ ω ∂P, ∀ ε > 0, ∃ N0, ∀ N ≥ N0, ∀ X, X = (firstRows Z N ω).map List.ofFn → ∃ res,
      pawnAnalyze Real.sqrt pb X (X.map f) S = .ok (res, (extractGroupNames pb).1) ∧
      ∀ j : Fin d, IndepFun (fun x : Fin d → ℝ => x j) (fun x => f (List.ofFn x)) law →
        ∃ row, res[j.1]? = some row ∧ RowNear ε row fun _ : Fin S => 0 := by
  filter_upwards [C122_limit law S hS p h f hf pb hD hg P Z hZ] with ω hω ε hε
  obtain ⟨N0, hN0⟩ := hω ε hε
  refine ⟨N0, fun N hN X hX => ?_⟩
  obtain ⟨res, hres, -, hrow⟩ := hN0 N hN X hX
  refine ⟨res, hres, fun j hj => ?_⟩
  obtain ⟨row, hr, hn⟩ := hrow j
  refine ⟨row, hr, ?_⟩
  have : (fun s : Fin S => partDistance law (fun x => f (List.ofFn x)) j S (p j) s) = fun _ => 0 := by
    funext s
    exact partDistance_inert law j S (p j) (h j) _ hj s s.2
  rwa [this] at hn

/-- **C122**, the only input with influence: if the output is a strictly increasing function of one input, the
statistics of this input converge to those of the numbers `max (s / S) (1 - (s + 1) / S)`: the maximum to `1 - 1 / S`,
the minimum to `⌊S / 2⌋ / S`. -/
theorem C122_own (law : Measure (Fin d → ℝ)) [IsProbabilityMeasure law] (S : Nat) (hS : 0 < S) (p : Fin d → Nat → ℝ)
    (h : ∀ j, EqualParts law j S (p j)) (f : List ℝ → ℝ) (j : Fin d) (φ : ℝ → ℝ) (hφ : StrictMono φ)
    (hf : ∀ x : Fin d → ℝ, f (List.ofFn x) = φ (x j))
    (pb : Problem ℝ) (hD : pb.numVars = d) (hg : checkGroups pb = none) {Ω : Type} [MeasurableSpace Ω] (P : Measure Ω)
    (Z : ℕ → Ω → (Fin d → ℝ)) (hZ : RandomRows law P Z) :
    ∀ᵐ ω ∂P, ∀ ε > 0, ∃ N0, ∀ N ≥ N0, ∀ X, X = (firstRows Z N ω).map List.ofFn → ∃ res row,
      pawnAnalyze Real.sqrt pb X (X.map f) S = .ok (res, (extractGroupNames pb).1) ∧ res[j.1]? = some row ∧
        RowNear ε row (fun s : Fin S => max ((s : ℝ) / S) (1 - ((s : ℝ) + 1) / S)) ∧
        (∃ x, row.maximum = some x ∧ |x - (1 - 1 / S)| < ε) ∧
        (∃ x, row.minimum = some x ∧ |x - ((S / 2 : Nat) : ℝ) / S| < ε) := by
  have hSr : (0 : ℝ) < S := by exact_mod_cast hS
  have hne : Nonempty (Fin S) := ⟨⟨0, hS⟩⟩
  have hfe : (fun x : Fin d → ℝ => f (List.ofFn x)) = fun x => φ (x j) := funext hf
  have hm : Measurable fun x : Fin d → ℝ => f (List.ofFn x) := by
    rw [hfe]; exact hφ.monotone.measurable.comp (measurable_pi_apply j)
  filter_upwards [C122_limit law S hS p h f hm pb hD hg P Z hZ] with ω hω ε hε
  obtain ⟨N0, hN0⟩ := hω ε hε
  refine ⟨N0, fun N hN X hX => ?_⟩
  obtain ⟨res, hres, -, hrow⟩ := hN0 N hN X hX
  obtain ⟨row, hr, hn⟩ := hrow j
  have : (fun s : Fin S => partDistance law (fun x => f (List.ofFn x)) j S (p j) s) =
      fun s : Fin S => max ((s : ℝ) / S) (1 - ((s : ℝ) + 1) / S) := by
    funext s
    rw [hfe]
    exact partDistance_own law j S (p j) (h j) φ hφ s s.2
  rw [this] at hn
  refine ⟨res, row, hres, hr, hn, ?_, ?_⟩
  · have e : (⨆ s : Fin S, max ((s : ℝ) / S) (1 - ((s : ℝ) + 1) / S)) = 1 - 1 / S := by
      apply le_antisymm
      · refine ciSup_le fun s => max_le ?_ ?_
        · rw [div_le_iff₀ hSr, sub_mul, one_mul, one_div_mul_cancel hSr.ne']
          have : (s : ℝ) + 1 ≤ S := by exact_mod_cast s.2
          linarith
        · have : (0 : ℝ) ≤ (s : ℝ) / S := by positivity
          rw [add_div]; linarith
      · refine le_trans ?_ (le_ciSup (Set.finite_range _).bddAbove (⟨0, hS⟩ : Fin S))
        simp
    obtain ⟨x, hx, hd⟩ := hn.2.2.2.1
    rw [e] at hd
    exact ⟨x, hx, hd⟩
  · have e : (⨅ s : Fin S, max ((s : ℝ) / S) (1 - ((s : ℝ) + 1) / S)) = ((S / 2 : Nat) : ℝ) / S := by
      apply le_antisymm
      · refine (ciInf_le (Set.finite_range _).bddBelow (⟨S / 2, by omega⟩ : Fin S)).trans (max_le le_rfl ?_)
        rw [sub_le_iff_le_add, ← add_div, le_div_iff₀ hSr]
        have : (S : ℝ) ≤ ((S / 2 : Nat) : ℝ) + (((S / 2 : Nat) : ℝ) + 1) := by
          have : S ≤ S / 2 + (S / 2 + 1) := by omega
          exact_mod_cast this
        simp only
        linarith
      · refine le_ciInf fun s => ?_
        rcases Nat.lt_or_ge s.1 (S / 2) with hlt | hge
        · refine le_trans ?_ (le_max_right _ _)
          rw [le_sub_iff_add_le, ← add_div, div_le_iff₀ hSr]
          have : S / 2 + (s.1 + 1) ≤ S := by omega
          have : ((S / 2 : Nat) : ℝ) + ((s : ℝ) + 1) ≤ S := by exact_mod_cast this
          linarith
        · refine le_trans ?_ (le_max_left _ _)
          rw [div_le_div_iff_of_pos_right hSr]
          exact_mod_cast hge
    obtain ⟨x, hx, hd⟩ := hn.1
    rw [e] at hd
    exact ⟨x, hx, hd⟩

/-! ### The hypotheses can be met -/

/-- Rows with these properties exist for every distribution of the inputs. -/
theorem randomRows_exist (law : Measure (Fin d → ℝ)) [IsProbabilityMeasure law] :
    RandomRows law (Measure.infinitePi fun _ : ℕ => law) fun i ω => ω i where
  meas := fun i => measurable_pi_apply i
  indep := iIndepFun_infinitePi (X := fun _ ω => ω) fun _ => measurable_id
  law := fun i => Measure.infinitePi_map_eval _ i

/-- Independent uniform inputs: the parts are equally wide. -/
theorem equalParts_uniform (lo hi : Fin d → ℝ) (hlh : ∀ i, lo i < hi i) (j : Fin d) (S : Nat) :
    EqualParts (Measure.pi fun i => unifOn (lo i) (hi i)) j S fun s => lo j + (s : ℝ) / S * (hi j - lo j) := by
  have hpr : ∀ i, IsProbabilityMeasure (unifOn (lo i) (hi i)) := fun i => isProb_unifOn (hlh i)
  have hmj : Measurable fun x : Fin d → ℝ => x j := measurable_pi_apply j
  have hmap : Measure.map (fun x : Fin d → ℝ => x j) (Measure.pi fun i => unifOn (lo i) (hi i)) = unifOn (lo j) (hi j) := by
    have := (measurePreserving_eval (fun i => unifOn (lo i) (hi i)) j).map_eq
    exact this
  constructor
  · intro a
    have : {x : Fin d → ℝ | x j = a} = (fun x => x j) ⁻¹' {a} := rfl
    rw [this, ← map_measureReal_apply hmj (measurableSet_singleton a), hmap, Measure.real, unifOn,
      cond_apply measurableSet_Icc]
    have h0 : (volume : Measure ℝ) (Set.Icc (lo j) (hi j) ∩ {a}) = 0 :=
      measure_mono_null Set.inter_subset_right Real.volume_singleton
    rw [h0, mul_zero]
    rfl
  · intro s hs hsS
    have hd : 0 < hi j - lo j := sub_pos.mpr (hlh j)
    have hSr : (0 : ℝ) < S := by exact_mod_cast (by omega : 0 < S)
    have hle : (s : ℝ) / S ≤ 1 := by rw [div_le_one hSr]; exact_mod_cast hsS.le
    have : {x : Fin d → ℝ | x j ≤ lo j + (s : ℝ) / S * (hi j - lo j)} =
        (fun x => x j) ⁻¹' Set.Iic (lo j + (s : ℝ) / S * (hi j - lo j)) := rfl
    rw [this, ← map_measureReal_apply hmj measurableSet_Iic, hmap, Measure.real, unifOn, cond_apply measurableSet_Icc]
    have e : Set.Icc (lo j) (hi j) ∩ Set.Iic (lo j + (s : ℝ) / S * (hi j - lo j)) =
        Set.Icc (lo j) (lo j + (s : ℝ) / S * (hi j - lo j)) := by
      ext u
      constructor
      · rintro ⟨⟨h1, -⟩, h2⟩; exact ⟨h1, h2⟩
      · rintro ⟨h1, h2⟩
        refine ⟨⟨h1, h2.trans ?_⟩, h2⟩
        nlinarith
    rw [e, Real.volume_Icc, Real.volume_Icc, ENNReal.toReal_mul, ENNReal.toReal_inv, ENNReal.toReal_ofReal hd.le,
      ENNReal.toReal_ofReal (by rw [add_sub_cancel_left]; positivity), add_sub_cancel_left]
    field_simp

/-- Two uniform inputs, ten slices, the output is the first input: its maximum converges to `0.9`, its minimum to
`0.5`. -/
example : ∀ᵐ ω ∂(Measure.infinitePi fun _ : ℕ => Measure.pi fun _ : Fin 2 => unifOn 1 3), ∀ ε : ℝ, 0 < ε → ∃ N0, ∀ N ≥ N0, ∃ res row,
    pawnAnalyze Real.sqrt ⟨["a", "b"], [], none, none, 2, false⟩ ((firstRows (fun i ω => ω i) N ω).map List.ofFn)
        (((firstRows (fun i ω => ω i) N ω).map List.ofFn).map fun r => r.getD 0 0) 10 = .ok (res, ["a", "b"]) ∧
      res[0]? = some row ∧ (∃ x, row.maximum = some x ∧ |x - 0.9| < ε) ∧ ∃ x, row.minimum = some x ∧ |x - 0.5| < ε := by
  have hp : IsProbabilityMeasure (unifOn 1 3) := isProb_unifOn (by norm_num)
  have h := C122_own (d := 2) (Measure.pi fun _ => unifOn 1 3) 10 (by norm_num) _
    (equalParts_uniform (fun _ => 1) (fun _ => 3) (fun _ => by norm_num) · 10) (fun r => r.getD 0 0) 0 id strictMono_id
    (fun x => by simp) ⟨["a", "b"], [], none, none, 2, false⟩ rfl rfl _ _ (randomRows_exist _)
  filter_upwards [h] with ω hω ε hε
  obtain ⟨N0, hN0⟩ := hω ε hε
  refine ⟨N0, fun N hN => ?_⟩
  obtain ⟨res, row, h1, h2, -, h3, h4⟩ := hN0 N hN _ rfl
  refine ⟨res, row, h1, h2, ?_, ?_⟩
  · norm_num at h3 ⊢; exact h3
  · norm_num at h4 ⊢; exact h4

end SALib
