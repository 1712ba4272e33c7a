import Verif.Lemmas.LawRows
import Verif.Lemmas.DiscPositive
import Verif.Props.Discrepancy
import Verif.Spec.PawnLimit
import Verif.Lemmas.DerivMeasure

/-! # C126: what the discrepancy indices measure

`C126_meaning`: the value of a scatter plot is the mean squared difference between the share of the points in a box and
the area of the box, over the boxes of the method.  `C126_value`: every analysis of legal inputs succeeds, with any method,
and gives each parameter its positive share of the total.  `C126_limit`: for random samples the indices converge to the
shares of the discrepancies of the joint distributions of input and output.  `C126_inert`: for a uniform input without
influence this discrepancy is a constant of the method times the discrepancy of the output, so it vanishes only if the
output is uniform as well. -/

namespace SALib
open Spec MeasureTheory ProbabilityTheory Set Filter Topology

/-- The value of a plot is the discrepancy of its points. -/
theorem C126_meaning (method : String) (disc : List (ℝ × ℝ) → ℝ) (hm : discMethod Real.sqrt method = .ok disc)
    (pts : List (ℝ × ℝ)) (hne : pts ≠ []) (h : ∀ p ∈ pts, (0 ≤ p.1 ∧ p.1 ≤ 1) ∧ 0 ≤ p.2 ∧ p.2 ≤ 1) :
    disc pts = discrepancyOf method (empirical pts) := by
  have := empirical_prob pts hne
  have hbox : ∀ p ∈ pts, p ∈ unitBox := h
  rw [disc_double method disc hm pts hne, discrepancyOf,
    boxDiscrepancy_kernel _ _ (empirical_ae pts _ measurableSet_unitBox hbox),
    double_empirical pts hne hbox _ (continuous_kernel _)]

theorem discrepancyOf_pos (method : String) (μ : Measure (ℝ × ℝ)) (h : 0 < boxDiscrepancy (methodSides method) μ) :
    0 < discrepancyOf method μ := by
  unfold discrepancyOf
  split_ifs
  · exact Real.sqrt_pos.mpr h
  · exact h

theorem discrepancyOf_nonneg (method : String) (μ : Measure (ℝ × ℝ)) : 0 ≤ discrepancyOf method μ := by
  unfold discrepancyOf
  split_ifs
  · exact Real.sqrt_nonneg _
  · exact boxDiscrepancy_nonneg _ (methodSides_weight method) μ

theorem range_map_sum (d : Nat) (f : Nat → ℝ) : ((List.range d).map f).sum = ∑ j : Fin d, f j.1 := by
  rw [← Finset.sum_range]
  induction d with
  | zero => simp
  | succ d ih => rw [List.range_succ, List.map_append, List.sum_append, ih, Finset.sum_range_succ]; simp

/-- Every method gives every parameter a positive share of the total discrepancy. -/
theorem C126_value (method : String) (disc : List (ℝ × ℝ) → ℝ) (hm : discMethod Real.sqrt method = .ok disc)
    (pb : Problem ℝ) (P : List (ℝ × ℝ)) (X : Mat ℝ) (Y : List ℝ) (hs : DiscShape pb P X Y) (hg : pb.groups = none)
    (h : DiscInputs P X Y) (hP : P ≠ []) (mn mx : ℝ) (h1 : mn ∈ Y ∧ ∀ y ∈ Y, mn ≤ y) (h2 : mx ∈ Y ∧ ∀ y ∈ Y, y ≤ mx)
    (D : Nat → ℝ)
    (hD : ∀ (i : Nat) p, P[i]? = some p → D i = discrepancyOf method (empirical (scatter X Y i p.1 p.2 mn mx))) :
    ∃ v : List ℝ, discAnalyze disc pb X Y = .ok (v.map some, pb.names) ∧ v.length = P.length ∧ v.sum = 1 ∧
      ∀ i < P.length, 0 < D i ∧ v[i]? = some (D i / ∑ k : Fin P.length, D k.1) := by
  have hY : Y ≠ [] := by
    rintro rfl
    simp at h1
  have hne : ∀ (i : Nat) (p : ℝ × ℝ), scatter X Y i p.1 p.2 mn mx ≠ [] := by
    intro i p h0
    have := congrArg List.length h0
    simp [scatter, hs.length] at this
    exact hY this
  have hd : ∀ (i : Nat) p, P[i]? = some p → D i = disc (scatter X Y i p.1 p.2 mn mx) := by
    intro i p hp
    rw [hD i p hp, C126_meaning method disc hm _ (hne i p)]
    exact scatter_unit P X Y h hs.rows mn mx h1 h2 i p hp
  have hpos : ∀ i < P.length, 0 < D i := by
    intro i hi
    rw [hD i _ (List.getElem?_eq_getElem hi)]
    exact discrepancyOf_pos _ _ (empirical_disc_pos method disc hm _ (hne i _)
      (scatter_unit P X Y h hs.rows mn mx h1 h2 i _ (List.getElem?_eq_getElem hi)))
  have htot : 0 < ((List.range P.length).map D).sum := by
    refine List.sum_pos _ ?_ ?_
    · intro x hx
      obtain ⟨i, hi, rfl⟩ := List.mem_map.mp hx
      exact hpos i (List.mem_range.mp hi)
    · simpa using hP
  obtain ⟨v, e1, e2, e3, e4, -⟩ := C87_shares disc pb X Y P hs hg h mn mx h1 h2 D hd htot.ne'
  refine ⟨v, e1, e2, e4, fun i hi => ⟨hpos i hi, ?_⟩⟩
  rw [e3 i hi, range_map_sum]

/-! ### An input without influence -/

theorem sideSize_eq (m : String) : sideSize (methodSides m) = zeroOf m := by
  rw [← sides_zero]
  unfold sideSize sideSum
  apply Finset.sum_congr rfl
  intro a _
  congr 1
  have hJ := methodSides_meas m _ (List.get_mem (methodSides m) a)
  generalize ((methodSides m).get a).region = J at hJ
  have hT : MeasurableSet {q : (ℝ × ℝ) × (ℝ × ℝ) | q.2.1 ∈ J q.1 ∧ q.2.2 ∈ J q.1} := by
    have g1 : Measurable fun q : (ℝ × ℝ) × (ℝ × ℝ) => (q.1, q.2.1) := by fun_prop
    have g2 : Measurable fun q : (ℝ × ℝ) × (ℝ × ℝ) => (q.1, q.2.2) := by fun_prop
    exact (g1 hJ).inter (g2 hJ)
  have key := real_sections unitSquare (unitLine.prod unitLine) _ hT
  have e1 : ∀ s : ℝ × ℝ, (unitLine.prod unitLine).real {b | (s, b) ∈ {q : (ℝ × ℝ) × (ℝ × ℝ) | q.2.1 ∈ J q.1 ∧ q.2.2 ∈ J q.1}} =
      unitLine.real (J s) ^ 2 := by
    intro s
    rw [sq, ← measureReal_prod_prod]
    rfl
  simp only [e1] at key
  rw [key]
  have hint : Integrable (fun r : ℝ × ℝ => overlap J r.1 r.2) (unitLine.prod unitLine) := by
    refine Integrable.of_bound (measurable_overlap hJ).aestronglyMeasurable 1 (ae_of_all _ fun r => ?_)
    rw [Real.norm_of_nonneg (overlap_range J _ _).1]
    exact (overlap_range J _ _).2
  exact integral_prod _ hint

theorem zeroOf_pos (m : String) : 0 < zeroOf m := by
  unfold zeroOf
  split_ifs <;> norm_num

/-- Uniform and independent of the second variable. -/
theorem boxDiscrepancy_prod (L : List Side) (ν : Measure ℝ) [IsProbabilityMeasure ν] :
    boxDiscrepancy L (unitLine.prod ν) = sideSize L * lineDiscrepancy L ν := by
  unfold boxDiscrepancy sideSize lineDiscrepancy
  rw [Finset.sum_mul_sum]
  apply Finset.sum_congr rfl
  intro a _
  apply Finset.sum_congr rfl
  intro b _
  have e : ∀ z : (ℝ × ℝ) × (ℝ × ℝ), ((unitLine.prod ν).real ((L.get a).region z.1 ×ˢ (L.get b).region z.2) -
      unitLine.real ((L.get a).region z.1) * unitLine.real ((L.get b).region z.2)) ^ 2 =
      unitLine.real ((L.get a).region z.1) ^ 2 * (ν.real ((L.get b).region z.2) - unitLine.real ((L.get b).region z.2)) ^ 2 := by
    intro z
    rw [measureReal_prod_prod]
    ring
  simp only [e]
  rw [integral_prod_mul (fun s => unitLine.real ((L.get a).region s) ^ 2)
    (fun t => (ν.real ((L.get b).region t) - unitLine.real ((L.get b).region t)) ^ 2)]
  ring

variable {d : Nat}

/-- A uniform input that is independent of the output: its discrepancy is that of the output alone, times a constant of
the method; it vanishes only if the output is uniform over its range. -/
theorem C126_inert (method : String) (law : Measure (Fin d → ℝ)) [IsProbabilityMeasure law] (G : (Fin d → ℝ) → ℝ)
    (hG : Measurable G) (a b : ℝ) (hr : OutputRange law G a b) (j : Fin d) (lo hi : ℝ)
    (hunif : law.map (fun x => (x j - lo) / (hi - lo)) = unitLine) (hind : IndepFun (fun x => x j) G law) :
    boxDiscrepancy (methodSides method) (plotLaw law G j lo hi a b) =
      sideSize (methodSides method) * lineDiscrepancy (methodSides method) (law.map fun x => (G x - a) / (b - a)) ∧
    sideSize (methodSides method) = (if method = "CD" then 13 / 12 else if method = "WD" then 4 / 3
      else if method = "MD" then 19 / 12 else 1 / 3) ∧
    (discrepancyOf method (plotLaw law G j lo hi a b) = 0 ↔ law.map (fun x => (G x - a) / (b - a)) = unitLine) := by
  have hg : Measurable fun x => (G x - a) / (b - a) := (hG.sub_const _).div_const _
  have hf : Measurable fun x : Fin d → ℝ => (x j - lo) / (hi - lo) := ((measurable_pi_apply j).sub_const _).div_const _
  have : IsProbabilityMeasure (law.map fun x => (G x - a) / (b - a)) := Measure.isProbabilityMeasure_map hg.aemeasurable
  have hi' : IndepFun (fun x => (x j - lo) / (hi - lo)) (fun x => (G x - a) / (b - a)) law :=
    hind.comp (φ := fun t => (t - lo) / (hi - lo)) (ψ := fun t => (t - a) / (b - a))
      ((measurable_id.sub_const _).div_const _) ((measurable_id.sub_const _).div_const _)
  have hprod : plotLaw law G j lo hi a b = unitLine.prod (law.map fun x => (G x - a) / (b - a)) := by
    unfold plotLaw
    rw [(indepFun_iff_map_prod_eq_prod_map_map hf.aemeasurable hg.aemeasurable).mp hi', hunif]
  have h1 : boxDiscrepancy (methodSides method) (plotLaw law G j lo hi a b) =
      sideSize (methodSides method) * lineDiscrepancy (methodSides method) (law.map fun x => (G x - a) / (b - a)) := by
    rw [hprod, boxDiscrepancy_prod]
  refine ⟨h1, sideSize_eq method, ?_⟩
  have hba : 0 < b - a := sub_pos.mpr hr.lt
  have h01 : ∀ᵐ y ∂law.map (fun x => (G x - a) / (b - a)), y ∈ Icc (0 : ℝ) 1 := by
    refine (ae_map_iff (p := fun y => y ∈ Icc (0 : ℝ) 1) hg.aemeasurable measurableSet_Icc).mpr ?_
    filter_upwards [hr.mem] with x hx
    exact ⟨div_nonneg (by linarith [hx.1]) hba.le, (div_le_one hba).mpr (by linarith [hx.2])⟩
  rw [← lineDiscrepancy_eq_zero_iff method _ h01]
  have hnn := boxDiscrepancy_nonneg _ (methodSides_weight method) (plotLaw law G j lo hi a b)
  have hpos := zeroOf_pos method
  rw [← sideSize_eq] at hpos
  have : discrepancyOf method (plotLaw law G j lo hi a b) = 0 ↔
      boxDiscrepancy (methodSides method) (plotLaw law G j lo hi a b) = 0 := by
    unfold discrepancyOf
    split_ifs
    · rw [Real.sqrt_eq_zero hnn]
    · rfl
  rw [this, h1, mul_eq_zero]
  exact ⟨fun h => h.resolve_left hpos.ne', Or.inr⟩

/-! ### Random samples -/

theorem freq_pos_mem {β : Type} (rows : List β) (A : Set β) (h : 0 < freq rows A) : ∃ r ∈ rows, r ∈ A := by
  by_contra hcon
  push Not at hcon
  have : freq rows A = freq rows ∅ := freq_congr rows _ _ fun r hr => ⟨fun h => absurd h (hcon r hr), fun h => absurd h (by simp)⟩
  rw [this] at h
  unfold freq rowMean at h
  simp at h

/-- Scaling to the observed range instead of the true range. -/
theorem scale_near {a b mn mx y : ℝ} (h1 : a ≤ mn) (h2 : mx ≤ b) (h3 : mn < mx) (h4 : mn ≤ y) (h5 : y ≤ mx) :
    |(y - mn) / (mx - mn) - (y - a) / (b - a)| ≤ ((mn - a) + (b - mx)) / (mx - mn) := by
  have hm : 0 < mx - mn := by linarith
  have hb : 0 < b - a := by linarith
  have hu0 : 0 ≤ (y - a) / (b - a) := div_nonneg (by linarith) hb.le
  have hu1 : (y - a) / (b - a) ≤ 1 := (div_le_one hb).mpr (by linarith)
  set u := (y - a) / (b - a) with hu
  have hy : y = a + u * (b - a) := by rw [hu]; field_simp; ring
  have e : (y - mn) / (mx - mn) - u = (u * ((mn - a) + (b - mx)) - (mn - a)) / (mx - mn) := by
    rw [hy]; field_simp; ring
  rw [e, abs_div, abs_of_pos hm]
  refine div_le_div_of_nonneg_right ?_ hm.le
  rw [abs_le]
  constructor <;> nlinarith

open Classical in
/-- The indices of all long samples whose means agree with the distribution. -/
theorem disc_near (method : String) (disc : List (ℝ × ℝ) → ℝ) (hm : discMethod Real.sqrt method = .ok disc)
    (law : Measure (Fin d → ℝ)) [IsProbabilityMeasure law] (f : List ℝ → ℝ) (G : (Fin d → ℝ) → ℝ)
    (hGf : ∀ x, G x = f (List.ofFn x)) (hG : Measurable G) (a b : ℝ) (hr : OutputRange law G a b)
    (lo hi : Fin d → ℝ) (hlh : ∀ j, lo j < hi j) (hin : ∀ᵐ x ∂law, ∀ j, lo j ≤ x j ∧ x j ≤ hi j) (pb : Problem ℝ)
    (hb : pb.bounds = List.ofFn fun j => [lo j, hi j]) (hD : pb.numVars = d) (hg : pb.groups = none)
    (htot : ∑ k, discrepancyOf method (plotLaw law G k (lo k) (hi k) a b) ≠ 0) (ε : ℝ) (hε : 0 < ε) :
    ∀ᶠ rows in lawRows law, (∀ r ∈ rows, (∀ j, lo j ≤ r j ∧ r j ≤ hi j) ∧ a ≤ G r ∧ G r ≤ b) →
      ∀ X, X = rows.map List.ofFn → ∃ v : List ℝ,
      discAnalyze disc pb X (X.map f) = .ok (v.map some, pb.names) ∧ v.length = d ∧
      ∀ j : Fin d, ∃ x, v[j.1]? = some x ∧
        |x - discrepancyOf method (plotLaw law G j (lo j) (hi j) a b) /
          ∑ k, discrepancyOf method (plotLaw law G k (lo k) (hi k) a b)| < ε := by
  have hba : 0 < b - a := sub_pos.mpr hr.lt
  have hgs : Measurable fun x => (G x - a) / (b - a) := (hG.sub_const _).div_const _
  set φ : Fin d → (Fin d → ℝ) → ℝ × ℝ := fun j x => ((x j - lo j) / (hi j - lo j), (G x - a) / (b - a)) with hφ
  have hφm : ∀ j, Measurable (φ j) := fun j => (((measurable_pi_apply j).sub_const _).div_const _).prodMk hgs
  -- lists of rows with the ranges of the distribution
  let ι : Type := {rows : List (Fin d → ℝ) // ∀ r ∈ rows, (∀ j, lo j ≤ r j ∧ r j ≤ hi j) ∧ a ≤ G r ∧ G r ≤ b}
  let l : Filter ι := comap Subtype.val (lawRows law)
  set rows : ι → List (Fin d → ℝ) := Subtype.val with hrows
  have hlt : Tendsto rows l (lawRows law) := tendsto_comap
  have hrow : ∀ N, ∀ r ∈ rows N, (∀ j, lo j ≤ r j ∧ r j ≤ hi j) ∧ a ≤ G r ∧ G r ≤ b := fun N => N.2
  have hω2 : ∀ (j : Fin d) (m : ℕ) (e : Fin (m + 1) × Fin (m + 1)),
      Tendsto (fun N => freq (rows N) (φ j ⁻¹' gridCell m e)) l
        (𝓝 ((plotLaw law G j (lo j) (hi j) a b).real (gridCell m e))) := by
    intro j m e
    have e2 : (plotLaw law G j (lo j) (hi j) a b).real (gridCell m e) = law.real (φ j ⁻¹' gridCell m e) := by
      unfold plotLaw
      rw [measureReal_def, Measure.map_apply (hφm j) (measurableSet_gridCell m e)]
      rfl
    rw [e2]
    exact (lawRows_freq law _ (hφm j (measurableSet_gridCell m e))).comp hlt
  have hω3 : ∀ k : ℕ, Tendsto (fun N => freq (rows N) {x | G x < a + 1 / ((k : ℝ) + 1)}) l
      (𝓝 (law.real {x | G x < a + 1 / ((k : ℝ) + 1)})) := fun k =>
    (lawRows_freq law _ (measurableSet_lt hG measurable_const)).comp hlt
  have hω4 : ∀ k : ℕ, Tendsto (fun N => freq (rows N) {x | b - 1 / ((k : ℝ) + 1) < G x}) l
      (𝓝 (law.real {x | b - 1 / ((k : ℝ) + 1) < G x})) := fun k =>
    (lawRows_freq law _ (measurableSet_lt measurable_const hG)).comp hlt
  -- the observed extremes
  have hext : ∀ N, ∃ mn mx, rows N ≠ [] → (mn ∈ (rows N).map G ∧ ∀ y ∈ (rows N).map G, mn ≤ y) ∧
      mx ∈ (rows N).map G ∧ ∀ y ∈ (rows N).map G, y ≤ mx := by
    intro N
    by_cases h : rows N = []
    · exact ⟨0, 0, fun h' => absurd h h'⟩
    · obtain ⟨mn, mx, h1, h2⟩ := exists_extremes ((rows N).map G) (by simpa using h)
      exact ⟨mn, mx, fun _ => ⟨h1, h2⟩⟩
  choose mn mx hmm using hext
  have hne : ∀ᶠ N in l, rows N ≠ [] := by
    filter_upwards [((lawRows_length law).comp hlt).eventually_ge_atTop 1] with N hN h
    have : 1 ≤ (rows N).length := hN
    rw [h] at this
    simp at this
  have hnear : ∀ η > 0, ∀ᶠ N in l, rows N ≠ [] ∧ a ≤ mn N ∧ mn N < a + η ∧ b - η < mx N ∧ mx N ≤ b := by
    intro η hη
    obtain ⟨k, hk⟩ := exists_nat_one_div_lt hη
    have hk0 : (0 : ℝ) < 1 / ((k : ℝ) + 1) := by positivity
    have e1 := (hω3 k).eventually (lt_mem_nhds (hr.low _ hk0))
    have e2 := (hω4 k).eventually (lt_mem_nhds (hr.high _ hk0))
    filter_upwards [hne, e1, e2] with N h0 h1 h2
    obtain ⟨⟨m1, m2⟩, m3, m4⟩ := hmm N h0
    obtain ⟨r, hr1, hr2⟩ := freq_pos_mem _ _ h1
    obtain ⟨s, hs1, hs2⟩ := freq_pos_mem _ _ h2
    have hr3 : G r < a + 1 / ((k : ℝ) + 1) := hr2
    have hs3 : b - 1 / ((k : ℝ) + 1) < G s := hs2
    obtain ⟨x, hx, ex⟩ := List.mem_map.mp m1
    obtain ⟨y, hy, ey⟩ := List.mem_map.mp m3
    refine ⟨h0, ?_, ?_, ?_, ?_⟩
    · rw [← ex]; exact (hrow N x hx).2.1
    · have := m2 _ (List.mem_map_of_mem hr1)
      linarith
    · have := m4 _ (List.mem_map_of_mem hs1)
      linarith
    · rw [← ey]; exact (hrow N y hy).2.2
  set ψ : Fin d → ι → (Fin d → ℝ) → ℝ × ℝ := fun j N x =>
    ((x j - lo j) / (hi j - lo j), (G x - mn N) / (mx N - mn N)) with hψ
  have hfirst : ∀ j N, ∀ r ∈ rows N, (r j - lo j) / (hi j - lo j) ∈ Icc (0 : ℝ) 1 := by
    intro j N r hrN
    have h0 : 0 < hi j - lo j := sub_pos.mpr (hlh j)
    have := (hrow N r hrN).1 j
    exact ⟨div_nonneg (by linarith [this.1]) h0.le, (div_le_one h0).mpr (by linarith [this.2])⟩
  have hφbox : ∀ j N, ∀ r ∈ rows N, φ j r ∈ unitBox := by
    intro j N r hrN
    have := (hrow N r hrN).2
    exact ⟨hfirst j N r hrN, div_nonneg (by linarith [this.1]) hba.le, (div_le_one hba).mpr (by linarith [this.2])⟩
  have hψnear : ∀ j, ∀ δ > 0, ∀ᶠ N in l, ∀ r ∈ rows N, ψ j N r ∈ unitBox ∧ dist (ψ j N r) (φ j r) < δ := by
    intro j δ hδ
    have hη : 0 < min ((b - a) / 4) (δ * (b - a) / 8) := lt_min (by linarith) (by positivity)
    filter_upwards [hnear _ hη] with N hN r hrN
    obtain ⟨h0, g1, g2, g3, g4⟩ := hN
    obtain ⟨⟨-, m2⟩, -, m4⟩ := hmm N h0
    have l1 : min ((b - a) / 4) (δ * (b - a) / 8) ≤ (b - a) / 4 := min_le_left _ _
    have l2 : min ((b - a) / 4) (δ * (b - a) / 8) ≤ δ * (b - a) / 8 := min_le_right _ _
    have hy1 := m2 _ (List.mem_map_of_mem hrN)
    have hy2 := m4 _ (List.mem_map_of_mem hrN)
    have hw : (b - a) / 2 < mx N - mn N := by linarith
    have hw0 : 0 < mx N - mn N := by linarith
    refine ⟨⟨hfirst j N r hrN, div_nonneg (by linarith) hw0.le, (div_le_one hw0).mpr (by linarith)⟩, ?_⟩
    rw [Prod.dist_eq]
    refine max_lt ?_ ?_
    · show dist ((r j - lo j) / (hi j - lo j)) ((r j - lo j) / (hi j - lo j)) < δ
      rw [dist_self]; exact hδ
    · show dist ((G r - mn N) / (mx N - mn N)) ((G r - a) / (b - a)) < δ
      rw [Real.dist_eq]
      refine (scale_near g1 g4 (by linarith) hy1 hy2).trans_lt ?_
      rw [div_lt_iff₀ hw0]
      nlinarith
  have hplot : ∀ j, IsProbabilityMeasure (plotLaw law G j (lo j) (hi j) a b) := fun j =>
    Measure.isProbabilityMeasure_map (hφm j).aemeasurable
  have hplotbox : ∀ j, ∀ᵐ p ∂plotLaw law G j (lo j) (hi j) a b, p ∈ unitBox := by
    intro j
    unfold plotLaw
    refine (ae_map_iff (p := fun p => p ∈ unitBox) (hφm j).aemeasurable measurableSet_unitBox).mpr ?_
    filter_upwards [hin, hr.mem] with x h1 h2
    have h0 : 0 < hi j - lo j := sub_pos.mpr (hlh j)
    exact ⟨⟨div_nonneg (by linarith [(h1 j).1]) h0.le, (div_le_one h0).mpr (by linarith [(h1 j).2])⟩,
      div_nonneg (by linarith [h2.1]) hba.le, (div_le_one hba).mpr (by linarith [h2.2])⟩
  -- the discrepancies converge
  have hlim : ∀ j, Tendsto (fun N => disc ((rows N).map (ψ j N))) l
      (𝓝 (discrepancyOf method (plotLaw law G j (lo j) (hi j) a b))) := by
    intro j
    have := hplot j
    have h1 := double_limit l (plotLaw law G j (lo j) (hi j) a b) (hplotbox j) (methodKernel method) (continuous_kernel method)
      rows (φ j) (ψ j) (hφbox j) (fun m _ e => hω2 j m e) (hψnear j)
    rw [← boxDiscrepancy_kernel _ _ (hplotbox j)] at h1
    have h2 : (fun N => disc ((rows N).map (ψ j N))) =ᶠ[l] fun N => if method = "L2-star" then
        Real.sqrt (doubleMean (methodKernel method) ((rows N).map (ψ j N)))
        else doubleMean (methodKernel method) ((rows N).map (ψ j N)) := by
      filter_upwards [hne] with N hN
      exact disc_double method disc hm _ (by simpa using hN)
    refine Tendsto.congr' h2.symm ?_
    unfold discrepancyOf
    by_cases h : method = "L2-star"
    · simp only [if_pos h]
      exact (Real.continuous_sqrt.tendsto _).comp h1
    · simp only [if_neg h]
      exact h1
  have hshare : ∀ j, Tendsto (fun N => disc ((rows N).map (ψ j N)) / ∑ k, disc ((rows N).map (ψ k N))) l
      (𝓝 (discrepancyOf method (plotLaw law G j (lo j) (hi j) a b) /
        ∑ k, discrepancyOf method (plotLaw law G k (lo k) (hi k) a b))) := by
    intro j
    exact (hlim j).div (tendsto_finset_sum _ fun k _ => hlim k) htot
  have hev : ∀ᶠ N in l, ∀ j, |disc ((rows N).map (ψ j N)) / ∑ k, disc ((rows N).map (ψ k N)) -
      discrepancyOf method (plotLaw law G j (lo j) (hi j) a b) /
        ∑ k, discrepancyOf method (plotLaw law G k (lo k) (hi k) a b)| < ε := by
    rw [eventually_all]
    intro j
    have := Metric.tendsto_nhds.mp (hshare j) ε hε
    simpa [Real.dist_eq] using this
  filter_upwards [eventually_comap.mp (hev.and (hnear ((b - a) / 2) (by linarith)))] with rows0 hrows0 hD0 X hX
  obtain ⟨g1, g0, g2, g3, g4, g5⟩ := hrows0 ⟨rows0, hD0⟩ rfl
  set N : ι := ⟨rows0, hD0⟩ with hNd
  replace hX : X = (rows N).map List.ofFn := hX
  have hd0 : 0 < d := by
    rcases Nat.eq_zero_or_pos d with h | h
    · subst h
      exact absurd (by simp) htot
    · exact h
  have hXY : X.map f = (rows N).map G := by
    rw [hX, List.map_map]
    apply List.map_congr_left
    intro r _
    exact (hGf r).symm
  set Q : List (ℝ × ℝ) := List.ofFn fun j => (lo j, hi j) with hQ
  have hQl : Q.length = d := by simp [hQ]
  have hQget : ∀ (i : Nat) p, Q[i]? = some p → ∃ h : i < d, p = (lo ⟨i, h⟩, hi ⟨i, h⟩) := by
    intro i p hp
    have hi' : i < d := by
      have := (List.getElem?_eq_some_iff.mp hp).1
      rwa [hQl] at this
    refine ⟨hi', ?_⟩
    rw [hQ, List.getElem?_ofFn, dif_pos hi'] at hp
    exact (Option.some.inj hp).symm
  have hs : DiscShape pb Q X (X.map f) := by
    refine ⟨?_, by rw [hD, hQl], ?_, by simp, fun gs h => by rw [hg] at h; cases h⟩
    · rw [hb, hQ, List.map_ofFn]
      rfl
    · intro row hrow'
      rw [hX] at hrow'
      obtain ⟨r, -, rfl⟩ := List.mem_map.mp hrow'
      simp [hQ]
  obtain ⟨⟨m1, m2⟩, m3, m4⟩ := hmm N g0
  have hmnx : mn N < mx N := by linarith
  have hinp : DiscInputs Q X (X.map f) := by
    refine ⟨?_, ?_, mn N, by rw [hXY]; exact m1, mx N, by rw [hXY]; exact m3, hmnx.ne⟩
    · intro p hp
      rw [hQ, List.mem_ofFn] at hp
      obtain ⟨j, rfl⟩ := hp
      exact hlh j
    · intro row hrow' i x p hx hp
      rw [hX] at hrow'
      obtain ⟨r, hr', rfl⟩ := List.mem_map.mp hrow'
      obtain ⟨hi', rfl⟩ := hQget i p hp
      rw [List.getElem?_ofFn, dif_pos hi'] at hx
      obtain rfl := Option.some.inj hx
      exact (hrow N r hr').1 ⟨i, hi'⟩
  have hsc : ∀ j : Fin d, scatter X (X.map f) j.1 (lo j) (hi j) (mn N) (mx N) = (rows N).map (ψ j N) := by
    intro j
    rw [hXY, hX]
    unfold scatter
    rw [List.zip_map, List.map_map]
    have : (rows N).zip (rows N) = (rows N).map fun r => (r, r) := by
      induction rows N with
      | nil => rfl
      | cons r l ih => simp [ih]
    show List.map _ ((rows N).zip (rows N)) = _
    rw [this, List.map_map]
    apply List.map_congr_left
    intro r _
    simp [ψ, List.getD]
  have hbox : ∀ j : Fin d, ∀ p ∈ (rows N).map (ψ j N), (0 ≤ p.1 ∧ p.1 ≤ 1) ∧ 0 ≤ p.2 ∧ p.2 ≤ 1 := by
    intro j p hp
    obtain ⟨r, hr', rfl⟩ := List.mem_map.mp hp
    have hw0 : 0 < mx N - mn N := by linarith
    have hy1 := m2 _ (List.mem_map_of_mem hr')
    have hy2 := m4 _ (List.mem_map_of_mem hr')
    exact ⟨hfirst j N r hr', div_nonneg (by linarith) hw0.le, (div_le_one hw0).mpr (by linarith)⟩
  obtain ⟨v, e1, e2, -, e4⟩ := C126_value method disc hm pb Q X (X.map f) hs hg hinp
    (by intro h; rw [h] at hQl; simp at hQl; omega) (mn N) (mx N) (by rw [hXY]; exact ⟨m1, m2⟩)
    (by rw [hXY]; exact ⟨m3, m4⟩) (fun i => if h : i < d then disc ((rows N).map (ψ ⟨i, h⟩ N)) else 0) (by
      intro i p hp
      obtain ⟨hi', rfl⟩ := hQget i p hp
      rw [dif_pos hi', hsc ⟨i, hi'⟩]
      exact C126_meaning method disc hm _ (by simpa using g0) (hbox ⟨i, hi'⟩))
  refine ⟨v, e1, e2.trans hQl, fun j => ⟨_, (e4 j.1 (by rw [hQl]; exact j.2)).2, ?_⟩⟩
  have hsum : (∑ k : Fin Q.length, if h : k.1 < d then disc ((rows N).map (ψ ⟨k.1, h⟩ N)) else 0) =
      ∑ k : Fin d, disc ((rows N).map (ψ k N)) := by
    rw [← range_map_sum Q.length fun i => if h : i < d then disc ((rows N).map (ψ ⟨i, h⟩ N)) else 0, hQl, range_map_sum]
    apply Finset.sum_congr rfl
    intro k _
    rw [dif_pos k.2]
  beta_reduce
  rw [hsum, dif_pos j.2]
  exact g1 j

/-- For random rows every index converges to the parameter's share of the discrepancies of the joint distributions of
input and output. -/
theorem C126_limit (method : String) (disc : List (ℝ × ℝ) → ℝ) (hm : discMethod Real.sqrt method = .ok disc)
    (law : Measure (Fin d → ℝ)) [IsProbabilityMeasure law] (f : List ℝ → ℝ) (G : (Fin d → ℝ) → ℝ)
    (hGf : ∀ x, G x = f (List.ofFn x)) (hG : Measurable G) (a b : ℝ) (hr : OutputRange law G a b)
    (lo hi : Fin d → ℝ) (hlh : ∀ j, lo j < hi j) (hin : ∀ᵐ x ∂law, ∀ j, lo j ≤ x j ∧ x j ≤ hi j) (pb : Problem ℝ)
    (hb : pb.bounds = List.ofFn fun j => [lo j, hi j]) (hD : pb.numVars = d) (hg : pb.groups = none)
    (htot : ∑ k, discrepancyOf method (plotLaw law G k (lo k) (hi k) a b) ≠ 0)
    {Ω : Type} [MeasurableSpace Ω] (P : Measure Ω) (Z : ℕ → Ω → (Fin d → ℝ)) (hZ : RandomRows law P Z) :
    ∀ᵐ ω ∂P, ∀ ε > 0, ∃ N0, ∀ N ≥ N0, ∀ X, X = (firstRows Z N ω).map List.ofFn → ∃ v : List ℝ,
      discAnalyze disc pb X (X.map f) = .ok (v.map some, pb.names) ∧ v.length = d ∧
      ∀ j : Fin d, ∃ x, v[j.1]? = some x ∧
        |x - discrepancyOf method (plotLaw law G j (lo j) (hi j) a b) /
          ∑ k, discrepancyOf method (plotLaw law G k (lo k) (hi k) a b)| < ε := by
  have hmem : ∀ᵐ ω ∂P, ∀ i, (∀ j, lo j ≤ Z i ω j ∧ Z i ω j ≤ hi j) ∧ a ≤ G (Z i ω) ∧ G (Z i ω) ≤ b := by
    rw [ae_all_iff]
    intro i
    have := hin.and hr.mem
    rw [← hZ.law i] at this
    exact ae_of_ae_map (hZ.meas i).aemeasurable this
  have hall := lawRows_ae hZ.meas hZ.law hZ.indep _ fun n : ℕ =>
    disc_near method disc hm law f G hGf hG a b hr lo hi hlh hin pb hb hD hg htot (1 / ((n : ℝ) + 1)) (by positivity)
  filter_upwards [hmem, hall] with ω h1 h2 ε hε
  obtain ⟨n, hn⟩ := exists_nat_one_div_lt hε
  obtain ⟨N0, hN0⟩ := eventually_atTop.mp (h2 n)
  refine ⟨N0, fun N hN X hX => ?_⟩
  obtain ⟨v, e1, e2, e3⟩ := hN0 N hN (by
    intro r hrN
    obtain ⟨i, -, rfl⟩ := List.mem_map.mp hrN
    exact h1 i) X hX
  refine ⟨v, e1, e2, fun j => ?_⟩
  obtain ⟨x, h3, h4⟩ := e3 j
  exact ⟨x, h3, h4.trans hn⟩

/-! Witness: two uniform inputs and the square of the first one.  The second input has no influence, yet its share of the
total does not tend to 0, with any method. -/

theorem unifOn_unit : unifOn 0 1 = unitLine := by
  unfold unifOn unitLine ProbabilityTheory.cond
  simp

theorem square_plots (method : String) :
    let law : Measure (Fin 2 → ℝ) := Measure.pi fun _ => unifOn 0 1
    let G : (Fin 2 → ℝ) → ℝ := fun x => x 0 ^ 2
    OutputRange law G 0 1 ∧ (∀ᵐ x ∂law, ∀ j, (0 : ℝ) ≤ x j ∧ x j ≤ 1) ∧
    law.map (fun x => (x 1 - 0) / (1 - 0)) = unitLine ∧ IndepFun (fun x => x 1) G law ∧
    0 < discrepancyOf method (plotLaw law G 1 0 1 0 1) ∧
    ∑ k, discrepancyOf method (plotLaw law G k 0 1 0 1) ≠ 0 := by
  intro law G
  have hu := isProb_unifOn (lo := 0) (hi := 1) (by norm_num)
  have hG : Measurable G := (measurable_pi_apply 0).pow_const 2
  have hmap : ∀ k, law.map (fun x => x k) = unitLine := by
    intro k
    have h := Measure.pi_map_eval (fun _ : Fin 2 => unifOn 0 1) k
    rw [← unifOn_unit]
    simpa using h
  have hbox : ∀ᵐ x ∂law, ∀ j, (0 : ℝ) ≤ x j ∧ x j ≤ 1 := by
    rw [ae_all_iff]
    intro j
    have h1 : ∀ᵐ t ∂unitLine, 0 ≤ t ∧ t ≤ 1 := ae_restrict_mem measurableSet_Icc
    rw [← hmap j] at h1
    exact ae_of_ae_map (measurable_pi_apply j).aemeasurable h1
  have hreal : ∀ (A : Set ℝ), MeasurableSet A → law.real {x | x 0 ∈ A} = unitLine.real A := by
    intro A hA
    rw [← hmap 0, measureReal_def, measureReal_def, Measure.map_apply (measurable_pi_apply 0) hA]
    rfl
  have hrange : OutputRange law G 0 1 := by
    refine ⟨one_pos, ?_, ?_, ?_⟩
    · filter_upwards [hbox] with x hx
      exact ⟨sq_nonneg _, pow_le_one₀ (hx 0).1 (hx 0).2⟩
    · intro ε hε
      set δ := min ε 1 with hδ
      have hd0 : 0 < δ := lt_min hε one_pos
      have h1 : 0 < law.real {x : Fin 2 → ℝ | x 0 ∈ Ioo 0 δ} := by
        rw [hreal _ measurableSet_Ioo]
        exact ENNReal.toReal_pos (unitLine_Ioo_ne le_rfl hd0 (min_le_right _ _)) (measure_ne_top _ _)
      refine h1.trans_le (measureReal_mono fun x hx => ?_)
      have hx : 0 < x 0 ∧ x 0 < δ := hx
      have l1 : δ ≤ 1 := min_le_right _ _
      have l2 : δ ≤ ε := min_le_left _ _
      show x 0 ^ 2 < 0 + ε
      nlinarith
    · intro ε hε
      set δ := min ε 1 with hδ
      have hd0 : 0 < δ := lt_min hε one_pos
      have hd1 : δ ≤ 1 := min_le_right _ _
      have h1 : 0 < law.real {x : Fin 2 → ℝ | x 0 ∈ Ioo (1 - δ / 2) 1} := by
        rw [hreal _ measurableSet_Ioo]
        exact ENNReal.toReal_pos (unitLine_Ioo_ne (by linarith) (by linarith) le_rfl) (measure_ne_top _ _)
      refine h1.trans_le (measureReal_mono fun x hx => ?_)
      have hx : 1 - δ / 2 < x 0 ∧ x 0 < 1 := hx
      have l2 : δ ≤ ε := min_le_left _ _
      show 1 - ε < x 0 ^ 2
      nlinarith
  have hun : law.map (fun x => (x 1 - 0) / (1 - 0)) = unitLine := by
    have : (fun x : Fin 2 → ℝ => (x 1 - 0) / (1 - 0)) = fun x => x 1 := by funext x; simp
    rw [this]; exact hmap 1
  have hind : IndepFun (fun x : Fin 2 → ℝ => x 1) G law := by
    have h1 : IndepFun (fun x : Fin 2 → ℝ => x 1) (fun x : Fin 2 → ℝ => x 0) law :=
      (iIndepFun_pi (μ := fun _ : Fin 2 => unifOn 0 1) (X := fun _ => id) fun _ => aemeasurable_id).indepFun (by decide)
    exact h1.comp measurable_id (measurable_id.pow_const 2)
  have hpos : 0 < discrepancyOf method (plotLaw law G 1 0 1 0 1) := by
    refine lt_of_le_of_ne (discrepancyOf_nonneg _ _) fun h0 => ?_
    have h2 := (C126_inert method law G hG 0 1 hrange 1 0 1 hun hind).2.2.mp h0.symm
    have e1 : (fun x : Fin 2 → ℝ => (G x - 0) / (1 - 0)) = fun x => x 0 ^ 2 := by funext x; simp [G]
    rw [e1] at h2
    -- the median of the square is 1/4
    have h3 : (law.map fun x => x 0 ^ 2).real (Iio (1 / 4)) = unitLine.real (Iio (1 / 2)) := by
      rw [measureReal_def, Measure.map_apply hG measurableSet_Iio, ← hreal _ measurableSet_Iio, measureReal_def]
      congr 1
      apply measure_congr
      filter_upwards [hbox] with x hx
      refine propext ⟨fun h => ?_, fun h => ?_⟩
      · have h : x 0 ^ 2 < 1 / 4 := h
        show x 0 < 1 / 2
        nlinarith [(hx 0).1]
      · have h : x 0 < 1 / 2 := h
        show x 0 ^ 2 < 1 / 4
        nlinarith [(hx 0).1]
    rw [h2, unitLine_between (Iio (1 / 4)) 0 (1 / 4) (by norm_num) le_rfl (by norm_num) (fun s _ g => g)
      (fun s g g0 _ => ⟨g0, le_of_lt g⟩), unitLine_between (Iio (1 / 2)) 0 (1 / 2) (by norm_num) le_rfl (by norm_num)
      (fun s _ g => g) (fun s g g0 _ => ⟨g0, le_of_lt g⟩)] at h3
    norm_num at h3
  refine ⟨hrange, hbox, hun, hind, hpos, ?_⟩
  rw [Fin.sum_univ_two]
  have := discrepancyOf_nonneg method (plotLaw law G 0 0 1 0 1)
  linarith

example : (∃ disc, discMethod Real.sqrt "CD" = .ok disc) ∧ (∃ disc, discMethod Real.sqrt "MD" = .ok disc) ∧
    ∃ disc, discMethod Real.sqrt "L2-star" = .ok disc := ⟨⟨_, rfl⟩, ⟨_, rfl⟩, ⟨_, rfl⟩⟩

end SALib
