import Verif.Spec.FloatSobolConf
import Verif.Props.FloatSobol
import Verif.Props.FloatMorrisStats

/-! # Bootstrap confidence values of Sobol indices in floating point -/

namespace SALib
open Spec

variable {F : Fmt} (order orderR : Nat → SumTree) (sqrt : ℚ → ℚ) (Z conf : ℚ) (pb : Problem ℚ) (Y : List ℚ)
  (second : Bool) (r : List (List Nat)) (D N : Nat)

/-- Resampled columns. -/
theorem resample_col (f : Nat → ℚ) (hr : ∀ l ∈ r, l.length = N ∧ ∀ i ∈ l, i < N) :
    resample (col N f) r = (List.range r.length).map fun t => col N fun i => f ((r.getD t []).getD i 0) := by
  apply List.ext_getElem
  · simp [resample]
  intro t h1 h2
  have ht : t < r.length := by simpa [resample] using h1
  obtain ⟨hl, hi⟩ := hr r[t] (List.getElem_mem ht)
  simp only [resample, List.getElem_map, List.getElem_range]
  have e1 : r.getD t [] = r[t] := by simp [List.getD, ht]
  rw [e1]
  have e2 : r[t].filterMap (fun x => (col N f)[x]?) = r[t].map f := by
    rw [← List.filterMap_eq_map]
    apply List.filterMap_congr
    intro i hmem
    simp [col, hi i hmem]
  rw [e2]
  apply List.ext_getElem
  · simp [col, hl]
  intro i h3 h4
  have h5 : i < r[t].length := by simpa using h3
  simp [col, List.getD, h5]

theorem zipWith_range {α β γ : Type} (f : α → β → γ) (n : Nat) (g : Nat → α) (h : Nat → β) :
    List.zipWith f ((List.range n).map g) ((List.range n).map h) = (List.range n).map fun t => f (g t) (h t) := by
  rw [List.zipWith_map, List.zipWith_self]

/-- Second order. -/
theorem secondRatioFl_rounded {order : Nat → SumTree} {a b abj abk baj : Nat → ℚ} {N : Nat} (hp : 1 ≤ F.p)
    (ho : SumOrder order) (hN : 0 < N) (ha : ∀ i, IsFloat F (a i)) (hj : ∀ i, IsFloat F (abj i))
    (hk : ∀ i, IsFloat F (abk i)) {v : ℚ} (hv : varFl F order (col N a ++ col N b) = some v) (hv0 : 0 ≤ v) :
    (v = 0 ∧ subSubFl F (crossRatioFl F order (col N a) (col N abk) (col N baj) (col N b))
        (firstRatioFl F order (col N a) (col N abj) (col N b)) (firstRatioFl F order (col N a) (col N abk) (col N b)) = none) ∨
      (0 < v ∧ ∃ S, subSubFl F (crossRatioFl F order (col N a) (col N abk) (col N baj) (col N b))
        (firstRatioFl F order (col N a) (col N abj) (col N b)) (firstRatioFl F order (col N a) (col N abk) (col N b)) = some S ∧
        IsFloat F S ∧ NearSecond F N v a b abj abk baj S) := by
  rcases crossRatioFl_rounded (a := a) (b := b) (abk := abk) (baj := baj) hp ho hN hv hv0 with h | ⟨hvp, V, hV, hVf, hVr⟩
  · left
    refine ⟨h.1, ?_⟩
    rw [h.2]
    rfl
  right
  refine ⟨hvp, ?_⟩
  rcases firstRatioFl_rounded (b := b) hp ho hN ha hj hv hv0 with h | ⟨-, Sj, hj1, hjf, hj2⟩
  · exact absurd h.1 hvp.ne'
  rcases firstRatioFl_rounded (b := b) hp ho hN ha hk hv hv0 with h | ⟨-, Sk, hk1, hkf, hk2⟩
  · exact absurd h.1 hvp.ne'
  have hX : ∀ f : Nat → ℚ, |avg N (fun i => b i * (f i - a i)) / v| ≤ avg N (fun i => |b i * (f i - a i)|) / v := by
    intro f
    rw [abs_div, abs_of_pos hvp]
    gcongr
    exact abs_avg_le fun i => le_rfl
  have hX0 : |avg N (fun i => baj i * abk i - a i * b i) / v| ≤
      avg N (fun i => |baj i * abk i| + |a i * b i|) / v := by
    rw [abs_div, abs_of_pos hvp]
    gcongr
    exact abs_avg_le fun i => abs_sub _ _
  have d1 := hVr.minus hp hj2 hX0 (hX _) hVf hjf
  have hX1 : |avg N (fun i => baj i * abk i - a i * b i) / v - avg N (fun i => b i * (abj i - a i)) / v| ≤
      avg N (fun i => |baj i * abk i| + |a i * b i|) / v + avg N (fun i => |b i * (abj i - a i)|) / v :=
    (abs_sub _ _).trans (add_le_add hX0 (hX _))
  have hk2' := hk2.mono (m := N + 3 + 1) (by omega) le_rfl (by positivity) le_rfl ((abs_nonneg _).trans (hX _))
  have d2 := d1.minus hp hk2' hX1 (hX _) (isFloat_fl hp _) hkf
  refine ⟨fsub F (fsub F V Sj) Sk, ?_, isFloat_fl hp _, ?_⟩
  · rw [hV, hj1, hk1]; rfl
  · unfold NearSecond
    convert d2 using 1
    ring

theorem std1FlN_none {o : Nat → SumTree} {l : List (Num ℚ)} (h : none ∈ l) : std1FlN F o sqrt l = none := by
  unfold std1FlN
  cases hl : l.mapM id with
  | none => rfl
  | some l' =>
    have := (optMapM_id _ l').mp hl
    rw [this] at h
    simp at h

/-- The half-width computed from the values of an estimator. -/
theorem halfWidth_near {order : Nat → SumTree} (hp : 2 ≤ F.p) (ho : SumOrder order) {R : Nat} (hR : 0 < R) (s : Nat → ℚ)
    (hs : ∀ t < R, IsFloat F (s t)) :
    NearHalfWidth F sqrt Z R s ((std1FlN F order sqrt ((List.range R).map fun t => some (s t))).map (fmul F Z)) := by
  rw [std1FlN_col]
  refine ⟨fun h => ?_, fun h => ?_⟩
  · have e : R = 1 := by omega
    subst e
    unfold std1Fl
    cases meanFl F order (col 1 s) with
    | none => rfl
    | some m => simp [col]
  · obtain ⟨μ, w, h1, h2, h3⟩ := std1Fl_rounded (by omega) ho sqrt h s hs
    exact ⟨μ, w, _, h2, h3, by rw [h1]; rfl, fl_roundsTo hp _⟩

/-- A vector of estimates, one per resample. -/
theorem confVec {order : Nat → SumTree} (hp : 2 ≤ F.p) (ho : SumOrder order) {R : Nat} (hR : 0 < R) (e : Nat → Num ℚ)
    (P : Nat → ℚ → Prop) {v : Nat → ℚ}
    (h : ∀ t < R, (v t = 0 ∧ e t = none) ∨ (0 < v t ∧ ∃ S, e t = some S ∧ IsFloat F S ∧ P t S)) :
    ((∃ t < R, v t = 0) → (std1FlN F order sqrt ((List.range R).map e)).map (fmul F Z) = none) ∧
    ((∀ t < R, v t ≠ 0) → ∃ s : Nat → ℚ, (∀ t < R, P t (s t)) ∧
      NearHalfWidth F sqrt Z R s ((std1FlN F order sqrt ((List.range R).map e)).map (fmul F Z))) := by
  refine ⟨?_, ?_⟩
  · rintro ⟨t, ht, h0⟩
    rw [std1FlN_none]
    · rfl
    · rcases h t ht with h | h
      · exact List.mem_map.mpr ⟨t, List.mem_range.mpr ht, h.2⟩
      · exact absurd h0 h.1.ne'
  · intro hv
    have hS : ∀ t, ∃ S, t < R → e t = some S ∧ IsFloat F S ∧ P t S := by
      intro t
      by_cases ht : t < R
      · rcases h t ht with h | ⟨-, S, h⟩
        · exact absurd h.1 (hv t ht)
        · exact ⟨S, fun _ => h⟩
      · exact ⟨0, fun h => absurd h ht⟩
    choose s hs using hS
    refine ⟨s, fun t ht => (hs t ht).2.2, ?_⟩
    rw [List.map_congr_left (g := fun t => some (s t)) fun t ht => (hs t (List.mem_range.mp ht)).1]
    exact halfWidth_near sqrt Z hp ho hR s fun t ht => (hs t ht).2.1

/-- **C113**, confidence values.  `d t i` is row `i` of draw `t`.  Every confidence value is `Z` times the root of a
number near the sample variance of the estimates on the draws, and each of these estimates is as near to the
documented estimator of the drawn rows as the index itself is to that of all rows.  If the drawn outputs of `A` and
`B` are all equal the confidence values of S1 and ST are 0 and those of S2 nan; if on some draw their computed variance
is 0, all are nan. -/
theorem C113_conf (hp2 : 2 ≤ F.p) (ho : SumOrder order) (hoR : SumOrder orderR) (hs : ∀ t, 0 ≤ sqrt t)
    (hD : (extractGroupNames pb).2 = D) (hconf : 0 < conf ∧ conf < 1) (hN : 0 < N)
    (step R : Nat) (hstep : step = if second then 2 * D + 2 else D + 2)
    (hY : Y.length = N * step) (hYf : ∀ y ∈ Y, IsFloat F y) (hR : r.length = R) (hR0 : 0 < R)
    (hr : ∀ l ∈ r, l.length = N ∧ ∀ i ∈ l, i < N) :
    ∃ res m w E, sobolAnalyzeFl F order orderR sqrt Z pb Y second conf r = .ok res ∧
      E = avg (N * step) (fun i => Y.getD i 0) ∧
      RoundedFrom F (N * step) 1 (avg (N * step) fun i => |Y.getD i 0|) E m ∧
      RoundedFrom F (N * step + 3) 2 (avg (N * step) (fun i => (Y.getD i 0 - E) ^ 2) + (m - E) ^ 2)
        (avg (N * step) (fun i => (Y.getD i 0 - E) ^ 2) + (m - E) ^ 2) w ∧
      (sqrt w = 0 → ∀ c ∈ res.S1conf ++ res.STconf, c = none) ∧
      (sqrt w ≠ 0 → ∃ (y : Nat → ℚ) (μ v : Nat → ℚ) (d : Nat → Nat → Nat) (a b : Nat → Nat → ℚ)
          (ab ba : Nat → Nat → Nat → ℚ),
        (∀ i < N * step, RoundedFrom F 2 1 (|Y.getD i 0 - m| / sqrt w) ((Y.getD i 0 - m) / sqrt w) (y i)) ∧
        (∀ t < R, ∀ i < N, entry r t i = some (d t i)) ∧
        (∀ t i, a t i = y (d t i * step) ∧ b t i = y (d t i * step + (step - 1))) ∧
        (∀ k t i, ab k t i = y (d t i * step + (k + 1)) ∧ ba k t i = y (d t i * step + (k + 1 + D))) ∧
        (∀ t < R, RoundedFrom F (2 * N) 1 (avg2 N (fun i => |a t i|) fun i => |b t i|) (avg2 N (a t) (b t)) (μ t) ∧
          RoundedFrom F (2 * N + 3) 2 (var2 N (a t) (b t) + (μ t - avg2 N (a t) (b t)) ^ 2)
            (var2 N (a t) (b t) + (μ t - avg2 N (a t) (b t)) ^ 2) (v t)) ∧
        ((∀ t < R, ∀ i < N, a t i = a 0 0 ∧ b t i = a 0 0) → (∀ c ∈ res.S1conf ++ res.STconf, c = some 0) ∧
          ∀ S2 row c, res.S2conf = some S2 → row ∈ S2 → c ∈ row → c = none) ∧
        (¬ (∀ t < R, ∀ i < N, a t i = a 0 0 ∧ b t i = a 0 0) →
          ((∃ t < R, v t = 0) → (∀ c ∈ res.S1conf ++ res.STconf, c = none) ∧
            ∀ S2 row c, res.S2conf = some S2 → row ∈ S2 → c ∈ row → c = none) ∧
          ((∀ t < R, v t ≠ 0) → ∀ k < D,
            (∃ s c, res.S1conf[k]? = some c ∧ (∀ t < R, NearFirst F N (v t) (a t) (b t) (ab k t) (s t)) ∧
              NearHalfWidth F sqrt Z R s c) ∧
            (∃ s c, res.STconf[k]? = some c ∧ (∀ t < R, NearTotal F N (v t) (a t) (ab k t) (s t)) ∧
              NearHalfWidth F sqrt Z R s c) ∧
            (second = true → ∀ j < k, ∃ S2 s c, res.S2conf = some S2 ∧ entry S2 j k = some c ∧
              (∀ t < R, NearSecond F N (v t) (a t) (b t) (ab j t) (ab k t) (ba j t) (s t)) ∧
              NearHalfWidth F sqrt Z R s c)))) := by
  have hp : 1 ≤ F.p := by omega
  subst hstep
  subst hR
  have hrne : r ≠ [] := List.length_pos_iff.mp hR0
  have hYne : Y ≠ [] := by
    rw [← List.length_pos_iff, hY]
    refine Nat.mul_pos hN ?_
    split <;> omega
  obtain ⟨m, w, hw, hm, -, -, hmf, hmr, hwr⟩ := varFl_rounded hp ho hYne hYf (fun i => Y.getD i 0) (fun i _ => rfl)
  rw [hY] at hmr hwr
  refine ⟨_, m, w, _, sobolAnalyzeFl_eq order orderR sqrt Z pb Y second conf r D N hD hconf hrne hN hY, rfl, hmr, hwr, ?_, ?_⟩
  · intro hw0
    have hn : normaliseFl F order sqrt Y = none := by
      unfold normaliseFl std0Fl
      rw [hm, hw]
      simp [hw0]
    rw [hn]
    intro S hS
    simp only [runFl, nanResult, List.mem_append, List.mem_replicate] at hS
    rcases hS with h | h <;> exact h.2
  · intro hw0
    have hspos : 0 < sqrt w := lt_of_le_of_ne (hs _) (Ne.symm hw0)
    have hn : normaliseFl F order sqrt Y = some (Y.map fun y => fdiv F (fsub F y m) (sqrt w)) := by
      unfold normaliseFl std0Fl
      rw [hm, hw]
      simp [hw0]
    rw [hn]
    clear hn
    generalize sqrt w = q at hspos
    set Y' := Y.map fun y => fdiv F (fsub F y m) q with hY'
    have hY'f : ∀ y ∈ Y', IsFloat F y := by
      intro y hy
      obtain ⟨x, -, rfl⟩ := List.mem_map.mp hy
      exact isFloat_fl hp _
    set y : Nat → ℚ := fun i => Y'.getD i 0 with hy
    have hyf : ∀ i, IsFloat F (y i) := fun i => isFloat_getD hY'f i
    set step := if second then 2 * D + 2 else D + 2 with hstep
    set d : Nat → Nat → Nat := fun t i => (r.getD t []).getD i 0 with hd
    set a : Nat → Nat → ℚ := fun t i => y (d t i * step) with ha
    set b : Nat → Nat → ℚ := fun t i => y (d t i * step + (step - 1)) with hb
    set ab : Nat → Nat → Nat → ℚ := fun k t i => y (d t i * step + (k + 1)) with hab
    set ba : Nat → Nat → Nat → ℚ := fun k t i => y (d t i * step + (k + 1 + D)) with hba
    have hvar := fun t => var2Fl_rounded hp hoR hN (a := a t) (b := b t) (fun i => hyf _) (fun i => hyf _)
    choose μ v hv hvn hvf hμr hvr using hvar
    have hres : runFl F order orderR sqrt Z D N second r (some Y') =
        serialIndicesFl F order orderR sqrt Z (sepOf second D N y) r D second := rfl
    have hA : resample (sepOf second D N y).A r = (List.range r.length).map fun t => col N (a t) :=
      resample_col r N _ hr
    have hB : resample (sepOf second D N y).B r = (List.range r.length).map fun t => col N (b t) :=
      resample_col r N _ hr
    have hAB : ∀ k < D, resample ((sepOf second D N y).AB.getD k []) r = (List.range r.length).map fun t => col N (ab k t) := by
      intro k hk
      have : (sepOf second D N y).AB.getD k [] = col N fun i => y (i * step + (k + 1)) := by
        simp [sepOf, List.getD, hk, hstep, rowsPer]
      rw [this]
      exact resample_col r N _ hr
    have hBA : second = true → ∀ k < D, resample ((sepOf second D N y).BA.getD k []) r =
        (List.range r.length).map fun t => col N (ba k t) := by
      intro hsec k hk
      have : (sepOf second D N y).BA.getD k [] = col N fun i => y (i * step + (k + 1 + D)) := by
        simp [sepOf, List.getD, hk, hstep, rowsPer, hsec]
      rw [this]
      exact resample_col r N _ hr
    have hptp : ptpZero2Fl F (resample (sepOf second D N y).A r) (resample (sepOf second D N y).B r) = true ↔
        ∀ t < r.length, ∀ i < N, a t i = a 0 0 ∧ b t i = a 0 0 := by
      rw [hA, hB]
      unfold ptpZero2Fl
      have hmemA : ∀ t < r.length, ∀ i < N, a t i ∈ ((List.range r.length).map fun t => col N (a t)).flatten := by
        intro t ht i hi
        exact List.mem_flatten.mpr ⟨_, List.mem_map.mpr ⟨t, List.mem_range.mpr ht, rfl⟩,
          List.mem_map.mpr ⟨i, List.mem_range.mpr hi, rfl⟩⟩
      have hmemB : ∀ t < r.length, ∀ i < N, b t i ∈ ((List.range r.length).map fun t => col N (b t)).flatten := by
        intro t ht i hi
        exact List.mem_flatten.mpr ⟨_, List.mem_map.mpr ⟨t, List.mem_range.mpr ht, rfl⟩,
          List.mem_map.mpr ⟨i, List.mem_range.mpr hi, rfl⟩⟩
      have hof : ∀ (f : Nat → Nat → ℚ) (x : ℚ), x ∈ ((List.range r.length).map fun t => col N (f t)).flatten →
          ∃ t < r.length, ∃ i < N, f t i = x := by
        intro f x hx
        obtain ⟨l, hl, hxl⟩ := List.mem_flatten.mp hx
        obtain ⟨t, ht, rfl⟩ := List.mem_map.mp hl
        obtain ⟨i, hi, rfl⟩ := List.mem_map.mp hxl
        exact ⟨t, List.mem_range.mp ht, i, List.mem_range.mp hi, rfl⟩
      rw [ptpZeroFl_eq hp, ptpZero_iff]
      · constructor
        · rintro ⟨c, hc⟩ t ht i hi
          have h1 := hc _ (List.mem_append_left _ (hmemA t ht i hi))
          have h2 := hc _ (List.mem_append_right _ (hmemB t ht i hi))
          have h3 := hc _ (List.mem_append_left _ (hmemA 0 hR0 0 hN))
          exact ⟨h1.trans h3.symm, h2.trans h3.symm⟩
        · intro h
          refine ⟨a 0 0, fun x hx => ?_⟩
          rcases List.mem_append.mp hx with hx | hx
          · obtain ⟨t, ht, i, hi, rfl⟩ := hof _ x hx
            exact (h t ht i hi).1
          · obtain ⟨t, ht, i, hi, rfl⟩ := hof _ x hx
            exact (h t ht i hi).2
      · exact List.ne_nil_of_mem (List.mem_append_left _ (hmemA 0 hR0 0 hN))
      · intro x hx
        rcases List.mem_append.mp hx with hx | hx
        · obtain ⟨t, ht, i, hi, rfl⟩ := hof _ x hx
          exact hyf _
        · obtain ⟨t, ht, i, hi, rfl⟩ := hof _ x hx
          exact hyf _
    refine ⟨y, μ, v, d, a, b, ab, ba, ?_, ?_, fun t i => ⟨rfl, rfl⟩, fun k t i => ⟨rfl, rfl⟩,
      fun t _ => ⟨hμr t, hvr t⟩, ?_, ?_⟩
    · intro i hi
      rw [← hY] at hi
      have e : y i = fdiv F (fsub F (Y.getD i 0) m) q := by
        simp only [hy, hY', List.getD, List.getElem?_map, List.getElem?_eq_getElem hi, Option.map_some, Option.getD_some]
      rw [e]
      have h1 := (RoundedFrom.of_within (fsub_within hp (isFloat_getD hYf i) hmf)).quot le_rfl hspos
      norm_num at h1
      exact h1
    · intro t ht i hi
      have hl := (hr r[t] (List.getElem_mem ht)).1
      have hi' : i < r[t].length := by omega
      simp [hd, entry, List.getD, ht, hi']
    · intro hc
      have ht := hptp.mpr hc
      rw [hres]
      refine ⟨?_, ?_⟩
      · intro c hcm
        simp only [serialIndicesFl, List.mem_append, List.mem_map, if_pos ht] at hcm
        rcases hcm with ⟨k, -, rfl⟩ | ⟨k, -, rfl⟩ <;> rfl
      · intro S2 row c hS2 hrow hcr
        simp only [serialIndicesFl] at hS2
        split at hS2
        · cases hS2
          obtain ⟨j, -, rfl⟩ := List.mem_map.mp hrow
          obtain ⟨k, -, rfl⟩ := List.mem_map.mp hcr
          split
          · unfold secondOrderRFl
            rw [if_pos ht]
            rfl
          · rfl
        · cases hS2
    · intro hc
      have hnt : ¬ ptpZero2Fl F (resample (sepOf second D N y).A r) (resample (sepOf second D N y).B r) = true :=
        fun h => hc (hptp.mp h)
      have q1 := fun k => confVec sqrt Z hp2 ho hR0
        (fun t => firstRatioFl F orderR (col N (a t)) (col N (ab k t)) (col N (b t)))
        (fun t S => NearFirst F N (v t) (a t) (b t) (ab k t) S) (v := v) fun t _ =>
          firstRatioFl_rounded (b := b t) (ab := ab k t) hp hoR hN (fun i => hyf _) (fun i => hyf _) (hv t) (hvn t)
      have q2 := fun k => confVec sqrt Z hp2 ho hR0
        (fun t => totalRatioFl F orderR (col N (a t)) (col N (ab k t)) (col N (b t)))
        (fun t S => NearTotal F N (v t) (a t) (ab k t) S) (v := v) fun t _ => by
          rcases totalRatioFl_rounded (b := b t) (ab := ab k t) hp hoR hN (fun i => hyf _) (fun i => hyf _) (hv t) (hvn t)
            with h | ⟨h0, S, h1, h2, -, h3⟩
          · exact Or.inl h
          · exact Or.inr ⟨h0, S, h1, h2, h3⟩
      have q3 := fun j k => confVec sqrt Z hp2 ho hR0
        (fun t => subSubFl F (crossRatioFl F orderR (col N (a t)) (col N (ab k t)) (col N (ba j t)) (col N (b t)))
          (firstRatioFl F orderR (col N (a t)) (col N (ab j t)) (col N (b t)))
          (firstRatioFl F orderR (col N (a t)) (col N (ab k t)) (col N (b t))))
        (fun t S => NearSecond F N (v t) (a t) (b t) (ab j t) (ab k t) (ba j t) S) (v := v) fun t _ =>
          secondRatioFl_rounded hp hoR hN (fun i => hyf _) (fun i => hyf _) (fun i => hyf _) (hv t) (hvn t)
      have hS1 : (runFl F order orderR sqrt Z D N second r (some Y')).S1conf = (List.range D).map fun k =>
          (std1FlN F order sqrt ((List.range r.length).map fun t =>
            firstRatioFl F orderR (col N (a t)) (col N (ab k t)) (col N (b t)))).map (fmul F Z) := by
        rw [hres]
        simp only [serialIndicesFl, if_neg hnt]
        apply List.map_congr_left
        intro k hk
        unfold firstOrderRFl
        rw [if_neg hnt, hA, hB, hAB k (List.mem_range.mp hk), List.zip_eq_zipWith, zipWith_range, zipWith_range]
        rfl
      have hST : (runFl F order orderR sqrt Z D N second r (some Y')).STconf = (List.range D).map fun k =>
          (std1FlN F order sqrt ((List.range r.length).map fun t =>
            totalRatioFl F orderR (col N (a t)) (col N (ab k t)) (col N (b t)))).map (fmul F Z) := by
        rw [hres]
        simp only [serialIndicesFl, if_neg hnt]
        apply List.map_congr_left
        intro k hk
        unfold totalOrderRFl
        rw [if_neg hnt, hA, hB, hAB k (List.mem_range.mp hk), List.zip_eq_zipWith, zipWith_range, zipWith_range]
        rfl
      have hS2 : second = true → (runFl F order orderR sqrt Z D N second r (some Y')).S2conf =
          some ((List.range D).map fun j => (List.range D).map fun k => if j < k then
            (std1FlN F order sqrt ((List.range r.length).map fun t =>
              subSubFl F (crossRatioFl F orderR (col N (a t)) (col N (ab k t)) (col N (ba j t)) (col N (b t)))
                (firstRatioFl F orderR (col N (a t)) (col N (ab j t)) (col N (b t)))
                (firstRatioFl F orderR (col N (a t)) (col N (ab k t)) (col N (b t))))).map (fmul F Z) else none) := by
        intro hsec
        rw [hres]
        simp only [serialIndicesFl]
        rw [if_pos hsec]
        congr 1
        apply List.map_congr_left
        intro j hj
        apply List.map_congr_left
        intro k hk
        congr 1
        unfold secondOrderRFl
        rw [if_neg hnt, hA, hB, hAB j (List.mem_range.mp hj), hAB k (List.mem_range.mp hk),
          hBA hsec j (List.mem_range.mp hj), List.zip_eq_zipWith, List.zip_eq_zipWith, List.zip_eq_zipWith,
          zipWith_range, zipWith_range, zipWith_range, zipWith_range]
        rfl
      refine ⟨?_, ?_⟩
      · intro hv0
        refine ⟨?_, ?_⟩
        · intro c hcm
          rw [hS1, hST] at hcm
          rcases List.mem_append.mp hcm with h | h
          · obtain ⟨k, -, rfl⟩ := List.mem_map.mp h
            exact (q1 k).1 hv0
          · obtain ⟨k, -, rfl⟩ := List.mem_map.mp h
            exact (q2 k).1 hv0
        · intro S2 row c h2 hrow hcr
          by_cases hsec : second = true
          · rw [hS2 hsec] at h2
            cases h2
            obtain ⟨j, -, rfl⟩ := List.mem_map.mp hrow
            obtain ⟨k, -, rfl⟩ := List.mem_map.mp hcr
            split
            · exact (q3 j k).1 hv0
            · rfl
          · rw [hres] at h2
            simp only [serialIndicesFl] at h2
            rw [if_neg hsec] at h2
            cases h2
      · intro hv0 k hk
        refine ⟨?_, ?_, ?_⟩
        · obtain ⟨s, h1, h2⟩ := (q1 k).2 hv0
          refine ⟨s, _, ?_, h1, h2⟩
          rw [hS1, List.getElem?_map, List.getElem?_range hk, Option.map_some]
        · obtain ⟨s, h1, h2⟩ := (q2 k).2 hv0
          refine ⟨s, _, ?_, h1, h2⟩
          rw [hST, List.getElem?_map, List.getElem?_range hk, Option.map_some]
        · intro hsec j hj
          obtain ⟨s, h1, h2⟩ := (q3 j k).2 hv0
          refine ⟨_, s, _, hS2 hsec, ?_, h1, h2⟩
          have hjD : j < D := by omega
          simp only [entry, List.getElem?_map, List.getElem?_range hjD, List.getElem?_range hk,
            Option.map_some, Option.bind_some, if_pos hj]

/-- The hypotheses are met in binary64: two parameters, two base points and two draws, one of them with the same point
twice.  All confidence values are numbers. -/
example :
    let pb : Problem ℚ := { names := ["x", "y"], bounds := boundsTable [(0, 1), (0, 1)] }
    let Y : List ℚ := [1, 4, 2, 0, 3, 7, 5, 2, 8, 6, 1, 4]
    let r := [[0, 1], [0, 0]]
    (extractGroupNames pb).2 = 2 ∧ (∀ y ∈ Y, IsFloat binary64 y) ∧ Y.length = 2 * 6 ∧ SumOrder leftOrder ∧
      (∀ l ∈ r, l.length = 2 ∧ ∀ i ∈ l, i < 2) ∧
      (sobolAnalyzeFl binary64 leftOrder leftOrder (fun t => |t|) 2 pb Y true (1 / 2) r).map
        (fun res => ((res.S1conf, res.STconf), res.S2conf)) =
        .ok (([some (2305931969206333 / 72057594037927936), some (2011701735773273 / 144115188075855872)],
          [some (3811846724606391 / 18014398509481984), some (8224351319514119 / 36028797018963968)]),
          some [[none, some (5174034256342931 / 4503599627370496)], [none, none]]) := by
  intro pb Y r
  refine ⟨by decide +kernel, ?_, by decide, leftOrder_sumOrder, by decide, by decide +kernel⟩
  have h : ∀ y ∈ Y, ∃ n : Nat, n < 2 ^ 53 ∧ y = n := by
    intro y hy
    simp only [Y, List.mem_cons, List.not_mem_nil, or_false] at hy
    rcases hy with rfl | rfl | rfl | rfl | rfl | rfl | rfl | rfl | rfl | rfl | rfl | rfl
    exacts [⟨1, by decide, by norm_num⟩, ⟨4, by decide, by norm_num⟩, ⟨2, by decide, by norm_num⟩,
      ⟨0, by decide, by norm_num⟩, ⟨3, by decide, by norm_num⟩, ⟨7, by decide, by norm_num⟩,
      ⟨5, by decide, by norm_num⟩, ⟨2, by decide, by norm_num⟩, ⟨8, by decide, by norm_num⟩,
      ⟨6, by decide, by norm_num⟩, ⟨1, by decide, by norm_num⟩, ⟨4, by decide, by norm_num⟩]
  intro y hy
  obtain ⟨n, hn, rfl⟩ := h y hy
  exact isFloat_nat (F := binary64) (by decide) (by decide) hn.le

end SALib
