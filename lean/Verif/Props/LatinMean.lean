import Verif.Props.Latin
import Verif.Lemmas.LatinDesign
import Mathlib.Data.List.OfFn

/-! # C101: means over Latin hypercube samples -/

namespace SALib

open MeasureTheory ProbabilityTheory Spec

variable {d g N : Nat}

/-- The random choices as NumPy makes them: the draw for stratum `s` of group `k` sits at the fraction `o k s` of the
stratum, and row `s` gets the stratum `p.order k s`. -/
noncomputable def Spec.latinRandom (p : StrataOrders N g) (o : Fin g → Fin N → ℝ) : LatinDraws ℝ where
  u s k := if h : s < N ∧ k < g then o ⟨k, h.2⟩ ⟨s, h.1⟩ else 0
  shuffle k l := if h : k < g then
    (if l.length = N then List.ofFn fun s : Fin N => l.getD (p.order ⟨k, h⟩ s) 0 else l) else l

theorem latinRandom_valid (p : StrataOrders N g) (o : Fin g → Fin N → ℝ) (ho : ∀ k s, 0 ≤ o k s ∧ o k s < 1) :
    ValidDraws (latinRandom p o) := by
  refine ⟨fun s k => ?_, fun k l => ?_⟩
  · show 0 ≤ (if h : s < N ∧ k < g then o ⟨k, h.2⟩ ⟨s, h.1⟩ else 0) ∧
      (if h : s < N ∧ k < g then o ⟨k, h.2⟩ ⟨s, h.1⟩ else 0) < 1
    split
    · exact ho _ _
    · norm_num
  · show (if h : k < g then _ else l).Perm l
    split
    · split
      · rename_i hk hl
        have e : l = List.ofFn fun i : Fin N => l.getD i 0 := by
          apply List.ext_getElem
          · simp [hl]
          · intro i h1 h2
            simp [List.getD_eq_getElem?_getD, h1]
        conv_rhs => rw [e]
        exact Equiv.Perm.ofFn_comp_perm (p.order ⟨k, hk⟩) fun i : Fin N => l.getD i 0
      · exact List.Perm.refl _
    · exact List.Perm.refl _

theorem latinRandom_col (p : StrataOrders N g) (o : Fin g → Fin N → ℝ) (k : Fin g) (s : Fin N) :
    ((latinRandom p o).shuffle k (latinDraw (latinRandom p o) N k)).getD s 0 = latinPt p o s k := by
  have hlen : (latinDraw (latinRandom p o) N k).length = N := by simp [latinDraw]
  have hN' : (N : ℝ) ≠ 0 := by
    have := s.is_lt
    have : N ≠ 0 := by omega
    exact_mod_cast this
  have hsh : (latinRandom p o).shuffle k (latinDraw (latinRandom p o) N k) =
      List.ofFn fun s : Fin N => (latinDraw (latinRandom p o) N k).getD (p.order k s) 0 := by
    show (if h : (k : Nat) < g then _ else _) = _
    rw [dif_pos k.is_lt, if_pos hlen]
  rw [hsh, List.getD_eq_getElem?_getD, List.getElem?_ofFn, dif_pos s.is_lt]
  simp only [Option.getD_some]
  have hu : (latinRandom p o).u (p.order k s) k = o k (p.order k s) := by
    show (if h : ((p.order k s : Fin N) : Nat) < N ∧ (k : Nat) < g then _ else _) = _
    rw [dif_pos ⟨(p.order k s).is_lt, k.is_lt⟩]
  rw [List.getD_eq_getElem?_getD]
  simp only [latinDraw, List.getElem?_map, List.getElem?_range (p.order k s).is_lt, Option.map_some, Option.getD_some,
    Fin.eta, hu]
  unfold latinPt cellPt
  field_simp
  ring

/-- The delivered sample, in terms of the random choices. -/
theorem latinSample_random (F : Ppf ℝ) (junk : ℝ) (lo hi : Fin d → ℝ) (hlh : ∀ j, lo j < hi j) (hd : 0 < d)
    (pb : Problem ℝ) (hnum : pb.numVars = d) (hb : pb.bounds = boundsTable (List.ofFn fun j => (lo j, hi j)))
    (hdist : pb.dists = none) (hlab : ∀ gs, latinLabels pb = some gs → gs.length = d) (N : Nat) (hN : 0 < N) :
    ∃ (g : Nat) (grp : Fin d → Fin g),
      GroupNumbering d (latinLabels pb) g (fun j => if h : j < d then grp ⟨j, h⟩ else 0) ∧
      ∀ (p : StrataOrders N g) (o : Fin g → Fin N → ℝ), latinSample F (latinRandom p o) junk pb N =
        .ok (List.ofFn fun s : Fin N => List.ofFn fun j => some (placed lo hi grp (latinPt p o s) j),
          { pb with sampleScaled := true }) := by
  obtain ⟨ng, groupOf, hgn, hlt, hform⟩ := latinUnit_form junk pb N hN (by rw [hnum]; exact hlab)
  rw [hnum] at hgn hlt
  have hgrp : ∀ j (h : j < d), (fun j => if h : j < d then ((⟨groupOf j, hlt j h⟩ : Fin ng) : Nat) else 0) j = groupOf j := by
    intro j h
    simp [h]
  refine ⟨ng, fun j => ⟨groupOf j, hlt j j.is_lt⟩, ?_, ?_⟩
  · cases hl : latinLabels pb with
    | none =>
      rw [hl] at hgn
      exact ⟨hgn.1, fun j hj => (hgrp j hj).trans (hgn.2 j hj)⟩
    | some gs =>
      rw [hl] at hgn
      obtain ⟨names, h1, h2, h3⟩ := hgn
      refine ⟨names, h1, h2, fun j l hj => ?_⟩
      have hjd : j < d := by
        rw [← hlab gs hl]
        exact (List.getElem?_eq_some_iff.mp hj).1
      have e := hgrp j hjd
      simp only at e ⊢
      rw [e]
      exact h3 j l hj
  · intro p o
    have hM' : latinUnit (latinRandom p o) junk pb N = .ok (List.ofFn fun s : Fin N => List.ofFn fun j : Fin d =>
        latinPt p o s ⟨groupOf j, hlt j j.is_lt⟩) := by
      rw [hform]
      congr 1
      apply List.ext_getElem
      · simp
      · intro s h1 h2
        have hs : s < N := by simpa using h1
        simp only [List.getElem_map, List.getElem_range, List.getElem_ofFn]
        apply List.ext_getElem
        · simp [hnum]
        · intro j k1 k2
          have hj : j < d := by simpa using k2
          simp only [List.getElem_map, List.getElem_range, List.getElem_ofFn]
          exact latinRandom_col p o ⟨groupOf j, hlt j hj⟩ ⟨s, hs⟩
    unfold latinSample
    rw [hM', pyBind_ok]
    unfold scaleSamples
    rw [hdist, hb]
    have hne : (List.ofFn fun j => (lo j, hi j)) ≠ [] := by
      intro h
      have := congrArg List.length h
      simp at this
      omega
    have hsc := scaleUniform_legal (List.ofFn fun j => (lo j, hi j)) hne (by
      intro q hq
      obtain ⟨j, rfl⟩ := List.mem_ofFn.mp hq
      exact hlh j) (List.ofFn fun s : Fin N => List.ofFn fun j : Fin d => latinPt p o s ⟨groupOf j, hlt j j.is_lt⟩)
    rw [List.length_ofFn] at hsc
    simp only [hnum, hsc]
    show Except.ok _ = _
    congr 2
    apply List.ext_getElem
    · simp
    · intro s h1 h2
      simp only [List.getElem_map, List.getElem_ofFn]
      apply List.ext_getElem
      · simp
      · intro j k1 k2
        simp only [List.getElem_map, List.getElem_zipWith, List.getElem_ofFn]
        unfold placed
        congr 1
        ring

theorem measurable_placed (lo hi : Fin d → ℝ) (grp : Fin d → Fin g) : Measurable (placed lo hi grp) :=
  measurable_pi_lambda _ fun j => ((measurable_pi_apply (grp j)).mul_const _).const_add _

theorem rowMean_latin (f : List (Num ℝ) → ℝ) (G : (Fin d → ℝ) → ℝ) (hf : ∀ x, G x = f (List.ofFn fun j => some (x j)))
    (lo hi : Fin d → ℝ) (grp : Fin d → Fin g) (p : StrataOrders N g) (o : Fin g → Fin N → ℝ) :
    rowMean (List.ofFn fun s : Fin N => List.ofFn fun j => some (placed lo hi grp (latinPt p o s) j)) f =
      latinAvg (fun u => G (placed lo hi grp u)) p o := by
  unfold rowMean latinAvg
  rw [List.map_ofFn, List.sum_ofFn, List.length_ofFn]
  congr 1
  exact Finset.sum_congr rfl fun s _ => (hf _).symm

theorem placed_mem (lo hi : Fin d → ℝ) (hlh : ∀ j, lo j < hi j) (grp : Fin d → Fin g) (u : Fin g → ℝ)
    (hu : InBox (fun _ => 0) (fun _ => 1) u) : InBox lo hi (placed lo hi grp u) := by
  intro j
  have h1 := (hu (grp j)).1
  have h2 := (hu (grp j)).2
  have h3 : 0 < hi j - lo j := by linarith [hlh j]
  unfold placed
  constructor
  · nlinarith
  · nlinarith

theorem monotone_placed (lo hi : Fin d → ℝ) (hlh : ∀ j, lo j < hi j) (grp : Fin d → Fin g) (up : Fin g → Bool)
    (G : (Fin d → ℝ) → ℝ) (hG : MonotoneByGroup lo hi grp up G) (k : Fin g) :
    (∀ x, InBox (fun _ => 0) (fun _ => 1) x →
        MonotoneOn (fun t => G (placed lo hi grp (Function.update x k t))) (Set.Icc 0 1)) ∨
      ∀ x, InBox (fun _ => 0) (fun _ => 1) x →
        AntitoneOn (fun t => G (placed lo hi grp (Function.update x k t))) (Set.Icc 0 1) := by
  have hbox : ∀ x, InBox (fun _ => 0) (fun _ => 1) x → ∀ t ∈ Set.Icc (0 : ℝ) 1,
      InBox lo hi (placed lo hi grp (Function.update x k t)) := by
    intro x hx t ht
    refine placed_mem lo hi hlh grp _ fun l => ?_
    by_cases hl : l = k
    · subst hl; simpa using ht
    · rw [Function.update_of_ne hl]; exact hx l
  have hmove : ∀ (x : Fin g → ℝ) (s t : ℝ), s ≤ t → ∀ j, if grp j = k then
      placed lo hi grp (Function.update x k s) j ≤ placed lo hi grp (Function.update x k t) j else
      placed lo hi grp (Function.update x k s) j = placed lo hi grp (Function.update x k t) j := by
    intro x s t hst j
    have h3 : 0 < hi j - lo j := by linarith [hlh j]
    unfold placed
    split
    · rename_i h
      rw [h, Function.update_self, Function.update_self]
      nlinarith
    · rename_i h
      rw [Function.update_of_ne h, Function.update_of_ne h]
  cases hk : up k with
  | true =>
    left
    intro x hx s hs t ht hst
    refine hG _ _ (hbox x hx s hs) (hbox x hx t ht) fun j => ?_
    have := hmove x s t hst j
    by_cases h : grp j = k
    · rw [if_pos h] at this
      rw [h, hk]
      exact this
    · rw [if_neg h] at this
      split
      · exact this.le
      · exact this.ge
  | false =>
    right
    intro x hx s hs t ht hst
    refine hG _ _ (hbox x hx t ht) (hbox x hx s hs) fun j => ?_
    have := hmove x s t hst j
    by_cases h : grp j = k
    · rw [if_pos h] at this
      rw [h, hk]
      exact this
    · rw [if_neg h] at this
      split
      · exact this.ge
      · exact this.le

/-- **C101.**  Fair random choices: the mean output over the sample has the mean of the output as its expectation, all
inputs of a group sitting at the same fraction of their ranges; its variance is at most the variance of the output over
`N - 1`; at most the variance over `N` if the output is monotone; and for an output that is a sum over the groups it is
the sum of the variances within the strata over `N²`. -/
theorem C101_latin_mean (F : Ppf ℝ) (junk : ℝ) (lo hi : Fin d → ℝ) (hlh : ∀ j, lo j < hi j) (hd : 0 < d)
    (pb : Problem ℝ) (hnum : pb.numVars = d) (hb : pb.bounds = boundsTable (List.ofFn fun j => (lo j, hi j)))
    (hdist : pb.dists = none) (hlab : ∀ gs, latinLabels pb = some gs → gs.length = d) (N : Nat) (hN : 0 < N) :
    ∃ (g : Nat) (grp : Fin d → Fin g),
      GroupNumbering d (latinLabels pb) g (fun j => if h : j < d then grp ⟨j, h⟩ else 0) ∧
      ∀ (Ω : Type) [MeasurableSpace Ω] (P : Measure Ω) [IsProbabilityMeasure P] (ord : Ω → StrataOrders N g)
        (off : Ω → Fin g → Fin N → ℝ), FairLatin P ord off →
      ∀ (f : List (Num ℝ) → ℝ) (G : (Fin d → ℝ) → ℝ), (∀ x, G x = f (List.ofFn fun j => some (x j))) → Measurable G →
        MemLp (fun u => G (placed lo hi grp u)) 2 (cube g) →
      ∃ X : Ω → Mat (Num ℝ),
        (∀ ω, latinSample F (latinRandom (ord ω) (off ω)) junk pb N = .ok (X ω, { pb with sampleScaled := true })) ∧
        Integrable (fun ω => rowMean (X ω) f) P ∧
        ∫ ω, rowMean (X ω) f ∂P = ∫ u, G (placed lo hi grp u) ∂cube g ∧
        (2 ≤ N → Var[fun ω => rowMean (X ω) f; P] ≤ Var[fun u => G (placed lo hi grp u); cube g] / ((N : ℝ) - 1)) ∧
        (2 ≤ N → ∀ ε : ℝ, 0 < ε → P {ω | ε ≤ |rowMean (X ω) f - ∫ u, G (placed lo hi grp u) ∂cube g|} ≤
          ENNReal.ofReal (Var[fun u => G (placed lo hi grp u); cube g] / ((N : ℝ) - 1) / ε ^ 2)) ∧
        (2 ≤ N → ∀ up, MonotoneByGroup lo hi grp up G →
          Var[fun ω => rowMean (X ω) f; P] ≤ Var[fun u => G (placed lo hi grp u); cube g] / N) ∧
        (∀ (c : ℝ) (φ : Fin g → ℝ → ℝ), (∀ u, G (placed lo hi grp u) = c + ∑ k, φ k (u k)) → (∀ k, Measurable (φ k)) →
          (∀ k, MemLp (φ k) 2 (unifOn 0 1)) →
          Var[fun ω => rowMean (X ω) f; P] =
            (∑ k, ∑ i : Fin N, Var[fun t => φ k (((i : ℝ) + t) / N); unifOn 0 1]) / (N : ℝ) ^ 2) := by
  obtain ⟨g, grp, hgn, hX⟩ := latinSample_random F junk lo hi hlh hd pb hnum hb hdist hlab N hN
  refine ⟨g, grp, hgn, ?_⟩
  intro Ω _ P _ ord off hL f G hf hG hG2
  have hm : Measurable fun u => G (placed lo hi grp u) := hG.comp (measurable_placed lo hi grp)
  refine ⟨_, fun ω => hX (ord ω) (off ω), ?_⟩
  simp only [rowMean_latin f G hf]
  obtain ⟨h1, h2⟩ := latin_avg_integral hN hL hm (hG2.integrable (by norm_num))
  refine ⟨h1, h2, fun h => latin_variance_le h hL hm hG2, fun h ε hε => ?_, fun h up hup => ?_, fun c φ hφ h3 h4 => ?_⟩
  · have hc := meas_ge_le_variance_div_sq (memLp_latinAvg hN hL hm hG2) hε
    rw [h2] at hc
    refine hc.trans (ENNReal.ofReal_le_ofReal ?_)
    gcongr
    exact latin_variance_le h hL hm hG2
  · exact latin_variance_mono h hL hm hG2 (monotone_placed lo hi hlh grp up G hup)
  · simp only [hφ]
    exact latin_variance_additive hN hL φ c h4 h3

/-- The points of the cube placed independently for every input are independent uniform inputs. -/
theorem placed_preserving (lo hi : Fin d → ℝ) (hlh : ∀ j, lo j < hi j) :
    MeasurePreserving (placed lo hi id) (cube d) (Measure.pi fun j => unifOn (lo j) (hi j)) := by
  have := fun j => isProb_unifOn (hlh j)
  refine measurePreserving_pi (fun _ : Fin d => unifOn 0 1) (fun j => unifOn (lo j) (hi j)) (f := fun j t => lo j + t * (hi j - lo j))
    fun j => ?_
  have hw : 0 < hi j - lo j := by linarith [hlh j]
  have hmm : Measurable fun t : ℝ => lo j + t * (hi j - lo j) := by fun_prop
  refine ⟨hmm, Measure.ext fun B hB => ?_⟩
  haveI : IsProbabilityMeasure (Measure.map (fun t : ℝ => lo j + t * (hi j - lo j)) (unifOn 0 1)) :=
    Measure.isProbabilityMeasure_map hmm.aemeasurable
  have hreal : (Measure.map (fun t : ℝ => lo j + t * (hi j - lo j)) (unifOn 0 1)).real B =
      (unifOn (lo j) (hi j)).real B := by
    have hf : Measurable (B.indicator (1 : ℝ → ℝ)) := measurable_one.indicator hB
    rw [← integral_indicator_one hB, ← integral_indicator_one hB, integral_map hmm.aemeasurable hf.aestronglyMeasurable,
      integral_unifOn one_pos, integral_unifOn (hlh j)]
    have h1 := intervalIntegral.integral_comp_mul_add (f := B.indicator (1 : ℝ → ℝ)) (a := 0) (b := 1) hw.ne' (lo j)
    rw [show (fun t : ℝ => B.indicator (1 : ℝ → ℝ) (lo j + t * (hi j - lo j))) =
      fun t => B.indicator (1 : ℝ → ℝ) ((hi j - lo j) * t + lo j) by funext t; congr 1; ring, h1, smul_eq_mul]
    simp
  rw [← ofReal_measureReal (μ := Measure.map _ _), hreal, ofReal_measureReal]

/-- **C101**, without groups: the mean over the sample estimates the mean of the output for independent inputs, uniform
between their bounds. -/
theorem C101_independent (F : Ppf ℝ) (junk : ℝ) (lo hi : Fin d → ℝ) (hlh : ∀ j, lo j < hi j) (hd : 0 < d)
    (pb : Problem ℝ) (hnum : pb.numVars = d) (hb : pb.bounds = boundsTable (List.ofFn fun j => (lo j, hi j)))
    (hdist : pb.dists = none) (hlab : latinLabels pb = none) (N : Nat) (hN : 0 < N) {Ω : Type} [MeasurableSpace Ω]
    (P : Measure Ω) [IsProbabilityMeasure P] (ord : Ω → StrataOrders N d) (off : Ω → Fin d → Fin N → ℝ)
    (hL : FairLatin P ord off) (f : List (Num ℝ) → ℝ) (G : (Fin d → ℝ) → ℝ)
    (hf : ∀ x, G x = f (List.ofFn fun j => some (x j))) (hG : Measurable G)
    (hG2 : MemLp G 2 (Measure.pi fun j => unifOn (lo j) (hi j))) :
    ∃ X : Ω → Mat (Num ℝ),
      (∀ ω, latinSample F (latinRandom (ord ω) (off ω)) junk pb N = .ok (X ω, { pb with sampleScaled := true })) ∧
      ∫ ω, rowMean (X ω) f ∂P = ∫ x, G x ∂Measure.pi (fun j => unifOn (lo j) (hi j)) ∧
      (2 ≤ N → Var[fun ω => rowMean (X ω) f; P] ≤ Var[G; Measure.pi fun j => unifOn (lo j) (hi j)] / ((N : ℝ) - 1)) ∧
      (2 ≤ N → ∀ up, MonotoneByGroup lo hi id up G →
        Var[fun ω => rowMean (X ω) f; P] ≤ Var[G; Measure.pi fun j => unifOn (lo j) (hi j)] / N) := by
  obtain ⟨g, grp, hgn, h⟩ := C101_latin_mean F junk lo hi hlh hd pb hnum hb hdist (by rw [hlab]; intro _ h; cases h) N hN
  rw [hlab] at hgn
  obtain ⟨rfl, hid⟩ := hgn
  have hgrp : grp = id := by
    funext j
    have := hid j j.is_lt
    beta_reduce at this
    rw [dif_pos j.is_lt] at this
    exact Fin.ext this
  subst hgrp
  have hp := placed_preserving lo hi hlh
  obtain ⟨X, h1, -, h3, h4, -, h5, -⟩ := h Ω P ord off hL f G hf hG (hG2.comp_measurePreserving hp)
  have hvar : Var[fun u => G (placed lo hi id u); cube g] = Var[G; Measure.pi fun j => unifOn (lo j) (hi j)] := by
    rw [← hp.map_eq, variance_map (by rw [hp.map_eq]; exact hG.aemeasurable) hp.measurable.aemeasurable]
    rfl
  have hmean : ∫ u, G (placed lo hi id u) ∂cube g = ∫ x, G x ∂Measure.pi (fun j => unifOn (lo j) (hi j)) := by
    rw [← hp.map_eq, integral_map hp.measurable.aemeasurable hG.aestronglyMeasurable]
  rw [hvar] at h4
  rw [hmean] at h3
  refine ⟨X, h1, h3, h4, fun hN2 up hup => ?_⟩
  have := h5 hN2 up hup
  rwa [hvar] at this

/-- Linear functions on the cube. -/
theorem linear_cube (c : ℝ) (B : Fin g → ℝ) :
    (∀ k, MemLp (fun t => B k * t) 2 (unifOn 0 1)) ∧ MemLp (fun u : Fin g → ℝ => c + ∑ k, B k * u k) 2 (cube g) ∧
      ∫ u : Fin g → ℝ, c + ∑ k, B k * u k ∂cube g = c + ∑ k, B k * (1 / 2) ∧
      Var[fun u : Fin g → ℝ => c + ∑ k, B k * u k; cube g] = ∑ k, B k ^ 2 / 12 := by
  have hlin : ∀ k, MemLp (fun t => B k * t) 2 (unifOn 0 1) := fun k => memLp_unifOn one_pos _ (by fun_prop)
  have hcoord : ∀ k, MemLp (fun u : Fin g → ℝ => B k * u k) 2 (cube g) := fun k =>
    (hlin k).comp_measurePreserving (measurePreserving_eval (fun _ : Fin g => unifOn 0 1) k)
  have hsum : MemLp (fun u : Fin g → ℝ => ∑ k, B k * u k) 2 (cube g) := memLp_finset_sum _ fun k _ => hcoord k
  refine ⟨hlin, (memLp_const c).add hsum, ?_, ?_⟩
  · have hone : ∀ k, ∫ u : Fin g → ℝ, B k * u k ∂cube g = B k * (1 / 2) := by
      intro k
      have hp := measurePreserving_eval (fun _ : Fin g => unifOn 0 1) k
      have e : ∫ u : Fin g → ℝ, B k * u k ∂cube g = ∫ t, B k * t ∂unifOn 0 1 := by
        conv_rhs => rw [← hp.map_eq]
        rw [integral_map hp.measurable.aemeasurable (by fun_prop)]
        rfl
      rw [e, integral_unifOn one_pos, intervalIntegral.integral_const_mul, integral_id]
      norm_num
    rw [integral_add (integrable_const _) (hsum.integrable (by norm_num)),
      integral_finset_sum _ fun k _ => (hcoord k).integrable (by norm_num), integral_const]
    simp only [hone, probReal_univ, one_smul]
  · rw [variance_const_add hsum.aestronglyMeasurable]
    have hs := variance_sum_pi (μ := fun _ : Fin g => unifOn 0 1) (X := fun k t => B k * t) hlin
    rw [Finset.sum_fn] at hs
    refine hs.trans (Finset.sum_congr rfl fun k _ => ?_)
    have := variance_unifOn (lo := 0) (hi := 1) one_pos 0 (B k)
    simp only [zero_add] at this
    rw [this]
    ring

theorem linear_placed (lo hi : Fin d → ℝ) (grp : Fin d → Fin g) (c : ℝ) (b : Fin d → ℝ) :
    ∃ B : Fin g → ℝ, ∀ u, c + ∑ j, b j * placed lo hi grp u j = (c + ∑ j, b j * lo j) + ∑ k, B k * u k := by
  refine ⟨fun k => ∑ j ∈ Finset.univ.filter (fun j => grp j = k), b j * (hi j - lo j), fun u => ?_⟩
  have h1 : ∑ k, (∑ j ∈ Finset.univ.filter (fun j => grp j = k), b j * (hi j - lo j)) * u k =
      ∑ j, b j * (hi j - lo j) * u (grp j) := by
    rw [← Finset.sum_fiberwise Finset.univ grp fun j => b j * (hi j - lo j) * u (grp j)]
    refine Finset.sum_congr rfl fun k _ => ?_
    rw [Finset.sum_mul]
    refine Finset.sum_congr rfl fun j hj => ?_
    rw [(Finset.mem_filter.mp hj).2]
  rw [h1, add_assoc, ← Finset.sum_add_distrib]
  congr 1
  refine Finset.sum_congr rfl fun j _ => ?_
  unfold placed
  ring

/-- **C101**, linear outputs: the variance of the mean is the variance of the output over `N³`; with independent
points it is the variance over `N`. -/
theorem C101_linear (F : Ppf ℝ) (junk : ℝ) (lo hi : Fin d → ℝ) (hlh : ∀ j, lo j < hi j) (hd : 0 < d)
    (pb : Problem ℝ) (hnum : pb.numVars = d) (hb : pb.bounds = boundsTable (List.ofFn fun j => (lo j, hi j)))
    (hdist : pb.dists = none) (hlab : ∀ gs, latinLabels pb = some gs → gs.length = d) (N : Nat) (hN : 0 < N)
    (f : List (Num ℝ) → ℝ) (c : ℝ) (b : Fin d → ℝ) (hf : ∀ x : Fin d → ℝ, f (List.ofFn fun j => some (x j)) = c + ∑ j, b j * x j) :
    ∃ (g : Nat) (grp : Fin d → Fin g),
      GroupNumbering d (latinLabels pb) g (fun j => if h : j < d then grp ⟨j, h⟩ else 0) ∧
      ∀ (Ω : Type) [MeasurableSpace Ω] (P : Measure Ω) [IsProbabilityMeasure P] (ord : Ω → StrataOrders N g)
        (off : Ω → Fin g → Fin N → ℝ), FairLatin P ord off →
      ∃ X : Ω → Mat (Num ℝ),
        (∀ ω, latinSample F (latinRandom (ord ω) (off ω)) junk pb N = .ok (X ω, { pb with sampleScaled := true })) ∧
        ∫ ω, rowMean (X ω) f ∂P = c + ∑ j, b j * ((lo j + hi j) / 2) ∧
        Var[fun ω => rowMean (X ω) f; P] =
          Var[fun u => c + ∑ j, b j * placed lo hi grp u j; cube g] / (N : ℝ) ^ 3 := by
  obtain ⟨g, grp, hgn, h⟩ := C101_latin_mean F junk lo hi hlh hd pb hnum hb hdist hlab N hN
  refine ⟨g, grp, hgn, ?_⟩
  intro Ω _ P _ ord off hL
  have hNR : (N : ℝ) ≠ 0 := by exact_mod_cast hN.ne'
  obtain ⟨B, hadd⟩ := linear_placed lo hi grp c b
  obtain ⟨hlin, hmem, hmean, hvar⟩ := linear_cube (c + ∑ j, b j * lo j) B
  have hmem' : MemLp (fun u : Fin g → ℝ => c + ∑ j, b j * placed lo hi grp u j) 2 (cube g) := by
    simp only [hadd]
    exact hmem
  have hGm : Measurable fun x : Fin d → ℝ => c + ∑ j, b j * x j :=
    (Finset.measurable_sum _ fun j _ => (measurable_pi_apply j).const_mul _).const_add _
  obtain ⟨X, h1, -, h3, -, -, -, h4⟩ := h Ω P ord off hL f (fun x => c + ∑ j, b j * x j) (fun x => (hf x).symm) hGm hmem'
  refine ⟨X, h1, ?_, ?_⟩
  · rw [h3]
    simp only [hadd]
    rw [hmean, ← hadd fun _ => 1 / 2]
    congr 1
    refine Finset.sum_congr rfl fun j _ => ?_
    unfold placed
    ring
  · rw [h4 (c + ∑ j, b j * lo j) (fun k t => B k * t) hadd (fun k => by fun_prop) hlin]
    have hin : ∀ k (i : Fin N), Var[fun t => B k * (((i : ℝ) + t) / N); unifOn 0 1] = (B k / N) ^ 2 / 12 := by
      intro k i
      have := variance_unifOn (lo := 0) (hi := 1) one_pos (B k * i / N) (B k / N)
      rw [show (fun t : ℝ => B k * (((i : ℝ) + t) / N)) = fun t => B k * i / N + B k / N * t by funext t; ring, this]
      ring
    simp only [hadd]
    rw [hvar]
    simp only [hin, Finset.sum_const, Finset.card_univ, Fintype.card_fin, nsmul_eq_mul]
    rw [Finset.sum_div, Finset.sum_div]
    refine Finset.sum_congr rfl fun k _ => ?_
    field_simp

/-- **C101**, with groups: the inputs of a group are not independent.  Two inputs between 0 and 1 in one group: the mean
of their product over the sample has expectation 1/3 for every `N`; for independent inputs the product has mean 1/4. -/
theorem C101_grouped_inputs (F : Ppf ℝ) (junk : ℝ) (pb : Problem ℝ) (hnum : pb.numVars = 2)
    (hb : pb.bounds = boundsTable [(0, 1), (0, 1)]) (hdist : pb.dists = none) (hg : pb.groups = some ["a", "a"])
    (N : Nat) (hN : 0 < N) (f : List (Num ℝ) → ℝ) (hf : ∀ x y : ℝ, f [some x, some y] = x * y) :
    (∀ (Ω : Type) [MeasurableSpace Ω] (P : Measure Ω) [IsProbabilityMeasure P] (ord : Ω → StrataOrders N 1)
        (off : Ω → Fin 1 → Fin N → ℝ), FairLatin P ord off →
      ∃ X : Ω → Mat (Num ℝ),
        (∀ ω, latinSample F (latinRandom (ord ω) (off ω)) junk pb N = .ok (X ω, { pb with sampleScaled := true })) ∧
        ∫ ω, rowMean (X ω) f ∂P = 1 / 3) ∧
      ∫ x : Fin 2 → ℝ, f [some (x 0), some (x 1)] ∂Measure.pi (fun _ => unifOn 0 1) = 1 / 4 := by
  have hl : latinLabels pb = some ["a", "a"] := by simp [latinLabels, hg]
  constructor
  · obtain ⟨g, grp, hgn, h⟩ := C101_latin_mean F junk (fun _ : Fin 2 => 0) (fun _ => 1) (fun _ => one_pos) (by norm_num) pb
      hnum (by rw [hb]; rfl) hdist (by rw [hl]; intro gs h; cases h; rfl) N hN
    rw [hl] at hgn
    obtain ⟨names, hdn, hlen, -⟩ := hgn
    have hg1 : g = 1 := by
      rw [hlen]
      have hall : ∀ n ∈ names, n = "a" := by
        intro n hn
        simpa using (hdn.mem_iff n).mp hn
      have hex : "a" ∈ names := (hdn.mem_iff "a").mpr (by simp)
      match names, hdn.nodup, hall, hex with
      | [n], _, _, _ => rfl
      | n :: m :: rest, hnd, hall, _ =>
        exfalso
        have h1 := hall n (by simp)
        have h2 := hall m (by simp)
        rw [h1, h2] at hnd
        simp at hnd
    subst hg1
    intro Ω _ P _ ord off hL
    have hgr : ∀ j, grp j = 0 := fun j => Subsingleton.elim _ _
    have hcont : Continuous fun t : ℝ => t * t := by fun_prop
    have hmem : MemLp (fun t : ℝ => t * t) 2 (unifOn 0 1) := memLp_unifOn one_pos _ hcont
    have hp := measurePreserving_eval (fun _ : Fin 1 => unifOn 0 1) 0
    have hpl : ∀ u : Fin 1 → ℝ, placed (fun _ : Fin 2 => (0 : ℝ)) (fun _ => 1) grp u 0 *
        placed (fun _ : Fin 2 => (0 : ℝ)) (fun _ => 1) grp u 1 = u 0 * u 0 := by
      intro u
      unfold placed
      rw [hgr, hgr]
      ring
    obtain ⟨X, h1, -, h3, -⟩ := h Ω P ord off hL f (fun x => x 0 * x 1)
      (fun x => by
        show x 0 * x 1 = f [some (x 0), some (x 1)]
        rw [hf])
      ((measurable_pi_apply 0).mul (measurable_pi_apply 1)) (by
        simp only [hpl]
        exact hmem.comp_measurePreserving hp)
    refine ⟨X, h1, h3.trans ?_⟩
    simp only [hpl]
    have e : ∫ u : Fin 1 → ℝ, u 0 * u 0 ∂cube 1 = ∫ t, t * t ∂unifOn 0 1 := by
      conv_rhs => rw [← hp.map_eq]
      rw [integral_map hp.measurable.aemeasurable (by fun_prop)]
      rfl
    rw [e, integral_unifOn one_pos]
    have : ∀ t : ℝ, t * t = t ^ 2 := fun t => by ring
    simp only [this, integral_pow]
    norm_num
  · have h1 := integral_fintype_prod_eq_prod (𝕜 := ℝ) (fun _ : Fin 2 => (id : ℝ → ℝ)) (μ := fun _ : Fin 2 => unifOn 0 1)
    simp only [Fin.prod_univ_two, id] at h1
    simp only [hf]
    rw [h1, integral_unifOn one_pos]
    norm_num

/-- Fair random choices exist. -/
theorem fairLatin_exists (N g : Nat) : ∃ P : Measure (StrataOrders N g × (Fin g → Fin N → ℝ)),
    IsProbabilityMeasure P ∧ FairLatin P Prod.fst Prod.snd := by
  haveI : Nonempty (StrataOrders N g) := ⟨⟨fun _ => 1⟩⟩
  haveI : IsProbabilityMeasure (uniformOn (Set.univ : Set (StrataOrders N g))) :=
    uniformOn_isProbabilityMeasure Set.finite_univ Set.univ_nonempty
  refine ⟨(uniformOn Set.univ).prod (offLaw g N), inferInstance, measurable_fst, measurable_snd, ?_, ?_, ?_⟩
  · rw [indepFun_iff_map_prod_eq_prod_map_map measurable_fst.aemeasurable measurable_snd.aemeasurable]
    simp only [Measure.map_fst_prod, Measure.map_snd_prod, measure_univ, one_smul]
    exact Measure.map_id
  · intro p
    rw [← Measure.map_apply measurable_fst (measurableSet_singleton p), Measure.map_fst_prod, measure_univ, one_smul,
      uniformOn_univ, Measure.count_singleton, one_div]
  · rw [Measure.map_snd_prod, measure_univ, one_smul]
    rfl

/-- The hypotheses are met: three inputs in two groups, four rows, the output `x + 2 y + 3 z`. -/
example (F : Ppf ℝ) :
    let pb : Problem ℝ := { names := ["x", "y", "z"], bounds := boundsTable [(0, 1), (0, 2), (1, 2)],
                            groups := some ["g", "h", "g"] }
    ∃ (Ω : Type) (_ : MeasurableSpace Ω) (P : Measure Ω) (draws : Ω → LatinDraws ℝ) (X : Ω → Mat (Num ℝ)),
      IsProbabilityMeasure P ∧
      (∀ ω, latinSample F (draws ω) 0 pb 4 = .ok (X ω, { pb with sampleScaled := true })) ∧
      ∫ ω, rowMean (X ω) (fun r => (r.getD 0 none).getD 0 + 2 * (r.getD 1 none).getD 0 + 3 * (r.getD 2 none).getD 0) ∂P =
        7 := by
  intro pb
  obtain ⟨g, grp, -, h⟩ := C101_linear F 0 ![0, 0, 1] ![1, 2, 2] (by intro j; fin_cases j <;> norm_num) (by norm_num) pb rfl rfl
    rfl (by intro gs h; cases h; rfl) 4 (by norm_num)
    (fun r => (r.getD 0 none).getD 0 + 2 * (r.getD 1 none).getD 0 + 3 * (r.getD 2 none).getD 0) 0 ![1, 2, 3]
    (by intro x; simp [Fin.sum_univ_three])
  obtain ⟨P, hP, hL⟩ := fairLatin_exists 4 g
  obtain ⟨X, h1, h2, -⟩ := h _ P _ _ hL
  refine ⟨_, _, P, _, X, hP, h1, h2.trans ?_⟩
  simp [Fin.sum_univ_three]
  norm_num

end SALib
