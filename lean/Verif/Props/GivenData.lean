import Verif.Lemmas.LawRows
import Verif.Props.LatinMean
import Verif.Props.PawnLimit
import Verif.Props.DeltaLimit
import Verif.Props.DiscMeaning
import Verif.Props.RsaLimit
import Verif.Props.OrderMaps

/-! # C139: how often analyses of given data are far from their limits -/

namespace SALib

open MeasureTheory ProbabilityTheory Spec Filter

variable {d : Nat}

/-- The Latin hypercube samples of all sizes are good except with a probability of the order of `1 / N`, for fair shuffles
and uniform draws in the strata. -/
def Spec.UsuallyOnLatin (d : Nat) (F : Ppf ℝ) (junk : ℝ) (pb : Problem ℝ) (Good : Mat ℝ → Prop) : Prop :=
  ∃ C : ℝ, ∀ N : Nat, 0 < N → ∀ (Ω : Type) [MeasurableSpace Ω] (P : Measure Ω) [IsProbabilityMeasure P]
    (ord : Ω → StrataOrders N d) (off : Ω → Fin d → Fin N → ℝ), FairLatin P ord off →
    ∃ X : Ω → Mat ℝ,
      (∀ ω, latinSample F (latinRandom (ord ω) (off ω)) junk pb N =
        .ok ((X ω).map fun row => row.map some, { pb with sampleScaled := true })) ∧
      P {ω | ¬Good (X ω)} ≤ ENNReal.ofReal (C / N)

/-- `N` independent rows with the distribution `law` are good except with a probability of the order of `1 / N`. -/
def Spec.UsuallyOnRows (law : Measure (Fin d → ℝ)) (Good : Mat ℝ → Prop) : Prop :=
  ∃ C : ℝ, ∀ N : Nat, 0 < N → ∀ (Ω : Type) [MeasurableSpace Ω] (P : Measure Ω) (Z : ℕ → Ω → (Fin d → ℝ)),
    RandomRows law P Z → P {ω | ¬Good ((firstRows Z N ω).map List.ofFn)} ≤ ENNReal.ofReal (C / N)

/-- A problem with `d` inputs, uniform between their bounds, and no groups. -/
structure Spec.PlainProblem (pb : Problem ℝ) (lo hi : Fin d → ℝ) : Prop where
  lt : ∀ j, lo j < hi j
  pos : 0 < d
  num : pb.numVars = d
  bounds : pb.bounds = List.ofFn fun j => [lo j, hi j]
  dists : pb.dists = none
  groups : pb.groups = none

theorem rows_usually (law : Measure (Fin d → ℝ)) [IsProbabilityMeasure law] (D : List (Fin d → ℝ) → Prop)
    (hD : ∀ (Ω : Type) [MeasurableSpace Ω] (P : Measure Ω) (Z : ℕ → Ω → (Fin d → ℝ)), RandomRows law P Z →
      ∀ᵐ ω ∂P, ∀ N, D (firstRows Z N ω)) (Good : Mat ℝ → Prop)
    (h : ∀ᶠ rows in lawRows law, D rows → Good (rows.map List.ofFn)) : UsuallyOnRows law Good := by
  obtain ⟨C, hC⟩ := indep_rare law _ h
  refine ⟨C, fun N hN Ω _ P Z hZ => le_trans ?_ (hC N hN Ω P Z hZ.meas hZ.law hZ.indep)⟩
  refine measure_mono_ae ?_
  filter_upwards [hD Ω P Z hZ] with ω hω hbad hgood
  exact hbad (hgood (hω N))

theorem boundsTable_eq (lo hi : Fin d → ℝ) :
    (List.ofFn fun j => [lo j, hi j]) = boundsTable (List.ofFn fun j => (lo j, hi j)) := by
  unfold boundsTable
  rw [List.map_ofFn]
  rfl

/-- The sample that `latin.sample` delivers, as a list of placed rows. -/
theorem latinSample_rows (F : Ppf ℝ) (junk : ℝ) (lo hi : Fin d → ℝ) (pb : Problem ℝ) (hpb : PlainProblem pb lo hi) (N : Nat)
    (hN : 0 < N) (p : StrataOrders N d) (o : Fin d → Fin N → ℝ) :
    latinSample F (latinRandom p o) junk pb N =
      .ok (((latinRows (placed lo hi id) p o).map List.ofFn).map fun row => row.map some, { pb with sampleScaled := true }) := by
  have hlab : latinLabels pb = none := by
    unfold latinLabels
    rw [hpb.groups]
  obtain ⟨g, grp, hgn, hX⟩ := latinSample_random F junk lo hi hpb.lt hpb.pos pb hpb.num
    (hpb.bounds.trans (boundsTable_eq lo hi)) hpb.dists (by rw [hlab]; intro _ h; cases h) N hN
  rw [hlab] at hgn
  obtain ⟨rfl, hid⟩ := hgn
  have hgrp : grp = id := by
    funext j
    have := hid j j.is_lt
    beta_reduce at this
    rw [dif_pos j.is_lt] at this
    exact Fin.ext this
  subst hgrp
  rw [hX]
  unfold latinRows
  simp only [List.map_ofFn, Function.comp_def]

theorem latin_usually (F : Ppf ℝ) (junk : ℝ) (lo hi : Fin d → ℝ) (pb : Problem ℝ) (hpb : PlainProblem pb lo hi)
    (D : List (Fin d → ℝ) → Prop)
    (hD : ∀ (N : Nat) (Ω : Type) [MeasurableSpace Ω] (P : Measure Ω) [IsProbabilityMeasure P]
      (ord : Ω → StrataOrders N d) (off : Ω → Fin d → Fin N → ℝ), 0 < N → FairLatin P ord off →
      ∀ᵐ ω ∂P, D (latinRows (placed lo hi id) (ord ω) (off ω))) (Good : Mat ℝ → Prop)
    (h : ∀ᶠ rows in lawRows (Measure.pi fun j => unifOn (lo j) (hi j)), D rows → Good (rows.map List.ofFn)) :
    UsuallyOnLatin d F junk pb Good := by
  have hp := placed_preserving lo hi hpb.lt
  obtain ⟨C, hC⟩ := latin_rare (placed lo hi id) hp.measurable _ hp.map_eq _ h
  refine ⟨C, fun N hN Ω _ P _ ord off hL => ?_⟩
  refine ⟨fun ω => (latinRows (placed lo hi id) (ord ω) (off ω)).map List.ofFn,
    fun ω => latinSample_rows F junk lo hi pb hpb N hN _ _, ?_⟩
  refine le_trans (measure_mono_ae ?_) (hC N hN Ω P ord off hL)
  filter_upwards [hD N Ω P ord off hN hL] with ω hω hbad hgood
  exact hbad (hgood hω)

theorem latin_nodup (lo hi : Fin d → ℝ) (hlh : ∀ j, lo j < hi j) (X : (Fin d → ℝ) → ℝ) (hX : Measurable X)
    (hna : ∀ a, (Measure.pi fun j => unifOn (lo j) (hi j)).real {x | X x = a} = 0) (N : Nat) (hN : 0 < N) (Ω : Type)
    [MeasurableSpace Ω] (P : Measure Ω) [IsProbabilityMeasure P]
    (ord : Ω → StrataOrders N d) (off : Ω → Fin d → Fin N → ℝ) (hL : FairLatin P ord off) :
    ∀ᵐ ω ∂P, ((latinRows (placed lo hi id) (ord ω) (off ω)).map X).Nodup := by
  have := fun j => isProb_unifOn (hlh j)
  have hp := placed_preserving lo hi hlh
  have hz : ∀ a, cube d {u | X (placed lo hi id u) = a} = 0 := by
    intro a
    have h1 := (measureReal_eq_zero_iff).mp (hna a)
    rw [← hp.map_eq, Measure.map_apply hp.measurable (measurableSet_eq_fun hX measurable_const)] at h1
    exact h1
  filter_upwards [latin_distinct hN hL (fun u => X (placed lo hi id u)) (hX.comp hp.measurable) hz] with ω hω
  unfold latinRows
  rw [List.map_ofFn, List.nodup_ofFn]
  exact hω

/-- The marginal distributions of independent inputs. -/
theorem pi_marginal (lo hi : Fin d → ℝ) (hlh : ∀ j, lo j < hi j) (j : Fin d) :
    Measure.map (fun x : Fin d → ℝ => x j) (Measure.pi fun j => unifOn (lo j) (hi j)) = unifOn (lo j) (hi j) := by
  have := fun j => isProb_unifOn (hlh j)
  exact (measurePreserving_eval (fun j => unifOn (lo j) (hi j)) j).map_eq

/-! ### PAWN -/

/-- The table of a PAWN analysis is complete and every statistic is within `ε` of that of the distances between the
conditional and unconditional distributions. -/
def Spec.PawnGood (law : Measure (Fin d → ℝ)) (f : List ℝ → ℝ) (S : Nat) (p : Fin d → Nat → ℝ) (pb : Problem ℝ) (ε : ℝ)
    (X : Mat ℝ) : Prop :=
  ∃ res, pawnAnalyze Real.sqrt pb X (X.map f) S = .ok (res, (extractGroupNames pb).1) ∧ res.length = d ∧
    ∀ j : Fin d, ∃ row, res[j.1]? = some row ∧
      RowNear ε row fun s : Fin S => partDistance law (fun x => f (List.ofFn x)) j S (p j) s

/-- **C139**, PAWN on independent rows. -/
theorem C139_pawn_rows (law : Measure (Fin d → ℝ)) [IsProbabilityMeasure law] (S : Nat) (hS : 0 < S) (p : Fin d → Nat → ℝ)
    (h : ∀ j, EqualParts law j S (p j)) (f : List ℝ → ℝ) (hf : Measurable fun x : Fin d → ℝ => f (List.ofFn x))
    (pb : Problem ℝ) (hD : pb.numVars = d) (hg : checkGroups pb = none) (ε : ℝ) (hε : 0 < ε) :
    UsuallyOnRows law (PawnGood law f S p pb ε) :=
  rows_usually law (fun _ => True) (fun _ _ _ _ _ => ae_of_all _ fun _ _ => trivial) _
    ((pawn_near law S hS p h f hf pb hD hg ε hε).mono fun _ h _ => h)

/-- **C139**, PAWN on the Latin hypercube samples of the library. -/
theorem C139_pawn_latin (F : Ppf ℝ) (junk : ℝ) (lo hi : Fin d → ℝ) (pb : Problem ℝ) (hpb : PlainProblem pb lo hi)
    (S : Nat) (hS : 0 < S) (f : List ℝ → ℝ) (hf : Measurable fun x : Fin d → ℝ => f (List.ofFn x)) (ε : ℝ) (hε : 0 < ε) :
    UsuallyOnLatin d F junk pb (PawnGood (Measure.pi fun j => unifOn (lo j) (hi j)) f S
      (fun j => evenCuts (lo j) (hi j) S) pb ε) := by
  have := fun j => isProb_unifOn (hpb.lt j)
  refine latin_usually F junk lo hi pb hpb (fun _ => True) (fun _ _ _ _ _ _ _ _ _ => ae_of_all _ fun _ => trivial) _
    ((pawn_near _ S hS _ (fun j => evenCuts_equal _ j S _ _ (hpb.lt j) (pi_marginal lo hi hpb.lt j) hS) f hf pb hpb.num ?_ ε
      hε).mono fun _ h _ => h)
  unfold checkGroups
  rw [hpb.groups]

/-! ### Discrepancy -/

/-- The indices of a discrepancy analysis are within `ε` of the shares of the discrepancies of the joint distributions. -/
def Spec.DiscGood (method : String) (disc : List (ℝ × ℝ) → ℝ) (law : Measure (Fin d → ℝ)) (f : List ℝ → ℝ) (a b : ℝ)
    (lo hi : Fin d → ℝ) (pb : Problem ℝ) (ε : ℝ) (X : Mat ℝ) : Prop :=
  ∃ v : List ℝ, discAnalyze disc pb X (X.map f) = .ok (v.map some, pb.names) ∧ v.length = d ∧
    ∀ j : Fin d, ∃ x, v[j.1]? = some x ∧
      |x - discrepancyOf method (plotLaw law (fun x => f (List.ofFn x)) j (lo j) (hi j) a b) /
        ∑ k, discrepancyOf method (plotLaw law (fun x => f (List.ofFn x)) k (lo k) (hi k) a b)| < ε

/-- **C139**, discrepancy on independent rows. -/
theorem C139_discrepancy_rows (method : String) (disc : List (ℝ × ℝ) → ℝ) (hm : discMethod Real.sqrt method = .ok disc)
    (law : Measure (Fin d → ℝ)) [IsProbabilityMeasure law] (f : List ℝ → ℝ)
    (hf : Measurable fun x : Fin d → ℝ => f (List.ofFn x)) (a b : ℝ) (hr : OutputRange law (fun x => f (List.ofFn x)) a b)
    (lo hi : Fin d → ℝ) (hlh : ∀ j, lo j < hi j) (hin : ∀ᵐ x ∂law, ∀ j, lo j ≤ x j ∧ x j ≤ hi j) (pb : Problem ℝ)
    (hb : pb.bounds = List.ofFn fun j => [lo j, hi j]) (hD : pb.numVars = d) (hg : pb.groups = none)
    (htot : ∑ k, discrepancyOf method (plotLaw law (fun x => f (List.ofFn x)) k (lo k) (hi k) a b) ≠ 0) (ε : ℝ) (hε : 0 < ε) :
    UsuallyOnRows law (DiscGood method disc law f a b lo hi pb ε) := by
  refine rows_usually law _ ?_ _ ((disc_near method disc hm law f _ (fun _ => rfl) hf a b hr lo hi hlh hin pb hb hD hg htot
    ε hε).mono fun rows h hrows => h hrows _ rfl)
  intro Ω _ P Z hZ
  have hmem : ∀ᵐ ω ∂P, ∀ i, (∀ j, lo j ≤ Z i ω j ∧ Z i ω j ≤ hi j) ∧ a ≤ f (List.ofFn (Z i ω)) ∧ f (List.ofFn (Z i ω)) ≤ b := by
    rw [ae_all_iff]
    intro i
    have := hin.and hr.mem
    rw [← hZ.law i] at this
    exact ae_of_ae_map (hZ.meas i).aemeasurable this
  filter_upwards [hmem] with ω h1 N r hrN
  obtain ⟨i, -, rfl⟩ := List.mem_map.mp hrN
  exact h1 i

/-- **C139**, discrepancy on the Latin hypercube samples of the library. -/
theorem C139_discrepancy_latin (method : String) (disc : List (ℝ × ℝ) → ℝ) (hm : discMethod Real.sqrt method = .ok disc)
    (F : Ppf ℝ) (junk : ℝ) (lo hi : Fin d → ℝ) (pb : Problem ℝ) (hpb : PlainProblem pb lo hi) (f : List ℝ → ℝ)
    (hf : Measurable fun x : Fin d → ℝ => f (List.ofFn x)) (a b : ℝ)
    (hr : OutputRange (Measure.pi fun j => unifOn (lo j) (hi j)) (fun x => f (List.ofFn x)) a b)
    (htot : ∑ k, discrepancyOf method (plotLaw (Measure.pi fun j => unifOn (lo j) (hi j)) (fun x => f (List.ofFn x)) k
      (lo k) (hi k) a b) ≠ 0) (ε : ℝ) (hε : 0 < ε) :
    UsuallyOnLatin d F junk pb (DiscGood method disc (Measure.pi fun j => unifOn (lo j) (hi j)) f a b lo hi pb ε) := by
  have := fun j => isProb_unifOn (hpb.lt j)
  have hp := placed_preserving lo hi hpb.lt
  have hin : ∀ᵐ x ∂Measure.pi fun j => unifOn (lo j) (hi j), ∀ j, lo j ≤ x j ∧ x j ≤ hi j := by
    rw [ae_all_iff]
    intro j
    have h1 : ∀ᵐ t ∂unifOn (lo j) (hi j), lo j ≤ t ∧ t ≤ hi j := ProbabilityTheory.ae_cond_mem measurableSet_Icc
    rw [← pi_marginal lo hi hpb.lt j] at h1
    exact ae_of_ae_map (measurable_pi_apply j).aemeasurable h1
  refine latin_usually F junk lo hi pb hpb _ ?_ _ ((disc_near method disc hm _ f _ (fun _ => rfl) hf a b hr lo hi hpb.lt hin pb
    hpb.bounds hpb.num hpb.groups htot ε hε).mono fun rows h hrows => h hrows _ rfl)
  intro N Ω _ P _ ord off hN hL
  have hA : MeasurableSet {x : Fin d → ℝ | (∀ j, lo j ≤ x j ∧ x j ≤ hi j) ∧ a ≤ f (List.ofFn x) ∧ f (List.ofFn x) ≤ b} := by
    refine MeasurableSet.inter (s₁ := {x : Fin d → ℝ | ∀ j, lo j ≤ x j ∧ x j ≤ hi j}) ?_
      ((measurableSet_le measurable_const hf).inter (measurableSet_le hf measurable_const))
    rw [Set.setOf_forall]
    exact MeasurableSet.iInter fun j => (measurableSet_le measurable_const (measurable_pi_apply j)).inter
      (measurableSet_le (measurable_pi_apply j) measurable_const)
  have hae := hin.and hr.mem
  rw [← hp.map_eq] at hae
  have h2 := latin_all hN hL _ (hp.measurable hA) (ae_of_ae_map hp.measurable.aemeasurable hae)
  filter_upwards [h2] with ω hω r hrN
  obtain ⟨s, rfl⟩ := (List.mem_ofFn' _ _).mp hrN
  exact hω s

/-! ### Delta -/

/-- All but a share `ε` of the draws of the resampled rows give a first-order index within `ε` of the share of the variance
between 48 classes of input `j`. -/
def Spec.DeltaGood (law : Measure (Fin d → ℝ)) (f : List ℝ → ℝ) (j : Fin d) (p : Nat → ℝ) (s : DeltaSetup ℝ) (pb : Problem ℝ)
    (conf : ℝ) (yres : Option Nat) (n0 : Nat) (ε : ℝ) (X : Mat ℝ) : Prop :=
  ∀ n, n = yres.getD X.length → n0 ≤ n → n ≤ X.length →
    drawShare n X.length (fun t => ¬∀ R : DeltaRandom, (∀ i, (R.rows i).length = n) →
      (R.rows j = List.ofFn fun i => (t i).1) →
      ∃ r v, deltaAnalyze s R pb X (X.map f) conf yres (some .sobol) = .ok r ∧ entryAt r "S1" j = some (some v) ∧
        |v - classShare law (fun x => f (List.ofFn x)) j 48 p| < ε) ≤ ε

theorem delta_good (law : Measure (Fin d → ℝ)) [IsProbabilityMeasure law] (j : Fin d) (p : Nat → ℝ)
    (h : EqualParts law j 48 p) (f : List ℝ → ℝ) (hf : Measurable fun x : Fin d → ℝ => f (List.ofFn x))
    (h8 : Integrable (fun x : Fin d → ℝ => f (List.ofFn x) ^ 8) law) (hv : 0 < Var[fun x => f (List.ofFn x); law])
    (s : DeltaSetup ℝ) (hcls : s.classes = deltaM) (pb : Problem ℝ) (hD : pb.numVars = d) (hnames : d ≤ pb.names.length)
    (hsuf : ∀ n ∈ pb.names, ∀ t ∈ ["_raw", "_balanced", "_step", "_conf"], ¬t.toList <:+ n.toList)
    (conf : ℝ) (hconf : 0 < conf ∧ conf < 1) (ε : ℝ) (hε : 0 < ε) :
    ∃ n0, ∀ᶠ rows in lawRows law, ∀ yres, DeltaGood law f j p s pb conf yres n0 ε (rows.map List.ofFn) := by
  obtain ⟨n0, hn0⟩ := delta_near law j p h _ hf h8 hv ε hε
  refine ⟨max n0 1, ?_⟩
  filter_upwards [hn0] with rows hrows yres n hn h0 hN
  rw [List.length_map] at hn hN ⊢
  exact (delta_report j f s hcls pb hD hnames hsuf conf hconf rows _ ε yres n hn ((le_max_right _ _).trans h0) hN).trans
    (hrows n ((le_max_left _ _).trans h0))

/-- **C139**, the first-order index of the delta analysis on independent rows: there is a number `n0` such that, with any
number of resampled rows from `n0` on, large samples are good. -/
theorem C139_delta_rows (law : Measure (Fin d → ℝ)) [IsProbabilityMeasure law] (j : Fin d) (p : Nat → ℝ)
    (h : EqualParts law j 48 p) (f : List ℝ → ℝ) (hf : Measurable fun x : Fin d → ℝ => f (List.ofFn x))
    (h8 : Integrable (fun x : Fin d → ℝ => f (List.ofFn x) ^ 8) law) (hv : 0 < Var[fun x => f (List.ofFn x); law])
    (s : DeltaSetup ℝ) (hcls : s.classes = deltaM) (pb : Problem ℝ) (hD : pb.numVars = d) (hnames : d ≤ pb.names.length)
    (hsuf : ∀ n ∈ pb.names, ∀ t ∈ ["_raw", "_balanced", "_step", "_conf"], ¬t.toList <:+ n.toList)
    (conf : ℝ) (hconf : 0 < conf ∧ conf < 1) (ε : ℝ) (hε : 0 < ε) :
    ∃ n0, UsuallyOnRows law fun X => ∀ yres, DeltaGood law f j p s pb conf yres n0 ε X := by
  obtain ⟨n0, hn0⟩ := delta_good law j p h f hf h8 hv s hcls pb hD hnames hsuf conf hconf ε hε
  exact ⟨n0, rows_usually law (fun _ => True) (fun _ _ _ _ _ => ae_of_all _ fun _ _ => trivial) _ (hn0.mono fun _ h _ => h)⟩

/-- **C139**, the first-order index of the delta analysis on the Latin hypercube samples of the library. -/
theorem C139_delta_latin (F : Ppf ℝ) (junk : ℝ) (lo hi : Fin d → ℝ) (pb : Problem ℝ) (hpb : PlainProblem pb lo hi)
    (j : Fin d) (f : List ℝ → ℝ) (hf : Measurable fun x : Fin d → ℝ => f (List.ofFn x))
    (h8 : Integrable (fun x : Fin d → ℝ => f (List.ofFn x) ^ 8) (Measure.pi fun j => unifOn (lo j) (hi j)))
    (hv : 0 < Var[fun x => f (List.ofFn x); Measure.pi fun j => unifOn (lo j) (hi j)])
    (s : DeltaSetup ℝ) (hcls : s.classes = deltaM) (hnames : d ≤ pb.names.length)
    (hsuf : ∀ n ∈ pb.names, ∀ t ∈ ["_raw", "_balanced", "_step", "_conf"], ¬t.toList <:+ n.toList)
    (conf : ℝ) (hconf : 0 < conf ∧ conf < 1) (ε : ℝ) (hε : 0 < ε) :
    ∃ n0, UsuallyOnLatin d F junk pb fun X => ∀ yres,
      DeltaGood (Measure.pi fun j => unifOn (lo j) (hi j)) f j (evenCuts (lo j) (hi j) 48) s pb conf yres n0 ε X := by
  have := fun j => isProb_unifOn (hpb.lt j)
  obtain ⟨n0, hn0⟩ := delta_good _ j _ (evenCuts_equal _ j 48 _ _ (hpb.lt j) (pi_marginal lo hi hpb.lt j) (by norm_num)) f hf
    h8 hv s hcls pb hpb.num hnames hsuf conf hconf ε hε
  exact ⟨n0, latin_usually F junk lo hi pb hpb (fun _ => True) (fun _ _ _ _ _ _ _ _ _ => ae_of_all _ fun _ => trivial) _
    (hn0.mono fun _ h _ => h)⟩

/-! ### Regional sensitivity analysis -/

/-- The table is complete, and every value divided by the number of samples is within `ε` of its limit. -/
def Spec.RsaGood (f : List ℝ → ℝ) (S : Nat) (target : RsaTarget) (limit : Fin d → Nat → ℝ) (pb : Problem ℝ) (ε : ℝ)
    (X : Mat ℝ) : Prop :=
  ∃ cols, rsaAnalyze cvmStat pb X (X.map f) d S target = .ok (cols, pb.names) ∧ cols.length = d ∧
    ∀ j : Fin d, ∃ col, cols[j.1]? = some col ∧ col.length = S ∧
      ∀ s < S, ∃ v, col[s]? = some (some v) ∧ |v / X.length - limit j s| < ε

/-- The limits with `target="X"`. -/
noncomputable def Spec.rsaLimitX (law : Measure (Fin d → ℝ)) (f : List ℝ → ℝ) (S : Nat) (p : Fin d → Nat → ℝ) (j : Fin d)
    (s : Nat) : ℝ :=
  1 / S * (1 - 1 / S) * lawSqDistance law (fun x => f (List.ofFn x)) (part j S (p j) s)

/-- The limits with `target="Y"`. -/
noncomputable def Spec.rsaLimitY (law : Measure (Fin d → ℝ)) (f : List ℝ → ℝ) (S : Nat) (p : Nat → ℝ) (j : Fin d)
    (s : Nat) : ℝ :=
  1 / S * (1 - 1 / S) * lawSqDistance law (fun x => x j)
    {x | (s = 0 ∨ p s ≤ f (List.ofFn x)) ∧ (s + 1 = S ∨ f (List.ofFn x) < p (s + 1))}

theorem rsa_table (f : List ℝ → ℝ) (S : Nat) (hS : 2 ≤ S) (target : RsaTarget) (limit : Fin d → Nat → ℝ) (pb : Problem ℝ)
    (hg : pb.groups = none) (hnames : pb.names.length = d) (hnd : pb.names.Nodup) (ε : ℝ) (rows : List (Fin d → ℝ))
    (h : ∀ (j : Fin d) (s : Fin S), ∃ v, rsaEntry cvmStat (rows.map fun x => x j) (rows.map fun x => f (List.ofFn x)) S
      target s = some v ∧ |v / rows.length - limit j s| < ε) :
    RsaGood f S target limit pb ε (rows.map List.ofFn) := by
  have hX : (rows.map List.ofFn).map f = rows.map fun x => f (List.ofFn x) := by rw [List.map_map]; rfl
  have hone : ∀ j : Fin d, (rows.map fun x => (List.ofFn x).getD j.1 0) = rows.map fun x => x j := by
    intro j
    refine List.map_congr_left fun x _ => ?_
    simp [List.getD]
  set ent : Nat → Nat → Num ℝ := fun j s => rsaEntry cvmStat (rows.map fun x => (List.ofFn x).getD j 0)
    (rows.map fun x => f (List.ofFn x)) S target s with hent
  have hcols : rsaColumns cvmStat (rows.map List.ofFn) (rows.map fun x => f (List.ofFn x)) d S target =
      .ok ((List.range d).map fun j => (List.range S).map (ent j)) := by
    unfold rsaColumns
    rw [if_neg (by omega)]
    refine mapM_ok_of _ _ _ fun j hj => ?_
    have hj := List.mem_range.mp hj
    rw [inputColumn_eq, if_pos (by
      intro row hrow
      obtain ⟨x, -, rfl⟩ := List.mem_map.mp hrow
      simpa using hj), pyBind_ok, if_neg (by simp), List.map_map]
    rfl
  have hn : (extractGroupNames pb).1 = pb.names := by
    unfold extractGroupNames
    rw [hg]
    exact pdUnique_of_nodup _ hnd
  have hcg : checkGroups pb = none := by
    unfold checkGroups
    rw [hg]
  refine ⟨(List.range d).map fun j => (List.range S).map (ent j), ?_, by simp, fun j => ?_⟩
  · unfold rsaAnalyze
    rw [hX, hcols, pyBind_ok]
    simp only [hn, hcg, hnames]
    have : ((List.range d).mapM fun i => pyGet ((List.range d).map fun j => (List.range S).map (ent j)) i) =
        .ok ((List.range d).map fun j => (List.range S).map (ent j)) := by
      refine mapM_ok_of _ _ _ fun j hj => ?_
      have hj := List.mem_range.mp hj
      rw [pyGet_ok _ j (by simpa using hj)]
      simp
    rw [this, pyBind_ok]
    rfl
  · refine ⟨(List.range S).map (ent j), by simp, by simp, fun s hs => ?_⟩
    obtain ⟨v, h1, h2⟩ := h j ⟨s, hs⟩
    refine ⟨v, ?_, by rw [List.length_map]; exact h2⟩
    rw [List.getElem?_map, List.getElem?_range hs, Option.map_some, hent]
    simp only [hone]
    rw [h1]

theorem rsa_near_X (law : Measure (Fin d → ℝ)) [IsProbabilityMeasure law] (S : Nat) (hS : 2 ≤ S) (p : Fin d → Nat → ℝ)
    (h : ∀ j, EqualParts law j S (p j)) (f : List ℝ → ℝ) (hf : Measurable fun x : Fin d → ℝ => f (List.ofFn x))
    (pb : Problem ℝ) (hg : pb.groups = none) (hnames : pb.names.length = d) (hnd : pb.names.Nodup) (ε : ℝ) (hε : 0 < ε) :
    ∀ᶠ rows in lawRows law, ((∀ j, (rows.map fun x : Fin d → ℝ => x j).Nodup) ∧ (rows.map fun x => f (List.ofFn x)).Nodup) →
      RsaGood f S .X (rsaLimitX law f S p) pb ε (rows.map List.ofFn) := by
  set D : List (Fin d → ℝ) → Prop := fun rows =>
    (∀ j, (rows.map fun x : Fin d → ℝ => x j).Nodup) ∧ (rows.map fun x => f (List.ofFn x)).Nodup with hD
  have hev : ∀ (j : Fin d) (s : Fin S), ∀ᶠ rows in lawRows law ⊓ 𝓟 {rows | D rows},
      ∃ v, rsaEntry cvmStat (rows.map fun x => x j) (rows.map fun x => f (List.ofFn x)) S .X s = some v ∧
        |v / rows.length - rsaLimitX law f S p j s| < ε := by
    intro j s
    obtain ⟨h1, h2⟩ := cvm_rows law j S (p j) (fun x => f (List.ofFn x)) hf (h j) hS s s.2
      (lawRows law ⊓ 𝓟 {rows | D rows}) inf_le_left
      (eventually_inf_principal.mpr (Eventually.of_forall fun rows (h : D rows) => ⟨h.1 j, h.2⟩))
    filter_upwards [h1, h2.eventually (Metric.ball_mem_nhds _ hε)] with rows e1 e2
    exact ⟨_, (rsaEntry_rows rows (fun x : Fin d → ℝ => x j) _ e1.1 e1.2.1 S s s.2 e1.2.2.1 e1.2.2.2).1, e2⟩
  refine eventually_inf_principal.mp ?_
  filter_upwards [eventually_all.mpr fun j => eventually_all.mpr (hev j)] with rows hrows
  exact rsa_table f S hS .X _ pb hg hnames hnd ε rows hrows

theorem rsa_near_Y (law : Measure (Fin d → ℝ)) [IsProbabilityMeasure law] (S : Nat) (hS : 2 ≤ S) (p : Nat → ℝ)
    (f : List ℝ → ℝ) (hf : Measurable fun x : Fin d → ℝ => f (List.ofFn x))
    (hGa : ∀ a, law.real {x | f (List.ofFn x) = a} = 0)
    (hshare : ∀ s, 0 < s → s < S → law.real {x | f (List.ofFn x) ≤ p s} = (s : ℝ) / S)
    (pb : Problem ℝ) (hg : pb.groups = none) (hnames : pb.names.length = d) (hnd : pb.names.Nodup) (ε : ℝ) (hε : 0 < ε) :
    ∀ᶠ rows in lawRows law, ((∀ j, (rows.map fun x : Fin d → ℝ => x j).Nodup) ∧ (rows.map fun x => f (List.ofFn x)).Nodup) →
      RsaGood f S .Y (rsaLimitY law f S p) pb ε (rows.map List.ofFn) := by
  set G : (Fin d → ℝ) → ℝ := fun x => f (List.ofFn x) with hGdef
  set D : List (Fin d → ℝ) → Prop := fun rows =>
    (∀ j, (rows.map fun x : Fin d → ℝ => x j).Nodup) ∧ (rows.map G).Nodup with hD
  have hev : ∀ (j : Fin d) (s : Fin S), ∀ᶠ rows in lawRows law ⊓ 𝓟 {rows | D rows},
      ∃ v, rsaEntry cvmStat (rows.map fun x => x j) (rows.map G) S .Y s = some v ∧
        |v / rows.length - rsaLimitY law f S p j s| < ε := by
    intro j s
    have hpm := measurable_outPair G hf j
    have hpr : IsProbabilityMeasure (law.map (outPair G j)) := Measure.isProbabilityMeasure_map hpm.aemeasurable
    have hE := outPair_parts law j S p G hf hGa hshare
    have hm0 : ∀ rows : List (Fin d → ℝ), ((rows.map (outPair G j)).map fun z : Fin 2 → ℝ => z 0) = rows.map G := fun rows => by
      rw [List.map_map]; rfl
    have hm1 : ∀ rows : List (Fin d → ℝ), ((rows.map (outPair G j)).map fun z : Fin 2 → ℝ => z 1) = rows.map fun x => x j :=
      fun rows => by rw [List.map_map]; rfl
    obtain ⟨h1, h2⟩ := cvm_rows (law.map (outPair G j)) 0 S p (fun z => z 1) (measurable_pi_apply 1) hE hS s s.2
      (map (List.map (outPair G j)) (lawRows law ⊓ 𝓟 {rows | D rows}))
      ((lawRows_map law _ hpm).mono_left inf_le_left)
      (eventually_map.mpr (eventually_inf_principal.mpr (Eventually.of_forall fun rows (h : D rows) => by
        rw [hm0, hm1]
        exact ⟨h.2, h.1 j⟩)))
    filter_upwards [eventually_map.mp h1, (tendsto_map'_iff.mp h2).eventually (Metric.ball_mem_nhds _ hε)] with rows e1 e2
    have := (rsaEntry_rows _ (fun x : Fin 2 → ℝ => x 0) (fun z : Fin 2 → ℝ => z 1) e1.1 e1.2.1 S s s.2 e1.2.2.1 e1.2.2.2).2
    rw [hm0, hm1] at this
    refine ⟨_, this, ?_⟩
    rw [outPair_distance law j S p G hf hE s s.2] at e2
    simp only [Function.comp_apply, List.length_map] at e2
    exact e2
  refine eventually_inf_principal.mp ?_
  filter_upwards [eventually_all.mpr fun j => eventually_all.mpr (hev j)] with rows hrows
  exact rsa_table f S hS .Y _ pb hg hnames hnd ε rows hrows

theorem rows_different (law : Measure (Fin d → ℝ)) [IsProbabilityMeasure law] (hja : ∀ j a, law.real {x | x j = a} = 0)
    (G : (Fin d → ℝ) → ℝ) (hG : Measurable G) (hGa : ∀ a, law.real {x | G x = a} = 0)
    (Ω : Type) [MeasurableSpace Ω] (P : Measure Ω) (Z : ℕ → Ω → (Fin d → ℝ)) (hZ : RandomRows law P Z) :
    ∀ᵐ ω ∂P, ∀ N, (∀ j, ((firstRows Z N ω).map fun x : Fin d → ℝ => x j).Nodup) ∧ ((firstRows Z N ω).map G).Nodup := by
  have h1 : ∀ᵐ ω ∂P, ∀ j, ∀ N, ((firstRows Z N ω).map fun x : Fin d → ℝ => x j).Nodup := ae_all_iff.mpr fun j =>
    rows_distinct law (fun x => x j) (measurable_pi_apply j) (hja j) P Z hZ
  filter_upwards [h1, rows_distinct law G hG hGa P Z hZ] with ω a b N
  exact ⟨fun j => a j N, b N⟩

/-- **C139**, regional sensitivity analysis on independent rows, `target="X"`. -/
theorem C139_rsa_rows_X (law : Measure (Fin d → ℝ)) [IsProbabilityMeasure law] (S : Nat) (hS : 2 ≤ S) (p : Fin d → Nat → ℝ)
    (h : ∀ j, EqualParts law j S (p j)) (f : List ℝ → ℝ) (hf : Measurable fun x : Fin d → ℝ => f (List.ofFn x))
    (hGa : ∀ a, law.real {x | f (List.ofFn x) = a} = 0)
    (pb : Problem ℝ) (hg : pb.groups = none) (hnames : pb.names.length = d) (hnd : pb.names.Nodup) (ε : ℝ) (hε : 0 < ε) :
    UsuallyOnRows law (RsaGood f S .X (rsaLimitX law f S p) pb ε) :=
  rows_usually law _ (rows_different law (fun j => (h j).noAtom) _ hf hGa) _
    (rsa_near_X law S hS p h f hf pb hg hnames hnd ε hε)

/-- **C139**, regional sensitivity analysis on independent rows, `target="Y"`. -/
theorem C139_rsa_rows_Y (law : Measure (Fin d → ℝ)) [IsProbabilityMeasure law] (S : Nat) (hS : 2 ≤ S) (p : Nat → ℝ)
    (hja : ∀ j a, law.real {x | x j = a} = 0) (f : List ℝ → ℝ) (hf : Measurable fun x : Fin d → ℝ => f (List.ofFn x))
    (hGa : ∀ a, law.real {x | f (List.ofFn x) = a} = 0)
    (hshare : ∀ s, 0 < s → s < S → law.real {x | f (List.ofFn x) ≤ p s} = (s : ℝ) / S)
    (pb : Problem ℝ) (hg : pb.groups = none) (hnames : pb.names.length = d) (hnd : pb.names.Nodup) (ε : ℝ) (hε : 0 < ε) :
    UsuallyOnRows law (RsaGood f S .Y (rsaLimitY law f S p) pb ε) :=
  rows_usually law _ (rows_different law hja _ hf hGa) _ (rsa_near_Y law S hS p f hf hGa hshare pb hg hnames hnd ε hε)

theorem latin_different (lo hi : Fin d → ℝ) (hlh : ∀ j, lo j < hi j) (G : (Fin d → ℝ) → ℝ) (hG : Measurable G)
    (hGa : ∀ a, (Measure.pi fun j => unifOn (lo j) (hi j)).real {x | G x = a} = 0) (N : Nat) (Ω : Type) [MeasurableSpace Ω]
    (P : Measure Ω) [IsProbabilityMeasure P] (ord : Ω → StrataOrders N d) (off : Ω → Fin d → Fin N → ℝ) (hN : 0 < N)
    (hL : FairLatin P ord off) :
    ∀ᵐ ω ∂P, (∀ j, ((latinRows (placed lo hi id) (ord ω) (off ω)).map fun x : Fin d → ℝ => x j).Nodup) ∧
      ((latinRows (placed lo hi id) (ord ω) (off ω)).map G).Nodup := by
  have := fun j => isProb_unifOn (hlh j)
  have h1 := ae_all_iff.mpr fun j : Fin d => latin_nodup lo hi hlh (fun x => x j) (measurable_pi_apply j)
    (evenCuts_equal _ j 1 _ _ (hlh j) (pi_marginal lo hi hlh j) one_pos).noAtom N hN Ω P ord off hL
  filter_upwards [h1, latin_nodup lo hi hlh G hG hGa N hN Ω P ord off hL] with ω a b
  exact ⟨a, b⟩

/-- **C139**, regional sensitivity analysis on the Latin hypercube samples of the library, `target="X"`. -/
theorem C139_rsa_latin_X (F : Ppf ℝ) (junk : ℝ) (lo hi : Fin d → ℝ) (pb : Problem ℝ) (hpb : PlainProblem pb lo hi)
    (S : Nat) (hS : 2 ≤ S) (f : List ℝ → ℝ) (hf : Measurable fun x : Fin d → ℝ => f (List.ofFn x))
    (hGa : ∀ a, (Measure.pi fun j => unifOn (lo j) (hi j)).real {x | f (List.ofFn x) = a} = 0)
    (hnames : pb.names.length = d) (hnd : pb.names.Nodup) (ε : ℝ) (hε : 0 < ε) :
    UsuallyOnLatin d F junk pb (RsaGood f S .X
      (rsaLimitX (Measure.pi fun j => unifOn (lo j) (hi j)) f S fun j => evenCuts (lo j) (hi j) S) pb ε) := by
  have := fun j => isProb_unifOn (hpb.lt j)
  exact latin_usually F junk lo hi pb hpb _ (latin_different lo hi hpb.lt _ hf hGa) _
    (rsa_near_X _ S hS _ (fun j => evenCuts_equal _ j S _ _ (hpb.lt j) (pi_marginal lo hi hpb.lt j) (by omega)) f hf pb
      hpb.groups hnames hnd ε hε)

/-- **C139**, regional sensitivity analysis on the Latin hypercube samples of the library, `target="Y"`. -/
theorem C139_rsa_latin_Y (F : Ppf ℝ) (junk : ℝ) (lo hi : Fin d → ℝ) (pb : Problem ℝ) (hpb : PlainProblem pb lo hi)
    (S : Nat) (hS : 2 ≤ S) (p : Nat → ℝ) (f : List ℝ → ℝ) (hf : Measurable fun x : Fin d → ℝ => f (List.ofFn x))
    (hGa : ∀ a, (Measure.pi fun j => unifOn (lo j) (hi j)).real {x | f (List.ofFn x) = a} = 0)
    (hshare : ∀ s, 0 < s → s < S → (Measure.pi fun j => unifOn (lo j) (hi j)).real {x | f (List.ofFn x) ≤ p s} = (s : ℝ) / S)
    (hnames : pb.names.length = d) (hnd : pb.names.Nodup) (ε : ℝ) (hε : 0 < ε) :
    UsuallyOnLatin d F junk pb (RsaGood f S .Y (rsaLimitY (Measure.pi fun j => unifOn (lo j) (hi j)) f S p) pb ε) := by
  have := fun j => isProb_unifOn (hpb.lt j)
  exact latin_usually F junk lo hi pb hpb _ (latin_different lo hi hpb.lt _ hf hGa) _
    (rsa_near_Y _ S hS p f hf hGa hshare pb hpb.groups hnames hnd ε hε)

/-! ### Examples: two inputs between 0 and 1, the second without influence -/

/-- Two inputs between 0 and 1. -/
def pairProblem : Problem ℝ := { names := ["a", "b"], bounds := [[0, 1], [0, 1]] }

theorem pairProblem_plain : PlainProblem pairProblem (fun _ : Fin 2 => (0 : ℝ)) fun _ => 1 :=
  ⟨fun _ => one_pos, by norm_num, rfl, by simp [pairProblem], rfl, rfl⟩

theorem pair_law : (∀ j, EqualParts (Measure.pi fun _ : Fin 2 => unifOn 0 1) j 4 (evenCuts 0 1 4)) ∧
    EqualParts (Measure.pi fun _ : Fin 2 => unifOn 0 1) 0 48 (evenCuts 0 1 48) ∧
    Integrable (fun x : Fin 2 → ℝ => x 0 ^ 8) (Measure.pi fun _ : Fin 2 => unifOn 0 1) ∧
    0 < Var[fun x : Fin 2 → ℝ => x 0; Measure.pi fun _ : Fin 2 => unifOn 0 1] := by
  have hu := isProb_unifOn (lo := 0) (hi := 1) (by norm_num)
  have hmap := pi_marginal (fun _ : Fin 2 => (0 : ℝ)) (fun _ => 1) (fun _ => one_pos)
  have hmp : MeasurePreserving (fun x : Fin 2 → ℝ => x 0) (Measure.pi fun _ : Fin 2 => unifOn 0 1) (unifOn 0 1) :=
    ⟨measurable_pi_apply 0, hmap 0⟩
  refine ⟨fun j => evenCuts_equal _ j 4 0 1 one_pos (hmap j) (by norm_num),
    evenCuts_equal _ 0 48 0 1 one_pos (hmap 0) (by norm_num), ?_, ?_⟩
  · exact ((memLp_unifOn (lo := 0) (hi := 1) one_pos (fun t => t ^ 8) (by fun_prop)).comp_measurePreserving hmp).integrable
      (by norm_num)
  · have e := variance_map (μ := Measure.pi fun _ : Fin 2 => unifOn 0 1) (Y := fun x : Fin 2 → ℝ => x 0)
      (X := fun t => 0 + 1 * t) (Measurable.aemeasurable (by fun_prop)) (measurable_pi_apply 0).aemeasurable
    rw [hmp.map_eq, variance_unifOn one_pos] at e
    have e2 : (fun x : Fin 2 → ℝ => x 0) = (fun t => 0 + 1 * t) ∘ fun x : Fin 2 → ℝ => x 0 := by
      funext x; simp
    rw [e2, ← e]
    norm_num

theorem first_ofFn (x : Fin 2 → ℝ) : (List.ofFn x).getD 0 0 = x 0 := by simp [List.getD]

/-- PAWN with 4 parts and the analysis by regions with 4 bins, for the output `x`. -/
example (F : Ppf ℝ) (junk : ℝ) (ε : ℝ) (hε : 0 < ε) :
    let law : Measure (Fin 2 → ℝ) := Measure.pi fun _ => unifOn 0 1
    let f : List ℝ → ℝ := fun l => l.getD 0 0
    UsuallyOnRows law (PawnGood law f 4 (fun _ => evenCuts 0 1 4) pairProblem ε) ∧
    UsuallyOnLatin 2 F junk pairProblem (PawnGood law f 4 (fun _ => evenCuts 0 1 4) pairProblem ε) ∧
    UsuallyOnRows law (RsaGood f 4 .X (rsaLimitX law f 4 fun _ => evenCuts 0 1 4) pairProblem ε) ∧
    UsuallyOnRows law (RsaGood f 4 .Y (rsaLimitY law f 4 (evenCuts 0 1 4)) pairProblem ε) ∧
    UsuallyOnLatin 2 F junk pairProblem (RsaGood f 4 .X (rsaLimitX law f 4 fun _ => evenCuts 0 1 4) pairProblem ε) ∧
    UsuallyOnLatin 2 F junk pairProblem (RsaGood f 4 .Y (rsaLimitY law f 4 (evenCuts 0 1 4)) pairProblem ε) := by
  intro law f
  have hu := isProb_unifOn (lo := 0) (hi := 1) (by norm_num)
  have hf : Measurable fun x : Fin 2 → ℝ => f (List.ofFn x) := by
    simp only [f, first_ofFn]
    exact measurable_pi_apply 0
  have hE := pair_law.1
  have hGa : ∀ a, law.real {x | f (List.ofFn x) = a} = 0 := by
    simp only [f, first_ofFn]
    exact (hE 0).noAtom
  have hsh : ∀ s, 0 < s → s < 4 → law.real {x | f (List.ofFn x) ≤ evenCuts 0 1 4 s} = (s : ℝ) / (4 : ℕ) := by
    simp only [f, first_ofFn]
    exact (hE 0).share
  have hnd : pairProblem.names.Nodup := by decide
  exact ⟨C139_pawn_rows law 4 (by norm_num) _ hE f hf _ rfl rfl ε hε,
    C139_pawn_latin F junk _ _ _ pairProblem_plain 4 (by norm_num) f hf ε hε,
    C139_rsa_rows_X law 4 (by norm_num) _ hE f hf hGa _ rfl rfl hnd ε hε,
    C139_rsa_rows_Y law 4 (by norm_num) _ (fun j => (hE j).noAtom) f hf hGa hsh _ rfl rfl hnd ε hε,
    C139_rsa_latin_X F junk _ _ _ pairProblem_plain 4 (by norm_num) f hf hGa rfl hnd ε hε,
    C139_rsa_latin_Y F junk _ _ _ pairProblem_plain 4 (by norm_num) _ f hf hGa hsh rfl hnd ε hε⟩

/-- The first-order index of the delta analysis for the output `x`. -/
example (F : Ppf ℝ) (junk : ℝ) (s : DeltaSetup ℝ) (hcls : s.classes = deltaM) (ε : ℝ) (hε : 0 < ε) :
    let law : Measure (Fin 2 → ℝ) := Measure.pi fun _ => unifOn 0 1
    let f : List ℝ → ℝ := fun l => l.getD 0 0
    (∃ n0, UsuallyOnRows law fun X => ∀ yres, DeltaGood law f 0 (evenCuts 0 1 48) s pairProblem (95 / 100) yres n0 ε X) ∧
    ∃ n0, UsuallyOnLatin 2 F junk pairProblem fun X => ∀ yres,
      DeltaGood law f 0 (evenCuts 0 1 48) s pairProblem (95 / 100) yres n0 ε X := by
  intro law f
  have hu := isProb_unifOn (lo := 0) (hi := 1) (by norm_num)
  obtain ⟨-, h1, h2, h3⟩ := pair_law
  have hf : Measurable fun x : Fin 2 → ℝ => f (List.ofFn x) := by
    simp only [f, first_ofFn]
    exact measurable_pi_apply 0
  have h8 : Integrable (fun x : Fin 2 → ℝ => f (List.ofFn x) ^ 8) law := by
    simp only [f, first_ofFn]
    exact h2
  have hv : 0 < Var[fun x => f (List.ofFn x); law] := by
    simp only [f, first_ofFn]
    exact h3
  have hsuf : ∀ n ∈ pairProblem.names, ∀ t ∈ ["_raw", "_balanced", "_step", "_conf"], ¬t.toList <:+ n.toList := by
    show ∀ n ∈ ["a", "b"], _
    decide
  exact ⟨C139_delta_rows law 0 _ h1 f hf h8 hv s hcls _ rfl le_rfl hsuf _ (by norm_num) ε hε,
    C139_delta_latin F junk _ _ _ pairProblem_plain 0 f hf h8 hv s hcls le_rfl hsuf _ (by norm_num) ε hε⟩

/-- The three discrepancies for the output `x²`. -/
example (F : Ppf ℝ) (junk : ℝ) (method : String) (disc : List (ℝ × ℝ) → ℝ) (hm : discMethod Real.sqrt method = .ok disc)
    (ε : ℝ) (hε : 0 < ε) :
    let law : Measure (Fin 2 → ℝ) := Measure.pi fun _ => unifOn 0 1
    let f : List ℝ → ℝ := fun l => l.getD 0 0 ^ 2
    UsuallyOnRows law (DiscGood method disc law f 0 1 (fun _ => 0) (fun _ => 1) pairProblem ε) ∧
    UsuallyOnLatin 2 F junk pairProblem (DiscGood method disc law f 0 1 (fun _ => 0) (fun _ => 1) pairProblem ε) := by
  intro law f
  have hu := isProb_unifOn (lo := 0) (hi := 1) (by norm_num)
  have hfe : ∀ x : Fin 2 → ℝ, f (List.ofFn x) = x 0 ^ 2 := fun x => by simp only [f, first_ofFn]
  obtain ⟨h1, h2, -, -, -, h3⟩ := square_plots method
  have hf : Measurable fun x : Fin 2 → ℝ => f (List.ofFn x) := by
    simp only [hfe]
    exact (measurable_pi_apply 0).pow_const 2
  have hr : OutputRange law (fun x => f (List.ofFn x)) 0 1 := by
    simp only [hfe]
    exact h1
  have ht : ∑ k, discrepancyOf method (plotLaw law (fun x => f (List.ofFn x)) k 0 1 0 1) ≠ 0 := by
    simp only [hfe]
    exact h3
  exact ⟨C139_discrepancy_rows method disc hm law f hf 0 1 hr _ _ (fun _ => one_pos) h2 _ pairProblem_plain.bounds rfl rfl ht
      ε hε,
    C139_discrepancy_latin method disc hm F junk _ _ _ pairProblem_plain f hf 0 1 hr ht ε hε⟩

/-- The distributions of the statements exist. -/
example : (∃ (Ω : Type) (_ : MeasurableSpace Ω) (P : Measure Ω) (_ : IsProbabilityMeasure P) (ord : Ω → StrataOrders 100 2)
    (off : Ω → Fin 2 → Fin 100 → ℝ), FairLatin P ord off) := by
  obtain ⟨P, hP, hL⟩ := fairLatin_exists 100 2
  exact ⟨_, _, P, hP, _, _, hL⟩

end SALib
