import Verif.Lemmas.Coverage
import Verif.Props.MorrisAccuracy
import Verif.Model.PpfReal
import Mathlib.Probability.Independence.InfinitePi

/-!
# C141: how often the Morris confidence intervals contain what `mu_star` estimates
-/

namespace SALib

open MeasureTheory ProbabilityTheory Spec

variable {D g q : Nat}

/-- The index arrays drawn for the inputs, one array of `R` rows of `N` indices per input. -/
def Spec.resampleOf {D N R : Nat} (w : Fin D → Fin R → Fin N → Fin N) : Nat → List (List Nat) := fun j =>
  if h : j < D then drawLists (w ⟨j, h⟩) else []

/-- The analysis reports an interval `m ± w` for group `c` which contains `v`. -/
def Spec.IntervalContains (res : MorrisResult ℝ) (c : Nat) (v : ℝ) : Prop :=
  ∃ m w, res.muStar[c]? = some (some m) ∧ res.muStarConf[c]? = some (some w) ∧ |m - v| ≤ w

theorem mapM_confAt (sqrt : ℝ → ℝ) (z : ℝ) (resample : Nat → List (List Nat)) (E : Fin D → List (Num ℝ)) :
    (List.range D).mapM (confAt sqrt z resample ((List.finRange D).map E)) =
      .ok ((List.finRange D).map fun j : Fin D => confOf sqrt z (resample j) (E j)) := by
  have h : ∀ j ∈ List.finRange D, confAt sqrt z resample ((List.finRange D).map E) (j : Nat) =
      .ok (confOf sqrt z (resample j) (E j)) := by
    intro j _
    unfold confAt
    simp
  have hr : List.range D = (List.finRange D).map fun j : Fin D => (j : Nat) := by
    apply List.ext_getElem
    · simp
    · intro i h1 h2
      simp
  have key : ∀ l : List (Fin D), (∀ j ∈ l, confAt sqrt z resample ((List.finRange D).map E) (j : Nat) =
      .ok (confOf sqrt z (resample j) (E j))) → (l.map fun j : Fin D => (j : Nat)).mapM (confAt sqrt z resample ((List.finRange D).map E)) =
      .ok (l.map fun j : Fin D => confOf sqrt z (resample j) (E j)) := by
    intro l
    induction l with
    | nil => intro _; rfl
    | cons a l ih =>
      intro hl
      rw [List.map_cons, List.mapM_cons, hl a (by simp), pyBind_ok, ih fun j hj => hl j (by simp [hj]), pyBind_ok]
      rfl
  rw [hr]
  exact key _ h

theorem statisticalOutputs_conf (sqrt : ℝ → ℝ) (z conf : ℝ) (resample : Nat → List (List Nat)) (E : Fin D → List (Num ℝ))
    (G : Mat Nat) (names : List String) (res : MorrisResult ℝ)
    (h : statisticalOutputs sqrt z conf resample ((List.finRange D).map E) D G names = .ok res) :
    res.muStarConf = (List.range names.length).map fun c =>
      npMeanN (groupRows ((List.finRange D).map fun j : Fin D => confOf sqrt z (resample j) (E j)) G c) := by
  unfold statisticalOutputs at h
  cases hmc : muStarConf sqrt z conf resample ((List.finRange D).map E) D with
  | error e => simp only [hmc, pyBind_error] at h; cases h
  | ok mc =>
    have hmc' : mc = (List.finRange D).map fun j : Fin D => confOf sqrt z (resample j) (E j) := by
      unfold muStarConf at hmc
      by_cases hc : 0 < conf ∧ conf < 1
      · rw [if_neg (not_not.mpr hc), mapM_confAt] at hmc
        cases hmc
        rfl
      · rw [if_pos hc] at hmc
        cases hmc
    simp only [hmc, pyBind_ok] at h
    cases h1 : groupedMetric (((List.finRange D).map E).map npMeanN) G names.length with
    | error e => simp only [h1, pyBind_error] at h; cases h
    | ok mu =>
      simp only [h1, pyBind_ok] at h
      cases h2 : groupedMetric (((List.finRange D).map E).map fun ee => npMeanN (ee.map (Option.map abs))) G names.length with
      | error e => simp only [h2, pyBind_error] at h; cases h
      | ok ms =>
        simp only [h2, pyBind_ok] at h
        cases h3 : groupedSigma (((List.finRange D).map E).map (npStd1N sqrt)) G names.length with
        | error e => simp only [h3, pyBind_error] at h; cases h
        | ok sg =>
          simp only [h3, pyBind_ok] at h
          cases h4 : groupedMetric mc G names.length with
          | error e => simp only [h4, pyBind_error] at h; cases h
          | ok cf =>
            simp only [h4, pyBind_ok, pyPure] at h
            cases h
            obtain ⟨-, b⟩ := groupedMetric_ok _ _ _ _ h4
            show cf = _
            rw [b, hmc']

/-- The bootstrap half width of one input. -/
theorem confOf_draws {N R : Nat} (hN : 0 < N) (hR : 2 ≤ R) (z : ℝ) (ee : Fin N → ℝ) (draws : Fin R → Fin N → Fin N) :
    confOf Real.sqrt z (drawLists draws) (List.ofFn fun i => some (ee i)) =
      some (z * √(drawVar fun r => (∑ i, |ee (draws r i)|) / N)) := by
  have hms : ∀ d : Fin N → Fin N, npMeanN ((List.ofFn fun i => (d i : Nat)).map fun i =>
      ((List.ofFn fun i => some (ee i)).getD i none).map abs) = some ((∑ i, |ee (d i)|) / N) := by
    intro d
    rw [List.map_ofFn, ← npMeanN_ofFn hN]
    congr 1
    congr 1
    funext i
    simp [List.getD_eq_getElem?_getD]
  unfold confOf drawLists
  rw [List.map_ofFn]
  have : ((fun r => npMeanN (r.map fun i => ((List.ofFn fun i => some (ee i)).getD i none).map abs)) ∘
      fun r => List.ofFn fun i => (draws r i : Nat)) = fun r => some ((∑ i, |ee (draws r i)|) / N) := by
    funext r
    exact hms (draws r)
  rw [this, npStd1N_ofFn hR]
  rfl

/-- All inputs of a group have the same absolute effect in a trajectory. -/
theorem absEffect_group (f : List ℝ → ℝ) (lo hi : Fin D → ℝ) (groupOf : Nat → Nat) (hgo : ∀ j < D, groupOf j < g)
    (i j : Fin D) (hij : groupOf i = groupOf j) (d : MorrisDraw D g q) :
    |gridEffect f lo hi groupOf i (lowPoint groupOf i d)| = |gridEffect f lo hi groupOf j (lowPoint groupOf j d)| := by
  have key : ∀ i : Fin D, |gridEffect f lo hi groupOf i (lowPoint groupOf i d)| =
      |gridEffect f lo hi groupOf i (levelAt groupOf d (turnOf d (groupOf i)))| := by
    intro i
    unfold lowPoint
    cases d.up i
    · rw [if_neg (by simp), levelAt_step groupOf hgo d _ (hgo i i.is_lt)]
      unfold gridEffect
      rw [groupStep_groupStep, abs_div, abs_div (_ - _), abs_sub_comm]
    · rw [if_pos rfl, Nat.add_zero]
  rw [key i, key j]
  unfold gridEffect
  rw [hij]

/-- The absolute effect of the group of input `j` in one trajectory. -/
noncomputable def drawEffect (f : List ℝ → ℝ) (lo hi : Fin D → ℝ) (groupOf : Nat → Nat) (j : Fin D) (d : MorrisDraw D g q) : ℝ :=
  |gridEffect f lo hi groupOf j (lowPoint groupOf j d)|

theorem memberMean_const (groupOf : Nat → Nat) (c : Nat) (m : Fin D → ℝ) (j : Fin D) (hj : groupOf j = c)
    (h : ∀ i : Fin D, groupOf i = c → m i = m j) : memberMean groupOf c m = m j := by
  unfold memberMean
  rw [Finset.sum_congr rfl fun i hi => h i (Finset.mem_filter.mp hi).2, Finset.sum_const, nsmul_eq_mul]
  have : ((Finset.univ.filter fun i : Fin D => groupOf i = c).card : ℝ) ≠ 0 := by
    have := Finset.card_pos.mpr (⟨j, by simp [hj]⟩ : (Finset.univ.filter fun i : Fin D => groupOf i = c).Nonempty)
    exact_mod_cast this.ne'
  field_simp

/-- What the analysis reports for the group of input `j`. -/
theorem morris_interval (F : Ppf ℝ) (argsort : List ℝ → List Nat) (f : List ℝ → ℝ) (hq : 0 < q) (groupOf : Nat → Nat)
    (pb pbA : Problem ℝ) (lo hi : Fin D → ℝ) (hS : MorrisSetting D g pb pbA groupOf lo hi)
    (z conf : ℝ) (hc : 0 < conf ∧ conf < 1) (N R : Nat) (hN : 0 < N) (hR : 2 ≤ R) (d : Nat → MorrisDraw D g q)
    (w : Fin D → Fin R → Fin N → Fin N) (localOpt : Bool) :
    ∃ X pb' res, morrisSample F Real.sqrt argsort (fun i => (d i).toTraj) pb N (2 * q) .none localOpt = .ok (X.map (·.map some), pb') ∧
      morrisAnalyze Real.sqrt z conf (resampleOf w) pbA X D (X.map f) false (2 * q) = .ok res ∧
      ∀ j : Fin D, res.muStar[groupOf j]? = some (some (rowMean ((List.range N).map d) (drawEffect f lo hi groupOf j))) ∧
        res.muStarConf[groupOf j]? = some (some (memberMean groupOf (groupOf j) fun i =>
          z * √(drawVar fun r => (∑ k, drawEffect f lo hi groupOf j (d (w i r k))) / N))) := by
  have hgo := groupNumbering_lt _ _ (effectiveLabels pb) groupOf (by rw [hS.labels, hS.numVars]) hS.groups
  obtain ⟨X, pb', res, G, names, hs, hrun, hstat, hnames, hGl, hentry, hmem⟩ := morris_run F Real.sqrt argsort f hq groupOf pb pbA lo hi
    hS.inputs hS.numVars hS.labels hS.groups hS.bounds hS.uniform hS.legal hS.sameLabels hS.sameVars z conf hc (resampleOf w) N hN d
    localOpt
  obtain ⟨X2, pb2, res2, h1, h2, h3⟩ := morris_formula F Real.sqrt argsort f hq groupOf pb pbA lo hi hS.inputs hS.numVars
    hS.labels hS.groups hS.bounds hS.uniform hS.legal hS.sameLabels hS.sameVars z conf hc (resampleOf w) N hN d localOpt
  refine ⟨X, pb', res, hs, hrun, fun j => ?_⟩
  have hX : X2 = X := by
    rw [hs] at h1
    injection h1 with h1
    have := congrArg Prod.fst h1
    exact (List.map_injective_iff.mpr (List.map_injective_iff.mpr (Option.some_injective _)) this).symm
  rw [hX, hrun] at h2
  cases h2
  have hjg := hgo j j.is_lt
  refine ⟨?_, ?_⟩
  · rw [(h3 (groupOf j) hjg).2.1]
    congr 2
    refine memberMean_const groupOf _ _ j rfl fun i hij => ?_
    congr 1
    funext e
    exact absEffect_group f lo hi groupOf hgo i j hij e
  · rw [statisticalOutputs_conf _ _ _ _ _ _ _ _ hstat, List.getElem?_map, List.getElem?_range (by rw [hnames]; exact hjg),
      Option.map_some, groupRows_finRange _ groupOf G hGl _ (hentry _ hjg), ← npMeanN_members groupOf _ _ ⟨j, rfl⟩, List.map_map]
    congr 2
    apply List.map_congr_left
    intro i him
    have hi' : groupOf i = groupOf j := by simpa using (List.mem_filter.mp him).2
    have e1 : resampleOf w i = drawLists (w i) := by
      unfold resampleOf
      rw [dif_pos i.is_lt]
    have e2 : (((List.range N).map d).map fun e => some (gridEffect f lo hi groupOf i (lowPoint groupOf i e))) =
        List.ofFn fun k : Fin N => some (gridEffect f lo hi groupOf i (lowPoint groupOf i (d k))) := by
      apply List.ext_getElem <;> simp
    rw [e1, e2, confOf_draws hN hR]
    simp only [Function.comp_apply, drawEffect, absEffect_group f lo hi groupOf hgo i j hi']

theorem mean_drawEffect (f : List ℝ → ℝ) (lo hi : Fin D → ℝ) (groupOf : Nat → Nat) (j : Fin D) (hgo : ∀ j < D, groupOf j < g) :
    (∑ d : MorrisDraw D g q, drawEffect f lo hi groupOf j d) / Fintype.card (MorrisDraw D g q) =
      memberMean groupOf (groupOf j) fun i => gridMean i fun x => |gridEffect (q := q) f lo hi groupOf i x| := by
  have h : ∀ i : Fin D, (∑ d : MorrisDraw D g q, drawEffect f lo hi groupOf i d) / Fintype.card (MorrisDraw D g q) =
      gridMean i fun x => |gridEffect (q := q) f lo hi groupOf i x| := fun i =>
    mean_lowPoint groupOf i fun x => |gridEffect (q := q) f lo hi groupOf i x|
  rw [memberMean_const groupOf _ _ j rfl fun i hij => ?_, ← h]
  rw [← h, ← h]
  congr 1
  exact Finset.sum_congr rfl fun d _ => absEffect_group f lo hi groupOf hgo i j hij d

theorem var_drawEffect (f : List ℝ → ℝ) (lo hi : Fin D → ℝ) (groupOf : Nat → Nat) (j : Fin D) [Nonempty (MorrisDraw D g q)]
    (x y : Fin D → Fin (2 * q)) (hx : x ∈ starts j) (hy : y ∈ starts j)
    (hxy : |gridEffect f lo hi groupOf j x| ≠ |gridEffect f lo hi groupOf j y|) :
    0 < varOn (drawEffect (g := g) (q := q) f lo hi groupOf j) := by
  let h := fun x => |gridEffect (q := q) f lo hi groupOf j x|
  set m := gridMean j h with hm
  have e : varOn (drawEffect (g := g) (q := q) f lo hi groupOf j) = gridMean j fun x => (h x - m) ^ 2 := by
    rw [← mean_lowPoint (g := g) groupOf j]
    unfold varOn
    rw [show (∑ s, drawEffect (g := g) (q := q) f lo hi groupOf j s) / Fintype.card (MorrisDraw D g q) = m from
      mean_lowPoint groupOf j h]
    rfl
  rw [e]
  unfold gridMean
  have hc : (0 : ℝ) < (starts (q := q) j).card := by exact_mod_cast Finset.card_pos.mpr ⟨x, hx⟩
  refine div_pos ?_ hc
  refine Finset.sum_pos' (fun _ _ => sq_nonneg _) ?_
  by_contra hno
  push Not at hno
  have h0 : ∀ z ∈ starts j, h z = m := fun z hz => by
    have := le_antisymm (hno z hz) (sq_nonneg _)
    exact sub_eq_zero.mp (pow_eq_zero_iff (by norm_num) |>.mp this)
  exact hxy ((h0 x hx).trans (h0 y hy).symm)

/-- **C141**.  Sample `N` Morris trajectories with fair independent draws, run a model, analyse with `R` fair resamples per input at
confidence level `conf`: if the absolute effect of a group is not the same everywhere on the level grid, the probability that
`mu_star ± mu_star_conf` of the group contains the mean absolute effect over the grid is as near to `conf` as desired once `N` and
`R` are large, whatever the resamples of different inputs have to do with each other. -/
theorem C141_coverage {Ω : Type} [MeasurableSpace Ω] (P : Measure Ω) (Z : ℕ → Ω → MorrisDraw D g q)
    (hZ : FairDraws P Z) (F : Ppf ℝ) (argsort : List ℝ → List Nat) (f : List ℝ → ℝ) (hq : 0 < q) (groupOf : Nat → Nat)
    (pb pbA : Problem ℝ) (lo hi : Fin D → ℝ) (hS : MorrisSetting D g pb pbA groupOf lo hi)
    (z conf : ℝ) (hc : 0 < conf ∧ conf < 1) (hz : stdNormalCDF z = 1 / 2 + conf / 2) (localOpt : Bool)
    (j : Fin D) (x y : Fin D → Fin (2 * q)) (hx : x ∈ starts j) (hy : y ∈ starts j)
    (hxy : |gridEffect f lo hi groupOf j x| ≠ |gridEffect f lo hi groupOf j y|) (ε : ℝ) (hε : 0 < ε) :
    ∃ N0 R0, ∀ N ≥ N0, ∀ R ≥ R0, ∀ w : Ω → Fin D → Fin R → Fin N → Fin N, (∀ i, FairResample P Z N R fun ω => w ω i) →
      |P.real {ω | ∃ X pb' res,
        morrisSample F Real.sqrt argsort (fun i => (Z i ω).toTraj) pb N (2 * q) .none localOpt = .ok (X.map (·.map some), pb') ∧
        morrisAnalyze Real.sqrt z conf (resampleOf (w ω)) pbA X D (X.map f) false (2 * q) = .ok res ∧
        IntervalContains res (groupOf j)
          (memberMean groupOf (groupOf j) fun i => gridMean i fun x => |gridEffect (q := q) f lo hi groupOf i x|)} - conf| < ε := by
  have hne : Nonempty (MorrisDraw D g q) := ⟨⟨1, fun _ => true, fun _ => ⟨0, hq⟩⟩⟩
  have hgo := groupNumbering_lt _ _ (effectiveLabels pb) groupOf (by rw [hS.labels, hS.numVars]) hS.groups
  obtain ⟨hz0, hlevel⟩ := normalWithin_level z conf hc.1 hz
  obtain ⟨N0, R0, h⟩ := boot_coverage hZ (drawEffect f lo hi groupOf j) (var_drawEffect f lo hi groupOf j x y hx hy hxy)
    (Finset.univ.filter fun i : Fin D => groupOf i = groupOf j) ⟨j, by simp⟩ z hz0 ε hε
  refine ⟨max N0 1, max R0 2, fun N hN R hR w hw => ?_⟩
  have key := h N (le_of_max_le_left hN) R (le_of_max_le_left hR) w fun i _ => hw i
  rw [hlevel, mean_drawEffect f lo hi groupOf j hgo] at key
  convert key using 5
  ext ω
  obtain ⟨X, pb', res, h1, h2, h3⟩ := morris_interval F argsort f hq groupOf pb pbA lo hi hS z conf hc N R (le_of_max_le_right hN)
    (le_of_max_le_right hR) (fun i => Z i ω) (w ω) localOpt
  obtain ⟨a1, a2⟩ := h3 j
  constructor
  · rintro ⟨X', pb2, res', b1, b2, m, v, b3, b4, b5⟩
    have hX : X' = X := by
      rw [h1] at b1
      injection b1 with b1
      have := congrArg Prod.fst b1
      exact (List.map_injective_iff.mpr (List.map_injective_iff.mpr (Option.some_injective _)) this).symm
    rw [hX, h2] at b2
    cases b2
    rw [a1] at b3
    rw [a2] at b4
    cases b3
    cases b4
    exact b5
  · intro hω
    exact ⟨X, pb', res, h1, h2, _, _, a1, a2, hω⟩

/-- **C141**, constant effects.  If the absolute effect of a group is the same everywhere on the level grid, then every analysis reports it
as `mu_star`, with a confidence interval of width zero. -/
theorem C141_constant (F : Ppf ℝ) (argsort : List ℝ → List Nat) (f : List ℝ → ℝ) (hq : 0 < q) (groupOf : Nat → Nat)
    (pb pbA : Problem ℝ) (lo hi : Fin D → ℝ) (hS : MorrisSetting D g pb pbA groupOf lo hi)
    (z conf : ℝ) (hc : 0 < conf ∧ conf < 1) (localOpt : Bool) (j : Fin D) (v : ℝ)
    (hv : ∀ x ∈ starts (q := q) j, |gridEffect f lo hi groupOf j x| = v)
    (N R : Nat) (hN : 0 < N) (hR : 2 ≤ R) (d : Nat → MorrisDraw D g q) (w : Fin D → Fin R → Fin N → Fin N) :
    ∃ X pb' res, morrisSample F Real.sqrt argsort (fun i => (d i).toTraj) pb N (2 * q) .none localOpt = .ok (X.map (·.map some), pb') ∧
      morrisAnalyze Real.sqrt z conf (resampleOf w) pbA X D (X.map f) false (2 * q) = .ok res ∧
      res.muStar[groupOf j]? = some (some v) ∧ res.muStarConf[groupOf j]? = some (some 0) := by
  have hNr : (N : ℝ) ≠ 0 := by exact_mod_cast hN.ne'
  have hRr : (R : ℝ) ≠ 0 := by exact_mod_cast (by omega : R ≠ 0)
  obtain ⟨X, pb', res, h1, h2, h3⟩ := morris_interval F argsort f hq groupOf pb pbA lo hi hS z conf hc N R hN hR d w localOpt
  obtain ⟨a1, a2⟩ := h3 j
  have hd : ∀ e : MorrisDraw D g q, drawEffect f lo hi groupOf j e = v := fun e => hv _ (lowPoint_mem groupOf j e)
  refine ⟨X, pb', res, h1, h2, ?_, ?_⟩
  · have : rowMean ((List.range N).map d) (drawEffect f lo hi groupOf j) = v := by
      rw [show drawEffect f lo hi groupOf j = fun _ : MorrisDraw D g q => v from funext hd]
      unfold rowMean
      simp [Function.comp_def, hNr]
    rw [a1, this]
  · rw [a2]
    congr 2
    simp only [hd]
    rw [memberMean_const groupOf _ _ j rfl fun i _ => rfl]
    have : (drawVar fun _ : Fin R => (∑ _k : Fin N, v) / N) = 0 := by
      unfold drawVar
      simp [hNr, hRr]
    rw [this, Real.sqrt_zero, mul_zero]

/-- There are fair draws with fair resamples of every size. -/
theorem resamples_exist (D g q : Nat) (hq : 0 < q) :
    ∃ (Ω : Type) (_ : MeasurableSpace Ω) (P : Measure Ω) (Z : ℕ → Ω → MorrisDraw D g q)
      (w : ∀ N R : Nat, Ω → Fin D → Fin R → Fin N → Fin N), FairDraws P Z ∧ ∀ N R i, FairResample P Z N R fun ω => w N R ω i := by
  obtain ⟨P, hP, hZ⟩ := fairDraws_exist D g q hq
  let B : ℕ × ℕ × Fin D → Type := fun p => Fin p.2.1 → Fin p.1 → Fin p.1
  have hp : ∀ p, IsProbabilityMeasure (uniformOn (Set.univ : Set (B p))) := fun p => by
    have : Nonempty (B p) := ⟨fun _ i => i⟩
    exact uniformOn_isProbabilityMeasure Set.finite_univ Set.univ_nonempty
  let Q : Measure (∀ p, B p) := Measure.infinitePi fun p => uniformOn Set.univ
  have hQ : IsProbabilityMeasure Q := inferInstance
  have hfst : Measure.map Prod.fst (P.prod Q) = P := by rw [Measure.map_fst_prod]; simp
  have hmap : ∀ {β : Type} [MeasurableSpace β] (h : (ℕ → MorrisDraw D g q) → β), Measurable h →
      Measure.map (fun ω : (ℕ → MorrisDraw D g q) × (∀ p, B p) => h ω.1) (P.prod Q) = Measure.map h P := by
    intro β _ h hh
    conv_rhs => rw [← hfst]
    rw [Measure.map_map hh measurable_fst]
    rfl
  have hmi : ∀ i : ℕ, Measurable fun ω : (ℕ → MorrisDraw D g q) × (∀ p, B p) => ω.1 i := fun i =>
    (measurable_pi_apply i).comp measurable_fst
  refine ⟨(ℕ → MorrisDraw D g q) × (∀ p, B p), inferInstance, P.prod Q, fun i ω => ω.1 i, fun N R ω i => ω.2 (N, R, i), ⟨?_, ?_, ?_⟩, ?_⟩
  · exact hmi
  · refine (iIndepFun_iff_map_fun_eq_infinitePi_map hmi).mpr ?_
    have h1 := (iIndepFun_iff_map_fun_eq_infinitePi_map hZ.meas).mp hZ.indep
    rw [hmap (fun ω i => ω i) (measurable_pi_lambda _ fun i => measurable_pi_apply i), h1]
    congr 1
    funext i
    rw [hmap (fun ω => ω i) (measurable_pi_apply i)]
  · intro i d
    rw [← hZ.fair i d, ← Measure.map_apply (hZ.meas i) (MeasurableSet.singleton d), ← hmap (fun ω => ω i) (measurable_pi_apply i),
      Measure.map_apply (hmi i) (MeasurableSet.singleton d)]
  · intro N R i
    constructor
    intro x t
    have e1 : {ω : (ℕ → MorrisDraw D g q) × (∀ p, B p) | (∀ k : Fin N, ω.1 k = x k) ∧ ω.2 (N, R, i) = t} =
        {ω | ∀ k : Fin N, ω k = x k} ×ˢ {v : ∀ p, B p | v (N, R, i) = t} := by
      ext ω; simp
    have e2 : {ω : (ℕ → MorrisDraw D g q) × (∀ p, B p) | ∀ k : Fin N, ω.1 k = x k} =
        {ω | ∀ k : Fin N, ω k = x k} ×ˢ Set.univ := by
      ext ω; simp
    have e3 : Q.real {v : ∀ p, B p | v (N, R, i) = t} = 1 / Fintype.card (Fin R → Fin N → Fin N) := by
      have h1 : Q.real {v : ∀ p, B p | v (N, R, i) = t} = (Measure.map (fun v : ∀ p, B p => v (N, R, i)) Q).real {t} := by
        have hmv : Measurable fun v : ∀ p, B p => v (N, R, i) := measurable_pi_apply (N, R, i)
        rw [map_measureReal_apply hmv (MeasurableSet.singleton t)]
        rfl
      rw [h1, Measure.infinitePi_map_eval]
      unfold Measure.real
      rw [uniformOn_univ, Measure.count_singleton]
      simp [B]
    rw [e1, e2, measureReal_prod_prod, measureReal_prod_prod, e3]
    simp [div_eq_mul_inv]

/-- The hypotheses can be met: three inputs in two groups on four levels, the product of the first two inputs as model, level 95%. -/
example (F : Ppf ℝ) (argsort : List ℝ → List Nat) (z : ℝ) (hz : stdNormalCDF z = 1 / 2 + 19 / 20 / 2) :
    ∃ (Ω : Type) (_ : MeasurableSpace Ω) (P : Measure Ω) (Z : ℕ → Ω → MorrisDraw 3 2 2)
      (w : ∀ N R : Nat, Ω → Fin 3 → Fin R → Fin N → Fin N), ∀ ε > 0, ∃ N0 R0, ∀ N ≥ N0, ∀ R ≥ R0,
      |P.real {ω | ∃ X pb' res,
        morrisSample F Real.sqrt argsort (fun i => (Z i ω).toTraj) accProblem N 4 .none true = .ok (X.map (·.map some), pb') ∧
        morrisAnalyze Real.sqrt z (19 / 20) (resampleOf (w N R ω)) accProblem X 3 (X.map fun r => r.getD 0 0 * r.getD 1 0) false 4 =
          .ok res ∧
        IntervalContains res 1 (memberMean (fun j => j % 2) 1 fun i => gridMean i fun x =>
          |gridEffect (q := 2) (fun r => r.getD 0 0 * r.getD 1 0) ![0, 1, -1] ![2, 4, 1] (fun j => j % 2) i x|)} - 19 / 20| < ε := by
  obtain ⟨Ω, m, P, Z, w, hZ, hw⟩ := resamples_exist 3 2 2 (by norm_num)
  refine ⟨Ω, m, P, Z, w, fun ε hε => ?_⟩
  obtain ⟨N0, R0, h⟩ := C141_coverage P Z hZ F argsort (fun r => r.getD 0 0 * r.getD 1 0) (by norm_num) _ accProblem accProblem _ _
    accSetting z (19 / 20) (by norm_num) hz true 1 ![0, 0, 0] ![1, 0, 0] (by simp [starts]) (by simp [starts])
    (by
      simp [gridEffect, gridRow, groupStep, opposite]
      norm_num) ε hε
  exact ⟨N0, R0, fun N hN R hR => h N hN R hR _ (hw N R)⟩

end SALib
