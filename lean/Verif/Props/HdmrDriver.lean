import Verif.Spec.HdmrDriver
import Verif.Props.HdmrTerms
import Verif.Props.HdmrFit
import Verif.Props.HdmrEmulate
import Verif.Props.EnhancedTerms
import Verif.Props.Tables

/-! # C104, C105: what an HDMR analysis reports, and what it prints -/

namespace SALib

open Spec Finset

variable {α : Type} [Field α] [LinearOrder α] [IsStrictOrderedRing α]

/-! ### Averages over the fits -/

theorem sum_map_finRange (K : Nat) (x : Nat → α) : ((List.range K).map x).sum = ∑ k ∈ range K, x k := by
  induction K with
  | zero => simp
  | succ K ih => rw [List.range_succ, List.map_append, List.sum_append, ih, Finset.sum_range_succ]; simp

theorem npMeanN_range (K : Nat) (hK : 1 ≤ K) (x : Nat → α) :
    npMeanN ((List.range K).map fun k => some (x k)) = some (meanOver K x) := by
  have h : ((List.range K).map fun k => some (x k)) = ((List.range K).map x).map some := by simp
  rw [h, npMeanN_some _ (by simp; omega), sum_map_finRange]
  simp [meanOver]

theorem halfWidth_range (sqrt : α → α) (mult : α) (K : Nat) (hK : 1 ≤ K) (x : Nat → α) :
    halfWidth sqrt mult ((List.range K).map fun k => some (x k)) = some (mult * sqrt (varOver K x)) := by
  have h : ((List.range K).map fun k => some (x k)) = ((List.range K).map x).map some := by simp
  unfold halfWidth numStd npStd0
  rw [h, (optMapM_id _ _).mpr rfl, Option.bind_some, npVar_some _ (by simp; omega), List.map_map, sum_map_finRange]
  simp only [List.length_map, List.length_range, Option.map_some]
  congr 4

theorem numSum_map {β : Type} (l : List β) (x : β → α) : numSum (l.map fun b => some (x b)) = some (l.map x).sum := by
  have h : (l.map fun b => some (x b)) = (l.map x).map some := by simp
  unfold numSum
  rw [h, (optMapM_id _ _).mpr rfl, Option.map_some]

/-- The three indices of term `j` in fit `k` as stored. -/
def stored (S Sa Sb : Nat → Nat → α) (k j : Nat) : Num α × Num α × Num α := (some (S j k), some (Sa j k), some (Sb j k))

def storedAll (K n : Nat) (S Sa Sb : Nat → Nat → α) : List (List (Num α × Num α × Num α)) :=
  (List.range K).map fun k => (List.range n).map (stored S Sa Sb k)

theorem storedAll_getD (n : Nat) (S Sa Sb : Nat → Nat → α) (k j : Nat) (hj : j < n) :
    ((List.range n).map (stored S Sa Sb k)).getD j (none, none, none) = stored S Sa Sb k j := by
  simp [List.getD, hj]

theorem perFit_stored (f : Num α × Num α × Num α → Num α) (K n : Nat) (S Sa Sb : Nat → Nat → α) (j : Nat) (hj : j < n) :
    perFit f (storedAll K n S Sa Sb) j = (List.range K).map fun k => f (stored S Sa Sb k j) := by
  unfold perFit storedAll
  rw [List.map_map]
  exact List.map_congr_left fun k _ => congrArg f (storedAll_getD n S Sa Sb k j hj)

theorem columns_stored (sqrt : α → α) (mult : α) (K n : Nat) (hK : 1 ≤ K) (S Sa Sb x : Nat → Nat → α)
    (f : Num α × Num α × Num α → Num α) (hf : ∀ k j, f (stored S Sa Sb k j) = some (x j k)) :
    AverageColumn sqrt mult K n x (termMeans f (storedAll K n S Sa Sb) n)
      (termWidths sqrt mult f (storedAll K n S Sa Sb) n) := by
  refine ⟨by simp [termMeans], by simp [termWidths], fun j hj => ?_⟩
  unfold termMeans termWidths
  rw [List.getElem?_map, List.getElem?_map, List.getElem?_range hj, Option.map_some, Option.map_some,
    perFit_stored f K n S Sa Sb j hj]
  simp only [hf]
  exact ⟨by rw [npMeanN_range K hK], by rw [halfWidth_range sqrt mult K hK]⟩

theorem sum_meanOver (K n : Nat) (x : Nat → Nat → α) (s : Finset Nat) :
    meanOver K (fun k => ∑ j ∈ s, x j k) = ∑ j ∈ s, meanOver K (x j) := by
  unfold meanOver
  rw [Finset.sum_comm, Finset.sum_div]

theorem sumMean_stored (K n : Nat) (hK : 1 ≤ K) (S Sa Sb x : Nat → Nat → α)
    (f : Num α × Num α × Num α → Num α) (hf : ∀ k j, f (stored S Sa Sb k j) = some (x j k)) :
    sumMean f (storedAll K n S Sa Sb) = some (∑ j ∈ range n, meanOver K (x j)) := by
  unfold sumMean storedAll
  have h : (((List.range K).map fun k => (List.range n).map (stored S Sa Sb k)).map fun col => numSum (col.map f)) =
      (List.range K).map fun k => some (∑ j ∈ range n, x j k) := by
    rw [List.map_map]
    refine List.map_congr_left fun k _ => ?_
    simp only [Function.comp, List.map_map]
    rw [← sum_map_finRange, ← numSum_map]
    congr 1
    exact List.map_congr_left fun j _ => hf k j
  rw [h, npMeanN_range K hK, sum_meanOver K n]

theorem sumWidth_stored (sqrt : α → α) (hs : sqrt 0 = 0) (mult : α) (K n : Nat) (S Sa Sb x : Nat → Nat → α)
    (f : Num α × Num α × Num α → Num α) (hf : ∀ k j, f (stored S Sa Sb k j) = some (x j k)) :
    sumWidth sqrt mult f (storedAll K n S Sa Sb) = some 0 := by
  unfold sumWidth
  obtain ⟨v, hv⟩ : ∃ v, numSum ((storedAll K n S Sa Sb).flatten.map f) = some v := by
    have : (storedAll K n S Sa Sb).flatten.map f =
        ((List.range K).flatMap fun k => (List.range n).map fun j => x j k).map fun v => some v := by
      unfold storedAll
      rw [List.map_flatten, List.map_map, List.map_flatMap, List.flatMap]
      congr 1
      refine List.map_congr_left fun k _ => ?_
      simp only [Function.comp, List.map_map]
      exact List.map_congr_left fun j _ => hf k j
    rw [this]
    exact ⟨_, numSum_map _ fun v => v⟩
  rw [hv]
  have := halfWidth_range sqrt mult 1 le_rfl fun _ => v
  simp only [List.range_one, List.map_cons, List.map_nil] at this
  rw [this]
  simp [varOver, meanOver, hs]

theorem totalEntries_stored (g : List (Num α) → Num α) (gv : (Nat → α) → α) (rows : Nat → List Nat) (K n d : Nat)
    (terms : List (List Nat)) (S Sa Sb : Nat → Nat → α) (hn : terms.length = n)
    (hrows : ∀ i < d, (rows i).Nodup ∧ ∀ j, j ∈ rows i ↔ ∃ c, terms[j]? = some c ∧ i ∈ c)
    (hg : ∀ x : Nat → α, g ((List.range K).map fun k => some (x k)) = some (gv x)) (j : Nat) (hj : j < n) :
    (j < d → (totalEntries g rows (storedAll K n S Sa Sb) d n)[j]? =
      some (some (gv fun k => ∑ i ∈ termsWith terms n j, S i k))) ∧
    (d ≤ j → (totalEntries g rows (storedAll K n S Sa Sb) d n)[j]? = some none) := by
  unfold totalEntries
  rw [List.getElem?_map, List.getElem?_range hj, Option.map_some]
  constructor
  · intro hd
    rw [if_pos hd]
    obtain ⟨hnd, hmem⟩ := hrows j hd
    have hset : (rows j).toFinset = termsWith terms n j := by
      ext i
      rw [List.mem_toFinset, hmem, termsWith, Finset.mem_filter, Finset.mem_range, ← hn]
      constructor
      · rintro ⟨c, hc, hi⟩
        refine ⟨(List.getElem?_eq_some_iff.mp hc).1, ?_⟩
        rw [List.getD, hc]; exact hi
      · rintro ⟨hi, hc⟩
        refine ⟨_, List.getElem?_eq_getElem hi, ?_⟩
        rwa [List.getD, List.getElem?_eq_getElem hi] at hc
    have : totalPerFit (rows j) (storedAll K n S Sa Sb) =
        (List.range K).map fun k => some (∑ i ∈ termsWith terms n j, S i k) := by
      unfold totalPerFit storedAll
      rw [List.map_map]
      refine List.map_congr_left fun k _ => ?_
      simp only [Function.comp]
      rw [← hset, List.sum_toFinset _ hnd, ← numSum_map]
      congr 1
      refine List.map_congr_left fun i hi => ?_
      obtain ⟨c, hc, _⟩ := (hmem i).mp hi
      rw [storedAll_getD n S Sa Sb k i (hn ▸ (List.getElem?_eq_some_iff.mp hc).1)]
      rfl
    rw [this, hg]
  · intro hd
    rw [if_neg (by omega)]

/-- **The results follow from the indices of the fits.** -/
theorem hdmrFinalize_reports (sqrt : α → α) (hs : sqrt 0 = 0) (mult : α) (names : List String) (d o K : Nat)
    (passes : List (HdmrPass α)) (S Sa Sb : Nat → Nat → α) (ho : 1 ≤ o) (ho3 : o ≤ 3) (hn : d ≤ names.length) (hK : 1 ≤ K)
    (hp : passes.map (·.indices) = storedAll K (hdmrN d o) S Sa Sb) :
    ∃ terms r, hdmrFinalize sqrt mult names d o passes = .ok r ∧ terms.length = hdmrN d o ∧
      GoodTerms names d o terms r.term (hdmrTotalRows d o) ∧
      HdmrReports sqrt mult K (hdmrN d o) d terms S Sa Sb r ∧ r.sums = some (HdmrSumsOf K (hdmrN d o) S Sa Sb) ∧
      r.marks = (List.range (hdmrN d o)).flatMap fun j => passes.map fun p => some (selectMark (p.select.getD j false)) := by
  obtain ⟨terms, labels, h1, h2, h3⟩ := C56_hdmr names d o ho ho3 hn
  have hdn : d ≤ hdmrN d o := by unfold hdmrN; omega
  have hT1 := totalEntries_stored npMeanN (meanOver K) (hdmrTotalRows d o) K (hdmrN d o) d terms S Sa Sb h2
    (fun i hi => h3.total i hi) (npMeanN_range K hK)
  have hT2 := totalEntries_stored (halfWidth sqrt mult) (fun x => mult * sqrt (varOver K x)) (hdmrTotalRows d o) K
    (hdmrN d o) d terms S Sa Sb h2 (fun i hi => h3.total i hi) (halfWidth_range sqrt mult K hK)
  unfold hdmrFinalize
  simp only []
  rw [h1, hp]
  refine ⟨terms, _, rfl, h2, h3, ⟨?_, ?_, ?_, ?_, ?_, ?_⟩, ?_, rfl⟩
  · exact columns_stored sqrt mult K _ hK S Sa Sb S _ fun _ _ => rfl
  · exact columns_stored sqrt mult K _ hK S Sa Sb Sa _ fun _ _ => rfl
  · exact columns_stored sqrt mult K _ hK S Sa Sb Sb _ fun _ _ => rfl
  · simp [totalEntries]
  · intro i hi
    refine ⟨?_, (hT2 i (by omega)).1 hi⟩
    rw [← sum_meanOver K (hdmrN d o) S]
    exact (hT1 i (by omega)).1 hi
  · exact fun j hj hd => ⟨(hT1 j hj).2 hd, (hT2 j hj).2 hd⟩
  · simp only [HdmrSumsOf]
    rw [sumMean_stored K _ hK S Sa Sb Sa (fun t => t.2.1) fun _ _ => rfl,
      sumMean_stored K _ hK S Sa Sb Sb (fun t => t.2.2) fun _ _ => rfl,
      sumMean_stored K _ hK S Sa Sb S (fun t => t.1) fun _ _ => rfl,
      sumWidth_stored sqrt hs mult K _ S Sa Sb Sa (fun t => t.2.1) fun _ _ => rfl,
      sumWidth_stored sqrt hs mult K _ S Sa Sb Sb (fun t => t.2.2) fun _ _ => rfl,
      sumWidth_stored sqrt hs mult K _ S Sa Sb S (fun t => t.1) fun _ _ => rfl]

/-! ### One fit -/

theorem pickRows_length (idx : List Nat) (B : Mat α) : (pickRows idx B).length = idx.length := by simp [pickRows]

theorem hdmrFit_shape (reg : Mat α → Mat α) (o maxiter R : Nat) (B1 B2 B3 : List (Mat α)) (Yid : List α) (idx : List Nat)
    (h2 : o ≤ 1 → B2 = []) (h3 : o ≠ 3 → B3 = []) :
    (hdmrFit reg o maxiter (B1.map (pickRows idx)) (B2.map (pickRows idx)) (B3.map (pickRows idx)) Yid R).Yem.length =
      B1.length + B2.length + B3.length ∧
    ∀ c ∈ (hdmrFit reg o maxiter (B1.map (pickRows idx)) (B2.map (pickRows idx)) (B3.map (pickRows idx)) Yid R).Yem,
      c.length = idx.length := by
  have hcol : ∀ (B : List (Mat α)) (C : List (List α)), ∀ c ∈ (List.range (B.map (pickRows idx)).length).map
      (fun j => matVec ((B.map (pickRows idx)).getD j []) (C.getD j [])), c.length = idx.length := by
    intro B C c hc
    obtain ⟨j, hj, rfl⟩ := List.mem_map.mp hc
    rw [List.mem_range, List.length_map] at hj
    simp [matVec, List.getD, hj, pickRows_length]
  unfold hdmrFit
  simp only []
  by_cases ho : o > 1
  · rw [if_pos ho]
    by_cases ho3 : o = 3
    · rw [if_pos ho3]
      refine ⟨by simp [hdmrFirst, hdmrHigher, Nat.add_assoc], fun c hc => ?_⟩
      rcases List.mem_append.mp hc with hc | hc
      · rcases List.mem_append.mp hc with hc | hc
        · exact hcol _ _ c hc
        · exact hcol _ _ c hc
      · exact hcol _ _ c hc
    · rw [if_neg ho3, h3 ho3]
      refine ⟨by simp [hdmrFirst, hdmrHigher], fun c hc => ?_⟩
      rw [List.append_nil] at hc
      rcases List.mem_append.mp hc with hc | hc
      · exact hcol _ _ c hc
      · exact hcol _ _ c hc
  · rw [if_neg ho, if_neg (by omega), h2 (by omega), h3 (by omega)]
    refine ⟨by simp [hdmrFirst], fun c hc => ?_⟩
    rw [List.append_nil, List.append_nil] at hc
    exact hcol _ _ c hc

theorem hdmrBasis_orders (m d o : Nat) (X : Mat α) (B1 B2 B3 : List (Mat α)) (h : hdmrBasis m d o X = .ok (B1, B2, B3)) :
    (o ≤ 1 → B2 = []) ∧ (o ≠ 3 → B3 = []) ∧ B1.length + B2.length + B3.length = hdmrN d o := by
  obtain ⟨h1, h2, h3⟩ := hdmrBasis_lengths m d o X B1 B2 B3 h
  refine ⟨fun ho => ?_, fun ho => ?_, by rw [h1, h2, h3]; rfl⟩
  · rw [hdmrC2, if_neg (by omega)] at h2
    exact List.length_eq_zero_iff.mp h2
  · rw [hdmrC3, if_neg ho] at h3
    exact List.length_eq_zero_iff.mp h3

/-- **C104**: the arguments accepted, and the number of rows per fit. -/
theorem C104_settings (N d yRow o maxiter m K : Nat) (R : Option Nat) (alpha lambdax : α) (Rn : Int) :
    hdmrSettings N d yRow o maxiter m K (R.map fun r : Nat => (r : Int)) alpha lambdax = .ok Rn ↔
      (d ≠ 1 ∧ 300 ≤ N ∧ N = yRow ∧ (1 ≤ o ∧ o ≤ 3) ∧ ¬(d = 2 ∧ o = 3) ∧ (1 ≤ maxiter ∧ maxiter ≤ 1000) ∧ (1 ≤ m ∧ m ≤ 10) ∧
        (1 ≤ K ∧ K ≤ 100) ∧ (∀ r, R = some r → 300 ≤ r ∧ r ≤ N) ∧ (1 / 2 ≤ alpha ∧ alpha ≤ 1) ∧ 0 ≤ lambdax ∧ lambdax ≤ 10) ∧
      Rn = ((if K = 1 then N else R.getD (N / 2) : Nat) : Int) := by
  have hstep : ∀ (c : Prop) [Decidable c] (e : PyErr) (x : Py Int),
      (if c then .error e else x) = .ok Rn ↔ ¬c ∧ x = .ok Rn := by
    intro c _ e x
    by_cases hc : c
    · simp [hc]
    · simp [hc]
  have hlast : ∀ r : Nat, (if alpha < 1 / 2 ∨ alpha > 1 then (.error .runtimeError : Py Int)
      else if lambdax > 10 then .error .runtimeError else if lambdax < 0 then .error .runtimeError
      else pure (if (K : Int) = 1 ∧ (r : Int) ≠ (yRow : Int) then (yRow : Int) else r)) = .ok Rn ↔
      ((1 / 2 ≤ alpha ∧ alpha ≤ 1) ∧ 0 ≤ lambdax ∧ lambdax ≤ 10) ∧ Rn = ((if K = 1 then yRow else r : Nat) : Int) := by
    intro r
    rw [hstep, hstep, hstep]
    have : (pure (if (K : Int) = 1 ∧ (r : Int) ≠ (yRow : Int) then (yRow : Int) else r) : Py Int) = .ok Rn ↔
        Rn = ((if K = 1 then yRow else r : Nat) : Int) := by
      have h1 : (if (K : Int) = 1 ∧ (r : Int) ≠ (yRow : Int) then (yRow : Int) else r) =
          ((if K = 1 then yRow else r : Nat) : Int) := by
        split <;> split <;> omega
      rw [h1]
      exact ⟨fun h => (Except.ok.inj h).symm, fun h => by rw [h]; rfl⟩
    rw [this, not_or, not_lt, not_lt, not_lt, not_lt]
    tauto
  unfold hdmrSettings
  rw [hstep, hstep, hstep, hstep, hstep, hstep, hstep, hstep]
  have hyp : (¬d = 1 ∧ ¬N < 300 ∧ ¬N ≠ yRow ∧ ¬¬((o : Int) = 1 ∨ (o : Int) = 2 ∨ (o : Int) = 3) ∧ ¬(d = 2 ∧ (o : Int) > 2) ∧
      ¬¬(1 ≤ (maxiter : Int) ∧ (maxiter : Int) < 1001) ∧ ¬¬(1 ≤ (m : Int) ∧ (m : Int) < 11) ∧
      ¬¬(1 ≤ (K : Int) ∧ (K : Int) < 101)) ↔ (d ≠ 1 ∧ 300 ≤ N ∧ N = yRow ∧ (1 ≤ o ∧ o ≤ 3) ∧ ¬(d = 2 ∧ o = 3) ∧
      (1 ≤ maxiter ∧ maxiter ≤ 1000) ∧ (1 ≤ m ∧ m ≤ 10) ∧ (1 ≤ K ∧ K ≤ 100)) := by
    omega
  cases R with
  | none =>
    have := hlast (yRow / 2)
    refine (and_congr_right fun _ => and_congr_right fun _ => and_congr_right fun _ => and_congr_right fun _ =>
      and_congr_right fun _ => and_congr_right fun _ => and_congr_right fun _ => and_congr_right fun _ => this).trans ?_
    simp only [Option.getD_none, reduceCtorEq, false_implies, implies_true, true_and]
    constructor
    · rintro ⟨h1, h2, h3, h4, h5, h6, h7, h8, h9, h10⟩
      obtain ⟨g1, g2, g3, g4, g5, g6, g7, g8⟩ := hyp.mp ⟨h1, h2, h3, h4, h5, h6, h7, h8⟩
      subst g3
      exact ⟨⟨g1, g2, rfl, g4, g5, g6, g7, g8, h9⟩, h10⟩
    · rintro ⟨⟨g1, g2, g3, g4, g5, g6, g7, g8, h9⟩, h10⟩
      obtain ⟨h1, h2, h3, h4, h5, h6, h7, h8⟩ := hyp.mpr ⟨g1, g2, g3, g4, g5, g6, g7, g8⟩
      subst g3
      exact ⟨h1, h2, h3, h4, h5, h6, h7, h8, h9, h10⟩
  | some r =>
    simp only [Option.map_some, pyBind_error]
    rw [hstep]
    have : ¬¬(300 ≤ (r : Int) ∧ (r : Int) < (N : Int) + 1) ↔ (300 ≤ r ∧ r ≤ N) := by omega
    refine (and_congr_right fun _ => and_congr_right fun _ => and_congr_right fun _ => and_congr_right fun _ =>
      and_congr_right fun _ => and_congr_right fun _ => and_congr_right fun _ => and_congr_right fun _ =>
      and_congr this (hlast r)).trans ?_
    simp only [Option.getD_some, Option.some.injEq, forall_eq']
    constructor
    · rintro ⟨h1, h2, h3, h4, h5, h6, h7, h8, hr, h9, h10⟩
      obtain ⟨g1, g2, g3, g4, g5, g6, g7, g8⟩ := hyp.mp ⟨h1, h2, h3, h4, h5, h6, h7, h8⟩
      subst g3
      exact ⟨⟨g1, g2, rfl, g4, g5, g6, g7, g8, hr, h9⟩, h10⟩
    · rintro ⟨⟨g1, g2, g3, g4, g5, g6, g7, g8, hr, h9⟩, h10⟩
      obtain ⟨h1, h2, h3, h4, h5, h6, h7, h8⟩ := hyp.mpr ⟨g1, g2, g3, g4, g5, g6, g7, g8⟩
      subst g3
      exact ⟨h1, h2, h3, h4, h5, h6, h7, h8, hr, h9, h10⟩

theorem hdmrSettings_inv (N d yRow o maxiter m K : Nat) (R : Option Nat) (alpha lambdax : α) (Rn : Nat)
    (h : hdmrSettings N d yRow o maxiter m K (R.map fun r : Nat => (r : Int)) alpha lambdax = .ok (Rn : Int)) :
    N = yRow ∧ 1 ≤ o ∧ o ≤ 3 ∧ 1 ≤ K ∧ 150 ≤ Rn ∧ Rn ≤ N ∧ (K = 1 → Rn = N) := by
  obtain ⟨⟨_, hN, hy, ho, _, _, _, hK, hr, _⟩, hRn⟩ := (C104_settings N d yRow o maxiter m K R alpha lambdax Rn).mp h
  have hRn := Int.ofNat.inj hRn
  have hr' : 150 ≤ R.getD (N / 2) ∧ R.getD (N / 2) ≤ N := by
    cases R with
    | none => simp only [Option.getD_none]; omega
    | some r => have := hr r rfl; simp only [Option.getD_some]; omega
  refine ⟨hy, ho.1, ho.2, hK.1, ?_, ?_, ?_⟩ <;> split at hRn <;> omega

/-- **C104**: each fit uses `Rn` different rows of the sample; a single fit uses all of them. -/
theorem C104_rows (perm : Nat → List Nat) (N d o maxiter m K : Nat) (R : Option Nat) (alpha lambdax : α) (Rn yRow : Nat)
    (h : hdmrSettings N d yRow o maxiter m K (R.map fun r : Nat => (r : Int)) alpha lambdax = .ok (Rn : Int))
    (hperm : ∀ k < K, (perm k).Perm (List.range N)) (k : Nat) (hk : k < K) :
    (hdmrRows perm N K Rn k).length = Rn ∧ (hdmrRows perm N K Rn k).Nodup ∧ (∀ i ∈ hdmrRows perm N K Rn k, i < N) ∧
      (Rn = N → ∀ i, i < N → i ∈ hdmrRows perm N K Rn k) := by
  obtain ⟨_, _, _, _, _, hle, hK1⟩ := hdmrSettings_inv N d yRow o maxiter m K R alpha lambdax Rn h
  unfold hdmrRows
  by_cases hK : K = 1
  · rw [if_pos hK, hK1 hK]
    exact ⟨List.length_range, List.nodup_range, fun i hi => List.mem_range.mp hi, fun _ i hi => List.mem_range.mpr hi⟩
  · rw [if_neg hK]
    have hl : (perm k).length = N := by rw [(hperm k hk).length_eq, List.length_range]
    refine ⟨by rw [List.length_take, hl]; omega, ((hperm k hk).nodup_iff.mpr List.nodup_range).sublist (List.take_sublist _ _),
      fun i hi => ?_, fun hR i hi => ?_⟩
    · exact List.mem_range.mp ((hperm k hk).mem_iff.mp (List.mem_of_mem_take hi))
    · rw [List.take_of_length_le (by omega)]
      exact (hperm k hk).mem_iff.mpr (List.mem_range.mpr hi)

theorem flatMap_fits {β : Type} (g : Nat → Nat → β) (n K j k : Nat) (hj : j < n) (hk : k < K) :
    ((List.range n).flatMap fun j => (List.range K).map (g j))[j * K + k]? = some (g j k) := by
  induction n with
  | zero => omega
  | succ n ih =>
    have hlen : ((List.range n).flatMap fun j => (List.range K).map (g j)).length = n * K := by
      rw [List.length_flatMap]; simp
    rw [List.range_succ, List.flatMap_append]
    by_cases hjn : j < n
    · rw [List.getElem?_append_left (by rw [hlen]; nlinarith), ih hjn]
    · obtain rfl : j = n := by omega
      rw [List.getElem?_append_right (by rw [hlen]; omega), hlen]
      simp [hk]

/-- **C104**: the results of an HDMR analysis.  `Y` must not be constant on the rows of any fit. -/
theorem C104_results (sqrt : α → α) (hs : sqrt 0 = 0) (mult : α) (reg : Mat α → Mat α) (fppf : Nat → Nat → Option α)
    (perm : Nat → List Nat) (pb : Problem α) (X : Mat α) (d : Nat) (Y : List α) (o maxiter m K : Nat) (R : Option Nat)
    (alpha lambdax : α) (print : Bool) (Rn : Nat) (B1 B2 B3 : List (Mat α))
    (hR : hdmrSettings X.length d Y.length o maxiter m K (R.map fun r : Nat => (r : Int)) alpha lambdax = .ok (Rn : Int))
    (hB : hdmrBasis m d o X = .ok (B1, B2, B3)) (hn : d ≤ pb.names.length)
    (hperm : ∀ k < K, (perm k).Perm (List.range X.length))
    (hY : ∀ k < K, ∃ a ∈ hdmrRows perm X.length K Rn k, ∃ b ∈ hdmrRows perm X.length K Rn k, Y.getD a 0 ≠ Y.getD b 0) :
    ∃ terms S Sa Sb r,
      hdmrAnalyze sqrt mult reg fppf perm pb X d Y o maxiter m K R alpha lambdax print =
        .ok (if print then (dropSums r, some (printReport r pb.numVars)) else (r, none)) ∧
      terms.length = hdmrN d o ∧ GoodTerms pb.names d o terms r.term (hdmrTotalRows d o) ∧
      (∀ k < K, IndicesOn (hdmrN d o) (takeIdx Y (hdmrRows perm X.length K Rn k))
        (fitOn reg o maxiter B1 B2 B3 Y (hdmrRows perm X.length K Rn k)).Yem (S · k) (Sa · k) (Sb · k)) ∧
      HdmrReports sqrt mult K (hdmrN d o) d terms S Sa Sb r ∧ r.sums = some (HdmrSumsOf K (hdmrN d o) S Sa Sb) ∧
      r.marks.length = hdmrN d o * K ∧
      ∀ j < hdmrN d o, ∀ k < K, ∃ b,
        (hdmrFTest fppf (takeIdx Y (hdmrRows perm X.length K Rn k))
          (fitOn reg o maxiter B1 B2 B3 Y (hdmrRows perm X.length K Rn k)).f0
          (fitOn reg o maxiter B1 B2 B3 Y (hdmrRows perm X.length K Rn k)).Yem Rn (m + 3) ((m + 3) ^ 2) ((m + 3) ^ 3) d
          (hdmrC2 d o).length)[j]? = some b ∧
        r.marks[j * K + k]? = some (some (selectMark b)) := by
  obtain ⟨hNY, ho, ho3, hK, h150, hle, hK1⟩ := hdmrSettings_inv _ _ _ _ _ _ _ R alpha lambdax Rn hR
  obtain ⟨hb2, hb3, hbn⟩ := hdmrBasis_orders m d o X B1 B2 B3 hB
  set idx := hdmrRows perm X.length K Rn with hidx
  set fit := fun k => fitOn reg o maxiter B1 B2 B3 Y (idx k) with hfit
  have hlen : ∀ k < K, (idx k).length = Rn := fun k hk => (C104_rows perm _ _ _ _ _ _ _ _ _ _ _ hR hperm k hk).1
  have hshape : ∀ k, (fit k).Yem.length = hdmrN d o ∧ ∀ c ∈ (fit k).Yem, c.length = (idx k).length := by
    intro k
    rw [← hbn]
    exact hdmrFit_shape reg o maxiter _ B1 B2 B3 _ (idx k) hb2 hb3
  have hyl : ∀ k, (takeIdx Y (idx k)).length = (idx k).length := fun k => by simp [takeIdx]
  let V : Nat → α := fun k => devSum (idx k).length (fun i => (takeIdx Y (idx k)).getD i 0)
    (fun i => (takeIdx Y (idx k)).getD i 0) / ((idx k).length : α)
  have hV : ∀ k < K, npVar (takeIdx Y (idx k)) = some (V k) ∧ V k ≠ 0 := by
    intro k hk
    have hpos : 0 < (idx k).length := by rw [hlen k hk]; omega
    refine ⟨npVar_devSum _ _ (hyl k) hpos, ?_⟩
    obtain ⟨a, ha, b, hb, hab⟩ := hY k hk
    obtain ⟨p, hp, rfl⟩ := List.mem_iff_getElem.mp ha
    obtain ⟨q, hq, rfl⟩ := List.mem_iff_getElem.mp hb
    have := devSum_self_pos (idx k).length (fun i => (takeIdx Y (idx k)).getD i 0) p q hp hq (by
      simpa [takeIdx, List.getD, hp, hq] using hab)
    have h2 : (0 : α) < ((idx k).length : α) := by exact_mod_cast hpos
    exact (div_pos this h2).ne'
  let Z : Nat → Nat → Num α × Num α × Num α := fun j k => hdmrAncova (takeIdx Y (idx k)) (fit k).Yem (V k) j
  let S : Nat → Nat → α := fun j k => (Z j k).1.getD 0
  let Sa : Nat → Nat → α := fun j k => (Z j k).2.1.getD 0
  let Sb : Nat → Nat → α := fun j k => (Z j k).2.2.getD 0
  have hanc := fun (j : Nat) (hj : j < hdmrN d o) (k : Nat) (hk : k < K) =>
    hdmrAncova_eq (takeIdx Y (idx k)) (fit k).Yem (V k) j (by rw [hyl, hlen k hk]; omega)
      (fun c hc => by rw [hyl]; exact (hshape k).2 c hc) (hV k hk).2 (by rw [(hshape k).1]; exact hj)
  have hZ : ∀ j < hdmrN d o, ∀ k < K, Z j k = stored S Sa Sb k j := by
    intro j hj k hk
    have hz : Z j k = _ := hanc j hj k hk
    unfold stored
    simp only [S, Sa, Sb]
    rw [hz]
    rfl
  let passes := (List.range K).map fun k => hdmrPass reg fppf m d o maxiter Rn B1 B2 B3 Y (idx k)
  have hfk : ∀ k < K, hdmrFit reg o maxiter (B1.map (pickRows (idx k))) (B2.map (pickRows (idx k)))
      (B3.map (pickRows (idx k))) (takeIdx Y (idx k)) Rn = fit k := by
    intro k hk
    rw [hfit]
    simp only [fitOn]
    rw [hlen k hk]
  have hpass : ∀ k < K, (hdmrPass reg fppf m d o maxiter Rn B1 B2 B3 Y (idx k)).indices =
      (List.range (hdmrN d o)).map (stored S Sa Sb k) := by
    intro k hk
    unfold hdmrPass hdmrIndices
    simp only []
    refine List.map_congr_left fun j hj => ?_
    rw [(hV k hk).1]
    simp only []
    rw [hfk k hk]
    exact hZ j (List.mem_range.mp hj) k hk
  have hSA : passes.map (·.indices) = storedAll K (hdmrN d o) S Sa Sb := by
    simp only [passes, storedAll, List.map_map]
    exact List.map_congr_left fun k hk => hpass k (List.mem_range.mp hk)
  obtain ⟨terms, r, hr, ht, hgood, hrep, hsums, hmarks⟩ :=
    hdmrFinalize_reports sqrt hs mult pb.names d o K passes S Sa Sb ho ho3 hn hK hSA
  refine ⟨terms, S, Sa, Sb, r, ?_, ht, hgood, ?_, hrep, hsums, ?_, ?_⟩
  · unfold hdmrAnalyze
    rw [hR, pyBind_ok, hB, pyBind_ok]
    simp only [Int.toNat_natCast]
    rw [hr, pyBind_ok]
    rfl
  · intro k hk j hj
    have hz : Z j k = _ := hanc j hj k hk
    have hSb : (fun i => ∑ l ∈ (range (hdmrN d o)).erase j, ((fit k).Yem.getD l []).getD i 0) =
        fun i => (∑ l ∈ range (fit k).Yem.length, ((fit k).Yem.getD l []).getD i 0) - ((fit k).Yem.getD j []).getD i 0 := by
      funext i
      rw [(hshape k).1, Finset.sum_erase_eq_sub (Finset.mem_range.mpr hj)]
    refine ⟨?_, ?_, ?_⟩
    · simp only [S]; rw [hz]; simp only [Option.getD_some, V, hyl]; rfl
    · simp only [Sa]; rw [hz]; simp only [Option.getD_some, V, hyl]; rfl
    · rw [hSb]; simp only [Sb]; rw [hz]; simp only [Option.getD_some, V, hyl]; rfl
  · rw [hmarks, List.length_flatMap]
    simp [passes]
  · intro j hj k hk
    have hjF : ∀ f0 n2, j < (hdmrFTest fppf (takeIdx Y (idx k)) f0 (fit k).Yem Rn (m + 3) ((m + 3) ^ 2) ((m + 3) ^ 3) d n2).length := by
      intro f0 n2
      rw [hdmrFTest, List.length_map, List.length_range, (hshape k).1]
      exact hj
    refine ⟨_, List.getElem?_eq_getElem (hjF _ _), ?_⟩
    have := flatMap_fits (fun (j k : Nat) => (some (selectMark
      ((hdmrPass reg fppf m d o maxiter Rn B1 B2 B3 Y (idx k)).select.getD j false)) : Num α)) (hdmrN d o) K j k hj hk
    rw [hmarks]
    simp only [passes, List.map_map]
    refine this.trans ?_
    congr 3
    unfold hdmrPass
    simp only [List.getD]
    rw [hfk k hk]
    rw [List.getElem?_eq_getElem (hjF _ _)]
    rfl

/-- If the terms fitted reproduce the output on the rows of a fit, its indices add up to `R / (R - 1)`. -/
theorem indicesOn_exact (n : Nat) (y : List α) (F : List (List α)) (f0 : α) (S Sa Sb : Nat → α) (h : IndicesOn n y F S Sa Sb)
    (hn : F.length = n) (hcol : ∀ c ∈ F, c.length = y.length) (h2 : 2 ≤ y.length)
    (hne : devSum y.length (fun i => y.getD i 0) (fun i => y.getD i 0) ≠ 0)
    (hadd : AddsUp y f0 F (List.replicate y.length 0)) :
    ∑ j ∈ range n, S j = (y.length : α) / ((y.length : α) - 1) := by
  have hV : devSum y.length (fun i => y.getD i 0) (fun i => y.getD i 0) / (y.length : α) ≠ 0 := by
    refine div_ne_zero hne ?_
    have : 0 < y.length := by omega
    positivity
  obtain ⟨S', h1, h3⟩ := C79_hdmr_exact y f0 F _ h2 hcol hV (npVar_devSum y _ rfl (by omega)) hadd
  rw [← h3, hn]
  refine Finset.sum_congr rfl fun j hj => ?_
  have hj := Finset.mem_range.mp hj
  have := h1 j (by omega)
  rw [hdmrAncova_eq y F _ j h2 hcol hV (by omega)] at this
  rw [← Option.some.inj this]
  exact (h j hj).1

/-- The indices of a fit add up to `R / (R - 1)` times the share of the variance of the output that goes with the fit. -/
theorem indicesOn_sum (n : Nat) (y : List α) (F : List (List α)) (S Sa Sb : Nat → α) (h : IndicesOn n y F S Sa Sb)
    (h2 : 2 ≤ y.length) :
    ∑ j ∈ range n, S j = (y.length : α) / ((y.length : α) - 1) *
      (devSum y.length (fun i => ∑ j ∈ range n, (F.getD j []).getD i 0) (fun i => y.getD i 0) /
        devSum y.length (fun i => y.getD i 0) (fun i => y.getD i 0)) := by
  rw [Finset.sum_congr rfl fun j hj => (h j (Finset.mem_range.mp hj)).1, devSum_sum_left, ← Finset.sum_div, ← Finset.sum_div]
  have h3 : (2 : α) ≤ (y.length : α) := by exact_mod_cast h2
  have h4 : (y.length : α) - 1 ≠ 0 := by linarith
  have h5 : (y.length : α) ≠ 0 := by linarith
  by_cases hd : devSum y.length (fun i => y.getD i 0) (fun i => y.getD i 0) = 0
  · rw [hd]; simp
  · field_simp

/-- **C104**: the sum reported for `S` is `R / (R - 1)` times the average over the fits of the share of the variance of the
output that goes with the fit. -/
theorem C104_sum (sqrt : α → α) (hs : sqrt 0 = 0) (mult : α) (reg : Mat α → Mat α) (fppf : Nat → Nat → Option α)
    (perm : Nat → List Nat) (pb : Problem α) (X : Mat α) (d : Nat) (Y : List α) (o maxiter m K : Nat) (R : Option Nat)
    (alpha lambdax : α) (Rn : Nat) (B1 B2 B3 : List (Mat α))
    (hR : hdmrSettings X.length d Y.length o maxiter m K (R.map fun r : Nat => (r : Int)) alpha lambdax = .ok (Rn : Int))
    (hB : hdmrBasis m d o X = .ok (B1, B2, B3)) (hn : d ≤ pb.names.length)
    (hperm : ∀ k < K, (perm k).Perm (List.range X.length))
    (hY : ∀ k < K, ∃ a ∈ hdmrRows perm X.length K Rn k, ∃ b ∈ hdmrRows perm X.length K Rn k, Y.getD a 0 ≠ Y.getD b 0) :
    ∃ r s, hdmrAnalyze sqrt mult reg fppf perm pb X d Y o maxiter m K R alpha lambdax false = .ok (r, none) ∧
      r.sums = some s ∧ s.S = some (meanOver K fun k => (Rn : α) / ((Rn : α) - 1) *
        (devSum Rn (fun i => ∑ j ∈ range (hdmrN d o),
            ((fitOn reg o maxiter B1 B2 B3 Y (hdmrRows perm X.length K Rn k)).Yem.getD j []).getD i 0)
          (fun i => Y.getD ((hdmrRows perm X.length K Rn k).getD i 0) 0) /
        devSum Rn (fun i => Y.getD ((hdmrRows perm X.length K Rn k).getD i 0) 0)
          (fun i => Y.getD ((hdmrRows perm X.length K Rn k).getD i 0) 0))) := by
  obtain ⟨terms, S, Sa, Sb, r, h1, -, -, h4, -, h6, -⟩ := C104_results sqrt hs mult reg fppf perm pb X d Y o maxiter m K R
    alpha lambdax false Rn B1 B2 B3 hR hB hn hperm hY
  refine ⟨r, _, h1, h6, ?_⟩
  obtain ⟨hNY, ho, ho3, hK, h150, hle, hK1⟩ := hdmrSettings_inv _ _ _ _ _ _ _ R alpha lambdax Rn hR
  simp only [HdmrSumsOf]
  rw [← sum_meanOver K (hdmrN d o) S]
  congr 1
  unfold meanOver
  congr 1
  refine Finset.sum_congr rfl fun k hk => ?_
  have hk := Finset.mem_range.mp hk
  obtain ⟨hlen, -, -, -⟩ := C104_rows perm _ _ _ _ _ _ _ _ _ _ _ hR hperm k hk
  have hyl : (takeIdx Y (hdmrRows perm X.length K Rn k)).length = Rn := by simp [takeIdx, hlen]
  have := indicesOn_sum (hdmrN d o) _ _ _ _ _ (h4 k hk) (by rw [hyl]; omega)
  rw [hyl] at this
  simp only []
  rw [this]
  have hy : ∀ i < Rn, (takeIdx Y (hdmrRows perm X.length K Rn k)).getD i 0 =
      Y.getD ((hdmrRows perm X.length K Rn k).getD i 0) 0 := by
    intro i hi
    have : i < (hdmrRows perm X.length K Rn k).length := by omega
    simp [takeIdx, List.getD, this]
  rw [devSum_congr Rn _ _ _ _ (fun _ _ => rfl) hy, devSum_congr Rn _ _ _ _ hy hy]

/-- **C104**: when every fit reproduces the output on its rows, the sum reported for `S` is `R / (R - 1)`, not 1. -/
theorem C104_sum_exact (sqrt : α → α) (hs : sqrt 0 = 0) (mult : α) (reg : Mat α → Mat α) (fppf : Nat → Nat → Option α)
    (perm : Nat → List Nat) (pb : Problem α) (X : Mat α) (d : Nat) (Y : List α) (o maxiter m K : Nat) (R : Option Nat)
    (alpha lambdax : α) (Rn : Nat) (B1 B2 B3 : List (Mat α))
    (hR : hdmrSettings X.length d Y.length o maxiter m K (R.map fun r : Nat => (r : Int)) alpha lambdax = .ok (Rn : Int))
    (hB : hdmrBasis m d o X = .ok (B1, B2, B3)) (hn : d ≤ pb.names.length)
    (hperm : ∀ k < K, (perm k).Perm (List.range X.length))
    (hY : ∀ k < K, ∃ a ∈ hdmrRows perm X.length K Rn k, ∃ b ∈ hdmrRows perm X.length K Rn k, Y.getD a 0 ≠ Y.getD b 0)
    (hfit : ∀ k < K, ∃ f0, AddsUp (takeIdx Y (hdmrRows perm X.length K Rn k)) f0
      (fitOn reg o maxiter B1 B2 B3 Y (hdmrRows perm X.length K Rn k)).Yem (List.replicate Rn 0)) :
    ∃ r s, hdmrAnalyze sqrt mult reg fppf perm pb X d Y o maxiter m K R alpha lambdax false = .ok (r, none) ∧
      r.sums = some s ∧ s.S = some ((Rn : α) / ((Rn : α) - 1)) := by
  obtain ⟨terms, S, Sa, Sb, r, h1, -, -, h4, -, h6, -⟩ := C104_results sqrt hs mult reg fppf perm pb X d Y o maxiter m K R
    alpha lambdax false Rn B1 B2 B3 hR hB hn hperm hY
  refine ⟨r, _, h1, h6, ?_⟩
  obtain ⟨hNY, ho, ho3, hK, h150, hle, hK1⟩ := hdmrSettings_inv _ _ _ _ _ _ _ R alpha lambdax Rn hR
  obtain ⟨hb2, hb3, hbn⟩ := hdmrBasis_orders m d o X B1 B2 B3 hB
  simp only [HdmrSumsOf]
  rw [← sum_meanOver K (hdmrN d o) S]
  congr 1
  have hone : ∀ k ∈ range K, ∑ j ∈ range (hdmrN d o), S j k = (Rn : α) / ((Rn : α) - 1) := by
    intro k hk
    have hk := Finset.mem_range.mp hk
    obtain ⟨hlen, -, -, -⟩ := C104_rows perm _ _ _ _ _ _ _ _ _ _ _ hR hperm k hk
    have hyl : (takeIdx Y (hdmrRows perm X.length K Rn k)).length = Rn := by simp [takeIdx, hlen]
    obtain ⟨hsh1, hsh2⟩ := hdmrFit_shape reg o maxiter (hdmrRows perm X.length K Rn k).length B1 B2 B3
      (takeIdx Y (hdmrRows perm X.length K Rn k)) (hdmrRows perm X.length K Rn k) hb2 hb3
    obtain ⟨f0, hf0⟩ := hfit k hk
    have := indicesOn_exact (hdmrN d o) _ _ f0 _ _ _ (h4 k hk) (hsh1.trans hbn)
      (fun c hc => by rw [hyl, hsh2 c hc, hlen]) (by rw [hyl]; omega) (by
        obtain ⟨a, ha, b, hb, hab⟩ := hY k hk
        obtain ⟨p, hp, rfl⟩ := List.mem_iff_getElem.mp ha
        obtain ⟨q, hq, rfl⟩ := List.mem_iff_getElem.mp hb
        refine (devSum_self_pos _ _ p q (by simpa [takeIdx] using hp) (by simpa [takeIdx] using hq) ?_).ne'
        simpa [takeIdx, List.getD, hp, hq] using hab) (by rw [hyl]; exact hf0)
    rw [hyl] at this
    exact this
  unfold meanOver
  rw [Finset.sum_congr rfl hone, Finset.sum_const, Finset.card_range, nsmul_eq_mul]
  have : (K : α) ≠ 0 := by
    have : 0 < K := by omega
    positivity
  field_simp

theorem varOver_const (K : Nat) (x : Nat → α) (v : α) (hK : 1 ≤ K) (h : ∀ k < K, x k = v) : varOver K x = 0 := by
  have hK0 : (K : α) ≠ 0 := by
    have : 0 < K := by omega
    positivity
  have hm : meanOver K x = v := by
    unfold meanOver
    rw [Finset.sum_congr rfl fun k hk => h k (Finset.mem_range.mp hk), Finset.sum_const, Finset.card_range, nsmul_eq_mul]
    field_simp
  unfold varOver
  rw [hm, Finset.sum_eq_zero fun k hk => by rw [h k (Finset.mem_range.mp hk), sub_self]; ring, zero_div]

/-- If the fits agree, all intervals have width zero. -/
theorem reports_same (sqrt : α → α) (hs : sqrt 0 = 0) (mult : α) (K n d : Nat) (hK : 1 ≤ K) (hd : d ≤ n)
    (terms : List (List Nat)) (S Sa Sb : Nat → Nat → α) (r : HdmrResult α)
    (h : HdmrReports sqrt mult K n d terms S Sa Sb r)
    (hc : ∀ j < n, ∀ k < K, S j k = S j 0 ∧ Sa j k = Sa j 0 ∧ Sb j k = Sb j 0) :
    (∀ v ∈ r.SConf ++ r.SaConf ++ r.SbConf, v = some 0) ∧ ∀ v ∈ r.STconf, v = some 0 ∨ v = none := by
  have hcol : ∀ (x : Nat → Nat → α) (v w : List (Num α)), AverageColumn sqrt mult K n x v w →
      (∀ j < n, ∀ k < K, x j k = x j 0) → ∀ u ∈ w, u = some 0 := by
    intro x v w hA hx u hu
    obtain ⟨i, hi, rfl⟩ := List.mem_iff_getElem.mp hu
    have hin : i < n := hA.2.1 ▸ hi
    have := (hA.2.2 i hin).2
    rw [List.getElem?_eq_getElem hi] at this
    rw [Option.some.inj this, varOver_const K (x i) (x i 0) hK (hx i hin), hs, mul_zero]
  refine ⟨fun v hv => ?_, fun v hv => ?_⟩
  · rcases List.mem_append.mp hv with hv | hv
    · rcases List.mem_append.mp hv with hv | hv
      · exact hcol S _ _ h.all (fun j hj k hk => (hc j hj k hk).1) v hv
      · exact hcol Sa _ _ h.partA (fun j hj k hk => (hc j hj k hk).2.1) v hv
    · exact hcol Sb _ _ h.partB (fun j hj k hk => (hc j hj k hk).2.2) v hv
  · obtain ⟨i, hi, rfl⟩ := List.mem_iff_getElem.mp hv
    have hin : i < n := h.totals.2 ▸ hi
    by_cases hid : i < d
    · have := (h.total i hid).2
      rw [List.getElem?_eq_getElem hi] at this
      left
      rw [Option.some.inj this, varOver_const K _ (∑ j ∈ termsWith terms n i, S j 0) hK, hs, mul_zero]
      intro k hk
      exact Finset.sum_congr rfl fun j hj => (hc j (Finset.mem_range.mp (Finset.mem_filter.mp hj).1) k hk).1
    · have := (h.noTotal i hin (by omega)).2
      rw [List.getElem?_eq_getElem hi] at this
      exact Or.inr (Option.some.inj this)

/-- **C104**: with a single fit all intervals have width zero. -/
theorem C104_single (sqrt : α → α) (hs : sqrt 0 = 0) (mult : α) (reg : Mat α → Mat α) (fppf : Nat → Nat → Option α)
    (perm : Nat → List Nat) (pb : Problem α) (X : Mat α) (d : Nat) (Y : List α) (o maxiter m : Nat) (R : Option Nat)
    (alpha lambdax : α) (print : Bool) (Rn : Nat) (B1 B2 B3 : List (Mat α))
    (hR : hdmrSettings X.length d Y.length o maxiter m 1 (R.map fun r : Nat => (r : Int)) alpha lambdax = .ok (Rn : Int))
    (hB : hdmrBasis m d o X = .ok (B1, B2, B3)) (hn : d ≤ pb.names.length)
    (hY : ∃ a < X.length, ∃ b < X.length, Y.getD a 0 ≠ Y.getD b 0) :
    ∃ r p, hdmrAnalyze sqrt mult reg fppf perm pb X d Y o maxiter m 1 R alpha lambdax print = .ok (r, p) ∧
      (∀ v ∈ r.SConf ++ r.SaConf ++ r.SbConf, v = some 0) ∧ ∀ v ∈ r.STconf, v = some 0 ∨ v = none := by
  have hsame : hdmrAnalyze sqrt mult reg fppf perm pb X d Y o maxiter m 1 R alpha lambdax print =
      hdmrAnalyze sqrt mult reg fppf (fun _ => List.range X.length) pb X d Y o maxiter m 1 R alpha lambdax print := by
    unfold hdmrAnalyze
    simp only [hdmrRows, if_true]
  obtain ⟨terms, S, Sa, Sb, r, h1, h2, -, -, h5, -⟩ := C104_results sqrt hs mult reg fppf (fun _ => List.range X.length) pb X d
    Y o maxiter m 1 R alpha lambdax print Rn B1 B2 B3 hR hB hn (fun _ _ => List.Perm.refl _) (by
      intro k _
      obtain ⟨a, ha, b, hb, hab⟩ := hY
      exact ⟨a, by simpa [hdmrRows] using ha, b, by simpa [hdmrRows] using hb, hab⟩)
  have h0 := reports_same sqrt hs mult 1 (hdmrN d o) d le_rfl (by unfold hdmrN; omega) terms S Sa Sb r h5 (by
    intro j _ k hk
    obtain rfl : k = 0 := by omega
    exact ⟨rfl, rfl, rfl⟩)
  rw [hsame, h1]
  cases print with
  | true => exact ⟨dropSums r, _, rfl, h0⟩
  | false => exact ⟨r, _, rfl, h0⟩

/-! ### Examples -/

/-- A sample of 300 rows of two inputs. -/
def hdmrSampleX : Mat ℚ := (List.range 300).map fun i : Nat => [(i : ℚ), (299 : ℚ) - (i : ℚ)]

/-- Its output. -/
def hdmrSampleY : List ℚ := (List.range 300).map fun i : Nat => (i : ℚ) ^ 2

theorem hdmrSample_rows : hdmrSampleX.length = 300 ∧ hdmrSampleY.length = 300 := by
  unfold hdmrSampleX hdmrSampleY
  rw [List.length_map, List.length_map, List.length_range]
  exact ⟨rfl, rfl⟩

theorem hdmrSampleY_getD (i : Nat) (hi : i < 300) : hdmrSampleY.getD i 0 = (i : ℚ) ^ 2 := by
  unfold hdmrSampleY
  rw [List.getD, List.getElem?_map, List.getElem?_range hi]
  rfl

theorem hdmrSample_basis : ∃ B1 B2 B3, hdmrBasis 2 2 2 hdmrSampleX = .ok (B1, B2, B3) := by
  have hext : ∀ j < 2, ColumnExtremes hdmrSampleX j (0 : ℚ) 299 := by
    have hb : ∀ i : Nat, i < 300 → (0 : ℚ) ≤ (i : ℚ) ∧ (i : ℚ) ≤ 299 := by
      intro i hi
      have : (i : ℚ) ≤ 299 := by exact_mod_cast (by omega : i ≤ 299)
      exact ⟨by positivity, this⟩
    intro j hj
    unfold ColumnExtremes hdmrSampleX
    rcases (by omega : j = 0 ∨ j = 1) with rfl | rfl
    · refine ⟨⟨_, List.mem_map.mpr ⟨0, List.mem_range.mpr (by omega), rfl⟩, by norm_num [List.getD]⟩,
        ⟨_, List.mem_map.mpr ⟨299, List.mem_range.mpr (by omega), rfl⟩, by norm_num [List.getD]⟩, fun row hrow => ?_⟩
      obtain ⟨i, hi, rfl⟩ := List.mem_map.mp hrow
      exact hb i (List.mem_range.mp hi)
    · refine ⟨⟨_, List.mem_map.mpr ⟨299, List.mem_range.mpr (by omega), rfl⟩, by norm_num [List.getD]⟩,
        ⟨_, List.mem_map.mpr ⟨0, List.mem_range.mpr (by omega), rfl⟩, by norm_num [List.getD]⟩, fun row hrow => ?_⟩
      obtain ⟨i, hi, rfl⟩ := List.mem_map.mp hrow
      have := hb i (List.mem_range.mp hi)
      simp only [List.getD_cons_succ, List.getD_cons_zero]
      constructor <;> linarith
  exact ⟨_, _, _, hdmrBasis_eq 2 2 2 hdmrSampleX (fun _ => 0) (fun _ => 299) (by
    intro row hrow
    obtain ⟨i, -, rfl⟩ := List.mem_map.mp hrow
    simp) hext fun _ _ => by norm_num⟩

theorem hdmrSample_settings (R : Option Nat) (hR : ∀ r, R = some r → r = 300) :
    hdmrSettings hdmrSampleX.length 2 hdmrSampleY.length 2 100 2 20 (R.map fun r : Nat => (r : Int))
      (19 / 20 : ℚ) (1 / 100) = .ok ((R.getD 150 : Nat) : Int) := by
  refine (C104_settings _ _ _ _ _ _ _ _ _ _ _).mpr ?_
  rw [hdmrSample_rows.1, hdmrSample_rows.2]
  refine ⟨⟨by norm_num, le_rfl, rfl, by norm_num, by norm_num, by norm_num, by norm_num, by norm_num,
    fun r hr => by rw [hR r hr]; norm_num, ?_, ?_, ?_⟩, ?_⟩ <;> norm_num

/-- Twenty fits to half of the rows, the rows reversed. -/
example : hdmrSettings hdmrSampleX.length 2 hdmrSampleY.length 2 100 2 20 ((none : Option Nat).map fun r : Nat => (r : Int))
      (19 / 20 : ℚ) (1 / 100) = .ok ((150 : Nat) : Int) ∧
    (∃ B1 B2 B3, hdmrBasis 2 2 2 hdmrSampleX = .ok (B1, B2, B3)) ∧
    (∀ k < 20, ((fun _ => (List.range 300).reverse : Nat → List Nat) k).Perm (List.range hdmrSampleX.length)) ∧
    ∀ k < 20, ∃ a ∈ hdmrRows (fun _ => (List.range 300).reverse) hdmrSampleX.length 20 150 k,
      ∃ b ∈ hdmrRows (fun _ => (List.range 300).reverse) hdmrSampleX.length 20 150 k,
        hdmrSampleY.getD a 0 ≠ hdmrSampleY.getD b 0 := by
  refine ⟨hdmrSample_settings none (fun r hr => by cases hr), hdmrSample_basis, fun k _ => ?_, fun k _ => ?_⟩
  · rw [hdmrSample_rows.1]; exact List.reverse_perm _
  · rw [hdmrSample_rows.1]
    unfold hdmrRows
    rw [if_neg (by norm_num)]
    simp only []
    refine ⟨299, by decide +kernel, 298, by decide +kernel, ?_⟩
    rw [hdmrSampleY_getD 299 (by omega), hdmrSampleY_getD 298 (by omega)]
    norm_num

end SALib
