import Verif.Props.PawnLimit
import Verif.Props.PawnIndex
import Verif.Props.Rsa

/-!
# C122: what the PAWN indices of groups estimate
-/

namespace SALib

open MeasureTheory ProbabilityTheory Spec

/-- `row` has the means over the inputs `J` of the summaries of their values `v j`, up to `ε`. -/
def Spec.GroupRowNear {d n : Nat} (ε : ℝ) (row : PawnRow ℝ) (J : Finset (Fin d)) (v : Fin d → Fin n → ℝ) : Prop :=
  (∃ x, row.minimum = some x ∧ |x - (∑ j ∈ J, ⨅ s, v j s) / J.card| < ε) ∧
  (∃ x, row.mean = some x ∧ |x - (∑ j ∈ J, meanOf (v j)) / J.card| < ε) ∧
  (∃ x, ∃ m : Fin d → ℝ, row.median = some x ∧ (∀ j ∈ J, IsMedian (v j) (m j)) ∧ |x - (∑ j ∈ J, m j) / J.card| < ε) ∧
  (∃ x, row.maximum = some x ∧ |x - (∑ j ∈ J, ⨆ s, v j s) / J.card| < ε) ∧
  (∃ x, row.stdev = some x ∧ |x - (∑ j ∈ J, stdOf (v j)) / J.card| < ε) ∧
  ((∀ j ∈ J, meanOf (v j) ≠ 0) → ∃ x, row.cv = some x ∧ |x - (∑ j ∈ J, stdOf (v j) / meanOf (v j)) / J.card| < ε)

theorem members_near {d : Nat} (p : Nat → Bool) (F : Nat → Num ℝ) (t : Fin d → ℝ) (ε : ℝ)
    (hne : (Finset.univ.filter fun j : Fin d => p j = true).Nonempty)
    (h : ∀ j ∈ Finset.univ.filter (fun j : Fin d => p j = true), ∃ x, F j = some x ∧ |x - t j| < ε) :
    ∃ x, npMeanN (((List.range d).filter p).map F) = some x ∧
      |x - (∑ j ∈ Finset.univ.filter (fun j : Fin d => p j = true), t j) / (Finset.univ.filter fun j : Fin d => p j = true).card| < ε := by
  classical
  set J := Finset.univ.filter fun j : Fin d => p j = true with hJ
  choose! xs hF hx using h
  let L := (List.finRange d).filter fun j : Fin d => p j
  have hmem : ∀ j, j ∈ L ↔ j ∈ J := fun j => by simp [L, hJ]
  have hnd : L.Nodup := (List.nodup_finRange d).filter _
  have hLJ : L.toFinset = J := by
    ext j
    rw [List.mem_toFinset, hmem]
  have hmap : ((List.range d).filter p).map F = (L.map xs).map some := by
    rw [← List.map_coe_finRange_eq_range, List.filter_map, List.map_map, List.map_map]
    refine List.map_congr_left fun j hj => ?_
    exact hF j ((hmem j).mp hj)
  have hcard : L.length = J.card := by rw [← hLJ, List.toFinset_card_of_nodup hnd]
  have hsum : (L.map xs).sum = ∑ j ∈ J, xs j := by rw [← hLJ, List.sum_toFinset _ hnd]
  have hc0 : (0 : ℝ) < J.card := by exact_mod_cast Finset.card_pos.mpr hne
  refine ⟨(∑ j ∈ J, xs j) / J.card, ?_, ?_⟩
  · rw [hmap, npMeanN_some, hsum, List.length_map, hcard]
    intro h0
    have : L.length = 0 := by simpa using congrArg List.length h0
    rw [hcard] at this
    exact absurd this (Finset.card_pos.mpr hne).ne'
  · rw [← sub_div, abs_div, abs_of_pos hc0, div_lt_iff₀ hc0, ← Finset.sum_sub_distrib]
    refine (Finset.abs_sum_le_sum_abs _ _).trans_lt ?_
    refine (Finset.sum_lt_sum_of_nonempty hne fun j hj => hx j hj).trans_eq ?_
    rw [Finset.sum_const, nsmul_eq_mul, mul_comm]

variable {d : Nat}

/-- The groups of a table whose rows are near the summaries of the inputs. -/
theorem pawn_group_near (S : Nat) (pb : Problem ℝ) (hD : pb.numVars = d) (gs : List String)
    (hg : pb.groups = some gs) (hne : gs ≠ pb.names) (h2 : ∃ a ∈ gs, ∃ b ∈ gs, a ≠ b) (hlen : gs.length = d) (X : Mat ℝ) (Y : List ℝ)
    (ε : ℝ) (v : Fin d → Fin S → ℝ) (res : List (PawnRow ℝ)) (nm : List String)
    (h : pawnAnalyze Real.sqrt { pb with groups := none } X Y S = .ok (res, nm)) (hl : res.length = d)
    (hr : ∀ j : Fin d, ∃ row, res[j.1]? = some row ∧ RowNear ε row (v j)) :
    ∃ rows names, pawnAnalyze Real.sqrt pb X Y S = .ok (rows, names) ∧ DistinctInOrder gs names ∧
      ∀ (k : Nat) (g : String), names[k]? = some g → ∃ row, rows[k]? = some row ∧
        GroupRowNear ε row (Finset.univ.filter fun j : Fin d => gs[j.1]? = some g) v := by
  have hpar : S ≠ 0 ∧ pawnParams Real.sqrt pb X Y S = .ok res := by
    unfold pawnAnalyze at h
    by_cases hS : S = 0
    · rw [if_pos hS] at h; cases h
    rw [if_neg hS] at h
    have e : pawnParams Real.sqrt { pb with groups := none } X Y S = pawnParams Real.sqrt pb X Y S := rfl
    rw [e] at h
    cases hp : pawnParams Real.sqrt pb X Y S with
    | error e => rw [hp] at h; cases h
    | ok r =>
      rw [hp] at h
      have hc : checkGroups { pb with groups := none } = none := rfl
      simp only [pyBind_ok, hc] at h
      cases h
      exact ⟨hS, rfl⟩
  have hc : checkGroups pb = some gs := by
    cases gs with
    | nil => obtain ⟨a, ha, -⟩ := h2; simp at ha
    | cons a l =>
      simp only [checkGroups, hg, if_neg hne]
      rw [if_neg]
      intro h1
      obtain ⟨c, hc⟩ := List.length_eq_one_iff.mp h1
      obtain ⟨x, hx, y, hy, hxy⟩ := h2
      rw [← mem_pdUnique, hc] at hx hy
      simp at hx hy
      exact hxy (hx.trans hy.symm)
  have hok : ∃ rows names, pawnAnalyze Real.sqrt pb X Y S = .ok (rows, names) := by
    unfold pawnAnalyze
    rw [if_neg hpar.1, hpar.2, hc]
    simp only [pyBind_ok]
    rw [if_neg (by rw [hlen, hl]; simp)]
    exact ⟨_, _, rfl⟩
  obtain ⟨rows, names, hrun⟩ := hok
  obtain ⟨hn, -, -, res', hres', hrow⟩ := C76_pawn_groups Real.sqrt pb gs hg hne h2 X Y S rows names hrun
  rw [hpar.2] at hres'
  cases hres'
  refine ⟨rows, names, hrun, hn, fun k g hk => ?_⟩
  obtain ⟨row, hrk, hmean⟩ := hrow k g hk
  refine ⟨row, hrk, ?_⟩
  have hgm : g ∈ gs := (hn.mem_iff g).mp (List.mem_of_getElem? hk)
  have hJ : (Finset.univ.filter fun j : Fin d => gs[j.1]? = some g) =
      Finset.univ.filter fun j : Fin d => decide (gs[j.1]? = some g) = true := by simp
  have hnon : (Finset.univ.filter fun j : Fin d => decide (gs[j.1]? = some g) = true).Nonempty := by
    obtain ⟨i, hi, he⟩ := List.getElem_of_mem hgm
    exact ⟨⟨i, hlen ▸ hi⟩, by simp [he, hi]⟩
  rw [hJ]
  rw [hlen] at hmean
  choose R hR1 hR2 using hr
  have key : ∀ (f : PawnRow ℝ → Num ℝ) (t : Fin d → ℝ),
      (∀ j ∈ Finset.univ.filter (fun j : Fin d => decide (gs[j.1]? = some g) = true), ∃ x, f (R j) = some x ∧ |x - t j| < ε) →
      ∃ x, npMeanN (((List.range d).filter fun d => decide (gs[d]? = some g)).map fun d => (res[d]?).bind f) = some x ∧
        |x - (∑ j ∈ Finset.univ.filter (fun j : Fin d => decide (gs[j.1]? = some g) = true), t j) /
          (Finset.univ.filter fun j : Fin d => decide (gs[j.1]? = some g) = true).card| < ε := by
    intro f t ht
    refine members_near (fun d => decide (gs[d]? = some g)) (fun d => (res[d]?).bind f) t ε hnon fun j hj => ?_
    obtain ⟨x, a, b⟩ := ht j hj
    exact ⟨x, by show (res[j.1]?).bind f = some x; rw [hR1 j]; exact a, b⟩
  subst hmean
  refine ⟨key _ _ fun j _ => (hR2 j).1, key _ _ fun j _ => (hR2 j).2.1, ?_, key _ _ fun j _ => (hR2 j).2.2.2.1,
    key _ _ fun j _ => (hR2 j).2.2.2.2.1, fun h0 => key _ _ fun j hj => (hR2 j).2.2.2.2.2 (h0 j hj)⟩
  choose xm mm h1 h2 h3 using fun j => (hR2 j).2.2.1
  obtain ⟨x, a, b⟩ := key (·.median) mm fun j _ => ⟨xm j, h1 j, h3 j⟩
  exact ⟨x, mm, a, fun j _ => h2 j, b⟩

/-- **C122**, groups.  With the inputs in groups the statistics reported for every group converge with probability one to the means over its
inputs of the statistics of the distances. -/
theorem C122_group (law : Measure (Fin d → ℝ)) [IsProbabilityMeasure law] (S : Nat) (hS : 0 < S) (p : Fin d → Nat → ℝ)
    (h : ∀ j, EqualParts law j S (p j)) (f : List ℝ → ℝ) (hf : Measurable fun x : Fin d → ℝ => f (List.ofFn x))
    (pb : Problem ℝ) (hD : pb.numVars = d) (gs : List String)
    (hg : pb.groups = some gs) (hne : gs ≠ pb.names) (h2 : ∃ a ∈ gs, ∃ b ∈ gs, a ≠ b) (hlen : gs.length = d)
    {Ω : Type} [MeasurableSpace Ω] (P : Measure Ω) (Z : ℕ → Ω → (Fin d → ℝ)) (hZ : RandomRows law P Z) :
    ∀ᵐ ω ∂P, ∀ ε > 0, ∃ N0, ∀ N ≥ N0, ∀ X, X = (firstRows Z N ω).map List.ofFn → ∃ rows names,
      pawnAnalyze Real.sqrt pb X (X.map f) S = .ok (rows, names) ∧ DistinctInOrder gs names ∧
      ∀ (k : Nat) (g : String), names[k]? = some g → ∃ row, rows[k]? = some row ∧
        GroupRowNear ε row (Finset.univ.filter fun j : Fin d => gs[j.1]? = some g)
          fun j (s : Fin S) => partDistance law (fun x => f (List.ofFn x)) j S (p j) s := by
  filter_upwards [C122_limit law S hS p h f hf { pb with groups := none } hD rfl P Z hZ] with ω hω ε hε
  obtain ⟨N0, hN⟩ := hω ε hε
  refine ⟨N0, fun N hN0 X hX => ?_⟩
  obtain ⟨res, h3, h4, h5⟩ := hN N hN0 X hX
  exact pawn_group_near S pb hD gs hg hne h2 hlen X (X.map f) ε _ res _ h3 h4 h5

/-- Three uniform inputs on [1, 3], the first and the third in one group; the output is the product of the first two. -/
example : ∀ᵐ ω ∂(Measure.infinitePi fun _ : ℕ => Measure.pi fun _ : Fin 3 => unifOn 1 3), ∀ ε > 0, ∃ N0, ∀ N ≥ N0, ∀ X,
    X = (firstRows (fun i ω => ω i) N ω).map List.ofFn → ∃ rows names,
      pawnAnalyze Real.sqrt ⟨["a", "b", "c"], [], some ["g", "h", "g"], none, 3, false⟩ X
        (X.map fun r => r.getD 0 0 * r.getD 1 0) 10 = .ok (rows, names) ∧ DistinctInOrder ["g", "h", "g"] names ∧
      ∀ (k : Nat) (g : String), names[k]? = some g → ∃ row, rows[k]? = some row ∧
        GroupRowNear ε row (Finset.univ.filter fun j : Fin 3 => ["g", "h", "g"][j.1]? = some g)
          fun j (s : Fin 10) => partDistance (Measure.pi fun _ : Fin 3 => unifOn 1 3)
            (fun x => (List.ofFn x).getD 0 0 * (List.ofFn x).getD 1 0) j 10 (fun s => 1 + (s : ℝ) / (10 : ℕ) * (3 - 1)) s := by
  have hp : IsProbabilityMeasure (unifOn 1 3) := isProb_unifOn (by norm_num)
  exact C122_group (d := 3) (Measure.pi fun _ => unifOn 1 3) 10 (by norm_num) _
    (equalParts_uniform (fun _ => 1) (fun _ => 3) (fun _ => by norm_num) · 10) (fun r => r.getD 0 0 * r.getD 1 0)
    (by simp only [List.ofFn_succ, List.getD_cons_zero, List.getD_cons_succ]; fun_prop)
    ⟨["a", "b", "c"], [], some ["g", "h", "g"], none, 3, false⟩ rfl ["g", "h", "g"] rfl (by decide)
    ⟨"g", by decide, "h", by decide, by decide⟩ rfl _ _ (randomRows_exist _)

end SALib
