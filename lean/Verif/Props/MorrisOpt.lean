import Verif.Lemmas.MorrisOpt
import Verif.Props.Morris

/-! # C33-C37: optimised Morris trajectories -/

set_option linter.unusedSectionVars false

namespace SALib
open Spec

variable {α : Type} [Field α] [LinearOrder α] [IsStrictOrderedRing α]

/-! ## C36: the distance -/

theorem sum_swap {β γ : Type} (f : β → γ → α) (m : List β) (l : List γ) :
    (m.map fun x => (l.map fun y => f x y).sum).sum = (l.map fun y => (m.map fun x => f x y).sum).sum := by
  induction m with
  | nil => simp
  | cons x m ih =>
    simp only [List.map_cons, List.sum_cons, ih]
    clear ih
    induction l with
    | nil => simp
    | cons y l ih2 =>
      simp only [List.map_cons, List.sum_cons]
      rw [← ih2]; ring

theorem zipWith_sq_comm (x y : List α) :
    List.zipWith (fun a b => (a - b) ^ 2) x y = List.zipWith (fun a b => (a - b) ^ 2) y x := by
  induction x generalizing y with
  | nil => simp
  | cons a x ih =>
    cases y with
    | nil => simp
    | cons b y =>
      simp only [List.zipWith_cons_cons, ih y, List.cons.injEq, and_true]
      ring

theorem trajDist_comm (sqrt : α → α) (m l : Mat α) : trajDist sqrt m l = trajDist sqrt l m := by
  unfold trajDist
  by_cases h : m = l
  · rw [if_pos h, if_pos h.symm]
  · rw [if_neg h, if_neg (fun h' => h h'.symm), sum_swap]
    simp only [zipWith_sq_comm]

theorem trajDist_nonneg (sqrt : α → α) (hs : ∀ x, 0 ≤ sqrt x) (m l : Mat α) : 0 ≤ trajDist sqrt m l := by
  unfold trajDist
  split
  · exact le_refl _
  · apply List.sum_nonneg
    intro v hv
    obtain ⟨x, -, rfl⟩ := List.mem_map.mp hv
    apply List.sum_nonneg
    intro w hw
    obtain ⟨y, -, rfl⟩ := List.mem_map.mp hw
    exact hs _

/-- **C36.** The distance of two trajectories is defined exactly for matrices of equal shape; it is then
symmetric, non-negative and zero for identical trajectories. -/
theorem C36_distance (sqrt : α → α) (hs : ∀ x, 0 ≤ sqrt x) (m l : Mat α) :
    computeDistance sqrt m l = computeDistance sqrt l m ∧
    (SameShape m l → ∃ d, computeDistance sqrt m l = .ok d ∧ 0 ≤ d) ∧
    (¬ SameShape m l → computeDistance sqrt m l = .error .valueError) ∧
    computeDistance sqrt m m = .ok 0 := by
  refine ⟨?_, fun h => ⟨_, computeDistance_ok sqrt m l h, trajDist_nonneg sqrt hs m l⟩, ?_, ?_⟩
  · by_cases h : SameShape m l
    · rw [computeDistance_ok sqrt m l h, computeDistance_ok sqrt l m h.symm, trajDist_comm]
    · have h' : ¬ SameShape l m := fun h' => h h'.symm
      unfold computeDistance
      unfold SameShape at h h'
      rw [if_pos h, if_pos h']
  · intro h
    unfold computeDistance
    unfold SameShape at h
    rw [if_pos h]
  · simp [computeDistance]

/-- **C36**, the matrix: both strategies tabulate this distance for every pair of trajectories, the local
one in both triangles, the brute-force one below the diagonal; the diagonal is zero. -/
theorem C36_matrix (sqrt : α → α) (N D g : Nat) (ts : List (Mat α)) (X : Mat α)
    (hX : IsSample N D g ts X) (hN : 0 < N) (hD : 0 < D) (hg : 0 < g) (localOpt : Bool) :
    ∃ dm, distanceMatrix sqrt X N D (some g) localOpt = .ok dm ∧ dm.length = N ∧ HasCols N dm ∧
      ∀ j < N, ∀ k < N, (k < j ∨ localOpt = true) → ∃ d, entry dm j k = some d ∧
        computeDistance sqrt (ts.getD j []) (ts.getD k []) = .ok d := by
  obtain ⟨dm, h1, h2, h3, h4, h5, h6⟩ := distanceMatrix_ok sqrt N D g ts X hX hN hD hg localOpt
  refine ⟨dm, h1, h2, h3, ?_⟩
  intro j hj k hk hjk
  have m1 := hX.getD_mem j hj
  have m2 := hX.getD_mem k hk
  refine ⟨_, ?_, computeDistance_ok sqrt _ _
    (sameShape_of D g _ _ (hX.rows _ m1) (hX.rows _ m2) (hX.cols _ m1) (hX.cols _ m2))⟩
  rcases lt_trichotomy j k with h | h | h
  · rcases hjk with h' | hl
    · omega
    · exact h5 hl j k h hk
  · subst h
    rw [h6 j hj]; simp [trajDist]
  · rw [h4 k j h hj, trajDist_comm]

/-! ## C33, C34: brute force -/

/-- Total distance of a selection of trajectories (root of the sum of squared pairwise distances). -/
def Spec.totalDist (sqrt : α → α) (ts : List (Mat α)) (c : List Nat) : α :=
  sqrt (pairSum (fun i j => trajDist sqrt (ts.getD i []) (ts.getD j []) ^ 2) c)

theorem totalDist_perm (sqrt : α → α) (ts : List (Mat α)) (c c' : List Nat) (h : c.Perm c') :
    totalDist sqrt ts c = totalDist sqrt ts c' := by
  unfold totalDist
  rw [pairSum_perm _ (fun x y => by rw [trajDist_comm]) c c' h]

theorem pairwiseIdx_sum (f : Nat → Nat → α) (c : List Nat) :
    ((pairwiseIdx c.length).map fun ab => f (c.getD ab.1 0) (c.getD ab.2 0)).sum = pairSum f c := by
  rw [← sum_combinations_two]
  have hc : (List.range c.length).map (fun i => c.getD i 0) = c := by
    apply List.ext_getElem
    · simp
    · intro i h1 h2
      simp [List.getD_eq_getElem?_getD, h2]
  conv_rhs => rw [← hc]
  rw [← combinations_map]
  unfold pairwiseIdx
  rw [List.map_map, List.map_map]
  congr 1
  apply List.map_congr_left
  intro d hd
  rw [mem_combinations] at hd
  have hl := hd.2
  match d, hl with
  | [a, b], _ => simp

theorem mem_pairwiseIdx (k : Nat) (ab : Nat × Nat) (h : ab ∈ pairwiseIdx k) : ab.1 < ab.2 ∧ ab.2 < k := by
  unfold pairwiseIdx at h
  obtain ⟨d, hd, rfl⟩ := List.mem_map.mp h
  obtain ⟨h1, h2, h3⟩ := combinations_range_sorted k 2 d hd
  match d, h3 with
  | [a, b], _ =>
    simp at h1 h2 ⊢
    exact ⟨h1, h2.2⟩

theorem mappable_ok (sqrt : α → α) (N k : Nat) (ts : List (Mat α)) (dm : Mat α)
    (hdm : ∀ j k, j < k → k < N → entry dm k j = some (trajDist sqrt (ts.getD j []) (ts.getD k [])))
    (cs : List (List Nat)) (hcs : ∀ c ∈ cs, c.Pairwise (· < ·) ∧ (∀ i ∈ c, i < N) ∧ c.length = k) :
    mappable sqrt cs (pairwiseIdx k) dm = .ok (cs.map (totalDist sqrt ts)) := by
  unfold mappable
  apply mapM_ok_of
  intro c hc
  obtain ⟨h1, h2, h3⟩ := hcs c hc
  have hp : (pairwiseIdx k).mapM (pairDistance dm c) = .ok ((pairwiseIdx k).map fun ab =>
      trajDist sqrt (ts.getD (c.getD ab.1 0) []) (ts.getD (c.getD ab.2 0) [])) := by
    apply mapM_ok_of
    intro ab hab
    obtain ⟨ha, hb⟩ := mem_pairwiseIdx k ab hab
    have e1 : c[ab.1]? = some (c.getD ab.1 0) := by
      rw [List.getD_eq_getElem?_getD, List.getElem?_eq_getElem (by omega)]; rfl
    have e2 : c[ab.2]? = some (c.getD ab.2 0) := by
      rw [List.getD_eq_getElem?_getD, List.getElem?_eq_getElem (by omega)]; rfl
    unfold pairDistance
    rw [e1, e2]
    apply getCell_ok
    apply hdm
    · have := List.pairwise_iff_getElem.mp h1 ab.1 ab.2 (by omega) (by omega) ha
      rw [List.getD_eq_getElem?_getD, List.getElem?_eq_getElem (by omega),
        List.getD_eq_getElem?_getD, List.getElem?_eq_getElem (by omega)]
      exact this
    · exact h2 _ (List.mem_of_getElem? e2)
  rw [hp, pyBind_ok]
  simp only [pyPure]
  congr 1
  unfold totalDist
  congr 1
  subst h3
  rw [List.map_map, ← pairwiseIdx_sum]
  congr 1
  apply List.map_congr_left
  intro ab _
  simp only [Function.comp, pow_two]

theorem grouper_loop (f : List (List Nat) → Py (List α)) (sc : List Nat → α) (chunk : Nat) (hchunk : 0 < chunk)
    (fuel : Nat) (l : List (List Nat)) (hf : ∀ cs, (∀ c ∈ cs, c ∈ l) → f cs = .ok (cs.map sc))
    (hfuel : l.length < fuel) (counter : Nat) (pre : List α)
    (hpre : l = [] ∨ pre.length = counter * chunk) :
    ((grouper fuel chunk l).zipIdx counter).foldlM (fun scores (cs, counter) => do
      let vals ← f cs
      sliceAssign scores (counter * chunk) ((counter + 1) * chunk) vals) (pre ++ List.replicate l.length 0) =
    .ok (pre ++ l.map sc) := by
  induction fuel generalizing l counter pre with
  | zero => omega
  | succ fuel ih =>
    by_cases hl : l = []
    · subst hl; simp [grouper]
    · have hpre : pre.length = counter * chunk := hpre.resolve_left hl
      have hpos : 0 < l.length := List.length_pos_of_ne_nil hl
      have htake : l.take chunk ≠ [] := by
        intro h
        have := congrArg List.length h
        rw [List.length_take, List.length_nil] at this
        omega
      rw [grouper, if_neg htake, List.zipIdx_cons, List.foldlM_cons]
      simp only [hf (l.take chunk) (fun c hc => List.mem_of_mem_take hc), pyBind_ok]
      have hslice : sliceAssign (pre ++ List.replicate l.length 0) (counter * chunk) ((counter + 1) * chunk)
          ((l.take chunk).map sc) =
          .ok (pre ++ (l.take chunk).map sc ++ List.replicate (l.drop chunk).length 0) := by
        unfold sliceAssign
        rw [if_pos]
        · congr 1
          rw [← hpre, List.take_left, List.drop_append]
          simp only [List.length_map, List.length_take, List.length_drop, List.drop_replicate]
          rw [List.drop_eq_nil_of_le (by omega), List.nil_append]
          congr 2
          omega
        · simp only [List.length_append, List.length_replicate, List.length_map, List.length_take, hpre,
            Nat.add_mul, one_mul]
          omega
      rw [hslice, pyBind_ok]
      have := ih (l.drop chunk) (fun cs h => hf cs (fun c hc => List.mem_of_mem_drop (h c hc)))
        (by rw [List.length_drop]; omega) (counter + 1) (pre ++ (l.take chunk).map sc) (by
          by_cases hd : l.drop chunk = []
          · exact Or.inl hd
          · right
            rw [List.drop_eq_nil_iff] at hd
            rw [List.length_append, List.length_map, List.length_take, hpre, Nat.add_mul, one_mul]
            omega)
      rw [this, List.append_assoc, ← List.map_append, List.take_append_drop]

theorem findMostDistant_ok (sqrt : α → α) (maxChunk : Nat) (hmax : 0 < maxChunk) (N D g k : Nat)
    (ts : List (Mat α)) (X : Mat α) (hX : IsSample N D g ts X) (hN : 0 < N) (hD : 0 < D) (hg : 0 < g)
    (hk : k ≤ N) (hsmall : N.choose k < 2 ^ 63 - 1) :
    findMostDistant sqrt maxChunk X N D k (some g) =
      .ok ((combinations k (List.range N)).map (totalDist sqrt ts)) := by
  obtain ⟨dm, h1, -, -, h4, -, -⟩ := distanceMatrix_ok sqrt N D g ts X hX hN hD hg false
  have hpos : 0 < N.choose k := Nat.choose_pos hk
  unfold findMostDistant
  rw [if_neg (by unfold sysMaxsize; omega)]
  simp only [h1, pyBind_ok]
  have hlen : (combinations k (List.range N)).length = N.choose k := by
    rw [length_combinations, List.length_range]
  have := grouper_loop (fun cs => mappable sqrt cs (pairwiseIdx k) dm) (totalDist sqrt ts)
    (if maxChunk > N.choose k then N.choose k else maxChunk) (by split <;> omega)
    ((combinations k (List.range N)).length + 1) (combinations k (List.range N))
    (fun cs hcs => mappable_ok sqrt N k ts dm h4 cs (fun c hc => combinations_range_sorted N k c (hcs c hc)))
    (by omega) 0 [] (Or.inr (by simp))
  rw [hlen] at this
  simpa [hlen] using this

theorem insertionSort_eq_self (c : List Nat) (h : c.Pairwise (· < ·)) : c.insertionSort (· ≤ ·) = c := by
  exact List.Pairwise.insertionSort_eq (h.imp (fun hab => le_of_lt hab))

/-- **C34.** For every sample, every `k ≤ N` and every chunk size, the brute-force strategy returns `k`
different trajectory numbers whose total distance is at least that of any other choice of `k` different
trajectories. -/
theorem C34_brute_force_optimal (sqrt : α → α) (maxChunk : Nat) (hmax : 0 < maxChunk) (N D g k : Nat)
    (ts : List (Mat α)) (X : Mat α) (hX : IsSample N D g ts X) (hN : 0 < N) (hD : 0 < D) (hg : 0 < g)
    (hk : k ≤ N) (hsmall : N.choose k < 2 ^ 63 - 1) :
    ∃ best, bruteForce sqrt maxChunk X N D k (some g) = .ok best ∧ best.length = k ∧ best.Nodup ∧
      (∀ i ∈ best, i < N) ∧
      ∀ c : List Nat, c.length = k → c.Nodup → (∀ i ∈ c, i < N) →
        totalDist sqrt ts c ≤ totalDist sqrt ts best := by
  have hpos : 0 < N.choose k := Nat.choose_pos hk
  have hlen : (combinations k (List.range N)).length = N.choose k := by
    rw [length_combinations, List.length_range]
  unfold bruteForce
  rw [findMostDistant_ok sqrt maxChunk hmax N D g k ts X hX hN hD hg hk hsmall, pyBind_ok]
  obtain ⟨i, v, h1, h2, h3⟩ := argmax_some ((combinations k (List.range N)).map (totalDist sqrt ts)) (by
    intro h
    have := congrArg List.length h
    simp at this
    rw [this] at hlen
    simp at hlen
    omega)
  unfold findMaximum
  rw [h1]
  rw [List.getElem?_map] at h2
  cases hc : (combinations k (List.range N))[i]? with
  | none => rw [hc] at h2; cases h2
  | some best =>
    rw [hc] at h2
    simp only [Option.map_some, Option.some.injEq] at h2
    obtain ⟨g1, g2, g3⟩ := combinations_range_sorted N k best (List.mem_of_getElem? hc)
    refine ⟨best, by simp only [hc, insertionSort_eq_self best g1], g3, g1.imp (fun h => ne_of_lt h), g2, ?_⟩
    intro c hcl hcn hcN
    rw [h2]
    apply h3
    rw [totalDist_perm sqrt ts c _ (List.perm_insertionSort (· ≤ ·) c).symm]
    apply List.mem_map_of_mem
    have := sort_mem_combinations N c hcn hcN
    rw [hcl] at this
    exact this

/-! ## C35: local search -/

/-- `ndarray.argsort()`: a permutation of the positions that puts the entries in ascending order. -/
def Spec.ValidArgsort (argsort : List α → List Nat) : Prop :=
  ∀ l, (argsort l).Perm (List.range l.length) ∧
    (argsort l).Pairwise fun a b => ∀ x y, l[a]? = some x → l[b]? = some y → x ≤ y

theorem sumDistances_ok (sqrt : α → α) (idx : List Nat) (dm : Mat α) (N : Nat) (hl : dm.length = N)
    (hc : HasCols N dm) (hi : ∀ i ∈ idx, i < N) : ∃ d, sumDistances sqrt idx dm = .ok d := by
  unfold sumDistances
  have hget : ∀ i < N, ∀ j < N, ∃ v, getCell dm i j = .ok v := by
    intro i hi j hj
    have hrow := hc _ (List.getElem_mem (by omega : i < dm.length))
    refine ⟨_, getCell_ok dm i j ((dm[i]'(by omega))[j]'(by omega)) ?_⟩
    unfold entry
    rw [List.getElem?_eq_getElem (by omega), Option.bind_some, List.getElem?_eq_getElem (by omega)]
  have hall : ∀ c ∈ combinations 2 idx, ∃ v, getCell dm (c.getD 0 0) (c.getD 1 0) = .ok v := by
    intro c hc
    rw [mem_combinations] at hc
    obtain ⟨h1, h2⟩ := hc
    match c, h2 with
    | [a, b], _ => exact hget a (hi a (h1.subset (by simp))) b (hi b (h1.subset (by simp)))
  cases hm : (combinations 2 idx).mapM fun c => getCell dm (c.getD 0 0) (c.getD 1 0) with
  | error e =>
    obtain ⟨c, hc, he⟩ := mapM_error _ _ _ hm
    obtain ⟨v, hv⟩ := hall c hc
    rw [hv] at he; cases he
  | ok ds => exact ⟨_, rfl⟩

theorem mapM_exists_ok {β γ : Type} (f : β → Py γ) (l : List β) (h : ∀ a ∈ l, ∃ b, f a = .ok b) :
    ∃ r, l.mapM f = .ok r ∧ r.length = l.length := by
  cases hm : l.mapM f with
  | error e =>
    obtain ⟨a, ha, he⟩ := mapM_error _ _ _ hm
    obtain ⟨b, hb⟩ := h a ha
    rw [hb] at he; cases he
  | ok r => exact ⟨r, rfl, ((mapM_ok_iff _ _ _).mp hm).length_eq.symm⟩

theorem getMaxSumInd_mem (argsort : List α → List Nat) (ha : ValidArgsort argsort) (idxs : List (List Nat))
    (dists : List α) (hl : dists.length = idxs.length) (hne : idxs ≠ []) :
    ∃ t ∈ idxs, getMaxSumInd argsort idxs dists = .ok t := by
  unfold getMaxSumInd
  rw [if_neg (by omega)]
  obtain ⟨hp, -⟩ := ha dists
  have hpos : 0 < idxs.length := List.length_pos_of_ne_nil hne
  have hne' : argsort dists ≠ [] := by
    intro h
    have := hp.length_eq
    rw [h, List.length_range, List.length_nil] at this
    omega
  rw [List.getLast?_eq_some_getLast hne']
  have hlt : (argsort dists).getLast hne' < idxs.length := by
    have := List.mem_range.mp (hp.mem_iff.mp (List.getLast_mem hne'))
    omega
  simp only [List.getElem?_eq_getElem hlt]
  exact ⟨_, List.getElem_mem hlt, rfl⟩

/-- The tuples the local search works with: `n` entries, all valid, and distinct if `distinct`. -/
structure Tuple (N n : Nat) (distinct : Prop) (t : List Nat) : Prop where
  len : t.length = n
  lt : ∀ i ∈ t, i < N
  nd : distinct → t.Nodup

theorem growStep_ok (sqrt : α → α) (argsort : List α → List Nat) (ha : ValidArgsort argsort) (dm : Mat α)
    (N n : Nat) (distinct : Prop) (hl : dm.length = N) (hc : HasCols N dm) (idx : List Nat)
    (ht : Tuple N n distinct idx) (hn : n < N) :
    ∃ t, growStep sqrt argsort dm idx = .ok t ∧ Tuple N (n + 1) distinct t := by
  have hmem : ∀ t ∈ addIndices idx dm, Tuple N (n + 1) distinct t := by
    intro t h
    unfold addIndices at h
    obtain ⟨i, hi, rfl⟩ := List.mem_map.mp h
    rw [List.mem_filter, List.mem_range, hl] at hi
    obtain ⟨hi1, hi2⟩ := hi
    have hi2 : i ∉ idx := by simpa using hi2
    refine ⟨by simp [ht.len], ?_, ?_⟩
    · intro j hj
      rcases List.mem_append.mp hj with hj | hj
      · exact ht.lt j hj
      · rw [List.mem_singleton] at hj; omega
    · intro hd
      rw [List.nodup_append]
      refine ⟨ht.nd hd, by simp, ?_⟩
      intro a h1 b h2
      rw [List.mem_singleton] at h2
      rintro rfl
      exact hi2 (h2 ▸ h1)
  have hne : addIndices idx dm ≠ [] := by
    intro h
    unfold addIndices at h
    rw [List.map_eq_nil_iff, List.filter_eq_nil_iff] at h
    have hsub : List.range N ⊆ idx := by
      intro i hi
      have := h i (by rw [hl]; exact hi)
      simpa using this
    have := (List.nodup_range (n := N)).subperm hsub |>.length_le
    rw [List.length_range, ht.len] at this
    omega
  obtain ⟨ms, h1, h2⟩ := mapM_exists_ok (fun t => sumDistances sqrt t dm) (addIndices idx dm)
    (fun t h => sumDistances_ok sqrt t dm N hl hc (hmem t h).lt)
  obtain ⟨t, h3, h4⟩ := getMaxSumInd_mem argsort ha (addIndices idx dm) ms h2 hne
  refine ⟨t, ?_, hmem t h3⟩
  unfold growStep
  simp only [h1, pyBind_ok, h4]

theorem growLoop_ok (sqrt : α → α) (argsort : List α → List Nat) (ha : ValidArgsort argsort) (dm : Mat α)
    (N : Nat) (distinct : Prop) (hl : dm.length = N) (hc : HasCols N dm) (m n : Nat) (idx : List Nat)
    (ht : Tuple N n distinct idx) (hn : n + m ≤ N) :
    ∃ t, (List.range m).foldlM (fun idx _ => growStep sqrt argsort dm idx) idx = .ok t ∧
      Tuple N (n + m) distinct t := by
  induction m with
  | zero => exact ⟨idx, rfl, ht⟩
  | succ m ih =>
    obtain ⟨t, h1, h2⟩ := ih (by omega)
    obtain ⟨t', h3, h4⟩ := growStep_ok sqrt argsort ha dm N (n + m) distinct hl hc t h2 (by omega)
    refine ⟨t', ?_, h4⟩
    rw [List.range_succ, List.foldlM_append, h1, pyBind_ok, List.foldlM_cons, h3, pyBind_ok]
    rfl

theorem topIndices_tuple (argsort : List α → List Nat) (ha : ValidArgsort argsort) (row : List α) (N i r : Nat)
    (hrow : row.length = N) (hi : i < N) (hr : r < N) (distinct : Prop)
    (hd : distinct → ∃ z, row[r]? = some z ∧ ∀ j y, j ≠ r → row[j]? = some y → z < y) :
    Tuple N (i + 1) distinct (topIndices argsort row i r) := by
  obtain ⟨hp, hs⟩ := ha row
  have hl : (argsort row).length = N := by rw [hp.length_eq, List.length_range, hrow]
  have hnd : (argsort row).Nodup := hp.nodup_iff.mpr List.nodup_range
  unfold topIndices
  refine ⟨?_, ?_, ?_⟩
  · simp only [List.length_append, List.length_reverse, List.length_drop, List.length_singleton, hl]
    omega
  · intro j hj
    rcases List.mem_append.mp hj with hj | hj
    · have := List.mem_of_mem_drop (List.mem_reverse.mp hj)
      have := List.mem_range.mp (hp.mem_iff.mp this)
      omega
    · rw [List.mem_singleton] at hj; omega
  · intro hdist
    obtain ⟨z, hz, hmin⟩ := hd hdist
    rw [List.nodup_append]
    refine ⟨List.nodup_reverse.mpr (hnd.sublist (List.drop_sublist _ _)), by simp, ?_⟩
    intro a h1 b h2
    rw [List.mem_singleton] at h2
    subst h2
    rintro rfl
    rw [List.mem_reverse] at h1
    -- the first sorted position holds another index, whose entry is not larger
    have hsplit := List.take_append_drop ((argsort row).length - i) (argsort row)
    have htl : 0 < ((argsort row).take ((argsort row).length - i)).length := by
      rw [List.length_take]; omega
    obtain ⟨f, hf⟩ := List.exists_mem_of_length_pos htl
    rw [← hsplit] at hs hnd
    have h3 := (List.pairwise_append.mp hs).2.2 f hf a h1
    have h4 : f ≠ a := (List.nodup_append.mp hnd).2.2 f hf a h1
    have hfl : f < row.length := by
      exact List.mem_range.mp (hp.mem_iff.mp (List.mem_of_mem_take hf))
    have h5 := hmin f _ h4 (List.getElem?_eq_getElem hfl)
    have h6 := h3 _ _ (List.getElem?_eq_getElem hfl) hz
    exact absurd h6 (not_le.mpr h5)

theorem findLocalMaximum_ok (sqrt : α → α) (argsort : List α → List Nat) (ha : ValidArgsort argsort)
    (N D g k : Nat) (ts : List (Mat α)) (X : Mat α) (hX : IsSample N D g ts X) (hD : 0 < D)
    (hg : 0 < g) (hk2 : 2 ≤ k) (hk : k < N) :
    ∃ best, findLocalMaximum sqrt argsort X N D k (some g) = .ok best ∧ best.length = k ∧
      (∀ i ∈ best, i < N) ∧
      ((∀ i < N, ∀ j < N, i ≠ j → 0 < trajDist sqrt (ts.getD i []) (ts.getD j [])) → best.Nodup) := by
  obtain ⟨dm, h1, hl, hc, h4, h5, h6⟩ := distanceMatrix_ok sqrt N D g ts X hX (by omega) hD hg true
  let distinct : Prop := ∀ i < N, ∀ j < N, i ≠ j → 0 < trajDist sqrt (ts.getD i []) (ts.getD j [])
  have hpass : ∀ i ∈ List.range' 1 (k - 1), ∃ td, localPass sqrt argsort dm k i = .ok td ∧
      Tuple N k distinct td.1 := by
    intro i hi
    rw [List.mem_range'_1] at hi
    have hmem : ∀ t ∈ dm.zipIdx.map (fun (row, r) => topIndices argsort row i r),
        Tuple N (i + 1) distinct t := by
      intro t ht
      obtain ⟨⟨row, r⟩, hr, rfl⟩ := List.mem_map.mp ht
      rw [List.mem_zipIdx_iff_getElem?] at hr
      simp only at hr
      have hrN : r < N := by rw [← hl]; exact (List.getElem?_eq_some_iff.mp hr).1
      refine topIndices_tuple argsort ha row N i r (hc row (List.mem_of_getElem? hr)) (by omega) hrN distinct ?_
      intro hdist
      have hent : ∀ j, row[j]? = entry dm r j := by intro j; unfold entry; rw [hr, Option.bind_some]
      refine ⟨0, by rw [hent, h6 r hrN], ?_⟩
      intro j y hj hy
      have hjN : j < N := by
        rw [← hc row (List.mem_of_getElem? hr)]; exact (List.getElem?_eq_some_iff.mp hy).1
      rw [hent] at hy
      rcases lt_or_gt_of_ne hj with h | h
      · rw [h4 j r h hrN] at hy
        rw [← Option.some.inj hy]; exact hdist j hjN r hrN hj
      · rw [h5 rfl r j h hjN] at hy
        rw [← Option.some.inj hy]; exact hdist r hrN j hjN (Ne.symm hj)
    obtain ⟨ms, m1, m2⟩ := mapM_exists_ok (fun t => sumDistances sqrt t dm)
      (dm.zipIdx.map (fun (row, r) => topIndices argsort row i r))
      (fun t h => sumDistances_ok sqrt t dm N hl hc (hmem t h).lt)
    obtain ⟨t, m3, m4⟩ := getMaxSumInd_mem argsort ha _ ms m2 (by
      intro h
      have := congrArg List.length h
      simp only [List.length_map, List.length_zipIdx, List.length_nil] at this
      omega)
    obtain ⟨fin, m5, m6⟩ := growLoop_ok sqrt argsort ha dm N distinct hl hc (k - i - 1) (i + 1) t (hmem t m3)
      (by omega)
    rw [show i + 1 + (k - i - 1) = k by omega] at m6
    obtain ⟨d, m7⟩ := sumDistances_ok sqrt fin dm N hl hc m6.lt
    refine ⟨(fin, d), ?_, m6⟩
    unfold localPass
    simp only [m1, pyBind_ok, m4, m5, m7, pyPure]
  obtain ⟨tot, t1, t2⟩ := mapM_exists_ok (fun i => localPass sqrt argsort dm k i) (List.range' 1 (k - 1))
    (fun i hi => by obtain ⟨td, h, -⟩ := hpass i hi; exact ⟨td, h⟩)
  have ttup : ∀ t ∈ tot.map Prod.fst, Tuple N k distinct t := by
    intro t ht
    obtain ⟨td, htd, rfl⟩ := List.mem_map.mp ht
    have hf := (mapM_ok_iff _ _ _).mp t1
    obtain ⟨n, hn, rfl⟩ := List.getElem_of_mem htd
    have hn' : n < (List.range' 1 (k - 1)).length := by omega
    have := (List.forall₂_iff_get.mp hf).2 n hn' hn
    simp only [List.get_eq_getElem] at this
    obtain ⟨td', e1, e2⟩ := hpass _ (List.getElem_mem hn')
    rw [e1] at this
    cases this
    exact e2
  obtain ⟨best, b1, b2⟩ := getMaxSumInd_mem argsort ha (tot.map Prod.fst) (tot.map Prod.snd) (by simp) (by
    intro h
    have := congrArg List.length h
    simp only [List.length_map, List.length_nil, t2, List.length_range'] at this
    omega)
  have hb := ttup best b1
  have hp := List.perm_insertionSort (· ≤ ·) best
  refine ⟨best.insertionSort (· ≤ ·), ?_, by rw [hp.length_eq]; exact hb.len,
    fun i hi => hb.lt i (hp.mem_iff.mp hi), fun h => hp.nodup_iff.mpr (hb.nd h)⟩
  unfold findLocalMaximum
  simp only [h1, pyBind_ok, t1, b2, pyPure]

/-- **C35** (partial): the local search always returns `k` trajectory numbers below `N`; they are all
different provided no two trajectories of the initial sample have distance zero.  Missing: distinctness
without that proviso, which is false (`C35_duplicates`). -/
theorem C35_local_distinct_partial (sqrt : α → α) (argsort : List α → List Nat) (ha : ValidArgsort argsort)
    (N D g k : Nat) (ts : List (Mat α)) (X : Mat α) (hX : IsSample N D g ts X) (hD : 0 < D)
    (hg : 0 < g) (hk2 : 2 ≤ k) (hk : k < N) :
    ∃ best, findLocalMaximum sqrt argsort X N D k (some g) = .ok best ∧ best.length = k ∧
      (∀ i ∈ best, i < N) ∧
      ((∀ i < N, ∀ j < N, i ≠ j → trajDist sqrt (ts.getD i []) (ts.getD j []) ≠ 0) →
        (∀ x, 0 ≤ sqrt x) → best.Nodup) := by
  obtain ⟨best, h1, h2, h3, h4⟩ := findLocalMaximum_ok sqrt argsort ha N D g k ts X hX hD hg hk2 hk
  exact ⟨best, h1, h2, h3, fun h hs => h4 fun i hi j hj hij =>
    lt_of_le_of_ne (trajDist_nonneg sqrt hs _ _) (Ne.symm (h i hi j hj hij))⟩

/-- A stable ascending argsort (what NumPy uses on short arrays). -/
def Spec.stableArgsort (l : List α) : List Nat :=
  (List.range l.length).insertionSort fun a b => l.getD a 0 ≤ l.getD b 0

theorem stableArgsort_valid : ValidArgsort (stableArgsort (α := α)) := by
  intro l
  refine ⟨List.perm_insertionSort _ _, ?_⟩
  haveI : Std.Total (fun a b : Nat => l.getD a 0 ≤ l.getD b 0) := ⟨fun a b => le_total _ _⟩
  haveI : IsTrans Nat (fun a b : Nat => l.getD a 0 ≤ l.getD b 0) := ⟨fun a b c h1 h2 => le_trans h1 h2⟩
  have := List.pairwise_insertionSort (fun a b : Nat => l.getD a 0 ≤ l.getD b 0) (List.range l.length)
  refine this.imp ?_
  intro a b hab x y hx hy
  rw [List.getD_eq_getElem?_getD, List.getD_eq_getElem?_getD, hx, hy] at hab
  exact hab

/-- **C35 fails on ties**: with three equal trajectories the local search selects number 2 twice. -/
theorem C35_duplicates :
    let T : Mat ℚ := [[0], [1]]
    let X : Mat ℚ := T ++ T ++ T
    IsSample 3 1 1 [T, T, T] X ∧ ValidArgsort (stableArgsort (α := ℚ)) ∧
    findLocalMaximum (fun x => x) stableArgsort X 3 1 2 (some 1) = .ok [2, 2] := by
  intro T X
  refine ⟨⟨rfl, rfl, ?_, ?_⟩, stableArgsort_valid, by decide +kernel⟩
  · intro M hM; simp only [List.mem_cons, List.not_mem_nil, or_false, or_self] at hM; subst hM; rfl
  · intro M hM; simp only [List.mem_cons, List.not_mem_nil, or_false, or_self] at hM; subst hM
    intro row hr; simp only [T, List.mem_cons, List.not_mem_nil, or_false] at hr
    rcases hr with rfl | rfl <;> rfl

/-! ## C33, C37: whole trajectories, argument checks -/

/-- All coordinates are in [0,1]. -/
def Spec.UnitRange (X : Mat α) : Prop := ∀ row ∈ X, ∀ x ∈ row, 0 ≤ x ∧ x ≤ 1

theorem unit_check (X : Mat α) (h : UnitRange X) :
    X.any (fun row => row.any fun x => decide (x < 0) || decide (1 < x)) = false := by
  rw [List.any_eq_false]
  intro row hr
  rw [List.any_eq_true]
  rintro ⟨x, hx, hb⟩
  have := h row hr x hx
  simp only [Bool.or_eq_true, decide_eq_true_eq] at hb
  rcases hb with hb | hb
  · exact absurd this.1 (not_le.mpr hb)
  · exact absurd this.2 (not_le.mpr hb)

/-- What the optimiser accepts: local search needs `2 ≤ k < N`; brute force also `k ≤ 10` and a number of
combinations below `sys.maxsize`. -/
def Spec.Accepted (N : Nat) (k : Int) (localOpt : Bool) : Prop :=
  2 ≤ k ∧ k < N ∧ (localOpt = false → k ≤ 10 ∧ N.choose k.toNat < 2 ^ 63 - 1)

/-- **C33.** An accepted number `k` of optimal trajectories yields the concatenation of exactly `k` of the
initial trajectories, unmodified; with brute force they are `k` different ones. -/
theorem C33_whole_trajectories (sqrt : α → α) (argsort : List α → List Nat) (ha : ValidArgsort argsort)
    (groups : List String) (N D g : Nat) (ts : List (Mat α)) (X : Mat α) (hX : IsSample N D g ts X)
    (hg : ∃ names, DistinctInOrder groups names ∧ names.length = g)
    (hD : 0 < D) (hg0 : 0 < g) (hu : UnitRange X) (k : Int) (localOpt : Bool) (hk : Accepted N k localOpt) :
    ∃ combo : List Nat, optimiseStep sqrt argsort X groups D N (.int k) localOpt =
        .ok ((combo.map fun c => ts.getD c []).flatten) ∧
      combo.length = k.toNat ∧ (∀ c ∈ combo, c < N) ∧ (localOpt = false → combo.Nodup) := by
  obtain ⟨hk2, hkN, hb⟩ := hk
  have hgl : (pdUnique groups).length = g := by
    obtain ⟨names, hd, rfl⟩ := hg
    have hd' := pdUnique_distinct groups
    exact ((List.perm_ext_iff_of_nodup hd'.nodup hd.nodup).mpr fun x => by
      rw [hd'.mem_iff, hd.mem_iff]).length_eq
  have hcombo : ∃ combo : List Nat,
      (if localOpt then findLocalMaximum sqrt argsort X N D k.toNat (some g)
        else bruteForce sqrt 1000000 X N D k.toNat (some g)) = .ok combo ∧
      combo.length = k.toNat ∧ (∀ c ∈ combo, c < N) ∧ (localOpt = false → combo.Nodup) := by
    cases localOpt with
    | true =>
      obtain ⟨b, h1, h2, h3, -⟩ := findLocalMaximum_ok sqrt argsort ha N D g k.toNat ts X hX hD hg0
        (by omega) (by omega)
      exact ⟨b, by simpa using h1, h2, h3, by simp⟩
    | false =>
      obtain ⟨b, h1, h2, h3, h4, -⟩ := C34_brute_force_optimal sqrt 1000000 (by norm_num) N D g k.toNat ts X hX
        (by omega) hD hg0 (by omega) (hb rfl).2
      exact ⟨b, by simpa using h1, h2, h4, fun _ => h3⟩
  obtain ⟨combo, h1, h2, h3, h4⟩ := hcombo
  refine ⟨combo, ?_, h2, h3, h4⟩
  unfold optimiseStep
  simp only
  rw [if_neg (by omega), if_neg (by omega)]
  unfold optimisedTrajectories
  have h10 : ¬ (localOpt = false ∧ 10 < k) := by
    rintro ⟨h, h'⟩; have := (hb h).1; omega
  rw [if_neg h10, unit_check X hu]
  simp only [Bool.false_eq_true, if_false]
  unfold strategySample
  have hrc : runChecks N k = .ok () := by
    unfold runChecks; rw [if_neg (by omega), if_neg (by omega)]
  rw [hrc, hgl, pyBind_ok]
  have hfin : ((if localOpt then findLocalMaximum sqrt argsort X N D k.toNat (some g)
        else bruteForce sqrt 1000000 X N D k.toNat (some g)) >>= fun combo =>
          compileOutput X N D combo (some g)) = compileOutput X N D combo (some g) := by
    rw [h1, pyBind_ok]
  have hjp : ∀ (b : Bool) (x y : Py (List Nat)) (f : List Nat → Py (Mat α)),
      (if b then x >>= f else y >>= f) = (if b then x else y) >>= f := by
    intro b x y f; cases b <;> rfl
  refine (hjp localOpt _ _ _).trans (hfin.trans ?_)
  exact compileOutput_ok N D g ts X hX (by omega) hD combo h3 (by omega)

/-- **C37** (partial): for an integer `k ≠ 0` optimisation succeeds exactly when `k` is acceptable, and
otherwise `ValueError` is raised.  The claim as stated misses two corners of the code: `k = 0` switches
optimisation off instead of being rejected, and a non-integer fails an assertion instead when brute force
is selected (`C37_corners`); brute force also rejects too many combinations. -/
theorem C37_accept_iff_partial (sqrt : α → α) (argsort : List α → List Nat) (ha : ValidArgsort argsort)
    (groups : List String) (N D g : Nat) (ts : List (Mat α)) (X : Mat α) (hX : IsSample N D g ts X)
    (hg : ∃ names, DistinctInOrder groups names ∧ names.length = g)
    (hD : 0 < D) (hg0 : 0 < g) (hu : UnitRange X) (k : Int) (hk0 : k ≠ 0) (localOpt : Bool) :
    ((∃ Y, optimiseStep sqrt argsort X groups D N (.int k) localOpt = .ok Y) ↔ Accepted N k localOpt) ∧
    (¬ Accepted N k localOpt →
      optimiseStep sqrt argsort X groups D N (.int k) localOpt = .error .valueError) := by
  have hrej : ¬ Accepted N k localOpt →
      optimiseStep sqrt argsort X groups D N (.int k) localOpt = .error .valueError := by
    intro hna
    unfold optimiseStep
    simp only
    rw [if_neg hk0]
    by_cases h1 : localOpt = true ∧ (N : Int) < k
    · rw [if_pos h1]
    rw [if_neg h1]
    unfold optimisedTrajectories
    by_cases h2 : localOpt = false ∧ 10 < k
    · rw [if_pos h2]
    rw [if_neg h2, unit_check X hu]
    simp only [Bool.false_eq_true, if_false]
    unfold strategySample runChecks
    by_cases h3 : k < 2
    · rw [if_pos h3]; rfl
    rw [if_neg h3]
    by_cases h4 : (N : Int) ≤ k
    · rw [if_pos h4]; rfl
    rw [if_neg h4]
    simp only [pyBind_ok]
    have hl : localOpt = false := by
      cases localOpt with
      | false => rfl
      | true => exact absurd ⟨by omega, by omega, by simp⟩ hna
    have h5 : ¬ N.choose k.toNat < 2 ^ 63 - 1 := by
      intro h5
      exact hna ⟨by omega, by omega, fun _ => ⟨by by_contra hc; exact h2 ⟨hl, by omega⟩, h5⟩⟩
    subst hl
    simp only [Bool.false_eq_true, if_false]
    unfold bruteForce findMostDistant
    rw [if_pos (by unfold sysMaxsize; omega)]
    rfl
  refine ⟨⟨?_, ?_⟩, hrej⟩
  · rintro ⟨Y, hY⟩
    by_contra hna
    rw [hrej hna] at hY
    cases hY
  · intro h
    obtain ⟨combo, h1, -⟩ := C33_whole_trajectories sqrt argsort ha groups N D g ts X hX hg hD hg0 hu k localOpt h
    exact ⟨_, h1⟩

/-- The corners of C37: `None` and 0 leave the sample as it is; a non-integer is a `ValueError` with local
search, but with brute force, at most 10, an `AssertionError`. -/
theorem C37_corners (sqrt : α → α) (argsort : List α → List Nat) (groups : List String) (N D : Nat) (X : Mat α)
    (hu : UnitRange X) :
    (∀ l, optimiseStep sqrt argsort X groups D N .none l = .ok X ∧
      optimiseStep sqrt argsort X groups D N (.int 0) l = .ok X) ∧
    (∀ x, x ≠ 0 → optimiseStep sqrt argsort X groups D N (.float x) true = .error .valueError) ∧
    (∀ x, x ≠ 0 → x ≤ 10 → optimiseStep sqrt argsort X groups D N (.float x) false = .error .assertionError) := by
  refine ⟨fun l => ⟨rfl, by simp [optimiseStep]⟩, fun x hx => by simp [optimiseStep, hx], ?_⟩
  intro x hx hx10
  unfold optimiseStep
  simp only
  rw [if_neg hx, if_neg (by simp), if_neg (not_lt.mpr hx10), unit_check X hu]
  simp

/-- The hypotheses of the section are met: three different two-point trajectories, two of them chosen,
with both strategies. -/
example :
    let ts : List (Mat ℚ) := [[[0], [1]], [[1], [0]], [[0], [1/2]]]
    IsSample 3 1 1 ts ts.flatten ∧ UnitRange ts.flatten ∧ Accepted 3 2 true ∧ Accepted 3 2 false ∧
    optimiseStep (fun x => x) stableArgsort ts.flatten ["a"] 1 3 (.int 2) true =
      .ok [[0], [1], [1], [0]] ∧
    optimiseStep (fun x => x) stableArgsort ts.flatten ["a"] 1 3 (.int 2) false =
      .ok [[0], [1], [1], [0]] := by
  intro ts
  refine ⟨⟨rfl, rfl, ?_, ?_⟩, ?_, ⟨by norm_num, by norm_num, by simp⟩,
    ⟨by norm_num, by norm_num, fun _ => ⟨by norm_num, by decide⟩⟩, by decide +kernel, by decide +kernel⟩
  · decide
  · unfold HasCols; decide
  · unfold UnitRange; decide +kernel

end SALib
