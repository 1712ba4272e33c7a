import Verif.Model.Latin
import Verif.Lemmas.Cells
import Verif.Spec.Cross
import Verif.Props.Groups
import Verif.Props.Scale

/-! # C25, C26: Latin hypercube sampling -/

set_option linter.unusedSectionVars false

namespace SALib
open Spec

variable {α : Type} [Field α] [LinearOrder α] [IsStrictOrderedRing α]

/-- Random input as NumPy delivers it: numbers in [0,1), and shuffles that permute. -/
def Spec.ValidDraws (draws : LatinDraws α) : Prop :=
  (∀ s g, 0 ≤ draws.u s g ∧ draws.u s g < 1) ∧ ∀ g l, (draws.shuffle g l).Perm l

/-- The labels that group parameters in this sampler. -/
def Spec.latinLabels (pb : Problem α) : Option (List String) :=
  match pb.groups with
  | some (g :: gs) => some (g :: gs)
  | _ => none

theorem latinGroups_ok (pb : Problem α)
    (hlab : ∀ gs, latinLabels pb = some gs → gs.length = pb.numVars) :
    ∃ ng vars groupOf, latinGroups pb = .ok (ng, vars) ∧
      GroupNumbering pb.numVars (latinLabels pb) ng groupOf ∧
      (∀ g v, g < ng → (v ∈ vars g ↔ v < pb.numVars ∧ groupOf v = g)) ∧
      ∀ v < pb.numVars, groupOf v < ng := by
  have hnone : latinLabels pb = none → latinGroups pb = .ok (pb.numVars, fun g => [g]) := by
    unfold latinLabels latinGroups
    cases pb.groups with
    | none => simp
    | some gs => cases gs <;> simp
  have hsome : ∀ gs, latinLabels pb = some gs → latinGroups pb = (do
      let (G, _) ← computeGroupsMatrix gs
      return ((pdUnique gs).length, whereOne G)) := by
    unfold latinLabels latinGroups
    cases pb.groups with
    | none => simp
    | some gs => cases gs <;> simp
  cases hl : latinLabels pb with
  | none =>
    refine ⟨pb.numVars, fun g => [g], id, hnone hl, ⟨rfl, fun _ _ => rfl⟩, ?_, fun v hv => hv⟩
    intro g v hg
    simp only [List.mem_singleton, id]
    constructor
    · rintro rfl; exact ⟨hg, rfl⟩
    · rintro ⟨-, rfl⟩; rfl
  | some gs =>
    have hlen := hlab gs hl
    obtain ⟨M, names, hM, hdist, hMl, hMc, hent⟩ := C07_groups_matrix gs
    have hnames : names = pdUnique gs := by
      unfold computeGroupsMatrix at hM
      simp only at hM
      generalize hx : (List.foldlM (m := Except PyErr) _ _ _) = x at hM
      cases x with
      | error e => cases hM
      | ok o => cases hM; rfl
    have hidx : ∀ (v : Nat) (l : String), gs[v]? = some l →
        names.idxOf l < names.length ∧ names[names.idxOf l]? = some l := by
      intro v l hv
      have hmem : l ∈ names := (hdist.mem_iff l).mpr (List.mem_of_getElem? hv)
      have hlt := List.idxOf_lt_length_of_mem hmem
      exact ⟨hlt, by rw [List.getElem?_eq_getElem hlt, List.getElem_idxOf hlt]⟩
    refine ⟨names.length, whereOne M, fun v => names.idxOf (gs.getD v ""), ?_, ⟨names, hdist, rfl, ?_⟩,
      ?_, ?_⟩
    · rw [hsome gs hl, hM, pyBind_ok, hnames]; rfl
    · intro j l hj
      show names[names.idxOf (gs.getD j "")]? = some l
      rw [List.getD_eq_getElem?_getD, hj]
      exact (hidx j l hj).2
    · intro g v hg
      unfold whereOne
      simp only [List.mem_filter, List.mem_range, beq_iff_eq]
      rw [hMl, hlen]
      constructor
      · rintro ⟨hv, he⟩
        refine ⟨hv, ?_⟩
        have hv' : v < gs.length := by omega
        have hgv : gs[v]? = some (gs.getD v "") := by
          rw [List.getD_eq_getElem?_getD, List.getElem?_eq_getElem hv']; rfl
        have hng : names[g]? = some (names[g]) := List.getElem?_eq_getElem hg
        have := hent v g _ _ hgv hng
        unfold entry at this
        rw [this] at he
        have heq : gs.getD v "" = names[g] := by
          by_contra hne
          rw [if_neg hne] at he
          cases he
        rw [heq]
        exact hdist.nodup.idxOf_getElem g hg
      · rintro ⟨hv, rfl⟩
        refine ⟨hv, ?_⟩
        have hv' : v < gs.length := by omega
        have hgv : gs[v]? = some (gs.getD v "") := by
          rw [List.getD_eq_getElem?_getD, List.getElem?_eq_getElem hv']; rfl
        have := hent v _ _ _ hgv (hidx v _ hgv).2
        unfold entry at this
        rw [this]; simp
    · intro v hv
      have hv' : v < gs.length := by omega
      have hgv : gs[v]? = some (gs.getD v "") := by
        rw [List.getD_eq_getElem?_getD, List.getElem?_eq_getElem hv']; rfl
      exact (hidx v _ hgv).1

/-- The unit sample in closed form: column `v` is the shuffled column of draws of its group. -/
theorem latinUnit_form (junk : α) (pb : Problem α) (N : Nat) (hN : 0 < N)
    (hlab : ∀ gs, latinLabels pb = some gs → gs.length = pb.numVars) :
    ∃ ng groupOf, GroupNumbering pb.numVars (latinLabels pb) ng groupOf ∧ (∀ v < pb.numVars, groupOf v < ng) ∧
      ∀ draws : LatinDraws α, latinUnit draws junk pb N = .ok ((List.range N).map fun s => (List.range pb.numVars).map fun v =>
        (draws.shuffle (groupOf v) (latinDraw draws N (groupOf v))).getD s 0) := by
  obtain ⟨ng, vars, groupOf, hg, hnum, hvars, hlt⟩ := latinGroups_ok pb hlab
  refine ⟨ng, groupOf, hnum, hlt, fun draws => ?_⟩
  unfold latinUnit
  rw [hg, pyBind_ok]
  simp only [show ¬ N = 0 by omega, if_false]
  have key := writeCells_fill N pb.numVars
    ((List.range ng).flatMap fun g => (List.range N).flatMap fun s => (vars g).map fun v =>
      (s, v, (draws.shuffle g (latinDraw draws N g)).getD s 0))
    (List.replicate N (List.replicate pb.numVars junk)) (by simp)
    (by intro row hr; rw [(List.mem_replicate.mp hr).2]; simp)
    (by
      intro w hw
      simp only [List.mem_flatMap, List.mem_range, List.mem_map] at hw
      obtain ⟨g, hg, s, hs, v, hv, rfl⟩ := hw
      exact ⟨hs, ((hvars g v hg).mp hv).1⟩)
    (fun s v => (draws.shuffle (groupOf v) (latinDraw draws N (groupOf v))).getD s 0)
    (by
      intro w hw
      simp only [List.mem_flatMap, List.mem_range, List.mem_map] at hw
      obtain ⟨g, hg, s, hs, v, hv, rfl⟩ := hw
      simp only [((hvars g v hg).mp hv).2])
    (by
      intro s hs v hv
      refine ⟨(s, v, (draws.shuffle (groupOf v) (latinDraw draws N (groupOf v))).getD s 0), ?_, rfl, rfl⟩
      simp only [List.mem_flatMap, List.mem_range, List.mem_map]
      exact ⟨groupOf v, hlt v hv, s, hs, v, (hvars _ v (hlt v hv)).mpr ⟨hv, rfl⟩, rfl⟩)
  rw [foldlM_flatMap] at key
  simp only [foldlM_flatMap, List.foldlM_map, writeCell] at key
  exact key

theorem latinUnit_eq (draws : LatinDraws α) (junk : α) (pb : Problem α) (N : Nat) (hN : 0 < N)
    (hlab : ∀ gs, latinLabels pb = some gs → gs.length = pb.numVars) :
    ∃ ng groupOf, GroupNumbering pb.numVars (latinLabels pb) ng groupOf ∧
      latinUnit draws junk pb N = .ok ((List.range N).map fun s => (List.range pb.numVars).map fun v =>
        (draws.shuffle (groupOf v) (latinDraw draws N (groupOf v))).getD s 0) := by
  obtain ⟨ng, groupOf, h1, -, h2⟩ := latinUnit_form junk pb N hN hlab
  exact ⟨ng, groupOf, h1, h2 draws⟩

theorem latinDraw_stratum (draws : LatinDraws α) (hv : ValidDraws draws) (N : Nat) (hN : 0 < N) (g s : Nat)
    (hs : s < N) :
    ∃ x, (latinDraw draws N g)[s]? = some x ∧ (s : α) / N ≤ x ∧ x < ((s : α) + 1) / N := by
  have hN' : (0 : α) < N := by exact_mod_cast hN
  obtain ⟨h0, h1⟩ := hv.1 s g
  refine ⟨s * (1 / N) + ((s + 1) * (1 / N) - s * (1 / N)) * draws.u s g, by simp [latinDraw, hs], ?_, ?_⟩
  · rw [show (s : α) * (1 / N) + ((s + 1) * (1 / N) - s * (1 / N)) * draws.u s g =
      s / N + draws.u s g / N by ring]
    have : 0 ≤ draws.u s g / N := by positivity
    linarith
  · rw [show (s : α) * (1 / N) + ((s + 1) * (1 / N) - s * (1 / N)) * draws.u s g =
      (s + draws.u s g) / N by ring]
    apply div_lt_div_of_pos_right _ hN'
    linarith

/-- A permutation of a list with exactly one entry per stratum has exactly one entry per stratum. -/
theorem perm_unique {β : Type} (l l' : List β) (hp : l'.Perm l) (P : β → Prop)
    (h : ∃! n : Nat, ∃ x, l[n]? = some x ∧ P x) : ∃! n : Nat, ∃ x, l'[n]? = some x ∧ P x := by
  classical
  have hcount : ∀ m : List β, (∃! n : Nat, ∃ x, m[n]? = some x ∧ P x) ↔ m.countP (fun x => decide (P x)) = 1 := by
    intro m
    induction m with
    | nil => simp
    | cons a m ih =>
      rw [List.countP_cons]
      by_cases ha : P a
      · simp only [ha, decide_true, if_true]
        constructor
        · rintro ⟨n, -, hn⟩
          have h0 : n = 0 := (hn 0 ⟨a, by simp, ha⟩).symm
          subst h0
          simp only [Nat.add_eq_right, List.countP_eq_zero, decide_eq_true_eq]
          intro x hx hPx
          obtain ⟨k, hk⟩ := List.mem_iff_getElem?.mp hx
          have := hn (k + 1) ⟨x, by simpa using hk, hPx⟩
          omega
        · intro hc
          simp only [Nat.add_eq_right, List.countP_eq_zero, decide_eq_true_eq] at hc
          refine ⟨0, ⟨a, by simp, ha⟩, ?_⟩
          rintro n ⟨x, hx, hPx⟩
          cases n with
          | zero => rfl
          | succ n =>
            rw [List.getElem?_cons_succ] at hx
            exact absurd hPx (hc x (List.mem_of_getElem? hx))
      · simp only [ha, decide_false, Bool.false_eq_true, if_false, Nat.add_zero]
        rw [← ih]
        constructor
        · rintro ⟨n, ⟨x, hx, hPx⟩, hn⟩
          cases n with
          | zero =>
            simp only [List.getElem?_cons_zero, Option.some.injEq] at hx
            exact absurd (hx ▸ hPx) ha
          | succ n =>
            refine ⟨n, ⟨x, by simpa using hx, hPx⟩, ?_⟩
            rintro k ⟨y, hy, hPy⟩
            have := hn (k + 1) ⟨y, by simpa using hy, hPy⟩
            omega
        · rintro ⟨n, ⟨x, hx, hPx⟩, hn⟩
          refine ⟨n + 1, ⟨x, by simpa using hx, hPx⟩, ?_⟩
          rintro k ⟨y, hy, hPy⟩
          cases k with
          | zero =>
            simp only [List.getElem?_cons_zero, Option.some.injEq] at hy
            exact absurd (hy ▸ hPy) ha
          | succ k => rw [hn k ⟨y, by simpa using hy, hPy⟩]
  rw [hcount] at h ⊢
  rw [hp.countP_eq, h]

theorem stratum_unique (N : Nat) (hN : 0 < N) (i j : Nat) (x : α) (hi : (i : α) / N ≤ x)
    (hi' : x < ((i : α) + 1) / N) (hj : (j : α) / N ≤ x) (hj' : x < ((j : α) + 1) / N) : i = j := by
  have hN' : (0 : α) < N := by exact_mod_cast hN
  rw [div_le_iff₀ hN'] at hi hj
  rw [lt_div_iff₀ hN'] at hi' hj'
  have h1 : (i : α) < (j : α) + 1 := lt_of_le_of_lt hi hj'
  have h2 : (j : α) < (i : α) + 1 := lt_of_le_of_lt hj hi'
  have h1' : i < j + 1 := by exact_mod_cast h1
  have h2' : j < i + 1 := by exact_mod_cast h2
  omega

/-- **C25**, on the unit cube: the sample has `N` rows, one entry per parameter, and every column has
exactly one entry in each interval `[i/N, (i+1)/N)`. -/
theorem C25_unit_strata (draws : LatinDraws α) (hv : ValidDraws draws) (junk : α) (pb : Problem α)
    (N : Nat) (hN : 0 < N) (hlab : ∀ gs, latinLabels pb = some gs → gs.length = pb.numVars) :
    ∃ M, latinUnit draws junk pb N = .ok M ∧ M.length = N ∧ HasCols pb.numVars M ∧
      (∀ row ∈ M, ∀ x ∈ row, 0 ≤ x ∧ x < 1) ∧
      ∀ v < pb.numVars, ∀ i < N,
        ∃! s, ∃ x, entry M s v = some x ∧ (i : α) / N ≤ x ∧ x < ((i : α) + 1) / N := by
  obtain ⟨ng, groupOf, -, hM⟩ := latinUnit_eq draws junk pb N hN hlab
  have hN' : (0 : α) < N := by exact_mod_cast hN
  have hperm : ∀ g, (draws.shuffle g (latinDraw draws N g)).Perm (latinDraw draws N g) :=
    fun g => hv.2 g _
  have hlen : ∀ g, (draws.shuffle g (latinDraw draws N g)).length = N := by
    intro g; rw [(hperm g).length_eq]; simp [latinDraw]
  refine ⟨_, hM, by simp, ?_, ?_, ?_⟩
  · intro row hrow
    obtain ⟨s, -, rfl⟩ := List.mem_map.mp hrow
    simp
  · intro row hrow x hx
    obtain ⟨s, hs, rfl⟩ := List.mem_map.mp hrow
    obtain ⟨v, -, rfl⟩ := List.mem_map.mp hx
    rw [List.mem_range] at hs
    have hs' : s < (draws.shuffle (groupOf v) (latinDraw draws N (groupOf v))).length := by
      rw [hlen]; exact hs
    have hmem : (draws.shuffle (groupOf v) (latinDraw draws N (groupOf v))).getD s 0 ∈
        latinDraw draws N (groupOf v) := by
      rw [← (hperm (groupOf v)).mem_iff, List.getD_eq_getElem?_getD, List.getElem?_eq_getElem hs']
      exact List.getElem_mem hs'
    obtain ⟨t, ht⟩ := List.mem_iff_getElem?.mp hmem
    have htN : t < N := by
      have := (List.getElem?_eq_some_iff.mp ht).1
      simpa [latinDraw] using this
    obtain ⟨y, hy, h1, h2⟩ := latinDraw_stratum draws hv N hN (groupOf v) t htN
    rw [ht] at hy
    cases hy
    refine ⟨le_trans (by positivity) h1, lt_of_lt_of_le h2 ?_⟩
    rw [div_le_one hN']
    exact_mod_cast htN
  · intro v hvn i hi
    have hbase : ∃! s : Nat, ∃ x, (latinDraw draws N (groupOf v))[s]? = some x ∧
        ((i : α) / N ≤ x ∧ x < ((i : α) + 1) / N) := by
      obtain ⟨x, hx, h1, h2⟩ := latinDraw_stratum draws hv N hN (groupOf v) i hi
      refine ⟨i, ⟨x, hx, h1, h2⟩, ?_⟩
      rintro t ⟨y, hy, g1, g2⟩
      have htN : t < N := by
        have := (List.getElem?_eq_some_iff.mp hy).1
        simpa [latinDraw] using this
      obtain ⟨z, hz, k1, k2⟩ := latinDraw_stratum draws hv N hN (groupOf v) t htN
      rw [hy] at hz
      cases hz
      exact stratum_unique N hN t i y k1 k2 g1 g2
    obtain ⟨s, ⟨x, hx, hP⟩, huniq⟩ := perm_unique _ _ (hperm (groupOf v)) _ hbase
    have hentry : ∀ t, entry ((List.range N).map fun s => (List.range pb.numVars).map fun v =>
        (draws.shuffle (groupOf v) (latinDraw draws N (groupOf v))).getD s 0) t v =
        (draws.shuffle (groupOf v) (latinDraw draws N (groupOf v)))[t]? := by
      intro t
      by_cases ht : t < N
      · have ht' : t < (draws.shuffle (groupOf v) (latinDraw draws N (groupOf v))).length := by
          rw [hlen]; exact ht
        simp [entry, ht, hvn, List.getElem?_eq_getElem ht']
      · rw [List.getElem?_eq_none (by rw [hlen]; omega)]
        simp [entry, ht]
    refine ⟨s, ⟨x, ?_, hP⟩, ?_⟩
    · rw [hentry]; exact hx
    · rintro t ⟨y, hy, hQ⟩
      rw [hentry] at hy
      exact huniq t ⟨y, hy, hQ⟩

/-- **C25**, delivered sample of a problem with plain bounds: in every column exactly one value lies in
each of the `N` equal parts of `[lower, upper)`. -/
theorem C25_scaled_strata (F : Ppf α) (draws : LatinDraws α) (hv : ValidDraws draws) (junk : α)
    (pb : Problem α) (bs : List (α × α)) (N : Nat) (hN : 0 < N)
    (hlab : ∀ gs, latinLabels pb = some gs → gs.length = pb.numVars)
    (hb : pb.bounds = boundsTable bs) (hd : pb.dists = none) (hne : bs ≠ [])
    (hnum : pb.numVars = bs.length) (hlegal : ∀ p ∈ bs, p.1 < p.2) :
    ∃ X, latinSample F draws junk pb N = .ok (X, { pb with sampleScaled := true }) ∧ X.length = N ∧
      ∀ v lo hi, bs[v]? = some (lo, hi) → ∀ i < N,
        ∃! s, ∃ y, entry X s v = some (some y) ∧ lo + (i : α) / N * (hi - lo) ≤ y ∧
          y < lo + ((i : α) + 1) / N * (hi - lo) := by
  obtain ⟨M, hM, hlen, hcols, hunit, hstrat⟩ := C25_unit_strata draws hv junk pb N hN hlab
  obtain ⟨X, hX, hshape, hval⟩ := C01_scale_in_bounds F pb bs M hb hd hne hlegal (by rwa [← hnum])
    (fun row hr x hx => ⟨(hunit row hr x hx).1, (hunit row hr x hx).2.le⟩)
  refine ⟨X, ?_, ?_, ?_⟩
  · unfold latinSample
    rw [hM, pyBind_ok, ← hX, hnum]
  · have := congrArg List.length hshape
    simpa [hlen] using this.symm
  · intro v lo hi hbv i hi'
    have hvn : v < pb.numVars := by rw [hnum]; exact (List.getElem?_eq_some_iff.mp hbv).1
    have hlt : lo < hi := hlegal _ (List.mem_of_getElem? hbv)
    have hpos : 0 < hi - lo := sub_pos.mpr hlt
    obtain ⟨s, ⟨x, hx, h1, h2⟩, huniq⟩ := hstrat v hvn i hi'
    obtain ⟨y, hy, rfl, -, -⟩ := hval s v x lo hi hx hbv
    refine ⟨s, ⟨_, hy, ?_, ?_⟩, ?_⟩
    · have := mul_le_mul_of_nonneg_right h1 hpos.le; linarith
    · have := mul_lt_mul_of_pos_right h2 hpos; linarith
    · rintro t ⟨z, hz, g1, g2⟩
      have ht : t < N := by
        unfold entry at hz
        by_contra hcon
        have hXl : X.length = N := by
          have := congrArg List.length hshape
          simpa [hlen] using this.symm
        rw [List.getElem?_eq_none (by omega)] at hz
        cases hz
      have hex : ∃ x', entry M t v = some x' := by
        unfold entry
        rw [List.getElem?_eq_getElem (by omega), Option.bind_some]
        exact ⟨_, List.getElem?_eq_getElem (by rw [hcols _ (List.getElem_mem _)]; exact hvn)⟩
      obtain ⟨x', hx'⟩ := hex
      obtain ⟨y', hy', rfl, -, -⟩ := hval t v x' lo hi hx' hbv
      rw [hz] at hy'
      cases hy'
      refine huniq t ⟨x', hx', ?_, ?_⟩
      · by_contra hcon
        have := mul_lt_mul_of_pos_right (not_le.mp hcon) hpos; linarith
      · by_contra hcon
        have := mul_le_mul_of_nonneg_right (not_lt.mp hcon) hpos.le; linarith

/-- **C26.** Parameters with the same group label have the same unit value in every row; a parameter on
its own (no labels) gets the shuffled column of its own draws. -/
theorem C26_groups_move_together (draws : LatinDraws α) (junk : α) (pb : Problem α) (N : Nat) (hN : 0 < N)
    (hlab : ∀ gs, latinLabels pb = some gs → gs.length = pb.numVars) :
    ∃ M, latinUnit draws junk pb N = .ok M ∧
      (∀ gs v w (l : String), latinLabels pb = some gs → gs[v]? = some l → gs[w]? = some l →
        ∀ s, entry M s v = entry M s w) ∧
      (latinLabels pb = none → ∀ v < pb.numVars, ∀ s < N,
        entry M s v = some ((draws.shuffle v (latinDraw draws N v)).getD s 0)) := by
  obtain ⟨ng, groupOf, hnum, hM⟩ := latinUnit_eq draws junk pb N hN hlab
  refine ⟨_, hM, ?_, ?_⟩
  · intro gs v w l hl hv hw s
    rw [hl] at hnum
    obtain ⟨names, hdist, -, hg⟩ := hnum
    have h1 := hg v l hv
    have h2 := hg w l hw
    have hvl := (List.getElem?_eq_some_iff.mp hv).1
    have hwl := (List.getElem?_eq_some_iff.mp hw).1
    have hlen := hlab gs hl
    obtain ⟨a1, a2⟩ := List.getElem?_eq_some_iff.mp h1
    obtain ⟨b1, b2⟩ := List.getElem?_eq_some_iff.mp h2
    have heq : groupOf v = groupOf w := (hdist.nodup.getElem_inj_iff).mp (a2.trans b2.symm)
    by_cases hs : s < N
    · simp [entry, hs, show v < pb.numVars by omega, show w < pb.numVars by omega, heq]
    · simp [entry, hs]
  · intro hl v hv s hs
    rw [hl] at hnum
    simp [entry, hs, hv, hnum.2 v hv]

/-- The hypotheses are met: three parameters, two groups, N = 2, draws at the middle of each stratum and
shuffles that reverse. -/
example :
    let pb : Problem ℚ := { names := ["x", "y", "z"], bounds := boundsTable [(0, 1), (0, 2), (1, 2)],
                            groups := some ["g", "h", "g"] }
    let draws : LatinDraws ℚ := { u := fun _ _ => 1 / 2, shuffle := fun g l => if g = 0 then l.reverse else l }
    ValidDraws draws ∧
    latinUnit draws 7 pb 2 = .ok [[3/4, 1/4, 3/4], [1/4, 3/4, 1/4]] := by
  intro pb draws
  refine ⟨⟨fun s g => by norm_num [draws], fun g l => ?_⟩, by decide +kernel⟩
  by_cases h : g = 0
  · simp only [draws, h, if_true]; exact List.reverse_perm l
  · simp only [draws, h, if_false]; exact List.Perm.refl l

end SALib
