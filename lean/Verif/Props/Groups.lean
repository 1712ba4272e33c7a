import Verif.Lemmas.Groups
import Verif.Model.Saltelli

/-!
# C07-C09: groups and parameter files
-/

namespace SALib
open Spec

theorem entry_zerosMat (n d r c : Nat) (hr : r < n) (hc : c < d) :
    entry (zerosMat n d : Mat Nat) r c = some 0 := by
  simp [entry, zerosMat, hr, hc]

theorem groupsMatrix_loop (unique : List String) (L : Nat) (hnd : unique.Nodup) (pre : List String)
    (hL : pre.length ≤ L) (hmem : ∀ g ∈ pre, g ∈ unique) :
    ∃ M, pre.zipIdx.foldlM (fun M (x : String × Nat) =>
        match unique.findIdx? (· == x.1) with
        | some idx => setCell M x.2 idx 1
        | none => .error .keyError) (zerosMat L unique.length : Mat Nat) = (.ok M : Py (Mat Nat)) ∧
      M.length = L ∧ HasCols unique.length M ∧
      ∀ r c n, r < L → unique[c]? = some n →
        entry M r c = some (if pre[r]? = some n then 1 else 0) := by
  induction pre using List.reverseRecOn with
  | nil =>
    refine ⟨zerosMat L unique.length, rfl, by simp [zerosMat], ?_, ?_⟩
    · intro row hrow
      simp only [zerosMat, List.mem_replicate] at hrow
      rw [hrow.2]; simp
    · intro r c n hr hn
      have hc : c < unique.length := (List.getElem?_eq_some_iff.mp hn).1
      rw [entry_zerosMat L unique.length r c hr hc]; simp
  | append_singleton pre g ih =>
    rw [List.length_append, List.length_singleton] at hL
    obtain ⟨M, hM, hlen, hcols, hent⟩ := ih (by omega) (fun x hx => hmem x (by simp [hx]))
    have hg : g ∈ unique := hmem g (by simp)
    obtain ⟨idx, hidx, hgi⟩ := List.getElem_of_mem hg
    have hfind : unique.findIdx? (· == g) = some idx := by
      rw [List.findIdx?_eq_some_iff_getElem]
      refine ⟨hidx, by simp [hgi], ?_⟩
      intro j hj
      have hj' : j < unique.length := by omega
      simp only [beq_iff_eq]
      intro h
      have := (List.Nodup.getElem_inj_iff hnd (hi := hj') (hj := hidx)).mp (h.trans hgi.symm)
      omega
    have hrow : pre.length < M.length := by omega
    have hMr : M[pre.length]? = some M[pre.length] := List.getElem?_eq_getElem hrow
    have hcl : (M[pre.length]).length = unique.length := hcols _ (List.getElem_mem hrow)
    refine ⟨M.set pre.length ((M[pre.length]).set idx 1), ?_, ?_, ?_, ?_⟩
    · rw [List.zipIdx_append, List.foldlM_append, hM]
      simp only [List.zipIdx_cons, List.zipIdx_nil, List.foldlM_cons, List.foldlM_nil, pyBind_ok,
        Nat.zero_add, hfind]
      rw [setCell_ok M _ _ _ _ hMr (by omega)]
      rfl
    · simp [hlen]
    · intro row hr
      rcases List.mem_or_eq_of_mem_set hr with h | h
      · exact hcols row h
      · rw [h]; simp [hcl]
    · intro r c n hr hn
      rw [entry_set M _ _ _ _ hMr (by omega)]
      have hc : c < unique.length := (List.getElem?_eq_some_iff.mp hn).1
      by_cases hre : r = pre.length
      · subst hre
        rw [List.getElem?_append_right (le_refl _)]
        simp only [Nat.sub_self, List.getElem?_cons_zero, true_and, Option.some.injEq]
        by_cases hce : c = idx
        · subst hce
          rw [if_pos rfl]
          have : g = n := by
            rw [List.getElem?_eq_getElem hc] at hn
            rw [← hgi]; simpa using hn
          rw [if_pos this]
        · rw [if_neg hce]
          rw [hent _ c n hr hn]
          have h1 : pre[pre.length]? = none := by simp
          have : g ≠ n := by
            rintro rfl
            rw [List.getElem?_eq_getElem hc] at hn
            simp only [Option.some.injEq] at hn
            exact hce ((List.Nodup.getElem_inj_iff hnd).mp (hn.trans hgi.symm))
          rw [h1, if_neg (by simp), if_neg this]
      · rw [if_neg (by simp [hre]), hent r c n hr hn]
        by_cases hlt : r < pre.length
        · rw [List.getElem?_append_left hlt]
        · have h1 : pre[r]? = none := by simp; omega
          have h2 : (pre ++ [g])[r]? = none := by simp; omega
          rw [h1, h2]

/-- **C07.** The group matrix: the reported names are the distinct labels in order of first mention;
one row per parameter, one column per name; the entry of parameter `p` and name `n` is 1 if `n` is the
label of `p` and 0 otherwise (so each row has exactly one 1, and each column at least one). -/
theorem C07_groups_matrix (groups : List String) :
    ∃ M names, computeGroupsMatrix groups = .ok (M, names) ∧ DistinctInOrder groups names ∧
      M.length = groups.length ∧ HasCols names.length M ∧
      ∀ p c g n, groups[p]? = some g → names[c]? = some n →
        entry M p c = some (if g = n then 1 else 0) := by
  obtain ⟨M, hM, hlen, hcols, hent⟩ := groupsMatrix_loop (pdUnique groups) groups.length
    (nodup_pdUnique groups) groups (le_refl _) (fun g hg => (mem_pdUnique groups g).mpr hg)
  refine ⟨M, pdUnique groups, ?_, pdUnique_distinct groups, hlen, hcols, ?_⟩
  · unfold computeGroupsMatrix
    exact (congrArg (fun x : Py (Mat Nat) => x >>= fun o => pure (o, pdUnique groups)) hM).trans rfl
  · intro p c g n hg hn
    have hp : p < groups.length := (List.getElem?_eq_some_iff.mp hg).1
    rw [hent p c n hp hn, hg]
    simp

/-- **C07**, counting form: every parameter is in exactly one group, no group is empty. -/
theorem C07_partition (groups : List String) (M : Mat Nat) (names : List String)
    (h : computeGroupsMatrix groups = .ok (M, names)) :
    (∀ row ∈ M, row.count 1 = 1 ∧ row.count 0 = names.length - 1) ∧
    ∀ c < names.length, ∃ p, entry M p c = some 1 := by
  obtain ⟨M', names', h', hdist, hlen, hcols, hent⟩ := C07_groups_matrix groups
  rw [h] at h'
  cases h'
  constructor
  · intro row hrow
    obtain ⟨p, hp, rfl⟩ := List.getElem_of_mem hrow
    have hpg : p < groups.length := by omega
    have hg : groups[p]? = some groups[p] := List.getElem?_eq_getElem hpg
    have hrow_eq : M[p] = names.map fun n => if groups[p] = n then 1 else 0 := by
      apply List.ext_getElem?
      intro c
      rw [List.getElem?_map]
      by_cases hc : c < names.length
      · have hn : names[c]? = some names[c] := List.getElem?_eq_getElem hc
        have := hent p c _ _ hg hn
        unfold entry at this
        rw [List.getElem?_eq_getElem hp, Option.bind_some] at this
        rw [this, hn]; rfl
      · have h1 : names[c]? = none := by simp; omega
        have h2 : (M[p])[c]? = none := by
          have := hcols _ (List.getElem_mem hp)
          simp; omega
        rw [h1, h2]; rfl
    have hmem : groups[p] ∈ names := (hdist.mem_iff _).mpr (List.getElem_mem hpg)
    rw [hrow_eq]
    have aux : ∀ (ns : List String) (g : String), ns.Nodup → g ∈ ns →
        (ns.map fun n => if g = n then 1 else 0).count 1 = 1 ∧
        (ns.map fun n => if g = n then 1 else 0).count 0 = ns.length - 1 := by
      intro ns g hnd hg
      have hnone : ∀ ns : List String, g ∉ ns →
          (ns.map fun n => if g = n then 1 else 0) = List.replicate ns.length 0 := by
        intro ns hns
        rw [List.eq_replicate_iff]
        refine ⟨by simp, ?_⟩
        intro b hb
        simp only [List.mem_map] at hb
        obtain ⟨n, hn, rfl⟩ := hb
        rw [if_neg]; rintro rfl; exact hns hn
      induction ns with
      | nil => cases hg
      | cons n ns ih =>
        rw [List.nodup_cons] at hnd
        by_cases hgn : g = n
        · subst hgn
          rw [List.map_cons, if_pos rfl, hnone ns hnd.1]
          simp [List.count_replicate]
        · have hg' : g ∈ ns := by
            rcases List.mem_cons.mp hg with h | h
            · exact absurd h hgn
            · exact h
          obtain ⟨i1, i2⟩ := ih hnd.2 hg'
          have hpos : 0 < ns.length := List.length_pos_of_mem hg'
          rw [List.map_cons, if_neg hgn, List.count_cons, List.count_cons, i1, i2]
          simp
          omega
    exact aux names groups[p] hdist.nodup hmem
  · intro c hc
    have hn : names[c]? = some names[c] := List.getElem?_eq_getElem hc
    obtain ⟨p, hp, hpe⟩ := List.getElem_of_mem ((hdist.mem_iff _).mp (List.getElem_mem hc))
    refine ⟨p, ?_⟩
    rw [hent p c _ _ (List.getElem?_eq_getElem hp) hn, if_pos hpe]

/-- **C07**, names: the analysers report the distinct effective labels in order of first mention. -/
theorem C07_group_names {α : Type} (pb : Problem α) :
    DistinctInOrder (effectiveLabels pb) (extractGroupNames pb).1 ∧
      (extractGroupNames pb).2 = (extractGroupNames pb).1.length := by
  refine ⟨?_, rfl⟩
  unfold effectiveLabels extractGroupNames
  cases h : pb.groups with
  | none => simp [pdUnique_distinct]
  | some gs => cases gs <;> simp [pdUnique_distinct]

/-- **C07**, completion of the problem: afterwards every parameter has a label, a wrong number of labels
is rejected, and completing again changes nothing. -/
theorem C07_define_groups {α : Type} (pb : Problem α) :
    ((∃ gs, pb.groups = some gs ∧ gs ≠ [] ∧ gs.length ≠ pb.numVars) →
      defineProblemWithGroups pb = .error .valueError) ∧
    ((¬ ∃ gs, pb.groups = some gs ∧ gs ≠ [] ∧ gs.length ≠ pb.numVars) →
      ∃ q, defineProblemWithGroups pb = .ok q ∧ q = { pb with groups := some (effectiveLabels pb) } ∧
        (pb.names.length = pb.numVars → defineProblemWithGroups q = .ok q)) := by
  unfold defineProblemWithGroups effectiveLabels
  cases h : pb.groups with
  | none =>
    refine ⟨by simp, fun _ => ⟨_, rfl, rfl, ?_⟩⟩
    intro hn
    cases hnames : pb.names <;> simp_all
  | some gs =>
    cases gs with
    | nil =>
      refine ⟨by simp, fun _ => ⟨_, rfl, rfl, ?_⟩⟩
      intro hn
      cases hnames : pb.names <;> simp_all
    | cons g gs =>
      constructor
      · rintro ⟨gs', h1, -, h3⟩
        cases h1
        simp only [if_pos h3]
      · intro hno
        have hlen : (g :: gs).length = pb.numVars := by
          by_contra hc; exact hno ⟨_, rfl, by simp, hc⟩
        refine ⟨pb, ?_, ?_, ?_⟩
        · simp [hlen]
        · cases pb; simp_all
        · intro _; rw [h]; simp [hlen]

/-- Interleaved labels: three groups, the second mentioned twice. -/
example : computeGroupsMatrix ["b", "a", "b", "c"] =
    .ok ([[1, 0, 0], [0, 1, 0], [1, 0, 0], [0, 0, 1]], ["b", "a", "c"]) := by decide

/-- **C08.** For a well-formed problem (distinct names, one label per parameter if labels are given) the
sampler and the analyser use the same number of groups if and only if it is not the case that two or
more parameters all carry one and the same label. -/
theorem C08_same_group_count_iff {α : Type} (pb : Problem α) (hnd : pb.names.Nodup)
    (hnum : pb.numVars = pb.names.length)
    (hlab : ∀ gs, pb.groups = some gs → gs ≠ [] → gs.length = pb.numVars) :
    samplerGroupCount pb = (extractGroupNames pb).2 ↔
      ¬ ∃ gs l, pb.groups = some gs ∧ 2 ≤ gs.length ∧ ∀ g ∈ gs, g = l := by
  unfold samplerGroupCount checkGroups extractGroupNames
  have hU := pdUnique_of_nodup pb.names hnd
  cases h : pb.groups with
  | none => simp [hU, hnum]
  | some gs =>
    cases hgs : gs with
    | nil => simp [hU, hnum]
    | cons g gs' =>
      subst hgs
      have hlen := hlab _ h (by simp)
      simp only
      by_cases hnames : g :: gs' = pb.names
      · rw [if_pos hnames, hnames, hU]
        simp only [hnum, true_iff]
        rintro ⟨gs'', l, h1, h2, h3⟩
        cases h1
        obtain ⟨a, b, t, hab⟩ : ∃ a b t, pb.names = a :: b :: t := by
          match hp : pb.names with
          | [] => simp [hp] at h2
          | [_] => simp [hp] at h2
          | a :: b :: t => exact ⟨a, b, t, rfl⟩
        rw [hab] at hnd h3
        have e1 := h3 a (by simp)
        have e2 := h3 b (by simp)
        simp_all
      · rw [if_neg hnames]
        by_cases hone : (pdUnique (g :: gs')).length = 1
        · rw [if_pos hone]
          simp only [hone]
          obtain ⟨l, hl⟩ := List.length_eq_one_iff.mp hone
          have hall : ∀ x ∈ g :: gs', x = l := by
            intro x hx
            have := (mem_pdUnique _ x).mpr hx
            rw [hl] at this; simpa using this
          rw [← hlen]
          constructor
          · rintro h1 ⟨gs'', l', h2, h3, -⟩
            cases h2
            omega
          · intro hno
            by_contra hc
            apply hno
            refine ⟨_, l, rfl, ?_, hall⟩
            simp only [List.length_cons] at hc ⊢
            omega
        · rw [if_neg hone]
          simp only [true_iff]
          rintro ⟨gs'', l, h1, h2, h3⟩
          cases h1
          apply hone
          have hsub : ∀ x ∈ pdUnique (g :: gs'), x = l := fun x hx => h3 x ((mem_pdUnique _ x).mp hx)
          have hne : pdUnique (g :: gs') ≠ [] := by
            intro he
            have : g ∈ pdUnique (g :: gs') := (mem_pdUnique _ g).mpr (by simp)
            rw [he] at this; cases this
          have hnd' := nodup_pdUnique (g :: gs')
          match hp : pdUnique (g :: gs') with
          | [] => exact absurd hp hne
          | [_] => rfl
          | a :: b :: t =>
            rw [hp] at hsub hnd'
            have e1 := hsub a (by simp)
            have e2 := hsub b (by simp)
            simp_all

/-- **C08**, negation.  With three parameters in one group the sampler lays out rows for 3 groups, the
analyser reads them as 1 group; with second-order indices the sample of N base points has 8N rows,
which the analyser's size check (a multiple of 4) accepts without an error for every N. -/
theorem C08_single_group_mismatch :
    let pb : Problem ℚ := { names := ["x", "y", "z"], bounds := [[0, 1], [0, 1], [0, 1]],
                            groups := some ["g", "g", "g"] }
    samplerGroupCount pb = 3 ∧ (extractGroupNames pb).2 = 1 ∧
      ∀ N, (N * (2 * samplerGroupCount pb + 2)) % (2 * (extractGroupNames pb).2 + 2) = 0 := by
  intro pb
  have h1 : samplerGroupCount pb = 3 := by decide
  have h2 : (extractGroupNames pb).2 = 1 := by decide
  refine ⟨h1, h2, fun N => ?_⟩
  rw [h1, h2]
  omega

/-- The hypotheses of `C08_same_group_count_iff` are met by a problem with two groups. -/
example :
    let pb : Problem ℚ := { names := ["x", "y", "z"], bounds := [[0, 1], [0, 1], [0, 1]],
                            groups := some ["g", "h", "g"] }
    pb.names.Nodup ∧ pb.numVars = pb.names.length ∧ samplerGroupCount pb = 2 ∧
      (extractGroupNames pb).2 = 2 := by decide

/-- **C09**, which rows are comments: exactly those whose name starts, after white space, with `#`. -/
theorem C09_comment_rows (name : String) : isComment name = true ↔ Spec.IsCommentName name := by
  unfold isComment Spec.IsCommentName
  generalize name.toList = l
  rw [beq_iff_eq]
  constructor
  · intro h
    have hne : l.dropWhile Char.isWhitespace ≠ [] := by
      intro h0; rw [h0] at h; cases h
    obtain ⟨x, rest, hx⟩ := List.exists_cons_of_ne_nil hne
    rw [hx] at h
    simp only [List.head?_cons, Option.some.injEq] at h
    subst h
    refine ⟨l.takeWhile Char.isWhitespace, rest, ?_, fun c hc =>
      List.all_eq_true.mp List.all_takeWhile c hc⟩
    rw [← hx, List.takeWhile_append_dropWhile]
  · rintro ⟨bl, rest, rfl, hb⟩
    rw [List.dropWhile_append_of_pos hb, List.dropWhile_cons_of_neg (by decide)]
    rfl

/-- The two sides of `C09_comment_rows` on concrete names. -/
example : Spec.IsCommentName "  # x1" ∧ ¬ Spec.IsCommentName "x#1" := by
  refine ⟨⟨[' ', ' '], [' ', 'x', '1'], by decide, by decide⟩, ?_⟩
  rw [← C09_comment_rows]; decide

/-- **C09.** Reading a parameter file, i.e. any list of rows: with `data` the rows that are not comments,
if every bound of a data row is a number then names and bounds are those of the data rows in order,
`num_vars` is their number, missing (or `NA`) groups default to the parameter name and missing
distributions to "unif"; `groups` is `None` exactly when every label equals its name, a single shared
label is an error, `dists` is `None` exactly when all are "unif". -/
theorem C09_read_param_file {α : Type} (rows : List (ParamRow α)) (lo hi : ParamRow α → α)
    (hnum : ∀ row ∈ rows, isComment row.name = false → row.lower = some (lo row) ∧
      row.upper = some (hi row)) :
    let data := rows.filter fun row => !isComment row.name
    let label := fun row : ParamRow α =>
      if row.group = none ∨ row.group = some "NA" then row.name else row.group.getD ""
    let dist := fun row : ParamRow α => row.dist.getD "unif"
    let pb : Problem α :=
      { names := data.map (·.name), bounds := data.map fun row => [lo row, hi row],
        numVars := data.length,
        groups := if ∀ row ∈ data, label row = row.name then none else some (data.map label),
        dists := if ∀ row ∈ data, dist row = "unif" then none else some (data.map dist) }
    (((∃ row ∈ data, label row ≠ row.name) ∧ ∃ l, ∀ row ∈ data, label row = l) →
      readParamFile rows = .error .valueError) ∧
    (¬ ((∃ row ∈ data, label row ≠ row.name) ∧ ∃ l, ∀ row ∈ data, label row = l) →
      readParamFile rows = .ok pb) := by
  intro data label dist pb
  have hfold : ∀ (rs : List (ParamRow α)) (acc : ParamAcc α),
      (∀ row ∈ rs, isComment row.name = false → row.lower = some (lo row) ∧
        row.upper = some (hi row)) →
      rs.foldlM readRow acc = .ok
        { names := acc.names ++ (rs.filter fun row => !isComment row.name).map (·.name),
          bounds := acc.bounds ++
            (rs.filter fun row => !isComment row.name).map fun row => [lo row, hi row],
          groups := acc.groups ++ (rs.filter fun row => !isComment row.name).map label,
          dists := acc.dists ++ (rs.filter fun row => !isComment row.name).map dist,
          numVars := acc.numVars + (rs.filter fun row => !isComment row.name).length } := by
    intro rs
    induction rs with
    | nil => intro acc _; simp
    | cons row rs ih =>
      intro acc h
      rw [List.foldlM_cons]
      by_cases hc : isComment row.name = true
      · simp only [readRow, hc, if_true, pyPure, pyBind_ok]
        rw [ih acc (fun r hr => h r (by simp [hr]))]
        simp [hc]
      · have hc' : isComment row.name = false := by simpa using hc
        obtain ⟨h1, h2⟩ := h row (by simp) hc'
        have hlabel : (match row.group with
            | none => row.name
            | some g => if g = "NA" then row.name else g) = label row := by
          simp only [label]
          cases row.group with
          | none => simp
          | some g => by_cases hg : g = "NA" <;> simp [hg]
        have hdist : (match row.dist with
            | none => "unif"
            | some d => d) = dist row := by
          simp only [dist]
          cases row.dist <;> rfl
        simp only [readRow, hc', Bool.false_eq_true, if_false, h1, h2, pyFloat, pyBind_ok, pyPure]
        rw [ih _ (fun r hr => h r (by simp [hr]))]
        simp only [List.append_assoc, List.singleton_append, hc', Bool.not_false, List.filter_cons_of_pos,
          List.map_cons, List.length_cons, Except.ok.injEq, ParamAcc.mk.injEq, List.append_cancel_left_eq,
          List.cons.injEq, and_true, true_and]
        exact ⟨hlabel, hdist, by omega⟩
  have hrun := hfold rows {} hnum
  simp only [List.nil_append, Nat.zero_add] at hrun
  have hg : (data.map label = data.map (·.name)) ↔ ∀ row ∈ data, label row = row.name :=
    List.map_inj_left
  have hd : ((data.map dist).all (· == "unif") = true) ↔ ∀ row ∈ data, dist row = "unif" := by
    simp [List.all_eq_true]
  have hsame : (pdUnique (data.map label)).length = 1 ↔
      data ≠ [] ∧ ∃ l, ∀ row ∈ data, label row = l := by
    constructor
    · intro h1
      obtain ⟨l, hl⟩ := List.length_eq_one_iff.mp h1
      refine ⟨?_, l, ?_⟩
      · intro h0; rw [h0] at hl; simp [pdUnique] at hl
      · intro row hrow
        have : label row ∈ pdUnique (data.map label) :=
          (mem_pdUnique _ _).mpr (List.mem_map_of_mem hrow)
        rw [hl] at this; simpa using this
    · rintro ⟨hne, l, hl⟩
      have hsub : ∀ x ∈ pdUnique (data.map label), x = l := by
        intro x hx
        rw [mem_pdUnique, List.mem_map] at hx
        obtain ⟨row, hrow, rfl⟩ := hx
        exact hl row hrow
      obtain ⟨row, hrow⟩ := List.exists_mem_of_ne_nil _ hne
      have hnd := nodup_pdUnique (data.map label)
      have hmem : label row ∈ pdUnique (data.map label) :=
        (mem_pdUnique _ _).mpr (List.mem_map_of_mem hrow)
      match hp : pdUnique (data.map label) with
      | [] => rw [hp] at hmem; cases hmem
      | [_] => rfl
      | a :: b :: t =>
        rw [hp] at hsub hnd
        have e1 := hsub a (by simp)
        have e2 := hsub b (by simp)
        simp_all
  constructor
  · rintro ⟨⟨row, hrow, hne⟩, l, hl⟩
    unfold readParamFile
    rw [hrun]
    simp only [pyBind_ok]
    rw [if_neg (by rw [show rows.filter (fun row => !isComment row.name) = data from rfl, hg]
                   intro hall; exact hne (hall row hrow)),
      if_pos (hsame.mpr ⟨List.ne_nil_of_mem hrow, l, hl⟩)]
    rfl
  · intro hno
    unfold readParamFile
    rw [hrun]
    simp only [pyBind_ok, show rows.filter (fun row => !isComment row.name) = data from rfl]
    by_cases hall : ∀ row ∈ data, label row = row.name
    · rw [if_pos (hg.mpr hall)]
      simp only [pyBind_ok, pyPure, Except.ok.injEq, pb, if_pos hall]
      congr 1
      by_cases hu : ∀ row ∈ data, dist row = "unif"
      · rw [if_pos (hd.mpr hu), if_pos hu]
      · rw [if_neg (by rwa [hd]), if_neg hu]
    · have hex : ∃ row ∈ data, label row ≠ row.name := by
        by_contra hc
        apply hall
        intro row hrow
        by_contra h
        exact hc ⟨row, hrow, h⟩
      rw [if_neg (by rwa [hg]), if_neg]
      · simp only [pyBind_ok, pyPure, Except.ok.injEq, pb, if_neg hall]
        congr 1
        by_cases hu : ∀ row ∈ data, dist row = "unif"
        · rw [if_pos (hd.mpr hu), if_pos hu]
        · rw [if_neg (by rwa [hd]), if_neg hu]
      · intro h1
        exact hno ⟨hex, (hsame.mp h1).2⟩

/-- **C09**, rejection: a data row whose bound is not a number makes reading fail. -/
theorem C09_bad_number_rejected {α : Type} (rows : List (ParamRow α)) (row : ParamRow α)
    (hmem : row ∈ rows) (hc : isComment row.name = false)
    (hbad : row.lower = none ∨ row.upper = none) :
    readParamFile rows = .error .valueError := by
  have hfold : ∀ (rs : List (ParamRow α)) (acc : ParamAcc α), row ∈ rs →
      rs.foldlM readRow acc = .error .valueError := by
    intro rs
    induction rs with
    | nil => intro acc h; cases h
    | cons r rs ih =>
      intro acc h
      rw [List.foldlM_cons]
      rcases List.mem_cons.mp h with rfl | h'
      · have : readRow acc row = .error .valueError := by
          unfold readRow
          simp only [hc, Bool.false_eq_true, if_false]
          rcases hbad with hb | hb
          · simp [hb, pyFloat]
          · cases hl : row.lower <;> simp [hb, pyFloat]
        rw [this]; rfl
      · have hval : ∀ e, readRow acc r = .error e → e = .valueError := by
          intro e he
          unfold readRow at he
          by_cases hcr : isComment r.name = true
          · simp [hcr] at he
          · simp only [hcr] at he
            cases hl : r.lower <;> cases hu : r.upper <;> simp [hl, hu, pyFloat] at he <;>
              exact he.symm
        cases hr : readRow acc r with
        | error e => rw [hval e hr]; rfl
        | ok a => exact ih a h'
  unfold readParamFile
  rw [hfold rows {} hmem]
  rfl

/-- A file with a comment, a default group and a declared distribution meets the hypotheses. -/
example : (readParamFile [
      { name := "# comment", lower := none, upper := none },
      { name := "x", lower := some (0 : Int), upper := some 1 },
      { name := "y", lower := some 2, upper := some 3, group := some "G", dist := some "norm" }]) =
    .ok { names := ["x", "y"], bounds := [[0, 1], [2, 3]], groups := some ["x", "G"],
          dists := some ["unif", "norm"], numVars := 2 } := by
  decide

end SALib
