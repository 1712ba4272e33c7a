import Verif.Lemmas.Combos
import Verif.Lemmas.Cells
import Verif.Lemmas.Strided

/-! # Trajectory blocks, distance matrix, output compilation -/

set_option linter.unusedSectionVars false

namespace SALib
open Spec

variable {α : Type} [Field α] [LinearOrder α] [IsStrictOrderedRing α]

theorem getElem?_flatten_blocks {β : Type} (blocks : List (List β)) (n j i : Nat)
    (h : ∀ b ∈ blocks, b.length = n) (hi : i < n) :
    blocks.flatten[i + j * n]? = blocks[j]?.bind (·[i]?) := by
  induction blocks generalizing j with
  | nil => simp
  | cons b bs ih =>
    have hb := h b (by simp)
    rw [List.flatten_cons]
    cases j with
    | zero => rw [List.getElem?_append_left (by omega)]; simp
    | succ j =>
      rw [List.getElem?_append_right (by rw [hb]; nlinarith), List.getElem?_cons_succ,
        ← ih j (fun b hb => h b (by simp [hb])), hb]
      congr 1
      rw [Nat.add_mul]; omega

/-- A sample made of `N` trajectories of `g + 1` points with `D` coordinates. -/
structure Spec.IsSample (N D g : Nat) (ts : List (Mat α)) (X : Mat α) : Prop where
  eq : X = ts.flatten
  num : ts.length = N
  rows : ∀ T ∈ ts, T.length = g + 1
  cols : ∀ T ∈ ts, HasCols D T

theorem takeRows_block (N D g : Nat) (ts : List (Mat α)) (X : Mat α) (hX : IsSample N D g ts X) (j : Nat)
    (hj : j < N) : takeRows X ((List.range (g + 1)).map fun i => i + j * (g + 1)) = .ok (ts.getD j []) := by
  have hjl : j < ts.length := by rw [hX.num]; exact hj
  have hT : ts[j]? = some (ts.getD j []) := by
    rw [List.getD_eq_getElem?_getD, List.getElem?_eq_getElem hjl]; rfl
  have hTl : (ts.getD j []).length = g + 1 := hX.rows _ (List.mem_of_getElem? hT)
  unfold takeRows
  rw [mapM_ok_iff, List.forall₂_iff_get]
  refine ⟨by rw [hTl]; simp, ?_⟩
  intro i h1 h2
  have hi : i < g + 1 := by simpa using h1
  simp only [List.get_eq_getElem, List.getElem_map, List.getElem_range]
  rw [hX.eq, getElem?_flatten_blocks ts (g + 1) j i hX.rows hi, hT, Option.bind_some,
    List.getElem?_eq_getElem (by omega)]

theorem makeIndexList_getD (N D g j : Nat) (hj : j < N) :
    (makeIndexList N D (some g))[j]? = some ((List.range (g + 1)).map fun i => i + j * (g + 1)) := by
  simp [makeIndexList, hj]

theorem checkInputSample_ok (N D g : Nat) (ts : List (Mat α)) (X : Mat α) (hX : IsSample N D g ts X)
    (hN : 0 < N) (hD : 0 < D) : checkInputSample X g N = .ok () := by
  unfold checkInputSample
  have hlen : X.length = (g + 1) * N := by
    rw [hX.eq, length_flatten_blocks ts (g + 1) hX.rows, hX.num, Nat.mul_comm]
  rw [if_neg (by simp [hlen]), if_pos]
  have hjl : 0 < ts.length := by rw [hX.num]; exact hN
  have hm : ts[0] ∈ ts := List.getElem_mem hjl
  have hr := hX.rows _ hm
  have hrm : ts[0][0] ∈ ts[0] := List.getElem_mem (by omega)
  have hc := hX.cols _ hm _ hrm
  have hcm : ts[0][0][0] ∈ ts[0][0] := List.getElem_mem (by omega)
  rw [List.any_eq_true]
  refine ⟨ts[0][0], ?_, ?_⟩
  · rw [hX.eq, List.mem_flatten]; exact ⟨_, hm, hrm⟩
  · rw [List.any_eq_true]
    refine ⟨_, hcm, ?_⟩
    generalize (ts[0][0][0] : α) = z
    rcases le_total (0 : α) z with h | h
    · simp [h]
    · simp [h.trans zero_le_one]

/-- Distance of two trajectories: zero if they are equal, else the sum of the Euclidean distances of all
pairs of points. -/
def Spec.trajDist (sqrt : α → α) (m l : Mat α) : α :=
  if m = l then 0
  else (m.map fun x => (l.map fun y => sqrt ((List.zipWith (fun a b => (a - b) ^ 2) x y).sum)).sum).sum

theorem computeDistance_ok (sqrt : α → α) (m l : Mat α) (h : SameShape m l) :
    computeDistance sqrt m l = .ok (trajDist sqrt m l) := by
  unfold computeDistance trajDist
  rw [if_neg (by simpa [SameShape] using h)]
  split <;> rfl

theorem sameShape_of (D g : Nat) (m l : Mat α) (hm : m.length = g + 1) (hl : l.length = g + 1)
    (hcm : HasCols D m) (hcl : HasCols D l) : SameShape m l := by
  unfold SameShape
  have e : ∀ M : Mat α, M.length = g + 1 → HasCols D M → M.map List.length = List.replicate (g + 1) D := by
    intro M h1 h2
    rw [List.eq_replicate_iff]
    exact ⟨by simp [h1], fun b hb => by obtain ⟨r, hr, rfl⟩ := List.mem_map.mp hb; exact h2 r hr⟩
  rw [e m hm hcm, e l hl hcl]

theorem Spec.IsSample.getD_mem {N D g : Nat} {ts : List (Mat α)} {X : Mat α} (hX : IsSample N D g ts X) (j : Nat)
    (hj : j < N) : ts.getD j [] ∈ ts := by
  have hjl : j < ts.length := by rw [hX.num]; exact hj
  rw [List.getD_eq_getElem?_getD, List.getElem?_eq_getElem hjl]
  exact List.getElem_mem hjl

theorem distanceMatrix_ok (sqrt : α → α) (N D g : Nat) (ts : List (Mat α)) (X : Mat α)
    (hX : IsSample N D g ts X) (hN : 0 < N) (hD : 0 < D) (hg : 0 < g) (localOpt : Bool) :
    ∃ dm, distanceMatrix sqrt X N D (some g) localOpt = .ok dm ∧ dm.length = N ∧ HasCols N dm ∧
      (∀ j k, j < k → k < N → entry dm k j = some (trajDist sqrt (ts.getD j []) (ts.getD k []))) ∧
      (localOpt = true → ∀ j k, j < k → k < N →
        entry dm j k = some (trajDist sqrt (ts.getD j []) (ts.getD k []))) ∧
      ∀ j < N, entry dm j j = some 0 := by
  let dist := fun j k => trajDist sqrt (ts.getD j []) (ts.getD k [])
  let writes : Nat × Nat → List (Nat × Nat × α) := fun jk =>
    (if localOpt then [(jk.1, jk.2, dist jk.1 jk.2)] else []) ++ [(jk.2, jk.1, dist jk.1 jk.2)]
  let pairs := (List.range N).flatMap fun j => (List.range' (j + 1) (N - (j + 1))).map fun k => (j, k)
  have hpairs : ∀ jk, jk ∈ pairs ↔ jk.1 < jk.2 ∧ jk.2 < N := by
    rintro ⟨j, k⟩
    simp only [pairs, List.mem_flatMap, List.mem_range, List.mem_map, List.mem_range'_1, Prod.mk.injEq]
    constructor
    · rintro ⟨j', h1, k', h2, rfl, rfl⟩; omega
    · rintro ⟨h1, h2⟩; exact ⟨j, by omega, k, by omega, rfl, rfl⟩
  have hstep : ∀ (L : List (Nat × Nat)) (M : Mat α), (∀ jk ∈ L, jk.1 < jk.2 ∧ jk.2 < N) →
      L.foldlM (distanceStep sqrt X (makeIndexList N D (some g)) localOpt) M =
      (L.flatMap writes).foldlM writeCell M := by
    intro L
    induction L with
    | nil => intro M _; rfl
    | cons jk L ih =>
      intro M hL
      obtain ⟨h1, h2⟩ := hL jk (by simp)
      have hd : computeDistance sqrt (ts.getD jk.1 []) (ts.getD jk.2 []) = .ok (dist jk.1 jk.2) := by
        apply computeDistance_ok
        have m1 := hX.getD_mem jk.1 (by omega)
        have m2 := hX.getD_mem jk.2 (by omega)
        exact sameShape_of D g _ _ (hX.rows _ m1) (hX.rows _ m2) (hX.cols _ m1) (hX.cols _ m2)
      have e : distanceStep sqrt X (makeIndexList N D (some g)) localOpt M jk =
          (writes jk).foldlM writeCell M := by
        unfold distanceStep
        rw [List.getD_eq_getElem?_getD, makeIndexList_getD N D g jk.1 (by omega), Option.getD_some,
          takeRows_block N D g ts X hX jk.1 (by omega), pyBind_ok,
          List.getD_eq_getElem?_getD, makeIndexList_getD N D g jk.2 (by omega), Option.getD_some,
          takeRows_block N D g ts X hX jk.2 (by omega), pyBind_ok, hd, pyBind_ok]
        cases localOpt with
        | false =>
          simp only [writes, Bool.false_eq_true, if_false, pyBind_ok, List.nil_append, List.foldlM_cons,
            List.foldlM_nil, writeCell]
          exact (bind_pure _).symm
        | true =>
          simp only [writes, if_true, List.cons_append, List.nil_append, List.foldlM_cons,
            List.foldlM_nil, writeCell]
          congr 1
          funext M'
          exact (bind_pure _).symm
      have e2 : (((jk :: L).flatMap writes).foldlM writeCell M : Py (Mat α)) =
          ((writes jk).foldlM writeCell M) >>= fun M' => (L.flatMap writes).foldlM writeCell M' := by
        rw [List.flatMap_cons]; exact List.foldlM_append
      rw [List.foldlM_cons, e, e2]
      cases (writes jk).foldlM writeCell M with
      | error e => rfl
      | ok M' => exact ih M' (fun jk h => hL jk (by simp [h]))
  have hz : (zerosMat N N : Mat α).length = N := by simp [zerosMat]
  have hzc : HasCols N (zerosMat N N : Mat α) := by
    intro row hr; rw [(List.mem_replicate.mp hr).2]; simp
  have hW : ∀ w, w ∈ pairs.flatMap writes ↔ ∃ j k, j < k ∧ k < N ∧
      ((localOpt = true ∧ w = (j, k, dist j k)) ∨ w = (k, j, dist j k)) := by
    intro w
    rw [List.mem_flatMap]
    constructor
    · rintro ⟨jk, h1, h2⟩
      obtain ⟨h3, h4⟩ := (hpairs jk).mp h1
      refine ⟨jk.1, jk.2, h3, h4, ?_⟩
      simp only [writes, List.mem_append, List.mem_singleton] at h2
      rcases h2 with h2 | h2
      · left
        cases localOpt with
        | false => simp at h2
        | true => simpa using h2
      · exact Or.inr h2
    · rintro ⟨j, k, h1, h2, h3⟩
      refine ⟨(j, k), (hpairs _).mpr ⟨h1, h2⟩, ?_⟩
      simp only [writes, List.mem_append, List.mem_singleton]
      rcases h3 with ⟨h3, h4⟩ | h3
      · left; simp [h3, h4]
      · exact Or.inr h3
  obtain ⟨dm, h1, h2, h3, h4, h5⟩ := writeCells_ok N N (pairs.flatMap writes) (zerosMat N N) hz hzc (by
    intro w hw
    obtain ⟨j, k, a, b, (⟨-, rfl⟩ | rfl)⟩ := (hW w).mp hw
    · exact ⟨by simpa using a.trans b, b⟩
    · exact ⟨b, by simpa using a.trans b⟩)
  refine ⟨dm, ?_, h2, h3, ?_, ?_, ?_⟩
  · unfold distanceMatrix
    obtain ⟨g', rfl⟩ : ∃ g', g = g' + 1 := ⟨g - 1, by omega⟩
    simp only [checkInputSample_ok N D (g' + 1) ts X hX hN hD, pyBind_ok]
    rw [← h1]
    exact hstep pairs _ (fun jk h => (hpairs jk).mp h)
  · intro j k hjk hk
    refine h4 k j _ ⟨(k, j, dist j k), (hW _).mpr ⟨j, k, hjk, hk, Or.inr rfl⟩, rfl, rfl⟩ ?_
    intro w hw hr hc
    obtain ⟨j', k', a, b, (⟨-, rfl⟩ | rfl)⟩ := (hW w).mp hw
    · simp only at hr hc; omega
    · simp only at hr hc; subst hr; subst hc; rfl
  · intro hl j k hjk hk
    refine h4 j k _ ⟨(j, k, dist j k), (hW _).mpr ⟨j, k, hjk, hk, Or.inl ⟨hl, rfl⟩⟩, rfl, rfl⟩ ?_
    intro w hw hr hc
    obtain ⟨j', k', a, b, (⟨-, rfl⟩ | rfl)⟩ := (hW w).mp hw
    · simp only at hr hc; subst hr; subst hc; rfl
    · simp only at hr hc; omega
  · intro j hj
    rw [h5 j j]
    · simp [entry, zerosMat, hj]
    · rintro ⟨w, hw, hr, hc⟩
      obtain ⟨j', k', a, b, (⟨-, rfl⟩ | rfl)⟩ := (hW w).mp hw <;> simp only at hr hc <;> omega

/-! ## compile_output -/

theorem foldl_set_rows {β : Type} (rows : List β) (a n : Nat) (pre mid post : List β) (hn : rows.length = n)
    (ha : pre.length = a) (hm : mid.length = n) :
    ((((List.range' a n)).zip rows).foldl (fun out (ir : Nat × β) => out.set ir.1 ir.2) (pre ++ mid ++ post)) =
      pre ++ rows ++ post := by
  induction rows generalizing a n pre mid with
  | nil =>
    obtain rfl : n = 0 := by simpa using hn.symm
    have : mid = [] := List.length_eq_zero_iff.mp hm
    subst this; simp
  | cons r rows ih =>
    obtain ⟨n, rfl⟩ : ∃ n', n = n' + 1 := ⟨n - 1, by simp at hn; omega⟩
    cases mid with
    | nil => simp at hm
    | cons m mid =>
      rw [List.range'_succ, List.zip_cons_cons, List.foldl_cons]
      have hset : (pre ++ (m :: mid) ++ post).set a r = (pre ++ [r]) ++ mid ++ post := by
        rw [List.append_assoc, List.set_append_right _ _ (by omega), ha]
        simp
      rw [hset, ih (a + 1) n (pre ++ [r]) mid (by simpa using hn) (by simp [ha]) (by simpa using hm)]
      simp

theorem zerosMat_add (a b d : Nat) : (zerosMat (a + b) d : Mat α) = zerosMat a d ++ zerosMat b d := by
  unfold zerosMat; exact List.replicate_add _ _ _

theorem compileOutput_ok (N D g : Nat) (ts : List (Mat α)) (X : Mat α) (hX : IsSample N D g ts X)
    (hN : 0 < N) (hD : 0 < D) (combo : List Nat) (hc : ∀ c ∈ combo, c < N) (hcl : combo.length ≤ N) :
    compileOutput X N D combo (some g) = .ok ((combo.map fun c => ts.getD c []).flatten) := by
  unfold compileOutput
  simp only [Option.getD_some, checkInputSample_ok N D g ts X hX hN hD, pyBind_ok]
  have key : ∀ (cs : List Nat) (n : Nat) (pre : Mat α), (∀ c ∈ cs, c < N) → n + cs.length ≤ N →
      pre.length = n * (g + 1) →
      (((cs.zipIdx n).map fun (c, i) => (i, c)).foldlM (compileStep X (makeIndexList N D (some g)))
        (pre ++ zerosMat (cs.length * (g + 1)) D)) = .ok (pre ++ (cs.map fun c => ts.getD c []).flatten) := by
    intro cs
    induction cs with
    | nil => intro n pre _ _ _; simp [zerosMat]
    | cons c cs ih =>
      intro n pre hcs hn hpre
      simp only [List.length_cons] at hn
      have hcN := hcs c (by simp)
      have hTl := hX.rows _ (hX.getD_mem c hcN)
      rw [List.zipIdx_cons, List.map_cons, List.foldlM_cons]
      have hstep : compileStep X (makeIndexList N D (some g))
          (pre ++ zerosMat ((c :: cs).length * (g + 1)) D) (n, c) =
          .ok ((pre ++ ts.getD c []) ++ zerosMat (cs.length * (g + 1)) D) := by
        unfold compileStep
        rw [makeIndexList_getD N D g n (by omega), makeIndexList_getD N D g c hcN]
        simp only [takeRows_block N D g ts X hX c hcN, pyBind_ok, pyPure]
        congr 1
        rw [List.length_cons, Nat.add_mul, one_mul, Nat.add_comm (cs.length * (g + 1)), zerosMat_add,
          ← List.append_assoc]
        have hr : ((List.range (g + 1)).map fun i => i + n * (g + 1)) = List.range' (n * (g + 1)) (g + 1) := by
          rw [List.range_eq_range', show (fun i => i + n * (g + 1)) = (fun i => n * (g + 1) + i) from
            funext fun i => Nat.add_comm _ _, List.map_add_range']
          rfl
        rw [hr]
        exact foldl_set_rows _ _ _ _ _ _ hTl hpre (by simp [zerosMat])
      simp only [hstep, pyBind_ok]
      rw [ih (n + 1) (pre ++ ts.getD c []) (fun c h => hcs c (by simp [h])) (by omega)
        (by rw [List.length_append, hpre, hTl]; ring)]
      simp
  have := key combo 0 [] hc (by omega) (by simp)
  simpa using this

end SALib
