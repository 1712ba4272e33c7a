import Verif.Model.SobolAnalyze
import Verif.Lemmas.Groups
import Verif.Lemmas.Tactics

/-! # `np.array_split`, `zip_longest` merge, and folds of cell assignments -/

namespace SALib
open Spec

theorem flatten_cuts {β : Type} (l : List β) (pos : Nat → Nat) (hmono : ∀ i, pos i ≤ pos (i + 1))
    (h0 : pos 0 = 0) (n : Nat) :
    ((List.range n).map fun i => (l.drop (pos i)).take (pos (i + 1) - pos i)).flatten =
      l.take (pos n) := by
  induction n with
  | zero => simp [h0]
  | succ n ih =>
    rw [List.range_succ, List.map_append, List.flatten_append, ih]
    simp only [List.map_cons, List.map_nil, List.flatten_cons, List.flatten_nil, List.append_nil]
    have := hmono n
    conv_rhs => rw [show pos (n + 1) = pos n + (pos (n + 1) - pos n) by omega]
    rw [List.take_add]

/-- `array_split` cuts the list into consecutive pieces: nothing lost, repeated or reordered. -/
theorem arraySplit_flatten {β : Type} (l : List β) (n : Nat) (hn : 0 < n) :
    (arraySplit l n).flatten = l := by
  unfold arraySplit
  simp only
  have h1 : n * (l.length / n) + l.length % n = l.length := Nat.div_add_mod l.length n
  have h2 : l.length % n < n := Nat.mod_lt _ hn
  generalize l.length / n = q at *
  generalize l.length % n = e at *
  have hp : ∀ i, (i + 1) * q + min (i + 1) e - (i * q + min i e) = q + if i < e then 1 else 0 := by
    intro i
    have : (i + 1) * q = i * q + q := by ring
    rw [this]
    split <;> omega
  have key := flatten_cuts l (fun i => i * q + min i e) (by
    intro i
    have : (i + 1) * q = i * q + q := by ring
    simp only [this]; omega) (by simp) n
  simp only [hp] at key
  rw [key]
  apply List.take_of_length_le
  omega

theorem length_arraySplit {β : Type} (l : List β) (n : Nat) : (arraySplit l n).length = n := by
  simp [arraySplit]

theorem interleave_perm {β : Type} (as bs : List β) : (interleave as bs).Perm (as ++ bs) := by
  fun_induction interleave as bs with
  | case1 bs => simp
  | case2 as h => simp
  | case3 a as b bs ih =>
    rw [List.cons_append]
    apply List.Perm.cons
    exact (List.Perm.cons b ih).trans List.perm_middle.symm

/-- A fold of conditional assignments into a list, when the assigned value is determined by the
position. -/
theorem foldl_set_get {τ γ : Type} (p : τ → Bool) (idx : τ → Nat) (val : τ → γ) (L : List τ)
    (acc : List γ) (i : Nat) (v : γ) (hi : i < acc.length)
    (hv : ∀ t ∈ L, p t = true → idx t = i → val t = v) :
    ((∃ t ∈ L, p t = true ∧ idx t = i) →
      (L.foldl (fun acc t => if p t then acc.set (idx t) (val t) else acc) acc)[i]? = some v) ∧
    ((¬ ∃ t ∈ L, p t = true ∧ idx t = i) →
      (L.foldl (fun acc t => if p t then acc.set (idx t) (val t) else acc) acc)[i]? = acc[i]?) := by
  induction L generalizing acc with
  | nil => simp
  | cons t L ih =>
    rw [List.foldl_cons]
    have hv' : ∀ t ∈ L, p t = true → idx t = i → val t = v := fun t ht => hv t (by simp [ht])
    by_cases hp : p t = true
    · simp only [hp, if_true]
      obtain ⟨h1, h2⟩ := ih (acc.set (idx t) (val t)) (by simpa using hi) hv'
      constructor
      · rintro ⟨t', ht', hp', hi'⟩
        by_cases hex : ∃ t ∈ L, p t = true ∧ idx t = i
        · exact h1 hex
        · rw [h2 hex]
          rcases List.mem_cons.mp ht' with rfl | ht''
          · subst hi'
            rw [List.getElem?_set_self hi, hv t' (by simp) hp' rfl]
          · exact absurd ⟨t', ht'', hp', hi'⟩ hex
      · intro hno
        rw [h2 (fun ⟨t', a, b, c⟩ => hno ⟨t', by simp [a], b, c⟩)]
        have : idx t ≠ i := fun h => hno ⟨t, by simp, hp, h⟩
        rw [List.getElem?_set_ne this]
    · simp only [hp]
      obtain ⟨h1, h2⟩ := ih acc hi hv'
      constructor
      · rintro ⟨t', ht', hp', hi'⟩
        rcases List.mem_cons.mp ht' with rfl | ht''
        · exact absurd hp' hp
        · exact h1 ⟨t', ht'', hp', hi'⟩
      · intro hno
        exact h2 (fun ⟨t', a, b, c⟩ => hno ⟨t', by simp [a], b, c⟩)

theorem foldl_set_length {τ γ : Type} (p : τ → Bool) (idx : τ → Nat) (val : τ → γ) (L : List τ)
    (acc : List γ) :
    (L.foldl (fun acc t => if p t then acc.set (idx t) (val t) else acc) acc).length = acc.length := by
  induction L generalizing acc with
  | nil => rfl
  | cons t L ih => rw [List.foldl_cons, ih]; split <;> simp

/-- A fold of assignments filling every position, the value being a function of the position. -/
theorem foldl_set_fill {τ γ : Type} (p : τ → Bool) (idx : τ → Nat) (val : τ → γ) (L : List τ)
    (acc : List γ) (f : Nat → γ) (D : Nat) (hlen : acc.length = D)
    (hv : ∀ t ∈ L, p t = true → val t = f (idx t))
    (hall : ∀ i < D, ∃ t ∈ L, p t = true ∧ idx t = i) :
    L.foldl (fun acc t => if p t then acc.set (idx t) (val t) else acc) acc = (List.range D).map f := by
  apply List.ext_getElem?
  intro i
  by_cases hi : i < D
  · rw [(foldl_set_get p idx val L acc i (f i) (by omega)
      (fun t ht hp hidx => by rw [hv t ht hp, hidx])).1 (hall i hi)]
    simp [hi]
  · rw [List.getElem?_eq_none (by rw [foldl_set_length]; omega), List.getElem?_eq_none (by simp; omega)]

/-- The two-dimensional version: cells with `j < k` are filled, the others keep the initial value. -/
theorem foldl_set2_fill {τ γ : Type} (p : τ → Bool) (idx idx' : τ → Nat) (val : τ → γ) (L : List τ)
    (D : Nat) (z : γ) (f : Nat → Nat → γ)
    (hv : ∀ t ∈ L, p t = true → val t = f (idx t) (idx' t) ∧ idx t < idx' t ∧ idx' t < D)
    (hall : ∀ j k, j < k → k < D → ∃ t ∈ L, p t = true ∧ idx t = j ∧ idx' t = k) :
    L.foldl (fun (M : List (List γ)) t =>
        if p t then M.set (idx t) ((M.getD (idx t) []).set (idx' t) (val t)) else M)
      (List.replicate D (List.replicate D z)) =
      (List.range D).map fun j => (List.range D).map fun k => if j < k then f j k else z := by
  have key : ∀ (L : List τ) (M : List (List γ)), M.length = D → (∀ row ∈ M, row.length = D) →
      (∀ t ∈ L, p t = true → val t = f (idx t) (idx' t) ∧ idx t < idx' t ∧ idx' t < D) →
      let R := L.foldl (fun (M : List (List γ)) t =>
        if p t then M.set (idx t) ((M.getD (idx t) []).set (idx' t) (val t)) else M) M
      R.length = D ∧ (∀ row ∈ R, row.length = D) ∧ ∀ j k, j < D → k < D →
        ((∃ t ∈ L, p t = true ∧ idx t = j ∧ idx' t = k) → entry R j k = some (f j k)) ∧
        ((¬ ∃ t ∈ L, p t = true ∧ idx t = j ∧ idx' t = k) → entry R j k = entry M j k) := by
    intro L
    induction L with
    | nil => intro M h1 h2 _; exact ⟨h1, h2, by simp⟩
    | cons t L ih =>
      intro M h1 h2 h3
      rw [List.foldl_cons]
      by_cases hp : p t = true
      · obtain ⟨e1, e2, e3⟩ := h3 t (by simp) hp
        have hrow : M[idx t]? = some (M.getD (idx t) []) := by
          rw [List.getD_eq_getElem?_getD, List.getElem?_eq_getElem (by omega)]; rfl
        have hrl : (M.getD (idx t) []).length = D := h2 _ (List.mem_of_getElem? hrow)
        simp only [hp, if_true]
        obtain ⟨i1, i2, i3⟩ := ih (M.set (idx t) ((M.getD (idx t) []).set (idx' t) (val t)))
          (by simpa using h1)
          (by
            intro row hr
            rcases List.mem_or_eq_of_mem_set hr with h | h
            · exact h2 row h
            · rw [h, List.length_set, hrl])
          (fun t' ht => h3 t' (by simp [ht]))
        refine ⟨i1, i2, ?_⟩
        intro j k hj hk
        obtain ⟨c1, c2⟩ := i3 j k hj hk
        have hset := entry_set M (idx t) (idx' t) (val t) _ hrow (by omega) j k
        constructor
        · rintro ⟨t', ht', hp', hj', hk'⟩
          by_cases hex : ∃ t ∈ L, p t = true ∧ idx t = j ∧ idx' t = k
          · exact c1 hex
          · rw [c2 hex, hset]
            rcases List.mem_cons.mp ht' with rfl | ht''
            · rw [if_pos ⟨hj'.symm, hk'.symm⟩, e1, hj', hk']
            · exact absurd ⟨t', ht'', hp', hj', hk'⟩ hex
        · intro hno
          rw [c2 (fun ⟨t', a, b⟩ => hno ⟨t', by simp [a], b⟩), hset, if_neg]
          rintro ⟨rfl, rfl⟩
          exact hno ⟨t, by simp, hp, rfl, rfl⟩
      · simp only [hp]
        obtain ⟨i1, i2, i3⟩ := ih M h1 h2 (fun t' ht => h3 t' (by simp [ht]))
        refine ⟨i1, i2, ?_⟩
        intro j k hj hk
        obtain ⟨c1, c2⟩ := i3 j k hj hk
        constructor
        · rintro ⟨t', ht', hp', hjk⟩
          rcases List.mem_cons.mp ht' with rfl | ht''
          · exact absurd hp' hp
          · exact c1 ⟨t', ht'', hp', hjk⟩
        · intro hno
          exact c2 (fun ⟨t', a, b⟩ => hno ⟨t', by simp [a], b⟩)
  obtain ⟨h1, h2, h3⟩ := key L (List.replicate D (List.replicate D z)) (by simp)
    (by intro row hr; rw [(List.mem_replicate.mp hr).2]; simp) hv
  apply List.ext_getElem
  · rw [h1]; simp
  · intro j hj hj'
    rw [h1] at hj
    apply List.ext_getElem
    · rw [h2 _ (List.getElem_mem _)]; simp
    · intro k hk hk'
      rw [h2 _ (List.getElem_mem _)] at hk
      obtain ⟨c1, c2⟩ := h3 j k hj hk
      have he : entry (L.foldl (fun (M : List (List γ)) t =>
          if p t then M.set (idx t) ((M.getD (idx t) []).set (idx' t) (val t)) else M)
          (List.replicate D (List.replicate D z))) j k = some (if j < k then f j k else z) := by
        by_cases hjk : j < k
        · rw [if_pos hjk]; exact c1 (hall j k hjk hk)
        · rw [if_neg hjk, c2]
          · simp [entry, hj, hk]
          · rintro ⟨t, ht, hp, rfl, rfl⟩
            exact hjk (hv t ht hp).2.1
      unfold entry at he
      rw [List.getElem?_eq_getElem (by omega), Option.bind_some] at he
      rw [(List.getElem?_eq_some_iff.mp he).2]
      simp

end SALib
