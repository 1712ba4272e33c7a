import Verif.Lemmas.SampleFile

/-!
# Texts of numbers, lines and files are read as what was written
-/

namespace SALib

open Spec

theorem takeWhile_stop {f : Char → Bool} {a t : List Char} {b : Char}
    (ha : ∀ c ∈ a, f c = true) (hb : f b = false) :
    (a ++ b :: t).takeWhile f = a ∧ (a ++ b :: t).dropWhile f = b :: t := by
  induction a with
  | nil => simp [hb]
  | cons c a ih =>
    have hc := ha c (by simp)
    have := ih (fun d hd => ha d (by simp [hd]))
    simp [hc, this]

theorem takeWhile_all {f : Char → Bool} {a : List Char} (ha : ∀ c ∈ a, f c = true) :
    a.takeWhile f = a ∧ a.dropWhile f = [] := by
  induction a with
  | nil => simp
  | cons c a ih =>
    have hc := ha c (by simp)
    have := ih (fun d hd => ha d (by simp [hd]))
    simp [hc, this]

theorem digit_ne {c d : Char} (h : c.isDigit = true) (hd : d.isDigit = false) : c ≠ d := by
  intro hc; rw [hc, hd] at h; cases h

theorem splitSign_digit {c : Char} (t : List Char) (h : c.isDigit = true) :
    splitSign (c :: t) = (false, c :: t) := by
  unfold splitSign
  split
  · rename_i heq; cases heq; exact absurd h (by decide)
  · rename_i heq; cases heq; exact absurd h (by decide)
  · rfl

theorem readExp_expText (e : ℤ) : readExp ('e' :: expText e) = some e := by
  have hd : allDigits (fixedDigits (max 2 (Nat.log 10 e.natAbs + 1)) e.natAbs) = true := by
    refine allDigits_of ?_ (fixedDigits_digit _ _)
    rw [← List.length_pos_iff, fixedDigits_length]; omega
  have hr : readDigits (fixedDigits (max 2 (Nat.log 10 e.natAbs + 1)) e.natAbs) = e.natAbs := by
    rw [readDigits_fixedDigits]
    refine Nat.mod_eq_of_lt ?_
    refine (Nat.lt_pow_succ_log_self (b := 10) (by norm_num) e.natAbs).trans_le ?_
    exact Nat.pow_le_pow_right (by norm_num) (by omega)
  by_cases he : e < 0
  · simp only [readExp, expText, if_pos he, splitSign, hd, hr, if_true]
    congr 1; omega
  · simp only [readExp, expText, if_neg he, splitSign, hd, hr, if_true]
    simp only [Bool.false_eq_true, if_false]
    congr 1; omega

theorem readNumber_sciText (p : ℕ) (x : ℚ) : readNumber (sciText p x) = some (decRound p x) := by
  obtain ⟨ds, hds⟩ : ∃ ds, ds = fixedDigits (p + 1) (sciParts p x).1 := ⟨_, rfl⟩
  have hlen : ds.length = p + 1 := by rw [hds, fixedDigits_length]
  have hdig : ∀ c ∈ ds, c.isDigit = true := by rw [hds]; exact fixedDigits_digit _ _
  have hval : readDigits ds = (sciParts p x).1 := by
    rw [hds, readDigits_fixedDigits, Nat.mod_eq_of_lt (sciParts_lt p x)]
  match ds, hds, hlen, hdig, hval with
  | [], _, hlen, _, _ => simp at hlen
  | c :: t, hds, hlen, hdig, hval =>
    have hc : c.isDigit = true := hdig c (by simp)
    have ht : ∀ d ∈ t, d.isDigit = true := fun d hd => hdig d (by simp [hd])
    have htl : t.length = p := by simpa using hlen
    have hsign : splitSign (sciText p x) =
        (decide (x < 0), (c :: (if p = 0 then [] else '.' :: t)) ++ 'e' :: expText (sciParts p x).2) := by
      unfold sciText
      simp only [← hds]
      by_cases hx : x < 0
      · simp [hx, splitSign]
      · simp only [hx, if_false, List.nil_append, decide_false]
        simpa using splitSign_digit _ hc
    have hmant := takeWhile_stop (f := fun d => d != 'e')
      (a := c :: (if p = 0 then [] else '.' :: t)) (b := 'e') (t := expText (sciParts p x).2)
      (by
        intro d hd
        simp only [bne_iff_ne]
        split at hd
        · simp only [List.mem_singleton] at hd; rw [hd]; exact digit_ne hc (by decide)
        · simp only [List.mem_cons] at hd
          rcases hd with hd | hd | hd
          · rw [hd]; exact digit_ne hc (by decide)
          · rw [hd]; decide
          · exact digit_ne (ht d hd) (by decide))
      (by decide)
    have hip : (c :: (if p = 0 then [] else '.' :: t)).takeWhile (fun d => d != '.') = [c] ∧
        ((c :: (if p = 0 then [] else '.' :: t)).dropWhile (fun d => d != '.')).drop 1 = t := by
      have h1 : ∀ d ∈ [c], (fun d : Char => d != '.') d = true := by
        intro d hd
        simp only [List.mem_singleton] at hd
        simp only [bne_iff_ne]; rw [hd]; exact digit_ne hc (by decide)
      by_cases hp : p = 0
      · rw [if_pos hp]
        have ht0 : t = [] := List.length_eq_zero_iff.1 (by omega)
        have := takeWhile_all (f := fun d : Char => d != '.') h1
        rw [this.1, this.2, ht0]; exact ⟨rfl, rfl⟩
      · rw [if_neg hp]
        have := takeWhile_stop (f := fun d : Char => d != '.') (t := t) (b := '.') h1 (by decide)
        simp only [List.singleton_append] at this
        rw [this.1, this.2]; exact ⟨rfl, rfl⟩
    have hall : allDigits (c :: t) = true := allDigits_of (by simp) hdig
    unfold readNumber
    simp only [hsign, hmant.1, hmant.2, hip.1, hip.2, readExp_expText, List.singleton_append, hall,
      if_true, hval, htl]
    unfold decRound decMag
    by_cases hx : x < 0
    · simp [hx]
    · simp [hx]

theorem sciText_chars (p : ℕ) (x : ℚ) :
    ∀ c ∈ sciText p x, c.isDigit = true ∨ c ∈ ['.', 'e', '+', '-'] := by
  intro c hc
  have hd := fixedDigits_digit (p + 1) (sciParts p x).1
  simp only [sciText, expText, List.mem_append, List.mem_cons] at hc
  rcases hc with ((hc | hc) | hc) | hc | hc | hc
  · right; split at hc <;> simp_all
  · exact Or.inl (hd c (List.mem_of_mem_take hc))
  · split at hc
    · simp at hc
    · simp only [List.mem_cons] at hc
      rcases hc with hc | hc
      · right; simp [hc]
      · exact Or.inl (hd c (List.mem_of_mem_drop hc))
  · right; simp [hc]
  · right; split at hc <;> simp [hc]
  · exact Or.inl (fixedDigits_digit _ _ c hc)

theorem sciText_not_mem {p : ℕ} {x : ℚ} {c : Char} (h1 : c.isDigit = false)
    (h2 : c ∉ ['.', 'e', '+', '-']) : c ∉ sciText p x := by
  intro hc
  rcases sciText_chars p x c hc with h | h
  · rw [h1] at h; cases h
  · exact h2 h

theorem mem_intercalate {sep c : Char} {ls : List (List Char)} (h : c ∈ [sep].intercalate ls) :
    c = sep ∨ ∃ l ∈ ls, c ∈ l := by
  unfold List.intercalate at h
  rw [List.mem_flatten] at h
  obtain ⟨l, hl, hc⟩ := h
  induction ls with
  | nil => simp at hl
  | cons a t ih =>
    cases t with
    | nil =>
      simp only [List.intersperse_singleton, List.mem_singleton] at hl
      exact Or.inr ⟨a, by simp, hl ▸ hc⟩
    | cons b t =>
      rw [List.intersperse_cons₂] at hl
      simp only [List.mem_cons] at hl
      rcases hl with hl | hl | hl
      · exact Or.inr ⟨a, by simp, hl ▸ hc⟩
      · left; rw [hl] at hc; simpa using hc
      · rcases ih (by simpa using hl) with h | ⟨l', hl', hc'⟩
        · exact Or.inl h
        · exact Or.inr ⟨l', by simp [hl'], hc'⟩

theorem lineText_chars {p : ℕ} {d c : Char} {row : List ℚ} (h : c ∈ lineText p d row) :
    c = d ∨ c.isDigit = true ∨ c ∈ ['.', 'e', '+', '-'] := by
  rcases mem_intercalate h with h | ⟨l, hl, hc⟩
  · exact Or.inl h
  · rw [List.mem_map] at hl
    obtain ⟨x, -, rfl⟩ := hl
    exact Or.inr (sciText_chars p x c hc)

theorem sciText_ne_nil (p : ℕ) (x : ℚ) : sciText p x ≠ [] := by
  unfold sciText; simp

theorem intercalate_ne_nil {sep : Char} {a : List Char} {ls : List (List Char)} (h : a ≠ []) :
    [sep].intercalate (a :: ls) ≠ [] := by
  unfold List.intercalate
  cases ls with
  | nil => simpa using h
  | cons b t => rw [List.intersperse_cons₂]; simp [h]

theorem lineText_ne_nil {p : ℕ} {d : Char} {row : List ℚ} (h : row ≠ []) : lineText p d row ≠ [] := by
  cases row with
  | nil => exact absurd rfl h
  | cons x t => exact intercalate_ne_nil (sciText_ne_nil p x)

theorem optionMapM_some {α β γ : Type} (f : α → γ) (g : γ → Option β) (v : α → β) (l : List α)
    (h : ∀ a ∈ l, g (f a) = some (v a)) : (l.map f).mapM g = some (l.map v) := by
  induction l with
  | nil => rfl
  | cons a t ih =>
    have ha := h a (by simp)
    have ht := ih (fun b hb => h b (by simp [hb]))
    simp [List.mapM_cons, ha, ht]

theorem readLine_lineText {F : Fmt} {p : ℕ} {d : Char} {row : List ℚ} (h0 : row ≠ [])
    (hd : ¬ ReservedChar d) :
    readLine F d (lineText p d row) = some (row.map fun x => fl F (decRound p x)) := by
  unfold ReservedChar at hd
  push Not at hd
  have h1 : ∀ c ∈ lineText p d row, (c != '#') = true := by
    intro c hc
    simp only [bne_iff_ne]
    rintro rfl
    rcases lineText_chars hc with h | h | h
    · exact hd.2 (by simp [← h])
    · exact absurd h (by decide)
    · exact absurd h (by decide)
  have h2 : (lineText p d row).splitOn d = row.map (sciText p) := by
    unfold lineText
    refine List.splitOn_intercalate d ?_ (by simpa using h0)
    intro l hl
    rw [List.mem_map] at hl
    obtain ⟨x, -, rfl⟩ := hl
    refine sciText_not_mem (by simpa using hd.1) (fun h => hd.2 ?_)
    simp only [List.mem_cons, List.not_mem_nil, or_false] at h ⊢
    tauto
  unfold readLine
  rw [(takeWhile_all h1).1, h2]
  exact optionMapM_some _ _ _ _ (fun x _ => by rw [readNumber_sciText]; rfl)

theorem fileText_eq (p : ℕ) (d : Char) (X : List (List ℚ)) :
    fileText p d X = ['\n'].intercalate (X.map (lineText p d) ++ [[]]) := by
  unfold fileText List.intercalate
  induction X with
  | nil => simp
  | cons r t ih =>
    rw [List.flatMap_cons, ih]
    cases t with
    | nil => simp [List.intersperse_cons₂]
    | cons r' t => simp [List.intersperse_cons₂]

theorem readFile_fileText {F : Fmt} {p : ℕ} {d : Char} {X : List (List ℚ)} {n : ℕ} (hn : 1 ≤ n)
    (hX : ∀ r ∈ X, r.length = n) (hd : ¬ ReservedChar d) :
    readFile F d (fileText p d X) = some (X.map fun r => r.map fun x => fl F (decRound p x)) := by
  have hd' := hd
  unfold ReservedChar at hd'
  push Not at hd'
  have hne : ∀ r ∈ X, r ≠ [] := by
    rintro r hr rfl
    have := hX _ hr
    simp at this; omega
  have hlines : (fileText p d X).splitOn '\n' = X.map (lineText p d) ++ [[]] := by
    rw [fileText_eq]
    refine List.splitOn_intercalate '\n' ?_ (by simp)
    intro l hl
    simp only [List.mem_append, List.mem_map, List.mem_singleton] at hl
    rcases hl with ⟨r, -, rfl⟩ | rfl
    · intro hc
      rcases lineText_chars hc with h | h | h
      · exact hd'.2 (by simp [← h])
      · exact absurd h (by decide)
      · exact absurd h (by decide)
    · simp
  have hhash : ∀ r ∈ X, (lineText p d r).takeWhile (· != '#') = lineText p d r := by
    intro r _
    refine (takeWhile_all (fun c hc => ?_)).1
    simp only [bne_iff_ne]
    rintro rfl
    rcases lineText_chars hc with h | h | h
    · exact hd'.2 (by simp [← h])
    · exact absurd h (by decide)
    · exact absurd h (by decide)
  have hfilter : (X.map (lineText p d) ++ [[]]).filter
      (fun l => !(l.takeWhile (· != '#')).isEmpty) = X.map (lineText p d) := by
    rw [List.filter_append]
    have h1 : (X.map (lineText p d)).filter (fun l => !(l.takeWhile (· != '#')).isEmpty)
        = X.map (lineText p d) := by
      rw [List.filter_eq_self]
      intro l hl
      rw [List.mem_map] at hl
      obtain ⟨r, hr, rfl⟩ := hl
      rw [hhash r hr]
      simpa using lineText_ne_nil (hne r hr)
    rw [h1]; simp
  have hm := optionMapM_some (lineText p d) (readLine F d)
    (fun r => r.map fun x => fl F (decRound p x)) X (fun r hr => readLine_lineText (hne r hr) hd)
  unfold readFile
  simp only [hlines, hfilter, hm]
  rw [if_pos]
  rw [List.all_eq_true]
  intro r hr
  rw [List.mem_map] at hr
  obtain ⟨r', hr', rfl⟩ := hr
  cases X with
  | nil => simp at hr'
  | cons a t =>
    simp only [List.map_cons, List.headD_cons, List.length_map, beq_iff_eq]
    rw [hX r' hr', hX a (by simp)]

end SALib
