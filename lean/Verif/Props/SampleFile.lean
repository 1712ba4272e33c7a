import Verif.Lemmas.SampleFileText
import Verif.Model.MorrisAnalyze
import Verif.Model.DeltaDriver
import Verif.Props.DeltaFirst
import Mathlib.Tactic.IntervalCases

/-!
# C124: samples written to a file and read back

A sample that a command writes with `--precision p` and another command reads again has the same
shape, and each of its entries has been rounded to `p + 1` significant digits.  The order of the
entries is kept, the relative change is at most `10 ^ (-p)`, and from `p = 16` on nothing changes.
-/

namespace SALib

open Spec

/-- A sample of at least one column, written and read with a delimiter that is no part of numbers,
lines or comments, has the same shape, and every entry is the number of the format nearest to its
nearest decimal; the same number becomes the same number wherever it stands, and the order of
numbers is kept. -/
theorem C124_file (F : Fmt) (hF : 2 ≤ F.p) (p : ℕ) :
    ∃ f : ℚ → ℚ, Monotone f ∧ (∀ x, WrittenAndRead F p x (f x)) ∧
      ∀ (d : Char) (X : List (List ℚ)) (n : ℕ), 1 ≤ n → (∀ r ∈ X, r.length = n) →
        ¬ ReservedChar d →
        ∃ text, writeFile p d X = some text ∧
          readFile F d text = some (X.map fun r => r.map f) := by
  refine ⟨fun x => fl F (decRound p x), fun x y h => fl_mono (by omega) (decRound_mono p h),
    fun x => ⟨_, decRound_nearest p x, fl_roundsTo hF _⟩, ?_⟩
  intro d X n hn hX hd
  refine ⟨fileText p d X, ?_, readFile_fileText hn hX hd⟩
  unfold writeFile
  rw [if_neg (by omega)]; simp

example : ¬ ReservedChar ' ' ∧ ¬ ReservedChar ',' ∧ ¬ ReservedChar ';' ∧ ¬ ReservedChar '\t' := by
  unfold ReservedChar; decide

/-- Two rows at the default precision; 1/3 keeps nine digits. -/
example : readFile binary64 ',' (fileText 8 ',' [[1, 1 / 4], [-3, fl binary64 (1 / 3)]]) =
    some [[1, 1 / 4], [-3, fl binary64 (333333333 / 10 ^ 9)]] := by
  decide +kernel

/-- The nearest decimal itself is off by at most half a unit of its last digit. -/
theorem C124_decimal (p : ℕ) (x d : ℚ) (h : NearestDecimal p x d) :
    |d - x| ≤ 1 / 2 * (10 : ℚ) ^ (-(p : ℤ)) * |x| := NearestDecimal.err h

/-- An entry changes by at most `10 ^ (-p)` of its size. -/
theorem C124_error (F : Fmt) (p : ℕ) (x y : ℚ) (hx : IsFloat F x) (h : WrittenAndRead F p x y) :
    |y - x| ≤ (10 : ℚ) ^ (-(p : ℤ)) * |x| := by
  obtain ⟨d, hd, hy⟩ := h
  have h1 := NearestDecimal.err hd
  have h2 := hy.nearest x hx
  have h3 : |y - x| ≤ |y - d| + |d - x| := by
    have := abs_add_le (y - d) (d - x)
    rwa [sub_add_sub_cancel] at this
  rw [abs_sub_comm x d] at h2
  linarith

/-- Where the decimals are finer than the format, nothing changes. -/
theorem C124_exact (F : Fmt) (p : ℕ) (hp : 2 ^ F.p < 10 ^ p) (x y : ℚ) (hx : IsFloat F x)
    (h : WrittenAndRead F p x y) : y = x := by
  by_contra hne
  have h1 := C124_error F p x y hx h
  obtain ⟨d, hd, hy⟩ := h
  have h2 := hx.separated hy.isFloat (fun hc => hne hc.symm)
  have hx0 : x ≠ 0 := by
    rintro rfl
    simp at h1
    exact hne h1
  have h3 : (10 : ℚ) ^ (-(p : ℤ)) < (2 : ℚ) ^ (-(F.p : ℤ)) := by
    rw [zpow_neg, zpow_neg, zpow_natCast, zpow_natCast]
    refine inv_strictAnti₀ (by positivity) ?_
    exact_mod_cast hp
  have h4 := mul_lt_mul_of_pos_right h3 (abs_pos.2 hx0)
  linarith

/-- With `--precision 16` or more, a sample of binary64 numbers is read as it was written. -/
theorem C124_lossless (p : ℕ) (hp : 16 ≤ p) (d : Char) (X : List (List ℚ)) (n : ℕ) (hn : 1 ≤ n)
    (hX : ∀ r ∈ X, r.length = n) (hf : ∀ r ∈ X, ∀ x ∈ r, IsFloat binary64 x)
    (hd : ¬ ReservedChar d) :
    ∃ text, writeFile p d X = some text ∧ readFile binary64 d text = some X := by
  obtain ⟨f, -, hf1, hf2⟩ := C124_file binary64 (by decide) p
  obtain ⟨text, ht, hr⟩ := hf2 d X n hn hX hd
  refine ⟨text, ht, ?_⟩
  rw [hr]
  congr 1
  have hpow : 2 ^ binary64.p < 10 ^ p :=
    lt_of_lt_of_le (by decide : 2 ^ 53 < 10 ^ 16) (Nat.pow_le_pow_right (by norm_num) hp)
  have : X.map (fun r => r.map f) = X.map id := by
    refine List.map_congr_left (fun r hr => ?_)
    have : r.map f = r.map id :=
      List.map_congr_left (fun x hx => C124_exact binary64 p hpow x _ (hf r hr x hx) (hf1 x))
    rw [this]; simp
  rw [this]; simp

/-- A value that needs all 17 digits. -/
example : IsFloat binary64 (fl binary64 (1 / 10)) ∧
    readFile binary64 ' ' (fileText 16 ' ' [[fl binary64 (1 / 10)]]) = some [[fl binary64 (1 / 10)]] ∧
    String.ofList (fileText 16 ' ' [[fl binary64 (1 / 10)]]) = "1.0000000000000001e-01\n" :=
  ⟨isFloat_fl (by decide) _, by decide +kernel, by decide +kernel⟩

/-- Numbers of the format that are read as the same number lie close together. -/
theorem C124_distinct (F : Fmt) (p : ℕ) (x x' y : ℚ) (hx : IsFloat F x) (hx' : IsFloat F x')
    (h : WrittenAndRead F p x y) (h' : WrittenAndRead F p x' y) :
    |x - x'| ≤ (10 : ℚ) ^ (-(p : ℤ)) * (|x| + |x'|) := by
  have h1 := C124_error F p x y hx h
  have h2 := C124_error F p x' y hx' h'
  have h3 : |x - x'| ≤ |x - y| + |y - x'| := by
    have := abs_add_le (x - y) (y - x')
    rwa [sub_add_sub_cancel] at this
  rw [abs_sub_comm x y] at h3
  linarith

/-- Bounds that need at most `p + 1` digits are kept. -/
theorem C124_bounds (F : Fmt) (p : ℕ) (lo hi x y : ℚ) (hlo : IsDecimal p lo) (hhi : IsDecimal p hi)
    (flo : IsFloat F lo) (fhi : IsFloat F hi) (h1 : lo ≤ x) (h2 : x ≤ hi)
    (h : WrittenAndRead F p x y) : lo ≤ y ∧ y ≤ hi := by
  obtain ⟨d, hd, hy⟩ := h
  have a1 := hd.2 _ hlo
  have a2 := hd.2 _ hhi
  have hld : lo ≤ d := by
    by_contra hc
    push Not at hc
    rw [abs_of_neg (by linarith : d - x < 0), abs_of_nonpos (by linarith : lo - x ≤ 0)] at a1
    linarith
  have hdh : d ≤ hi := by
    by_contra hc
    push Not at hc
    rw [abs_of_pos (by linarith : 0 < d - x), abs_of_nonneg (by linarith : 0 ≤ hi - x)] at a2
    linarith
  have b1 := hy.nearest _ flo
  have b2 := hy.nearest _ fhi
  constructor
  · by_contra hc
    push Not at hc
    rw [abs_of_neg (by linarith : y - d < 0), abs_of_nonpos (by linarith : lo - d ≤ 0)] at b1
    linarith
  · by_contra hc
    push Not at hc
    rw [abs_of_pos (by linarith : 0 < y - d), abs_of_nonneg (by linarith : 0 ≤ hi - d)] at b2
    linarith

example : IsDecimal 8 (-25 / 10) ∧ IsFloat binary64 (-25 / 10) :=
  ⟨⟨-25, -1, by norm_num, by norm_num⟩, ⟨-5, -1, by decide, by norm_num [binary64], by norm_num⟩⟩

/-! ## Analyses of a sample that was read from a file -/

theorem writtenAndRead_zero {F : Fmt} {p : ℕ} {y : ℚ} (h : WrittenAndRead F p 0 y) : y = 0 := by
  have := C124_error F p 0 y ⟨0, F.emin, le_rfl, by simp, by simp⟩ h
  simpa using this

theorem deltaColumn_cons₂ {α : Type} [Field α] [LinearOrder α] (a b : List α) (t : Mat α) (j : Nat) :
    deltaColumn (a :: b :: t) j = (b.getD j 0 - a.getD j 0) :: deltaColumn (b :: t) j := by
  simp [deltaColumn]

/-- The effects of a trajectory depend on its values through the signs of their changes. -/
theorem effectDifference_congr {α : Type} [Field α] [LinearOrder α] [IsStrictOrderedRing α]
    (T : Mat α) (g : List α → List α) (y : List α) (j : Nat)
    (h : ∀ a ∈ T, ∀ b ∈ T, a.getD j 0 < b.getD j 0 ↔ (g a).getD j 0 < (g b).getD j 0) :
    effectDifference (T.map g) y j = effectDifference T y j := by
  have key : ∀ T : Mat α, (∀ a ∈ T, ∀ b ∈ T, a.getD j 0 < b.getD j 0 ↔ (g a).getD j 0 < (g b).getD j 0) →
      (deltaColumn (T.map g) j).map (fun x => decide (0 < x)) =
        (deltaColumn T j).map (fun x => decide (0 < x)) ∧
      (deltaColumn (T.map g) j).map (fun x => decide (x < 0)) =
        (deltaColumn T j).map (fun x => decide (x < 0)) := by
    intro T
    induction T with
    | nil => intro _; simp [deltaColumn]
    | cons a t ih =>
      cases t with
      | nil => intro _; simp [deltaColumn]
      | cons b t =>
        intro h
        have ih' := ih (fun c hc d hd => h c (by simp [hc]) d (by simp [hd]))
        have h1 := h a (by simp) b (by simp)
        have h2 := h b (by simp) a (by simp)
        rw [List.map_cons, List.map_cons, deltaColumn_cons₂, deltaColumn_cons₂]
        rw [List.map_cons] at ih'
        simp only [List.map_cons, ih'.1, ih'.2, sub_pos, sub_neg]
        refine ⟨?_, ?_⟩ <;> congr 1 <;> simp only [decide_eq_decide]
        · exact h1.symm
        · exact h2.symm
  unfold effectDifference
  simp only [(key T h).1, (key T h).2]

theorem reshapeBlocks_map {β γ : Type} (g : β → γ) (l : List β) (n m : Nat) :
    reshapeBlocks (l.map g) n m = (reshapeBlocks l n m).map (fun B => B.map (fun b => b.map g)) := by
  unfold reshapeBlocks
  by_cases h : l.length = n * m
  · simp only [List.length_map, h, if_true]
    simp [Except.map, Function.comp_def, List.map_drop, List.map_take]
  · simp only [List.length_map, h, if_false]; rfl

theorem elementaryEffects_congr {α : Type} [Field α] [LinearOrder α] [IsStrictOrderedRing α]
    (sqrt : α → α) (X : Mat α) (g : List α → List α) (D : Nat) (Y : List α) (size : Nat) (delta : α)
    (h : ∀ j < D, ∀ a ∈ X, ∀ b ∈ X, a.getD j 0 < b.getD j 0 ↔ (g a).getD j 0 < (g b).getD j 0) :
    elementaryEffects sqrt (X.map g) D Y size delta false = elementaryEffects sqrt X D Y size delta false := by
  unfold elementaryEffects
  by_cases hs : size = 0
  · simp only [hs, if_true]; rfl
  · simp only [hs, if_false, List.length_map, reshapeBlocks_map]
    cases hy : reshapeBlocks Y (X.length / size) size with
    | error e => rfl
    | ok ys =>
      cases hx : reshapeBlocks X (X.length / size) size with
      | error e => rfl
      | ok xs =>
        have hmem : ∀ T ∈ xs, ∀ r ∈ T, r ∈ X := by
          unfold reshapeBlocks at hx
          split at hx
          · cases hx
            intro T hT r hr
            rw [List.mem_map] at hT
            obtain ⟨i, -, rfl⟩ := hT
            exact List.mem_of_mem_drop (List.mem_of_mem_take hr)
          · cases hx
        show Except.ok _ = Except.ok _
        congr 1
        refine List.map_congr_left (fun j hj => ?_)
        rw [List.mem_range] at hj
        rw [List.zip_map_left, List.map_map]
        refine List.map_congr_left (fun Ty hTy => ?_)
        have hT := (List.of_mem_zip hTy).1
        simp only [Function.comp_def, Prod.map, id, Bool.false_eq_true, if_false]
        rw [effectDifference_congr]
        exact fun a ha b hb => h j hj a (hmem _ hT a ha) b (hmem _ hT b hb)

/-- The values of column `j` of a sample are so far apart that `p + 1` digits tell them apart. -/
def ToldApart (p j : ℕ) (X : List (List ℚ)) : Prop :=
  ∀ a ∈ X, ∀ b ∈ X, a.getD j 0 < b.getD j 0 →
    (10 : ℚ) ^ (-(p : ℤ)) * (|a.getD j 0| + |b.getD j 0|) < b.getD j 0 - a.getD j 0

theorem order_kept {F : Fmt} {p : ℕ} {f : ℚ → ℚ} (hm : Monotone f)
    (hw : ∀ x, WrittenAndRead F p x (f x)) {X : List (List ℚ)} {j : ℕ}
    (hf : ∀ r ∈ X, ∀ x ∈ r, IsFloat F x) (hs : ToldApart p j X) (a b : List ℚ) (ha : a ∈ X)
    (hb : b ∈ X) : a.getD j 0 < b.getD j 0 ↔ f (a.getD j 0) < f (b.getD j 0) := by
  have fl0 : ∀ r ∈ X, IsFloat F (r.getD j 0) := by
    intro r hr
    by_cases hj : j < r.length
    · rw [List.getD_eq_getElem?_getD, List.getElem?_eq_getElem hj]
      exact hf r hr _ (List.getElem_mem hj)
    · rw [List.getD_eq_getElem?_getD, List.getElem?_eq_none (by omega)]
      exact ⟨0, F.emin, le_rfl, by simp, by simp⟩
  constructor
  · intro h
    refine lt_of_le_of_ne (hm h.le) (fun hc => ?_)
    have h1 := C124_distinct F p _ _ _ (fl0 a ha) (fl0 b hb) (hw _) (hc ▸ hw _)
    have h2 := hs a ha b hb h
    rw [abs_sub_comm, abs_of_pos (by linarith)] at h1
    linarith
  · intro h
    by_contra hc
    push Not at hc
    exact absurd (hm hc) (not_le.2 h)

theorem getD_map_zero {f : ℚ → ℚ} (h0 : f 0 = 0) (r : List ℚ) (j : ℕ) :
    (r.map f).getD j 0 = f (r.getD j 0) := by
  rw [List.getD_eq_getElem?_getD, List.getD_eq_getElem?_getD, List.getElem?_map]
  cases r[j]? with
  | none => simp [h0]
  | some v => simp

/-- Morris: the sample read from the file gives the same result as the sample itself, if the
digits tell the values of each parameter apart. -/
theorem C124_morris (F : Fmt) (hF : 2 ≤ F.p) (p : ℕ) (d : Char) (X X' : List (List ℚ)) (n : ℕ)
    (hn : 1 ≤ n) (hX : ∀ r ∈ X, r.length = n) (hf : ∀ r ∈ X, ∀ x ∈ r, IsFloat F x)
    (hd : ¬ ReservedChar d) (hs : ∀ j < n, ToldApart p j X) (text : List Char)
    (hw : writeFile p d X = some text) (hr : readFile F d text = some X')
    (sqrt : ℚ → ℚ) (z conf : ℚ) (resample : Nat → List (List Nat)) (pb : Problem ℚ) (Y : List ℚ)
    (levels : Nat) :
    morrisAnalyze sqrt z conf resample pb X' n Y false levels =
      morrisAnalyze sqrt z conf resample pb X n Y false levels := by
  obtain ⟨f, hm, hf1, hf2⟩ := C124_file F hF p
  obtain ⟨text', ht', hr'⟩ := hf2 d X n hn hX hd
  rw [hw] at ht'
  cases ht'
  rw [hr] at hr'
  cases hr'
  have h0 : f 0 = 0 := writtenAndRead_zero (hf1 0)
  have he : ∀ size delta, elementaryEffects sqrt (X.map fun r => r.map f) n Y size delta false =
      elementaryEffects sqrt X n Y size delta false := by
    intro size delta
    refine elementaryEffects_congr sqrt X _ n Y size delta (fun j hj a ha b hb => ?_)
    rw [getD_map_zero h0, getD_map_zero h0]
    exact order_kept hm hf1 hf (hs j hj) a b ha hb
  unfold morrisAnalyze
  simp only [he]

/-- A sample of two parameters with changes of whole units. -/
example : ToldApart 8 0 [[100, 7], [101, 7], [101, 9]] ∧ ToldApart 8 1 [[100, 7], [101, 7], [101, 9]] := by
  unfold ToldApart
  constructor <;>
    (simp only [List.mem_cons, List.not_mem_nil, or_false, forall_eq_or_imp, forall_eq]; norm_num)

theorem mapM_pyGet_mapped (f : ℚ → ℚ) (X : List (List ℚ)) (i : ℕ) :
    (X.map fun r => r.map f).mapM (fun row => pyGet row i) =
      (X.mapM fun row => pyGet row i).map fun col => col.map f := by
  induction X with
  | nil => rfl
  | cons r t ih =>
    rw [List.map_cons, List.mapM_cons, List.mapM_cons, ih]
    cases hr : r[i]? with
    | none => simp [pyGet, hr]; rfl
    | some v =>
      have h1 : pyGet r i = .ok v := by simp [pyGet, hr]
      have h2 : pyGet (r.map f) i = .ok (f v) := by simp [pyGet, hr]
      rw [h1, h2]
      cases t.mapM (fun row => pyGet row i) with
      | error e => rfl
      | ok col => rfl

theorem forall₂_source {β γ : Type} {P : β → γ → Prop} {l : List β} {m : List γ}
    (h : List.Forall₂ P l m) : ∀ b ∈ m, ∃ a ∈ l, P a b := by
  induction h with
  | nil => simp
  | cons hab _ ih =>
    intro b hb
    rw [List.mem_cons] at hb
    rcases hb with rfl | hb
    · exact ⟨_, by simp, hab⟩
    · obtain ⟨a, ha, h⟩ := ih b hb
      exact ⟨a, by simp [ha], h⟩

theorem sobolStages_map (f : ℚ → ℚ) (s : DeltaSetup ℚ) (R : DeltaRandom) (Y grid col m edges edges' : List ℚ)
    (y i : Nat)
    (h : ∀ rs, (rs = R.rows i ∨ rs ∈ R.boot i) → ∀ Yr,
      sobolFirst Yr (takeIdx (col.map f) rs) m = sobolFirst Yr (takeIdx col rs) m) :
    deltaStages s R .sobol Y grid (col.map f) m edges y i = deltaStages s R .sobol Y grid col m edges' y i := by
  unfold deltaStages sobolFirstConf
  simp only [DeltaMethod.hasDelta, DeltaMethod.hasSobol, Bool.false_eq_true, if_false, if_true,
    List.nil_append]
  rw [h (R.rows i) (Or.inl rfl)]
  have : (R.boot i).map (fun r => sobolFirst (takeIdx Y r) (takeIdx (col.map f) r) m) =
      (R.boot i).map (fun r => sobolFirst (takeIdx Y r) (takeIdx col r) m) :=
    List.map_congr_left (fun r hr => h r (Or.inr hr) _)
  rw [this]

/-- The first-order part of one parameter, whatever the edges are. -/
theorem deltaParam_sobol (s : DeltaSetup ℚ) (R : DeltaRandom) (names : List String) (X : Mat ℚ)
    (Y grid m : List ℚ) (y i : Nat) :
    deltaParam s R .sobol names X Y grid m y i =
      (do
        let _ ← pyGet names i
        let col ← X.mapM fun row => pyGet row i
        let _ ← arrMin col
        runStages {} (deltaStages s R .sobol Y grid col m [] y i)) := by
  unfold deltaParam
  cases pyGet names i with
  | error e => rfl
  | ok name =>
    cases X.mapM (fun row => pyGet row i) with
    | error e => rfl
    | ok col =>
      cases col with
      | nil => rfl
      | cons a t => rfl

/-- Delta, first-order indices: the sample read from the file gives the same result as the sample
itself, if the digits tell the values of each parameter apart. -/
theorem C124_delta (F : Fmt) (hF : 2 ≤ F.p) (p : ℕ) (d : Char) (X X' : List (List ℚ)) (n : ℕ)
    (hn : 1 ≤ n) (hX : ∀ r ∈ X, r.length = n) (hf : ∀ r ∈ X, ∀ x ∈ r, IsFloat F x)
    (hd : ¬ ReservedChar d) (hs : ∀ j < n, ToldApart p j X) (text : List Char)
    (hw : writeFile p d X = some text) (hr : readFile F d text = some X')
    (s : DeltaSetup ℚ) (R : DeltaRandom) (pb : Problem ℚ) (Y : List ℚ) (conf : ℚ)
    (yres : Option Nat) (hrows : ∀ i, ∀ k ∈ R.rows i, k < X.length)
    (hboot : ∀ i, ∀ r ∈ R.boot i, ∀ k ∈ r, k < X.length) :
    deltaAnalyze s R pb X' Y conf yres (some .sobol) = deltaAnalyze s R pb X Y conf yres (some .sobol) := by
  obtain ⟨f, hm, hf1, hf2⟩ := C124_file F hF p
  obtain ⟨text', ht', hr'⟩ := hf2 d X n hn hX hd
  rw [hw] at ht'
  cases ht'
  rw [hr] at hr'
  cases hr'
  have h0 : f 0 = 0 := writtenAndRead_zero (hf1 0)
  have hpar : ∀ grid m y i, deltaParam s R .sobol pb.names (X.map fun r => r.map f) Y grid m y i =
      deltaParam s R .sobol pb.names X Y grid m y i := by
    intro grid m y i
    rw [deltaParam_sobol, deltaParam_sobol, mapM_pyGet_mapped]
    cases pyGet pb.names i with
    | error e => rfl
    | ok name =>
      cases hc : X.mapM (fun row => pyGet row i) with
      | error e => rfl
      | ok col =>
        have hcol := (mapM_ok_iff _ _ _).mp hc
        have hlen : col.length = X.length := hcol.length_eq.symm
        have hstrict : ∀ a ∈ col, ∀ b ∈ col, a < b → f a < f b := by
          have hg : ∀ a ∈ col, ∃ r ∈ X, i < n ∧ r.getD i 0 = a := by
            intro a ha
            obtain ⟨r, hr, hra⟩ := forall₂_source hcol a ha
            refine ⟨r, hr, ?_⟩
            unfold pyGet at hra
            cases hri : r[i]? with
            | none => rw [hri] at hra; cases hra
            | some v =>
              rw [hri] at hra; cases hra
              refine ⟨?_, by rw [List.getD_eq_getElem?_getD, hri]; rfl⟩
              rw [← hX r hr]
              exact (List.getElem?_eq_some_iff.1 hri).1
          intro a ha b hb hab
          obtain ⟨r, hr, hi, rfl⟩ := hg a ha
          obtain ⟨r', hr', -, rfl⟩ := hg b hb
          exact (order_kept hm hf1 hf (hs i hi) r r' hr hr').1 hab
        have htake : ∀ rs : List Nat, (∀ k ∈ rs, k < X.length) → ∀ Yr,
            sobolFirst Yr (takeIdx (col.map f) rs) m = sobolFirst Yr (takeIdx col rs) m := by
          intro rs hrs Yr
          have e : takeIdx (col.map f) rs = (takeIdx col rs).map f := by
            unfold takeIdx
            rw [List.map_map]
            exact List.map_congr_left (fun k _ => getD_map_zero h0 col k)
          rw [e]
          have hin : ∀ a ∈ takeIdx col rs, a ∈ col := by
            intro a ha
            unfold takeIdx at ha
            rw [List.mem_map] at ha
            obtain ⟨k, hk, rfl⟩ := ha
            have hkl : k < col.length := by rw [hlen]; exact hrs k hk
            rw [List.getD_eq_getElem?_getD, List.getElem?_eq_getElem hkl]
            exact List.getElem_mem hkl
          exact (C73_inputs (fun _ _ => none) Yr [] _ m f
            (fun a ha b hb => hstrict a (hin a ha) b (hin b hb))).1
        rw [pyBind_ok]
        show (do let _ ← arrMin (col.map f); runStages {} (deltaStages s R .sobol Y grid (col.map f) m [] y i)) =
          (do let _ ← arrMin col; runStages {} (deltaStages s R .sobol Y grid col m [] y i))
        rw [sobolStages_map f s R Y grid col m [] [] y i (by
          rintro rs (rfl | hrs) Yr
          · exact htake _ (hrows i) Yr
          · exact htake rs (hboot i rs hrs) Yr)]
        cases col with
        | nil => rfl
        | cons a t => rfl
  have hpar' : ∀ grid m y, deltaParam s R .sobol pb.names (X.map fun r => r.map f) Y grid m y =
      deltaParam s R .sobol pb.names X Y grid m y := fun grid m y => funext (hpar grid m y)
  unfold deltaAnalyze
  simp only [List.length_map, hpar']

/-! ## What is lost -/

/-- Morris: where the bounds of a parameter have the same text, all its elementary effects computed
from the file are 0, whatever the outputs are. -/
theorem C124_lost (F : Fmt) (hF : 2 ≤ F.p) (p : ℕ) (d : Char) (X X' : List (List ℚ)) (n j : ℕ)
    (hn : 1 ≤ n) (hj : j < n) (hX : ∀ r ∈ X, r.length = n) (hd : ¬ ReservedChar d) (lo hi : ℚ)
    (hb : ∀ r ∈ X, lo ≤ r.getD j 0 ∧ r.getD j 0 ≤ hi) (ht : sciText p lo = sciText p hi)
    (text : List Char) (hw : writeFile p d X = some text) (hr : readFile F d text = some X')
    (sqrt : ℚ → ℚ) (Y : List ℚ) (size : ℕ) (delta : ℚ) (hdelta : delta ≠ 0)
    (EE : Mat (Num ℚ)) (hE : elementaryEffects sqrt X' n Y size delta false = .ok EE) :
    ∀ e ∈ EE.getD j [], e = some 0 := by
  have hX' : X' = X.map fun r => r.map fun x => fl F (decRound p x) := by
    have := readFile_fileText (F := F) (p := p) hn hX hd
    unfold writeFile at hw
    rw [if_neg (by omega)] at hw
    simp only [Int.toNat_natCast, Option.some.injEq] at hw
    rw [hw, hr] at this
    exact Option.some.inj this
  have hdec : decRound p lo = decRound p hi := by
    have := readNumber_sciText p lo
    rw [ht, readNumber_sciText] at this
    exact (Option.some.inj this).symm
  have h0 : fl F (decRound p 0) = 0 := by rw [decRound_zero, fl_zero]
  have hconst : ∀ r ∈ X', r.getD j 0 = fl F (decRound p lo) := by
    rw [hX']
    intro r hr
    rw [List.mem_map] at hr
    obtain ⟨r, hr, rfl⟩ := hr
    rw [getD_map_zero (f := fun x => fl F (decRound p x)) h0]
    have h1 := decRound_mono p (hb r hr).1
    have h2 := decRound_mono p (hb r hr).2
    congr 1
    linarith
  have hzero : ∀ T : Mat ℚ, (∀ r ∈ T, r ∈ X') → ∀ y, effectDifference T y j = 0 := by
    intro T hT y
    have hcol : ∀ x ∈ deltaColumn T j, x = 0 := by
      clear hE
      induction T with
      | nil => simp [deltaColumn]
      | cons a t ih =>
        cases t with
        | nil => simp [deltaColumn]
        | cons b t =>
          rw [deltaColumn_cons₂]
          intro x hx
          rw [List.mem_cons] at hx
          rcases hx with rfl | hx
          · rw [hconst a (hT a (by simp)), hconst b (hT b (by simp)), sub_self]
          · exact ih (fun r hr => hT r (by simp [hr])) x hx
    have hrep : deltaColumn T j = List.replicate (deltaColumn T j).length 0 :=
      List.eq_replicate_iff.2 ⟨rfl, hcol⟩
    unfold effectDifference
    rw [hrep]
    have hor : ∀ k, List.replicate (k + 1) false = false :: List.replicate k false := fun k => rfl
    have happ : ∀ k, List.replicate k false ++ [false] = false :: List.replicate k false := by
      intro k; rw [← List.replicate_succ', hor]
    unfold reorganize
    simp [happ]
  unfold elementaryEffects at hE
  by_cases hs : size = 0
  · simp only [hs, if_true] at hE; cases hE
  simp only [hs, if_false] at hE
  cases hy : reshapeBlocks Y (X'.length / size) size with
  | error e => rw [hy] at hE; cases hE
  | ok ys =>
    cases hx : reshapeBlocks X' (X'.length / size) size with
    | error e => rw [hy, hx] at hE; cases hE
    | ok xs =>
      rw [hy, hx] at hE
      cases hE
      intro e he
      have hmem : ∀ T ∈ xs, ∀ r ∈ T, r ∈ X' := by
        unfold reshapeBlocks at hx
        split at hx
        · cases hx
          intro T hT r hr
          rw [List.mem_map] at hT
          obtain ⟨i, -, rfl⟩ := hT
          exact List.mem_of_mem_drop (List.mem_of_mem_take hr)
        · cases hx
      rw [List.getD_eq_getElem?_getD, List.getElem?_map, List.getElem?_range hj] at he
      simp only [Option.map_some, Option.getD_some, List.mem_map, Bool.false_eq_true, if_false] at he
      obtain ⟨Ty, hTy, rfl⟩ := he
      rw [hzero _ (hmem _ (List.of_mem_zip hTy).1)]
      simp [npDiv, hdelta]

theorem roundEven_of_near {x : ℚ} {n : ℤ} (h : |(n : ℚ) - x| < 1 / 2) : roundEven x = n := by
  have h1 := roundEven_err x
  have h2 : |((roundEven x - n : ℤ) : ℚ)| < 1 := by
    push_cast
    have := abs_sub_le (roundEven x : ℚ) x n
    rw [abs_sub_comm x n] at this
    linarith
  have h3 : |roundEven x - n| < 1 := by exact_mod_cast h2
  have := Int.abs_lt_one_iff.1 h3
  omega

/-- Below 16 digits after the point, different binary64 numbers have the same text. -/
theorem C124_precision_fail (p : ℕ) (hp : p ≤ 15) :
    IsFloat binary64 1 ∧ IsFloat binary64 (1 + 2 ^ (-52 : ℤ)) ∧
      ∀ d, writeFile p d [[1]] = writeFile p d [[1 + 2 ^ (-52 : ℤ)]] := by
  refine ⟨⟨1, 0, by decide, by norm_num [binary64], by norm_num⟩,
    ⟨2 ^ 52 + 1, -52, by decide, by norm_num [binary64], by norm_num⟩, fun d => ?_⟩
  have hlog : ∀ x : ℚ, 1 ≤ x → x < 10 → Int.log 10 x = 0 := by
    intro x h1 h2
    have a := Int.lt_zpow_iff_log_lt (b := 10) (x := 1) (by norm_num) (lt_of_lt_of_le one_pos h1)
    have b := Int.zpow_le_iff_le_log (b := 10) (x := 0) (by norm_num) (lt_of_lt_of_le one_pos h1)
    have := a.1 (by norm_num; exact h2)
    have := b.1 (by norm_num; exact h1)
    omega
  have key : ∀ x : ℚ, 1 ≤ x → x ≤ 1 + 2 ^ (-52 : ℤ) → sciText p x = sciText p 1 := by
    intro x h1 h2
    have hx10 : x < 10 := lt_of_le_of_lt h2 (by norm_num)
    have hparts : ∀ x : ℚ, 1 ≤ x → x ≤ 1 + 2 ^ (-52 : ℤ) →
        roundEven (|x| / (10 : ℚ) ^ (Int.log 10 |x| - p)) = 10 ^ p := by
      intro x h1 h2
      refine roundEven_of_near ?_
      rw [abs_of_pos (by linarith : 0 < x), hlog x h1 (lt_of_le_of_lt h2 (by norm_num)), zero_sub,
        zpow_neg, div_inv_eq_mul, zpow_natCast]
      push_cast
      have hpp : (10 : ℚ) ^ p ≤ 10 ^ 15 := pow_le_pow_right₀ (by norm_num) hp
      have hp0 : (0 : ℚ) < 10 ^ p := by positivity
      rw [abs_of_nonpos (by nlinarith)]
      have : (x - 1) * 10 ^ p ≤ 2 ^ (-52 : ℤ) * 10 ^ 15 := by
        apply mul_le_mul (by linarith) hpp hp0.le (by positivity)
      norm_num at this ⊢
      linarith
    have hone : (1 : ℚ) ≤ 1 + 2 ^ (-52 : ℤ) := by norm_num
    have hp1 := hparts x h1 h2
    have hp2 := hparts 1 le_rfl hone
    have hsp : sciParts p x = sciParts p 1 := by
      unfold sciParts
      simp only [hp1, hp2]
      rw [abs_of_pos (by linarith : 0 < x), hlog x h1 hx10, abs_one, hlog 1 le_rfl (by norm_num)]
    unfold sciText
    rw [hsp, if_neg (by linarith), if_neg (by norm_num)]
  have e := key (1 + 2 ^ (-52 : ℤ)) (by norm_num) le_rfl
  unfold writeFile fileText lineText
  simp only [List.flatMap_cons, List.map_cons, Int.toNat_natCast, e]

/-- With the precision that is used unless another is given, a value can be read outside its bounds:
the binary64 number nearest to 1/3 as lower bound. -/
theorem C124_bounds_fail (d : Char) (hd : ¬ ReservedChar d) :
    ∃ lo : ℚ, IsFloat binary64 lo ∧ ∃ text, writeFile 8 d [[lo]] = some text ∧
      ∃ y, readFile binary64 d text = some [[y]] ∧ y < lo := by
  have hlo : IsFloat binary64 (fl binary64 (1 / 3)) := isFloat_fl (by decide) _
  obtain ⟨lo, hl⟩ : ∃ lo, lo = fl binary64 (1 / 3) := ⟨_, rfl⟩
  refine ⟨lo, hl ▸ hlo, fileText 8 d [[lo]], rfl, _,
    readFile_fileText (n := 1) le_rfl (by simp) hd, ?_⟩
  have e1 : decRound 8 lo = 333333333 / 10 ^ 9 := by rw [hl]; decide +kernel
  have e2 : fl binary64 (333333333 / 10 ^ 9) < lo := by rw [hl]; decide +kernel
  show fl binary64 (decRound 8 lo) < lo
  rw [e1]
  exact e2

/-- A delimiter that is part of the numbers makes an array of another shape, and a negative
precision cannot be written. -/
theorem C124_arguments_fail :
    (∃ text, writeFile 8 '.' [[1, 2]] = some text ∧ readFile binary64 '.' text = some [[1, 0, 2, 0]]) ∧
    ∀ p < 0, ∀ d X, writeFile p d X = none := by
  refine ⟨⟨_, rfl, by decide +kernel⟩, fun p hp d X => ?_⟩
  unfold writeFile
  rw [if_pos hp]

/-- A parameter between 1000000000 and 1000000003, one step of a trajectory of four levels. -/
example : sciText 8 1000000000 = sciText 8 1000000003 ∧
    elementaryEffects (fun x => x) [[1000000000], [1000000002]] 1 [0, 5] 2 (2 / 3 : ℚ) false =
      .ok [[some (15 / 2)]] ∧
    (readFile binary64 ' ' (fileText 8 ' ' [[1000000000], [1000000002]])).map
        (fun X => elementaryEffects (fun x => x) X 1 [0, 5] 2 (2 / 3 : ℚ) false) =
      some (.ok [[some 0]]) := by
  decide +kernel

end SALib
