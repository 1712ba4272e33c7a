import Verif.Model.EnhancedFit
import Verif.Props.Backfit

/-! # C94: backfitting of `enhanced_hdmr` -/

set_option linter.unusedSectionVars false

namespace SALib

open Finset Spec

variable {α : Type} [Field α] [LinearOrder α] [IsStrictOrderedRing α]

theorem map_sum_range (f : List α → α) (B : Mat α) (R : Nat) (hB : B.length = R) :
    (B.map f).sum = ∑ r ∈ range R, f (B.getD r []) := by
  subst hB
  induction B with
  | nil => simp
  | cons b B ih => rw [List.map_cons, List.sum_cons, List.length_cons, sum_range_succ', ih]; simp [add_comm]

theorem zip_sum_range (f : List α → α → α) (B : Mat α) (y : List α) (R : Nat) (hB : B.length = R) (hy : y.length = R) :
    (List.zipWith f B y).sum = ∑ r ∈ range R, f (B.getD r []) (y.getD r 0) := by
  subst hB
  induction B generalizing y with
  | nil => simp
  | cons b B ih =>
    cases y with
    | nil => simp at hy
    | cons v y =>
      rw [List.zipWith_cons_cons, List.sum_cons, List.length_cons, sum_range_succ', ih y (by simpa using hy)]
      simp [add_comm]

/-- The equations solved are the normal equations with `N` times the penalty. -/
theorem solved_normal (solve : Mat α → List α → Py (List α)) (hsolve : SolvesSystems solve) (N : α) (hN : N ≠ 0)
    (R w : Nat) (lam : α) (B : Mat α) (hB : Shape R w B) (y : List α) (hy : y.length = R) (x : List α)
    (h : solve (scaledGram N w lam B) (scaledRhs N w B y) = .ok x) :
    x.length = w ∧ ∀ k < w, ∑ r ∈ range R, (B.getD r []).getD k 0 *
      (y.getD r 0 - ∑ k' ∈ range w, (B.getD r []).getD k' 0 * x.getD k' 0) = N * lam * x.getD k 0 := by
  obtain ⟨h1, h2⟩ := hsolve _ _ w _ (by simp [scaledGram]) (by simp [scaledRhs]) h
  refine ⟨h1, fun k hk => ?_⟩
  have e := h2 k hk
  have er : (scaledRhs N w B y).getD k 0 = (∑ r ∈ range R, (B.getD r []).getD k 0 * y.getD r 0) / N := by
    rw [← zip_sum_range (fun row v => row.getD k 0 * v) B y R hB.1 hy]
    simp [scaledRhs, List.getD, hk]
  have el : ∀ l < w, ((scaledGram N w lam B).getD k []).getD l 0 =
      (∑ r ∈ range R, (B.getD r []).getD k 0 * (B.getD r []).getD l 0) / N + if k = l then lam else 0 := by
    intro l hl
    rw [← map_sum_range (fun row => row.getD k 0 * row.getD l 0) B R hB.1]
    simp [scaledGram, List.getD, hk, hl]
  rw [er] at e
  have e' : ∑ l ∈ range w, ((∑ r ∈ range R, (B.getD r []).getD k 0 * (B.getD r []).getD l 0) / N +
      if k = l then lam else 0) * x.getD l 0 = (∑ r ∈ range R, (B.getD r []).getD k 0 * y.getD r 0) / N := by
    rw [← e]
    exact sum_congr rfl fun l hl => by rw [el l (mem_range.mp hl)]
  simp only [add_mul, ite_mul, zero_mul, sum_add_distrib] at e'
  rw [sum_ite_eq, if_pos (mem_range.mpr hk)] at e'
  have e2 : ∑ r ∈ range R, (B.getD r []).getD k 0 * y.getD r 0 =
      (∑ l ∈ range w, (∑ r ∈ range R, (B.getD r []).getD k 0 * (B.getD r []).getD l 0) * x.getD l 0) +
        N * lam * x.getD k 0 := by
    rw [eq_div_iff hN, add_mul, sum_mul] at e'
    rw [← e']
    congr 1
    · refine sum_congr rfl fun l _ => ?_
      rw [div_mul_eq_mul_div, div_mul_cancel₀ _ hN]
    · ring
  simp only [mul_sub, sum_sub_distrib, e2]
  have e3 : ∑ l ∈ range w, (∑ r ∈ range R, (B.getD r []).getD k 0 * (B.getD r []).getD l 0) * x.getD l 0 =
      ∑ r ∈ range R, (B.getD r []).getD k 0 * ∑ l ∈ range w, (B.getD r []).getD l 0 * x.getD l 0 := by
    simp only [sum_mul, mul_sum]
    rw [sum_comm]
    exact sum_congr rfl fun r _ => sum_congr rfl fun l _ => by ring
  rw [e3]
  ring

/-- The stored columns are the component functions of the stored coefficients. -/
structure EhState (R w : Nat) (Bs : List (Mat α)) (st : List (List α) × List (List α)) : Prop where
  coef : Shape Bs.length w st.1
  cols : st.2.length = Bs.length
  vals : ∀ z < Bs.length, ∀ r < R, (st.2.getD z []).getD r 0 = ∑ k ∈ range w, blkAt Bs z r k * coefAt st.1 z k

theorem list_sum_erase (n i : Nat) (f : Nat → α) :
    (((List.range n).erase i).map f).sum = ∑ z ∈ (range n).erase i, f z := by
  have hnd : ((List.range n).erase i).Nodup := List.nodup_range.erase i
  rw [← List.sum_toFinset f hnd]
  refine sum_congr ?_ fun _ _ => rfl
  ext z
  simp [List.mem_toFinset, List.nodup_range.mem_erase_iff]

theorem subColumns_getD (y : List α) (cols : List (List α)) (r : Nat) (hr : r < y.length) :
    (subColumns y cols).getD r 0 = y.getD r 0 - (cols.map fun c => c.getD r 0).sum := by
  simp [subColumns, List.getD, hr]

/-- One update: the state stays consistent, one block changes, and it now solves its normal equations. -/
theorem ehUpdate_ok (solve : Mat α → List α → Py (List α)) (hsolve : SolvesSystems solve) (N : α) (hN : N ≠ 0)
    (R w : Nat) (Bs : List (Mat α)) (hB : ∀ j < Bs.length, Shape R w (Bs.getD j [])) (y : List α) (hy : y.length = R)
    (st st' : List (List α) × List (List α)) (hst : EhState R w Bs st) (i : Nat) (hi : i < Bs.length)
    (h : ehUpdate solve N w Bs y st i = .ok st') :
    EhState R w Bs st' ∧ (∃ x : List α, st'.1 = st.1.set i x) ∧
    (∃ v : Nat → α, coefAt st'.1 = Function.update (coefAt st.1) i v) ∧
    ∀ k < w, ∑ r ∈ range R, blkAt Bs i r k * (y.getD r 0 -
      (∑ z ∈ (range Bs.length).erase i, ∑ k ∈ range w, blkAt Bs z r k * coefAt st.1 z k) -
      ∑ k' ∈ range w, blkAt Bs i r k' * coefAt st'.1 i k') = 0 := by
  unfold ehUpdate at h
  simp only [] at h
  cases hs : solve (scaledGram N w 0 (Bs.getD i [])) (scaledRhs N w (Bs.getD i [])
      (subColumns y (((List.range Bs.length).erase i).map fun z => st.2.getD z []))) with
  | error e => rw [hs, pyBind_error] at h; cases h
  | ok x =>
    rw [hs, pyBind_ok] at h
    have h' := Except.ok.inj h
    subst h'
    obtain ⟨hl, hn⟩ := solved_normal solve hsolve N hN R w 0 _ (hB i hi) _ (by simp [subColumns, hy]) x hs
    have hil : i < st.1.length := by rw [hst.coef.1]; exact hi
    have hupd := coefAt_set st.1 i hil x
    have hself : ∀ k, coefAt (st.1.set i x) i k = x.getD k 0 := by
      intro k; rw [hupd, Function.update_self]
    refine ⟨⟨set_shape _ _ _ hst.coef _ _ hl, by simpa using hst.cols, fun z hz r hr => ?_⟩, ⟨x, rfl⟩, ⟨_, hupd⟩,
      fun k hk => ?_⟩
    · by_cases hzi : z = i
      · subst hzi
        have : (st.2.set z (matVec (Bs.getD z []) x)).getD z [] = matVec (Bs.getD z []) x := by
          simp [List.getD, hst.cols, hz]
        rw [this, matVec_getD _ _ R w r (hB z hz) hl hr]
        exact sum_congr rfl fun k _ => by rw [hself]; rfl
      · have : (st.2.set i (matVec (Bs.getD i []) x)).getD z [] = st.2.getD z [] := by
          simp [List.getD, List.getElem?_set, Ne.symm hzi]
        rw [this, hst.vals z hz r hr, hupd, Function.update_of_ne hzi]
    · have hk' := hn k hk
      rw [mul_zero, zero_mul] at hk'
      refine Eq.trans (sum_congr rfl fun r hr => ?_) hk'
      rw [subColumns_getD _ _ _ (by rw [hy]; exact mem_range.mp hr), List.map_map, list_sum_erase]
      have e : ∑ z ∈ (range Bs.length).erase i, ((fun c : List α => c.getD r 0) ∘ fun z => st.2.getD z []) z =
          ∑ z ∈ (range Bs.length).erase i, ∑ k ∈ range w, blkAt Bs z r k * coefAt st.1 z k := by
        refine sum_congr rfl fun z hz => ?_
        exact hst.vals z (mem_range.mp (mem_of_mem_erase hz)) r (mem_range.mp hr)
      rw [e]
      simp only [hself]
      rfl

/-- The sum of squared residuals. -/
theorem update_descent (R w : Nat) (Bs : List (Mat α)) (y : List α) (C C' : List (List α)) (i : Nat)
    (hi : i < Bs.length) (v : Nat → α) (hupd : coefAt C' = Function.update (coefAt C) i v)
    (hn : ∀ k < w, ∑ r ∈ range R, blkAt Bs i r k * (y.getD r 0 -
      (∑ z ∈ (range Bs.length).erase i, ∑ k ∈ range w, blkAt Bs z r k * coefAt C z k) -
      ∑ k' ∈ range w, blkAt Bs i r k' * coefAt C' i k') = 0) :
    blockLoss R w 0 Bs y C' ≤ blockLoss R w 0 Bs y C := by
  have hb := block_best Bs.length w R 0 (blkAt Bs) (fun r => y.getD r 0) (coefAt C) i hi (coefAt C' i) (coefAt C i)
    (fun k hk => by rw [zero_mul]; exact hn k hk)
  have hv : coefAt C' i = v := by rw [hupd, Function.update_self]
  rw [Function.update_eq_self, hv, ← hupd] at hb
  have p1 : 0 ≤ ∑ r ∈ range R, (∑ k ∈ range w, blkAt Bs i r k * (coefAt C i k - v k)) ^ 2 :=
    sum_nonneg fun _ _ => sq_nonneg _
  unfold blockLoss
  linarith

theorem foldlM_cons_ok {σ : Type} (f : σ → Nat → Py σ) (a : Nat) (l : List Nat) (s t : σ)
    (h : (a :: l).foldlM f s = .ok t) : ∃ s1, f s a = .ok s1 ∧ l.foldlM f s1 = .ok t := by
  rw [List.foldlM_cons] at h
  cases hs : f s a with
  | error e => rw [hs, pyBind_error] at h; cases h
  | ok s1 => rw [hs, pyBind_ok] at h; exact ⟨s1, rfl, h⟩

theorem updates_ok (solve : Mat α → List α → Py (List α)) (hsolve : SolvesSystems solve) (N : α) (hN : N ≠ 0)
    (R w : Nat) (Bs : List (Mat α)) (hB : ∀ j < Bs.length, Shape R w (Bs.getD j [])) (y : List α) (hy : y.length = R)
    (js : List Nat) : ∀ (st st' : List (List α) × List (List α)), EhState R w Bs st → (∀ j ∈ js, j < Bs.length) →
    js.foldlM (ehUpdate solve N w Bs y) st = .ok st' →
    EhState R w Bs st' ∧ blockLoss R w 0 Bs y st'.1 ≤ blockLoss R w 0 Bs y st.1 ∧
    (∀ i, i ∉ js → st'.1[i]? = st.1[i]?) ∧
    (js.Nodup → st'.1 = st.1 → ∀ i ∈ js, ∀ k < w,
      ∑ r ∈ range R, blkAt Bs i r k * (y.getD r 0 - fitAt Bs.length w (blkAt Bs) (coefAt st.1) r) = 0) := by
  induction js with
  | nil =>
    intro st st' hst _ h
    have h' := Except.ok.inj h
    subst h'
    exact ⟨hst, le_rfl, fun _ _ => rfl, fun _ _ i hi => by simp at hi⟩
  | cons j js ih =>
    intro st st' hst hj h
    obtain ⟨s1, h1, h2⟩ := foldlM_cons_ok _ _ _ _ _ h
    have hjB := hj j (by simp)
    obtain ⟨a1, ⟨x, hx⟩, ⟨v, a2⟩, a3⟩ := ehUpdate_ok solve hsolve N hN R w Bs hB y hy st s1 hst j hjB h1
    obtain ⟨b1, b2, b3, b4⟩ := ih s1 st' a1 (fun i hi => hj i (by simp [hi])) h2
    refine ⟨b1, le_trans b2 (update_descent R w Bs y st.1 s1.1 j hjB v a2 a3), fun i hi => ?_, fun hnd heq i hi => ?_⟩
    · have hij : j ≠ i := fun h => hi (by simp [h])
      rw [b3 i fun h => hi (by simp [h]), hx, List.getElem?_set, if_neg hij]
    · obtain ⟨hn1, hn2⟩ := List.nodup_cons.mp hnd
      have hjl : j < st.1.length := by rw [hst.coef.1]; exact hjB
      have hs : s1.1 = st.1 := by
        have e := b3 j hn1
        rw [heq, hx, List.getElem?_set, if_pos rfl, if_pos hjl] at e
        rw [hx]
        apply List.ext_getElem?
        intro i
        rw [List.getElem?_set]
        split
        · rename_i h; subst h; exact e.symm
        · rfl
      rcases List.mem_cons.mp hi with rfl | hi
      · intro k hk
        have := a3 k hk
        rw [hs] at this
        refine Eq.trans (sum_congr rfl fun r _ => ?_) this
        unfold fitAt
        rw [← sum_erase_add _ _ (mem_range.mpr hjB), sub_sub]
      · have := b4 hn2 (heq.trans hs.symm) i hi
        rw [hs] at this
        exact this

/-- A pass keeps the state consistent, does not increase the sum of squared residuals, and leaves the residual
orthogonal to the columns of the last component function. -/
theorem ehSweep_ok (solve : Mat α → List α → Py (List α)) (hsolve : SolvesSystems solve) (N : α) (hN : N ≠ 0)
    (R w : Nat) (Bs : List (Mat α)) (hB : ∀ j < Bs.length, Shape R w (Bs.getD j [])) (y : List α) (hy : y.length = R)
    (st st' : List (List α) × List (List α)) (hst : EhState R w Bs st) (h : ehSweep solve N w Bs y st = .ok st') :
    EhState R w Bs st' ∧ blockLoss R w 0 Bs y st'.1 ≤ blockLoss R w 0 Bs y st.1 ∧
    ∀ i, Bs.length = i + 1 → ∀ k < w,
      ∑ r ∈ range R, blkAt Bs i r k * (y.getD r 0 - fitAt Bs.length w (blkAt Bs) (coefAt st'.1) r) = 0 := by
  unfold ehSweep at h
  obtain ⟨a1, a2, _, _⟩ := updates_ok solve hsolve N hN R w Bs hB y hy _ st st' hst
    (fun j hj => List.mem_range.mp hj) h
  refine ⟨a1, a2, fun i hi k hk => ?_⟩
  rw [hi, List.range_succ, List.foldlM_append] at h
  cases hp : (List.range i).foldlM (ehUpdate solve N w Bs y) st with
  | error e => rw [hp, pyBind_error] at h; cases h
  | ok s1 =>
    rw [hp, pyBind_ok] at h
    obtain ⟨s2, h1, h2⟩ := foldlM_cons_ok _ _ _ _ _ h
    have h2' := Except.ok.inj h2
    subst h2'
    obtain ⟨b1, _, _, _⟩ := updates_ok solve hsolve N hN R w Bs hB y hy _ st s1 hst
      (fun j hj => by have := List.mem_range.mp hj; omega) hp
    obtain ⟨_, _, ⟨v, c2⟩, c3⟩ := ehUpdate_ok solve hsolve N hN R w Bs hB y hy s1 s2 b1 i (by omega) h1
    refine Eq.trans (sum_congr rfl fun r _ => ?_) (c3 k hk)
    unfold fitAt
    rw [← sum_erase_add _ _ (mem_range.mpr (show i < Bs.length by omega)), sub_sub]
    have e : ∑ z ∈ (range Bs.length).erase i, ∑ k ∈ range w, blkAt Bs z r k * coefAt s2.1 z k =
        ∑ z ∈ (range Bs.length).erase i, ∑ k ∈ range w, blkAt Bs z r k * coefAt s1.1 z k :=
      sum_congr rfl fun z hz => by rw [c2, Function.update_of_ne (ne_of_mem_erase hz)]
    rw [e]

theorem ehBackfit_ok (solve : Mat α → List α → Py (List α)) (hsolve : SolvesSystems solve) (N : α) (hN : N ≠ 0)
    (R w : Nat) (Bs : List (Mat α)) (hB : ∀ j < Bs.length, Shape R w (Bs.getD j [])) (y : List α) (hy : y.length = R)
    (it : Nat) : ∀ (st st' : List (List α) × List (List α)), EhState R w Bs st →
    ehBackfit solve N w Bs y (it + 1) st = .ok st' →
    EhState R w Bs st' ∧ blockLoss R w 0 Bs y st'.1 ≤ blockLoss R w 0 Bs y st.1 ∧
    ∀ i, Bs.length = i + 1 → ∀ k < w,
      ∑ r ∈ range R, blkAt Bs i r k * (y.getD r 0 - fitAt Bs.length w (blkAt Bs) (coefAt st'.1) r) = 0 := by
  induction it with
  | zero =>
    intro st st' hst h
    rw [ehBackfit] at h
    cases hs : ehSweep solve N w Bs y st with
    | error e => rw [hs, pyBind_error] at h; cases h
    | ok s1 =>
      rw [hs, pyBind_ok, if_pos (Or.inr rfl)] at h
      have h' := Except.ok.inj h
      subst h'
      exact ehSweep_ok solve hsolve N hN R w Bs hB y hy st s1 hst hs
  | succ it ih =>
    intro st st' hst h
    rw [ehBackfit] at h
    cases hs : ehSweep solve N w Bs y st with
    | error e => rw [hs, pyBind_error] at h; cases h
    | ok s1 =>
      rw [hs, pyBind_ok] at h
      have hk := ehSweep_ok solve hsolve N hN R w Bs hB y hy st s1 hst hs
      split at h
      · have h' := Except.ok.inj h
        subst h'
        exact hk
      · obtain ⟨b1, b2, b3⟩ := ih s1 st' hk.1 h
        exact ⟨b1, le_trans b2 hk.2.1, b3⟩

/-- No squared coefficient has changed by `1/10000` or more. -/
def Spec.Settled (old new : List (List α)) : Prop :=
  ∀ q ∈ old.flatten.zip new.flatten, |q.1 ^ 2 - q.2 ^ 2| < 1 / 10000

theorem maxSquareChange_lt (old new : List (List α)) : maxSquareChange old new < 1 / 10000 ↔ Spec.Settled old new := by
  unfold maxSquareChange Spec.Settled
  have e : List.zipWith (fun a b : α => |a * a - b * b|) old.flatten new.flatten =
      (old.flatten.zip new.flatten).map fun q => |q.1 ^ 2 - q.2 ^ 2| := by
    rw [List.zip, List.map_zipWith]
    congr 1
    funext a b
    rw [sq, sq]
  rw [e]
  have hmax : ∀ (l : List α) (a : α), l.foldl max a < 1 / 10000 ↔ a < 1 / 10000 ∧ ∀ v ∈ l, v < 1 / 10000 := by
    intro l
    induction l with
    | nil => intro a; simp
    | cons b l ih =>
      intro a
      rw [List.foldl_cons, ih, max_lt_iff]
      simp only [List.mem_cons, forall_eq_or_imp]
      tauto
  rw [hmax]
  simp only [List.mem_map, forall_exists_index, and_imp, forall_apply_eq_imp_iff₂]
  exact ⟨fun h => h.2, fun h => ⟨by positivity, h⟩⟩

/-- **C94** (when the passes end).  After a pass that changes no squared coefficient by `1/10000` or more, and not before;
or when all `it + 1` passes are made. -/
theorem C94_stops (solve : Mat α → List α → Py (List α)) (N : α) (w : Nat) (Bs : List (Mat α)) (y : List α) (it : Nat) :
    ∀ st st' : List (List α) × List (List α), ehBackfit solve N w Bs y (it + 1) st = .ok st' →
    ∃ (k : Nat) (run : Nat → List (List α) × List (List α)), k ≤ it ∧ run 0 = st ∧ run (k + 1) = st' ∧
      (∀ i ≤ k, ehSweep solve N w Bs y (run i) = .ok (run (i + 1))) ∧
      (∀ i < k, ¬Spec.Settled (run i).1 (run (i + 1)).1) ∧ (k < it → Spec.Settled (run k).1 (run (k + 1)).1) := by
  induction it with
  | zero =>
    intro st st' h
    rw [ehBackfit] at h
    cases hs : ehSweep solve N w Bs y st with
    | error e => rw [hs, pyBind_error] at h; cases h
    | ok s1 =>
      rw [hs, pyBind_ok, if_pos (Or.inr rfl)] at h
      have h' := Except.ok.inj h
      subst h'
      refine ⟨0, fun i => if i = 0 then st else s1, le_refl _, rfl, rfl, ?_, fun i hi => absurd hi (by omega),
        fun h => absurd h (by omega)⟩
      intro i hi
      have : i = 0 := by omega
      subst this
      simpa using hs
  | succ it ih =>
    intro st st' h
    rw [ehBackfit] at h
    cases hs : ehSweep solve N w Bs y st with
    | error e => rw [hs, pyBind_error] at h; cases h
    | ok s1 =>
      rw [hs, pyBind_ok] at h
      by_cases hc : maxSquareChange st.1 s1.1 < 1 / 10000
      · rw [if_pos (Or.inl hc)] at h
        have h' := Except.ok.inj h
        subst h'
        refine ⟨0, fun i => if i = 0 then st else s1, by omega, rfl, rfl, ?_, fun i hi => absurd hi (by omega),
          fun _ => ?_⟩
        · intro i hi
          have : i = 0 := by omega
          subst this
          simpa using hs
        · simpa using (maxSquareChange_lt _ _).mp hc
      · rw [if_neg (by rintro (h1 | h1); exacts [hc h1, by omega])] at h
        obtain ⟨k, run, h1, h2, h3, h4, h5, h6⟩ := ih s1 st' h
        refine ⟨k + 1, fun i => if i = 0 then st else run (i - 1), by omega, rfl, by simpa using h3, ?_, ?_, ?_⟩
        · intro i hi
          cases i with
          | zero => simpa [h2] using hs
          | succ i => simpa using h4 i (by omega)
        · intro i hi
          cases i with
          | zero =>
            have := fun h => hc ((maxSquareChange_lt _ _).mpr h)
            simpa [h2] using this
          | succ i => simpa using h5 i (by omega)
        · intro hk
          simpa using h6 (by omega)

/-- **C94.** The fit of one order: starting from separate ridge regressions (penalty `subset * l2_penalty`), what is
returned is the residual of the final coefficients, its sum of squares is no larger than that of the separate fits, and
it is orthogonal to every column of the last component function: no penalty is left in it. -/
theorem C94_enhanced (solve : Mat α → List α → Py (List α)) (hsolve : SolvesSystems solve) (N : α) (hN : 0 < N)
    (R w maxIter : Nat) (lam : α) (hl : 0 ≤ lam) (Bs : List (Mat α)) (hB : ∀ B ∈ Bs, Shape R w B)
    (y : List α) (hy : y.length = R) (xs : List (List α)) (res : List α)
    (h : ehOrder solve N w lam maxIter Bs y = .ok (xs, res)) :
    Shape Bs.length w xs ∧ res.length = R ∧
    (∀ r < R, res.getD r 0 = y.getD r 0 - fitAt Bs.length w (blkAt Bs) (coefAt xs) r) ∧
    (∃ xs0 : List (List α), (∀ j < Bs.length, ∀ v : Nat → α,
        (∑ r ∈ range R, (y.getD r 0 - ∑ k ∈ range w, blkAt Bs j r k * coefAt xs0 j k) ^ 2) +
            N * lam * ∑ k ∈ range w, coefAt xs0 j k ^ 2 ≤
          (∑ r ∈ range R, (y.getD r 0 - ∑ k ∈ range w, blkAt Bs j r k * v k) ^ 2) +
            N * lam * ∑ k ∈ range w, v k ^ 2) ∧
      ∑ r ∈ range R, res.getD r 0 ^ 2 ≤
        ∑ r ∈ range R, (y.getD r 0 - fitAt Bs.length w (blkAt Bs) (coefAt xs0) r) ^ 2) ∧
    ∀ i, Bs.length = i + 1 → ∀ k < w, ∑ r ∈ range R, blkAt Bs i r k * res.getD r 0 = 0 := by
  have hB' : ∀ j < Bs.length, Shape R w (Bs.getD j []) := by
    intro j hj
    rw [List.getD, List.getElem?_eq_getElem hj]
    exact hB _ (List.getElem_mem hj)
  unfold ehOrder ehRidge at h
  cases hm : Bs.mapM fun B => solve (scaledGram N w lam B) (scaledRhs N w B y) with
  | error e => rw [hm, pyBind_error, pyBind_error] at h; cases h
  | ok xs0 =>
    rw [hm, pyBind_ok, pyPure, pyBind_ok] at h
    cases hb : ehBackfit solve N w Bs y (maxIter + 1) (xs0, List.zipWith matVec Bs xs0) with
    | error e => rw [hb, pyBind_error] at h; cases h
    | ok st =>
      rw [hb, pyBind_ok, pyPure] at h
      have h' := Except.ok.inj h
      obtain ⟨rfl, rfl⟩ := Prod.mk.inj h'
      have hf := (mapM_ok_iff _ _ _).mp hm
      have hlen : xs0.length = Bs.length := hf.length_eq.symm
      have hx : ∀ j < Bs.length, (xs0.getD j []).length = w ∧ ∀ k < w, ∑ r ∈ range R, blkAt Bs j r k *
          (y.getD r 0 - ∑ k' ∈ range w, blkAt Bs j r k' * coefAt xs0 j k') = N * lam * coefAt xs0 j k := by
        intro j hj
        have hj' : j < xs0.length := by rw [hlen]; exact hj
        have hs := hf.get hj hj'
        have e1 : Bs.getD j [] = Bs[j] := by simp [List.getD, hj]
        have e2 : xs0.getD j [] = xs0[j] := by simp [List.getD, hj']
        have := solved_normal solve hsolve N hN.ne' R w lam (Bs.getD j []) (hB' j hj) y hy (xs0.getD j [])
          (by rw [e1, e2]; simpa using hs)
        exact this
      have hst : EhState R w Bs (xs0, List.zipWith matVec Bs xs0) := by
        refine ⟨⟨hlen, fun c hc => ?_⟩, by simp [hlen], fun z hz r hr => ?_⟩
        · obtain ⟨j, hj, rfl⟩ := List.mem_iff_getElem.mp hc
          have := (hx j (by rw [← hlen]; exact hj)).1
          simpa [List.getD, hj] using this
        · have hz' : z < xs0.length := by rw [hlen]; exact hz
          have e : (List.zipWith matVec Bs xs0).getD z [] = matVec (Bs.getD z []) (xs0.getD z []) := by
            simp [List.getD, hz, hz']
          show ((List.zipWith matVec Bs xs0).getD z []).getD r 0 = _
          rw [e, matVec_getD _ _ R w r (hB' z hz) (hx z hz).1 hr]
          rfl
      obtain ⟨a1, a2, a3⟩ := ehBackfit_ok solve hsolve N hN.ne' R w Bs hB' y hy maxIter _ st hst hb
      have hres : ∀ r < R, (subColumns y st.2).getD r 0 =
          y.getD r 0 - fitAt Bs.length w (blkAt Bs) (coefAt st.1) r := by
        intro r hr
        rw [subColumns_getD _ _ _ (by rw [hy]; exact hr), map_sum_range (fun c => c.getD r 0) st.2 Bs.length a1.cols]
        congr 1
        exact sum_congr rfl fun z hz => a1.vals z (mem_range.mp hz) r hr
      refine ⟨a1.coef, by simp [subColumns, hy], hres, ⟨xs0, fun j hj v => ?_, ?_⟩, fun i hi k hk => ?_⟩
      · have := ridge_expand (range w) R (N * lam) (fun r k => blkAt Bs j r k) (fun r => y.getD r 0)
          (coefAt xs0 j) v fun k hk => (hx j hj).2 k (mem_range.mp hk)
        rw [this]
        have p1 : 0 ≤ ∑ r ∈ range R, (∑ k ∈ range w, blkAt Bs j r k * (v k - coefAt xs0 j k)) ^ 2 :=
          sum_nonneg fun _ _ => sq_nonneg _
        have p2 : 0 ≤ N * lam * ∑ k ∈ range w, (v k - coefAt xs0 j k) ^ 2 :=
          mul_nonneg (mul_nonneg hN.le hl) (sum_nonneg fun _ _ => sq_nonneg _)
        linarith
      · have e : ∑ r ∈ range R, (subColumns y st.2).getD r 0 ^ 2 =
            ∑ r ∈ range R, (y.getD r 0 - fitAt Bs.length w (blkAt Bs) (coefAt st.1) r) ^ 2 :=
          sum_congr rfl fun r hr => by rw [hres r (mem_range.mp hr)]
        rw [e]
        unfold blockLoss ridgeLoss at a2
        simpa only [zero_mul, add_zero] using a2
      · refine Eq.trans ?_ (a3 i hi k hk)
        exact sum_congr rfl fun r hr => by rw [hres r (mem_range.mp hr)]

/-- **C94.** Coefficients that a pass leaves unchanged minimise the plain sum of squared residuals over all coefficients
of the order, whatever `l2_penalty` was given. -/
theorem C94_enhanced_fixed_point (solve : Mat α → List α → Py (List α)) (hsolve : SolvesSystems solve) (N : α)
    (hN : 0 < N) (R w : Nat) (Bs : List (Mat α)) (hB : ∀ B ∈ Bs, Shape R w B) (y : List α) (hy : y.length = R)
    (xs : List (List α)) (hxs : Shape Bs.length w xs) (st' : List (List α) × List (List α))
    (h : ehSweep solve N w Bs y (xs, List.zipWith matVec Bs xs) = .ok st') (hfix : st'.1 = xs)
    (c' : Nat → Nat → α) :
    ∑ r ∈ range R, (y.getD r 0 - fitAt Bs.length w (blkAt Bs) (coefAt xs) r) ^ 2 ≤
      ∑ r ∈ range R, (y.getD r 0 - fitAt Bs.length w (blkAt Bs) c' r) ^ 2 := by
  have hB' : ∀ j < Bs.length, Shape R w (Bs.getD j []) := by
    intro j hj
    rw [List.getD, List.getElem?_eq_getElem hj]
    exact hB _ (List.getElem_mem hj)
  have hst : EhState R w Bs (xs, List.zipWith matVec Bs xs) := by
    refine ⟨hxs, by simp [hxs.1], fun z hz r hr => ?_⟩
    have hz' : z < xs.length := by rw [hxs.1]; exact hz
    have e : (List.zipWith matVec Bs xs).getD z [] = matVec (Bs.getD z []) (xs.getD z []) := by
      simp [List.getD, hz, hz']
    show ((List.zipWith matVec Bs xs).getD z []).getD r 0 = _
    rw [e, matVec_getD _ _ R w r (hB' z hz) (getD_mem_length xs w z hxs.2 hz') hr]
    rfl
  unfold ehSweep at h
  obtain ⟨_, _, _, a4⟩ := updates_ok solve hsolve N hN.ne' R w Bs hB' y hy _ _ st' hst
    (fun j hj => List.mem_range.mp hj) h
  have hn := a4 List.nodup_range hfix
  have := all_best Bs.length w R 0 le_rfl (blkAt Bs) (fun r => y.getD r 0) (coefAt xs) c'
    (fun j hj k hk => by rw [zero_mul]; exact hn j (List.mem_range.mpr hj) k hk)
  unfold ridgeLoss at this
  simpa only [zero_mul, add_zero] using this

/-- **C94.** With one component function (one pair of inputs at order two) the returned residual has the least sum of
squares over all coefficients: `l2_penalty` has no influence on it. -/
theorem C94_enhanced_single (solve : Mat α → List α → Py (List α)) (hsolve : SolvesSystems solve) (N : α) (hN : 0 < N)
    (R w maxIter : Nat) (lam : α) (hl : 0 ≤ lam) (B : Mat α) (hB : Shape R w B)
    (y : List α) (hy : y.length = R) (xs : List (List α)) (res : List α)
    (h : ehOrder solve N w lam maxIter [B] y = .ok (xs, res)) (v : Nat → α) :
    ∑ r ∈ range R, res.getD r 0 ^ 2 ≤ ∑ r ∈ range R, (y.getD r 0 - ∑ k ∈ range w, (B.getD r []).getD k 0 * v k) ^ 2 := by
  obtain ⟨_, _, h3, _, h5⟩ := C94_enhanced solve hsolve N hN R w maxIter lam hl [B] (by simpa using hB) y hy xs res h
  have hb := all_best 1 w R 0 le_rfl (blkAt [B]) (fun r => y.getD r 0) (coefAt xs) (fun _ => v) (by
    intro j hj k hk
    obtain rfl : j = 0 := by omega
    rw [zero_mul]
    refine Eq.trans (sum_congr rfl fun r hr => ?_) (h5 0 rfl k hk)
    rw [h3 r (mem_range.mp hr)]
    rfl)
  unfold ridgeLoss at hb
  simp only [zero_mul, add_zero] at hb
  have e : ∑ r ∈ range R, res.getD r 0 ^ 2 =
      ∑ r ∈ range R, (y.getD r 0 - fitAt 1 w (blkAt [B]) (coefAt xs) r) ^ 2 :=
    sum_congr rfl fun r hr => by rw [h3 r (mem_range.mp hr)]; rfl
  rw [e]
  refine le_trans hb (le_of_eq (sum_congr rfl fun r _ => ?_))
  simp [fitAt, blkAt]

/-- **C94.** Orders one and two together: the residual left is the output minus both sums of component functions. -/
theorem C94_two_orders (solve : Mat α → List α → Py (List α)) (hsolve : SolvesSystems solve) (N : α) (hN : 0 < N)
    (R w1 w2 maxIter : Nat) (lam : α) (hl : 0 ≤ lam) (B1 B2 : List (Mat α)) (h1 : ∀ B ∈ B1, Shape R w1 B)
    (h2 : ∀ B ∈ B2, Shape R w2 B) (y : List α) (hy : y.length = R) (x1 x2 : List (List α)) (res : List α)
    (h : ehTwoOrders solve N w1 w2 lam maxIter B1 B2 y = .ok ((x1, x2), res)) (r : Nat) (hr : r < R) :
    res.getD r 0 = y.getD r 0 - fitAt B1.length w1 (blkAt B1) (coefAt x1) r -
      fitAt B2.length w2 (blkAt B2) (coefAt x2) r := by
  unfold ehTwoOrders at h
  cases ha : ehOrder solve N w1 lam maxIter B1 y with
  | error e => rw [ha, pyBind_error] at h; cases h
  | ok s1 =>
    rw [ha, pyBind_ok] at h
    cases hb : ehOrder solve N w2 lam maxIter B2 s1.2 with
    | error e => rw [hb, pyBind_error] at h; cases h
    | ok s2 =>
      rw [hb, pyBind_ok, pyPure] at h
      have h' := Except.ok.inj h
      obtain ⟨h'', rfl⟩ := Prod.mk.inj h'
      obtain ⟨rfl, rfl⟩ := Prod.mk.inj h''
      obtain ⟨_, a2, a3, _⟩ := C94_enhanced solve hsolve N hN R w1 maxIter lam hl B1 h1 y hy s1.1 s1.2 ha
      obtain ⟨_, _, b3, _⟩ := C94_enhanced solve hsolve N hN R w2 maxIter lam hl B2 h2 s1.2 a2 s2.1 s2.2 hb
      rw [b3 r hr, a3 r hr]

/-! ### The hypotheses are met -/

/-- A solver of one equation. -/
def solveOne : Mat ℚ → List ℚ → Py (List ℚ)
  | [[a]], [b] => if a = 0 then .error .valueError else .ok [b / a]
  | _, _ => .error .valueError

theorem solveOne_solves : SolvesSystems solveOne := by
  intro A b w x _ hb h
  unfold solveOne at h
  split at h
  · rename_i a b
    split at h
    · cases h
    · rename_i ha
      have h' := Except.ok.inj h
      subst h'
      obtain rfl : w = 1 := by simpa using hb.symm
      refine ⟨rfl, fun i hi => ?_⟩
      obtain rfl : i = 0 := by omega
      simp
      field_simp
  · cases h

/-- Two component functions of one column on three points, two allowed passes. -/
example : ehOrder solveOne 3 1 (1 / 100) 1 [[[1], [2], [0]], [[1], [1], [1]]] [1, 0, 3] =
    .ok ([[-(2412 / 2525)], [17336 / 7575]], [-(1 / 3), -(2864 / 7575), 5389 / 7575]) := by decide +kernel

/-- A second column of zeros: the penalised regression has a solution, the pass after it does not, and the error is not
caught. -/
theorem C94_enhanced_singular :
    (∃ st, ehRidge solveOne 3 1 (1 / 100) [[[1], [2], [0]], [[0], [0], [0]]] [1, 0, 3] = .ok st) ∧
    ehOrder solveOne 3 1 (1 / 100) 100 [[[1], [2], [0]], [[0], [0], [0]]] [1, 0, 3] = .error .valueError :=
  ⟨⟨([[1 / (5 + 3 / 100)], [0]], [[1 / (5 + 3 / 100), 2 / (5 + 3 / 100), 0], [0, 0, 0]]), by decide +kernel⟩,
    by decide +kernel⟩

end SALib
