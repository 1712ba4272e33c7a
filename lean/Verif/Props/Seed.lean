import Verif.Model.Seed
import Verif.Lemmas.ListAux

/-! # Seeded runs (C64, C86) -/

set_option linter.unusedSectionVars false

namespace SALib

variable {σ β : Type}

namespace Spec

/-- A run is reproducible: its result (or exception) is the same whatever was drawn before. -/
def Reproducible (run : RandWorld σ → Py (β × RandWorld σ)) : Prop :=
  ∀ w w', (run w).map Prod.fst = (run w').map Prod.fst

/-- Integer seeds that NumPy's global generator accepts, and that are not refused by `default_rng`. -/
def GoodSeed (n : Int) : Prop := 0 ≤ n ∧ n < 2 ^ 32

end Spec

open Spec

theorem globalSeed_eq (L : RandLib σ) (n : Int) (hn : n ≠ 0) (body : σ → β × σ) (w : RandWorld σ) :
    withGlobalSeed L (some n) body w =
      if n < 0 ∨ 2 ^ 32 ≤ n then .error .valueError
      else .ok ((body (L.mt n.toNat)).1, { w with glob := (body (L.mt n.toNat)).2 }) := by
  unfold withGlobalSeed npRandomSeed seedTruthy drawGlobal
  rw [if_pos (by simpa using hn)]
  simp only []
  split <;> rfl

theorem ownRng_eq (L : RandLib σ) (n : Int) (body : σ → β × σ) (w : RandWorld σ) :
    withOwnRng L (some n) body w =
      if n < 0 then .error .valueError else .ok ((body (L.pcg n.toNat)).1, w) := by
  unfold withOwnRng handleSeed defaultRng
  simp only []
  split <;> rfl

theorem ownOrGlobal_eq (L : RandLib σ) (n : Int) (hn : n ≠ 0) (body : σ → β × σ) (w : RandWorld σ) :
    withOwnOrGlobal L (some n) body w =
      if n < 0 then .error .valueError else .ok ((body (L.pcg n.toNat)).1, w) := by
  unfold withOwnOrGlobal defaultRng seedTruthy
  rw [if_pos (by simpa using hn)]
  simp only []
  split <;> rfl

/-- **C64**, without seed 0 (which only `morris` and `rbd_fast` heed) and without `hdmr`: whatever was drawn before,
the same integer seed gives the same result. -/
theorem C64_reproducible_partial (L : RandLib σ) (an : RandAnalyser) (n : Int) (body : σ → β × σ) (hh : an ≠ .hdmr)
    (hn : n ≠ 0 ∨ an = .morris ∨ an = .rbdFast) : Reproducible (analyseSeeded L an (some n) body) := by
  intro w w'
  cases an with
  | delta | dgsm | enhancedHdmr | fast =>
    have h0 : n ≠ 0 := by simpa using hn
    simp only [analyseSeeded]
    rw [globalSeed_eq L n h0, globalSeed_eq L n h0]
    split <;> rfl
  | sobol =>
    have h0 : n ≠ 0 := by simpa using hn
    simp only [analyseSeeded]
    rw [ownOrGlobal_eq L n h0, ownOrGlobal_eq L n h0]
    split <;> rfl
  | morris | rbdFast =>
    simp only [analyseSeeded]
    rw [ownRng_eq, ownRng_eq]
    split <;> rfl
  | hdmr => exact absurd rfl hh

/-- A valid non-zero seed is accepted, and different generators are not mixed up: the result is that of the generator
with this seed. -/
theorem C64_value (L : RandLib σ) (an : RandAnalyser) (n : Int) (body : σ → β × σ) (w : RandWorld σ) (hg : GoodSeed n)
    (hh : an ≠ .hdmr) (hn : n ≠ 0 ∨ an = .morris ∨ an = .rbdFast) :
    (analyseSeeded L an (some n) body w).map Prod.fst = .ok (body (L.mt n.toNat)).1 ∨
      (analyseSeeded L an (some n) body w).map Prod.fst = .ok (body (L.pcg n.toNat)).1 := by
  obtain ⟨h1, h2⟩ := hg
  cases an with
  | delta | dgsm | enhancedHdmr | fast =>
    have h0 : n ≠ 0 := by simpa using hn
    left
    simp only [analyseSeeded]
    rw [globalSeed_eq L n h0, if_neg (by omega)]
    rfl
  | sobol =>
    have h0 : n ≠ 0 := by simpa using hn
    right
    simp only [analyseSeeded]
    rw [ownOrGlobal_eq L n h0, if_neg (by omega)]
    rfl
  | morris | rbdFast =>
    right
    simp only [analyseSeeded]
    rw [ownRng_eq, if_neg (by omega)]
    rfl
  | hdmr => exact absurd rfl hh

/-- **C64 fails** for seed 0: the result is that of the global generator as it is, as without a seed. -/
theorem C64_zero_fail (L : RandLib σ) (an : RandAnalyser) (body : σ → β × σ) (h1 : an ≠ .morris) (h2 : an ≠ .rbdFast)
    (w w' : RandWorld σ) (hw : (body w.glob).1 ≠ (body w'.glob).1) :
    analyseSeeded L an (some 0) body w = analyseSeeded L an none body w ∧
      ¬Reproducible (analyseSeeded L an (some 0) body) := by
  have key : ∀ w, analyseSeeded L an (some 0) body w = .ok (drawGlobal body w) ∧
      analyseSeeded L an none body w = .ok (drawGlobal body w) := by
    intro w
    cases an with
    | morris => exact absurd rfl h1
    | rbdFast => exact absurd rfl h2
    | _ => exact ⟨rfl, rfl⟩
  refine ⟨by rw [(key w).1, (key w).2], ?_⟩
  intro h
  have := h w w'
  rw [(key w).1, (key w').1] at this
  simp only [drawGlobal, Except.map] at this
  exact hw (by simpa using this)

/-- **C64 fails** for `hdmr`: every accepted seed is without effect, the bootstrap draws from the global generator. -/
theorem C64_hdmr_fail (L : RandLib σ) (n : Int) (hn : 0 ≤ n) (body : σ → β × σ) (w w' : RandWorld σ)
    (hw : (body w.glob).1 ≠ (body w'.glob).1) :
    analyseSeeded L .hdmr (some n) body w = analyseSeeded L .hdmr none body w ∧
      ¬Reproducible (analyseSeeded L .hdmr (some n) body) := by
  have key : ∀ w, analyseSeeded L .hdmr (some n) body w = .ok (drawGlobal body w) := by
    intro w
    simp only [analyseSeeded, withIdleRng, handleSeed, defaultRng]
    split
    · rw [if_neg (by omega)]
      rfl
    · rfl
  refine ⟨by rw [key w]; rfl, ?_⟩
  intro h
  have := h w w'
  rw [key w, key w'] at this
  simp only [drawGlobal, Except.map] at this
  exact hw (by simpa using this)

/-- **C86**: for every integer seed, 0 included, the sample does not depend on what was drawn before, and drawing it
leaves the global generator as it was; without a seed, too, the global generator is left alone. -/
theorem C86_samples (L : RandLib σ) (sm : RandSampler) (body : σ → β × σ) :
    (∀ n : Int, Reproducible (sampleSeeded L sm (some n) body)) ∧
      (∀ (n : Int) (w : RandWorld σ), 0 ≤ n → sampleSeeded L sm (some n) body w = .ok ((body (L.pcg n.toNat)).1, w)) ∧
      (∀ (seed : Option Int) (w w' : RandWorld σ) (b : β), sampleSeeded L sm seed body w = .ok (b, w') → w'.glob = w.glob) := by
  have hs : sampleSeeded L sm = withOwnRng L (β := β) := by cases sm <;> rfl
  rw [hs]
  refine ⟨?_, ?_, ?_⟩
  · intro n w w'
    rw [ownRng_eq, ownRng_eq]
    split <;> rfl
  · intro n w hn
    rw [ownRng_eq, if_neg (by omega)]
  · intro seed w w' b h
    cases seed with
    | none =>
      simp only [withOwnRng, handleSeed, defaultRng] at h
      cases h
      rfl
    | some n =>
      rw [ownRng_eq] at h
      split at h
      · cases h
      · cases h; rfl

/-- A counter as generator: seed 5 gives the same draw twice, seed 0 does not. -/
example : ((analyseSeeded (⟨id, (· + 100), fun _ => 7⟩ : RandLib Nat) .dgsm (some 5) (fun s => (2 * s, s + 1)) ⟨1, 0⟩).map
      Prod.fst = .ok 10) ∧
    ((analyseSeeded (⟨id, (· + 100), fun _ => 7⟩ : RandLib Nat) .dgsm (some 0) (fun s => (2 * s, s + 1)) ⟨1, 0⟩).map
      Prod.fst = .ok 2) ∧
    ((analyseSeeded (⟨id, (· + 100), fun _ => 7⟩ : RandLib Nat) .dgsm (some 0) (fun s => (2 * s, s + 1)) ⟨2, 0⟩).map
      Prod.fst = .ok 4) ∧
    ((sampleSeeded (⟨id, (· + 100), fun _ => 7⟩ : RandLib Nat) .latin (some 0) (fun s => (2 * s, s + 1)) ⟨2, 0⟩).map
      Prod.fst = .ok 200) := by
  decide +kernel

end SALib
