import Verif.Spec.Failures
import Verif.Props.Inline
import Verif.Props.Outline

/-!
# Property C97: which numbers the systems refuse

Vocabulary: `Verif/Spec/Failures.lean`, `Verif/Spec/Outcome.lean`.
-/

namespace Nominals.Props

open Nominals.Spec

theorem answer_noZero_iff (s : Named) (n : Nat) : answer s n = .noZero ↔ lacksZero s = true ∧ n = 0 := by
  cases s <;>
    simp only [answer, lacksZero, decimalFrom, columnName, series, additiveAnswer] <;>
    (repeat' split) <;> simp_all

theorem answer_outOfBounds_iff (s : Named) (n : Nat) : answer s n = .outOfBounds ↔ ∃ k, endsAt s = some k ∧ k ≤ n := by
  cases s <;>
    simp only [answer, endsAt, decimalFrom, columnName, series, additiveAnswer] <;>
    (repeat' split) <;> simp_all <;> omega

/-- C97. When each error is returned. `NoZeroSymbol`: zero, in the eight systems that lack it. `OutOfBounds`: the numbers from the end of the
system on, in the enumerations and the short Chinese scale. `OutOfMemory`: only without `alloc`, and exactly for the numbers whose text a build
with `alloc` puts on the heap. There are no other errors, and no panics. -/
theorem C97_errors {cfg : Cfg} {T : IntTy} {n : Nat} (s : Named) (hn : T.Fits cfg n) :
    (view (tryToNominal cfg T n s.system) = .err .noZeroSymbol ↔ lacksZero s = true ∧ n = 0) ∧
    (∀ m, view (tryToNominal cfg T n s.system) = .err (.outOfBounds m) ↔ m = n ∧ ∃ k, endsAt s = some k ∧ k ≤ n) ∧
    (∀ m, view (tryToNominal cfg T n s.system) = .err (.outOfMemory m) ↔ m = n ∧ cfg.alloc = false ∧
      ∃ t, view (tryToNominal { cfg with alloc := true } T n s.system) = .ok (t, false)) ∧
    (∀ r, view (tryToNominal cfg T n s.system) = r → (∃ x, r = .ok x) ∨ ∃ e, r = .err e) := by
  have hn' : T.Fits { cfg with alloc := true } n := hn
  rw [C51_catalogue s hn, C51_catalogue s hn', ← answer_noZero_iff s n, ← answer_outOfBounds_iff s n]
  cases ha : answer s n with
  | noZero =>
    simp [present]
  | outOfBounds =>
    simp only [present]
    refine ⟨by simp, fun m => ?_, by simp, by simp⟩
    simp [eq_comm]
  | text t =>
    simp only [present, deliver]
    by_cases hl : utf8Len t ≤ 62
    · simp [hl]
    · cases cfg.alloc <;> simp [hl, eq_comm]

/-- One of each kind. -/
example : view (tryToNominal ⟨true, .w64, true⟩ .u8 0 Named.hebrew.system) = .err .noZeroSymbol ∧
    view (tryToNominal ⟨true, .w64, true⟩ .u8 51 Named.circledNumber.system) = .err (.outOfBounds 51) ∧
    view (tryToNominal ⟨false, .w64, true⟩ .u32 65221 Named.japaneseInformal.system) = .err (.outOfMemory 65221) := by
  decide +kernel

theorem answer_text_of {s : Named} {n : Nat} (h0 : ¬ (lacksZero s = true ∧ n = 0)) (h1 : ¬ ∃ k, endsAt s = some k ∧ k ≤ n) :
    ∃ t, answer s n = .text t := by
  cases ha : answer s n with
  | text t => exact ⟨t, rfl⟩
  | noZero => exact absurd ((answer_noZero_iff s n).mp ha) h0
  | outOfBounds => exact absurd ((answer_outOfBounds_iff s n).mp ha) h1

theorem firstFailure_end {alloc : Bool} {s : Named} {k : Nat} (h : endsAt s = some k) : ∃ k', firstFailure alloc s = some k' ∧ k' ≤ k := by
  cases s <;> simp only [endsAt] at h <;> first
    | (cases h; done)
    | (cases h; exact ⟨_, rfl, by decide⟩)
    | skip
  split at h
  · cases h
    cases alloc <;> simp [firstFailure, lacksZero, *]
  · cases h

theorem firstFailure_long {s : Named} {k : Nat} (h : firstLong s = some k) : ∃ k', firstFailure false s = some k' ∧ k' ≤ k := by
  cases s <;> simp only [firstLong] at h <;> first
    | (cases h; done)
    | exact ⟨_, rfl, Nat.zero_le _⟩
    | (cases h; exact ⟨_, rfl, Nat.le_refl _⟩)

theorem firstFailure_why {alloc : Bool} {s : Named} {n : Nat} (h : firstFailure alloc s = some n) :
    (lacksZero s = true ∧ n = 0) ∨ (∃ k, endsAt s = some k ∧ k ≤ n) ∨ (alloc = false ∧ firstLong s = some n) := by
  unfold firstFailure at h
  split at h
  · cases h
    exact .inl ⟨‹_›, rfl⟩
  · split at h
    · cases h
      exact .inr (.inl ⟨_, rfl, Nat.le_refl _⟩)
    · split at h
      · cases h
        exact .inr (.inr ⟨‹_›, rfl⟩)
      · split at h
        · cases h
          exact .inr (.inl ⟨_, by simp only [endsAt]; rw [if_pos ‹_›], Nat.le_refl _⟩)
        · cases h
    · split at h
      · cases h
      · exact .inr (.inr ⟨by simpa using ‹¬alloc = true›, h⟩)

/-- C97. Every number below the first failure is written, and the first failure is refused. -/
theorem C97_first_failure {cfg : Cfg} {T : IntTy} {n : Nat} (s : Named) (hn : T.Fits cfg n) :
    ((∀ k, firstFailure cfg.alloc s = some k → n < k) → ∃ x, view (tryToNominal cfg T n s.system) = .ok x) ∧
    (firstFailure cfg.alloc s = some n → ∃ e, view (tryToNominal cfg T n s.system) = .err e) := by
  have hlong := C57_first_long s hn
  obtain ⟨hz, hb, hm, hr⟩ := C97_errors s hn
  constructor
  · intro h
    rcases hr _ rfl with hx | ⟨e, he⟩
    · exact hx
    · exfalso
      cases e with
      | noZeroSymbol =>
        obtain ⟨h1, h2⟩ := hz.mp he
        have := h 0 (by unfold firstFailure; rw [if_pos h1])
        omega
      | outOfBounds m =>
        obtain ⟨rfl, k, hk, hkn⟩ := (hb m).mp he
        obtain ⟨k', h1, h2⟩ := firstFailure_end (alloc := cfg.alloc) hk
        have := h k' h1
        omega
      | outOfMemory m =>
        obtain ⟨rfl, ha, -⟩ := (hm m).mp he
        refine (hlong.1 fun k hk => ?_).1 he
        obtain ⟨k', h1, h2⟩ := firstFailure_long hk
        have := h k' (by rw [ha]; exact h1)
        omega
  · intro h
    rcases firstFailure_why h with h | h | ⟨h1, h2⟩
    · exact ⟨_, hz.mpr h⟩
    · exact ⟨_, (hb n).mpr ⟨rfl, h⟩⟩
    · obtain ⟨t, -, ht⟩ := hlong.2 h2
      rw [h1] at ht
      exact ⟨_, ht⟩

/-- `CircledNumber` ends at 50, Georgian begins at 1. -/
example : firstFailure true .circledNumber = some 51 ∧ firstFailure false .georgian = some 0 ∧ firstFailure true .decimal = none := by decide +kernel

/-- C97. When `unwrap()` is safe: a system writes every number of an integer type in a build exactly if its first failure, if any, is beyond the
type. -/
theorem C97_unwrap (s : Named) (cfg : Cfg) (T : IntTy) :
    (∀ n, T.Fits cfg n → ∃ x, tryToNominal cfg T n s.system = .ok x) ↔ ∀ k, firstFailure cfg.alloc s = some k → ¬ T.Fits cfg k := by
  have key : ∀ n, T.Fits cfg n → ((∃ x, tryToNominal cfg T n s.system = .ok x) ↔ ∃ x, view (tryToNominal cfg T n s.system) = .ok x) := by
    intro n hn
    rcases C41_always_succeeds s hn with ⟨x, h, _⟩ | ⟨e, h, _⟩
    · obtain ⟨y, hy, _⟩ := view_text (t := x.1) (i := x.2) h
      exact ⟨fun _ => ⟨x, h⟩, fun _ => ⟨y, hy⟩⟩
    · constructor
      · rintro ⟨x, hx⟩
        rw [hx] at h
        simp only [view, Res.bind] at h
        split at h <;> cases h
      · rintro ⟨x, hx⟩
        rw [h] at hx
        cases hx
  constructor
  · intro h k hk hf
    obtain ⟨e, he⟩ := (C97_first_failure s hf).2 hk
    obtain ⟨x, hx⟩ := (key k hf).mp (h k hf)
    rw [he] at hx
    cases hx
  · intro h n hn
    refine (key n hn).mpr ((C97_first_failure s hn).1 fun k hk => ?_)
    have := h k hk
    unfold IntTy.Fits at hn this
    omega

/-- With `alloc`, Roman numerals, Japanese numerals and the short Chinese scale up to `u32` can always be unwrapped; the short scale in `u64` and
Hebrew cannot. Without `alloc` Roman numerals can be up to `u16` only. -/
example : (∀ k, firstFailure true .romanUpper = some k → ¬ IntTy.u128.Fits ⟨true, .w64, true⟩ k) ∧
    (∀ k, firstFailure true (.chinese .traditionalFormal { usage := .ordinary, scale := .short }) = some k → ¬ IntTy.u32.Fits ⟨true, .w64, true⟩ k) ∧
    (∃ k, firstFailure true (.chinese .traditionalFormal { usage := .ordinary, scale := .short }) = some k ∧ IntTy.u64.Fits ⟨true, .w64, true⟩ k) ∧
    (∃ k, firstFailure true .hebrew = some k ∧ IntTy.u8.Fits ⟨true, .w64, true⟩ k) ∧
    (∀ k, firstFailure false .romanUpper = some k → ¬ IntTy.u16.Fits ⟨true, .w64, true⟩ k) ∧
    (∃ k, firstFailure false .romanUpper = some k ∧ IntTy.u32.Fits ⟨true, .w64, true⟩ k) := by
  refine ⟨?_, ?_, ⟨_, rfl, by decide⟩, ⟨_, rfl, by decide⟩, ?_, ⟨_, rfl, by decide⟩⟩
  · intro k h; cases h
  · intro k h; cases h; decide
  · intro k h; cases h; decide

end Nominals.Props
