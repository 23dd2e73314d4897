import Verif.Proofs.Terminate
import Verif.Proofs.DigitNamed

/-!
# Properties C17 and C52, exactly: when formatting with a digit collection ends

No hypothesis on the collection: its methods may be inconsistent (`digit` may panic below `len`, `len` may be 0, …). The model's
budgets (`fuel` for the loop, `depth` for nested fallback calls) only cut a run short; a run that ends within some budget ends
with the same result in every larger one, so "ends" means: some budget is enough.
-/

namespace Nominals.Props

open Nominals.Spec

/-- C52. A run that ends within a budget ends with the same result in every larger budget. -/
theorem C52_budget_irrelevant {cfg : Cfg} {T : IntTy} {n : Nat} (fuel depth : Nat) (d : DigitSys)
    (h : digitTryFormat cfg T fuel depth d n ≠ .timeout) (fuel' depth' : Nat) (hf : fuel ≤ fuel') (hd : depth ≤ depth') :
    digitTryFormat cfg T fuel' depth' d n = digitTryFormat cfg T fuel depth d n := by
  induction depth generalizing d depth' with
  | zero => exact absurd rfl h
  | succ depth ih =>
    obtain ⟨e, rfl⟩ : ∃ e, depth' = e + 1 := ⟨depth' - 1, by omega⟩
    obtain ⟨k, rfl⟩ : ∃ k, fuel' = fuel + k := ⟨fuel' - fuel, by omega⟩
    rw [digitTryFormat] at h ⊢
    rw [digitTryFormat]
    dsimp only at h ⊢
    cases hT : T.tryFrom cfg (d.level 0).len with
    | none => rfl
    | some count =>
      simp only [hT] at h ⊢
      generalize ((d.level 0).fixed && if (d.level 0).zeroBased = true then decide (n ≥ count) else decide (n > count)) = out at h ⊢
      cases out with
      | true =>
        simp only [↓reduceIte] at h ⊢
        split
        · rfl
        · rename_i hl
          rw [if_neg hl] at h
          exact ih _ h e (by omega)
      | false =>
        simp only [Bool.false_eq_true, ↓reduceIte] at h ⊢
        exact digitLoop_mono _ _ _ _ _ _ h

example : digitTryFormat ⟨true, .w64, true⟩ .u16 5 1 decimal 1994 ≠ .timeout := by decide +kernel

/-- One step of `try_format_nominal`: hand over, or write. -/
theorem tryFormat_step {cfg : Cfg} {T : IntTy} {n : Nat} (fuel depth : Nat) (d : DigitSys) :
    (HandsOver cfg T (d.level 0) n → digitTryFormat cfg T fuel (depth + 1) d n =
      if (d.level 1).len = 0 then .err (.outOfBounds n) else digitTryFormat cfg T fuel depth d.fallback n) ∧
    (¬ HandsOver cfg T (d.level 0) n → (d.level 0).len < 2 ^ T.bits cfg → digitTryFormat cfg T fuel (depth + 1) d n =
      digitLoop cfg T (d.level 0) n fuel (d.level 0).len n true NStr.newReverse) ∧
    (¬ (d.level 0).len < 2 ^ T.bits cfg → digitTryFormat cfg T fuel (depth + 1) d n ≠ .timeout) := by
  refine ⟨fun ⟨h1, h2, h3⟩ => ?_, fun h h2 => ?_, fun h => ?_⟩
  · have h3' : (if (d.level 0).zeroBased = true then decide (n ≥ (d.level 0).len) else decide (n > (d.level 0).len)) = true := by
      split <;> simp_all
    simp only [digitTryFormat, tryFrom_some h2, h1, h3', Bool.and_self, ↓reduceIte, DigitSys.fallback, beq_iff_eq]
  · simp only [digitTryFormat, tryFrom_some h2]
    rw [if_neg]
    intro h3
    refine h ⟨by simp_all, h2, ?_⟩
    split <;> simp_all
  · simp only [digitTryFormat, IntTy.tryFrom, if_neg h]
    exact Res.bind_ne_timeout (Res.ofIndex_ne_timeout _) fun _ => ofChar_ne_timeout _ _

/-- C17 and C52, exactly. For every collection, with every chain of fallbacks: formatting `n` never ends if and only if either
every collection of the chain hands `n` over to a non-empty fallback, or the chain reaches a collection that does not hand `n`
over and never finishes writing it (a single zero digit, `n ≠ 0`, `alloc` build). -/
theorem C52_diverges_exactly {cfg : Cfg} {T : IntTy} {n : Nat} (d : DigitSys) :
    (∀ fuel depth, digitTryFormat cfg T fuel depth d n = .timeout) ↔
      (∀ i, HandsOver cfg T (d.level i) n ∧ (d.level (i + 1)).len ≠ 0) ∨
      ∃ k, (∀ i, i < k → HandsOver cfg T (d.level i) n ∧ (d.level (i + 1)).len ≠ 0) ∧
        ¬ HandsOver cfg T (d.level k) n ∧ NeverFinishes cfg (d.level k) n := by
  constructor
  · intro h
    by_cases hall : ∀ i, HandsOver cfg T (d.level i) n ∧ (d.level (i + 1)).len ≠ 0
    · exact .inl hall
    right
    -- the first level that does not hand over to a non-empty fallback
    obtain ⟨k, hk, hmin⟩ : ∃ k, ¬ (HandsOver cfg T (d.level k) n ∧ (d.level (k + 1)).len ≠ 0) ∧
        ∀ i, i < k → HandsOver cfg T (d.level i) n ∧ (d.level (i + 1)).len ≠ 0 := by
      obtain ⟨j, hj⟩ := Classical.not_forall.mp hall
      induction j using Nat.strongRecOn with
      | _ j ih =>
        by_cases hex : ∃ i, i < j ∧ ¬ (HandsOver cfg T (d.level i) n ∧ (d.level (i + 1)).len ≠ 0)
        · obtain ⟨i, hi, hni⟩ := hex
          exact ih i hi hni
        · exact ⟨j, hj, fun i hi => Classical.byContradiction fun hc => hex ⟨i, hi, hc⟩⟩
    refine ⟨k, hmin, ?_⟩
    -- walk down to level k
    have walk : ∀ j, j ≤ k → ∀ fuel depth, digitTryFormat cfg T fuel depth ⟨fun i => d.level (j + i)⟩ n = .timeout := by
      intro j
      induction j with
      | zero =>
        intro _ fuel depth
        have : (⟨fun i => d.level (0 + i)⟩ : DigitSys) = d := by simp
        rw [this]; exact h fuel depth
      | succ j ih =>
        intro hj fuel depth
        have h1 := ih (by omega) fuel (depth + 1)
        obtain ⟨h2, h3⟩ := hmin j (by omega)
        rw [(tryFormat_step fuel depth ⟨fun i => d.level (j + i)⟩).1 (by simpa using h2), if_neg h3] at h1
        have e : DigitSys.fallback ⟨fun i => d.level (j + i)⟩ = ⟨fun i => d.level (j + 1 + i)⟩ := by
          unfold DigitSys.fallback
          congr 1
          funext i
          show d.level (j + (i + 1)) = _
          rw [show j + (i + 1) = j + 1 + i by omega]
        rw [e] at h1
        exact h1
    have hw := walk k (Nat.le_refl _)
    obtain ⟨s1, s2, s3⟩ := tryFormat_step (cfg := cfg) (T := T) (n := n) (n + 64) 0 ⟨fun i => d.level (k + i)⟩
    have hw1 := hw (n + 64) 1
    by_cases hho : HandsOver cfg T (d.level k) n
    · have hl : (d.level (k + 1)).len = 0 := Classical.byContradiction fun hc => hk ⟨hho, hc⟩
      rw [s1 (by simpa using hho), if_pos hl] at hw1
      simp at hw1
    · refine ⟨hho, ?_⟩
      by_cases hT : (d.level k).len < 2 ^ T.bits cfg
      · rw [s2 (by simpa using hho) hT] at hw1
        exact Classical.byContradiction fun hc => digitLoop_finishes (c := d.level k) hc (n + 64) (Nat.le_refl _) hw1
      · exact absurd hw1 (s3 hT)
  · intro h fuel depth
    rcases h with h | ⟨k, hmin, hho, hnf⟩
    · induction depth generalizing d with
      | zero => rfl
      | succ depth ih =>
        obtain ⟨h1, h2⟩ := h 0
        rw [(tryFormat_step fuel depth d).1 h1, if_neg h2]
        exact ih d.fallback fun i => h (i + 1)
    · induction k generalizing d depth with
      | zero =>
        cases depth with
        | zero => rfl
        | succ depth =>
          have h256 := bits_ge cfg T
          rw [(tryFormat_step fuel depth d).2.1 hho (by rw [hnf.2.1]; omega)]
          exact neverFinishes_diverges hnf fuel
      | succ k ih =>
        cases depth with
        | zero => rfl
        | succ depth =>
          obtain ⟨h1, h2⟩ := hmin 0 (by omega)
          rw [(tryFormat_step fuel depth d).1 h1, if_neg h2]
          exact ih d.fallback depth (fun i hi => hmin (i + 1) (by omega)) hho hnf

/-- A fixed pair of symbols that is its own fallback never answers about 2. -/
example (fuel depth : Nat) : digitTryFormat ⟨true, .w64, true⟩ .u8 fuel depth ⟨fun _ => ⟨true, true, true, 2, fun i => ['a', 'b'][i]?⟩⟩ 2 = .timeout :=
  (C52_diverges_exactly _).mpr (.inl fun _ => ⟨⟨rfl, show 2 < 2 ^ 8 by decide, (by simp)⟩, show 2 ≠ 0 by decide⟩) fuel depth

/-- C17, consequence: a collection that is not fixed fails to end exactly when it is a single zero digit asked for a non-zero
number in an `alloc` build; otherwise `n + 64` iterations are enough. -/
theorem C17_diverges_exactly {cfg : Cfg} {T : IntTy} {n : Nat} (d : DigitSys) (hf : (d.level 0).fixed = false) :
    (∀ fuel depth, digitTryFormat cfg T fuel depth d n = .timeout) ↔ NeverFinishes cfg (d.level 0) n := by
  have hno : ¬ HandsOver cfg T (d.level 0) n := fun h => by rw [h.1] at hf; cases hf
  rw [C52_diverges_exactly]
  constructor
  · rintro (h | ⟨k, h1, h2, h3⟩)
    · exact absurd (h 0).1 hno
    · cases k with
      | zero => exact h3
      | succ k => exact absurd (h1 0 (by omega)).1 hno
  · exact fun h => .inr ⟨0, fun i hi => by omega, hno, h⟩

/-- Both ways of not ending occur, and so does ending: a single zero digit; a fixed pair of symbols that falls back to itself; the
same pair with a non-empty ordinary fallback. -/
example : NeverFinishes ⟨true, .w64, true⟩ ((DigitSys.digitSetNew ['0']).level 0) 3 ∧
    HandsOver ⟨true, .w64, true⟩ .u8 ⟨true, true, true, 2, fun i => ['a', 'b'][i]?⟩ 2 ∧
    digitTryFormat ⟨true, .w64, true⟩ .u8 5 2 (.withFallback ⟨true, true, true, 2, fun i => ['a', 'b'][i]?⟩ (.digitSetNew ['x', 'y'])) 2 ≠
      .timeout := by
  refine ⟨⟨rfl, rfl, ⟨'0', rfl⟩, by decide, rfl⟩, ⟨rfl, by decide, by decide⟩, by decide +kernel⟩

end Nominals.Props
