import Verif.Proofs.DigitFormat
import Verif.Spec.Terminate

/-! # Termination of digit formatting, for arbitrary collections -/

namespace Nominals

open Nominals.Spec

theorem Res.bind_ne_timeout {ε α β : Type} {r : Res ε α} {f : α → Res ε β} (h : r ≠ .timeout) (hf : ∀ a, f a ≠ .timeout) :
    r.bind f ≠ .timeout := by
  cases r with
  | ok a => exact hf a
  | err e => simp [Res.bind]
  | panic => simp [Res.bind]
  | ub => simp [Res.bind]
  | timeout => exact absurd rfl h

theorem Res.map_ne_timeout {ε α β : Type} {r : Res ε α} {f : α → β} (h : r ≠ .timeout) : r.map f ≠ .timeout := by
  cases r <;> simp_all [Res.map]

theorem Res.mapErr_ne_timeout {ε ε' α : Type} {r : Res ε α} {f : ε → ε'} (h : r ≠ .timeout) : r.mapErr f ≠ .timeout := by
  cases r <;> simp_all [Res.mapErr]

theorem Res.ofIndex_ne_timeout {ε α : Type} (o : Option α) : Res.ofIndex (ε := ε) o ≠ .timeout := by
  cases o <;> simp [Res.ofIndex]

theorem addU8_ne_timeout {ε : Type} {cfg : Cfg} (a b : UInt8) : addU8 (ε := ε) cfg a b ≠ .timeout := by
  unfold addU8; repeat' split
  all_goals simp

theorem subT_ne_timeout {ε : Type} {cfg : Cfg} {T : IntTy} (a b : Nat) : subT (ε := ε) cfg T a b ≠ .timeout := by
  unfold subT; repeat' split
  all_goals simp

theorem inline_pushFront_ne_timeout {ε : Type} (cfg : Cfg) (s : InlineString) (ch : Char) (a b c : UInt8) :
    s.pushFront (ε := ε) cfg ch a b c ≠ .timeout := by
  unfold InlineString.pushFront
  dsimp only
  split
  · refine Res.bind_ne_timeout (subT_ne_timeout _ _) fun _ => Res.bind_ne_timeout (subT_ne_timeout _ _) fun _ => ?_
    exact Res.bind_ne_timeout (Res.ofIndex_ne_timeout _) fun _ => by simp
  · refine Res.bind_ne_timeout (Res.ofIndex_ne_timeout _) fun _ => ?_
    split
    · exact Res.bind_ne_timeout (Res.ofIndex_ne_timeout _) fun _ => by simp
    · simp

theorem pushFront_ne_timeout (cfg : Cfg) (s : NStr) (ch : Char) (n : Nat) : (s.pushFront cfg ch).withNominal n ≠ .timeout := by
  refine Res.mapErr_ne_timeout (Res.mapErr_ne_timeout ?_)
  unfold NStr.tryPushFront
  split
  · refine Res.bind_ne_timeout (addU8_ne_timeout _ _) fun _ => ?_
    split
    · exact Res.map_ne_timeout (inline_pushFront_ne_timeout _ _ _ _ _ _)
    · split
      · split <;> simp
      · simp
  · simp

theorem ofChar_ne_timeout {ε : Type} (cfg : Cfg) (ch : Char) : NStr.ofChar (ε := ε) cfg ch ≠ .timeout := by
  unfold NStr.ofChar NStr.push
  have h : NStr.new.tryPush cfg ch ≠ .timeout := by
    unfold NStr.new NStr.tryPush
    refine Res.bind_ne_timeout (addU8_ne_timeout _ _) fun _ => ?_
    split
    · refine Res.map_ne_timeout ?_
      unfold InlineString.push
      dsimp only
      split
      · exact Res.bind_ne_timeout (subT_ne_timeout _ _) fun _ => Res.bind_ne_timeout (Res.ofIndex_ne_timeout _) fun _ =>
          Res.bind_ne_timeout (subT_ne_timeout _ _) fun _ => Res.bind_ne_timeout (Res.ofIndex_ne_timeout _) fun _ => by simp
      · exact Res.bind_ne_timeout (Res.ofIndex_ne_timeout _) fun _ => by simp
    · split
      · split <;> simp
      · simp
  have h := Res.mapErr_ne_timeout (f := Prod.fst) h
  split <;> simp_all

/-- One turn of the loop after the remainder has been adjusted. -/
def turn (cfg : Cfg) (T : IntTy) (c : Coll) (n fuel count r : Nat) (s : NStr) : Res Error NStr :=
  (remT r count).bind fun idx =>
  (Res.ofIndex (c.digit (asUsize cfg idx))).bind fun ch =>
  ((s.pushFront cfg ch).withNominal n).bind fun s =>
  (divT r count).bind fun r =>
  match T.tryFrom cfg c.len with
  | some count => digitLoop cfg T c n fuel count r false s
  | none => .err (.outOfBounds n)

theorem turn_ne_timeout {cfg : Cfg} {T : IntTy} {c : Coll} {n fuel r : Nat} (s : NStr)
    (h : ∀ s', digitLoop cfg T c n fuel c.len (r / c.len) false s' ≠ .timeout) : turn cfg T c n fuel c.len r s ≠ .timeout := by
  unfold turn remT divT
  by_cases h0 : c.len = 0
  · simp [h0, Res.bind]
  · rw [if_neg h0, if_neg h0]
    refine Res.bind_ne_timeout (by simp) fun i => Res.bind_ne_timeout (Res.ofIndex_ne_timeout _) fun ch =>
      Res.bind_ne_timeout (pushFront_ne_timeout _ _ _ _) fun s' => ?_
    show (match T.tryFrom cfg c.len with
      | some count => digitLoop cfg T c n fuel count (r / c.len) false s'
      | none => .err (.outOfBounds n)) ≠ .timeout
    split
    · rename_i v hv
      have : v = c.len := by
        unfold IntTy.tryFrom at hv
        split at hv <;> simp_all
      subst this
      exact h s'
    · simp

theorem digitLoop_turn {cfg : Cfg} {T : IntTy} {c : Coll} {n fuel count r : Nat} {f : Bool} {s : NStr} :
    digitLoop cfg T c n (fuel + 1) count r f s =
      if r ≠ 0 ∨ f = true then
        if !c.hasZero && (!c.zeroBased || !f) then
          if r = 0 then .err .noZeroSymbol else turn cfg T c n fuel count (r - 1) s
        else turn cfg T c n fuel count r s
      else .ok s := by
  simp only [digitLoop]
  split
  · cases hz : c.hasZero
    · simp only [Bool.not_false, Bool.true_and, beq_iff_eq]
      by_cases hb : (!c.zeroBased || !f) = true
      · rw [if_pos hb, if_pos hb]
        by_cases hr : r = 0
        · rw [if_pos hr, if_pos hr]; rfl
        · rw [if_neg hr, if_neg hr, subT_le (by omega)]; rfl
      · rw [if_neg hb, if_neg hb]; rfl
    · rfl
  · rfl

/-- Unless the only symbol is a zero digit, the loop ends. -/
theorem digitLoop_ends {cfg : Cfg} {T : IntTy} {c : Coll} {n : Nat} (h : ¬ (c.hasZero = true ∧ c.len = 1)) (fuel r : Nat)
    (f : Bool) (s : NStr) (hf : r + (if f then 2 else 1) ≤ fuel) : digitLoop cfg T c n fuel c.len r f s ≠ .timeout := by
  induction fuel generalizing r f s with
  | zero => cases f <;> simp at hf
  | succ fuel ih =>
    rw [digitLoop_turn]
    have next : ∀ r', (r' / c.len + 1 ≤ fuel) → turn cfg T c n fuel c.len r' s ≠ .timeout :=
      fun r' h' => turn_ne_timeout s fun s' => ih _ _ _ (by simpa using h')
    split
    · rename_i h1
      have hle := Nat.div_le_self r c.len
      have hle' := Nat.div_le_self (r - 1) c.len
      split
      · split
        · simp
        · exact next _ (by cases f <;> simp at hf <;> omega)
      · rename_i h2
        cases f with
        | true => exact next _ (by simp at hf; omega)
        | false =>
          have hz : c.hasZero = true := by
            cases hz : c.hasZero <;> simp_all
          have hr : r ≠ 0 := by simpa using h1
          simp at hf
          by_cases h0 : c.len = 0
          · exact next _ (by rw [h0]; simp; omega)
          · have := Nat.div_lt_self (n := r) (k := c.len) (by omega) (by have := h; simp_all; omega)
            exact next _ (by omega)
    · simp

/-- A single zero digit, without allocator: ends after at most 63 symbols. -/
theorem digitLoop_one_ends {cfg : Cfg} {T : IntTy} {c : Coll} {n : Nat} (hz : c.hasZero = true) (hl : c.len = 1)
    (h : (∀ ch, c.digit 0 ≠ some ch) ∨ n = 0 ∨ cfg.alloc = false) (fuel : Nat) (hf : 64 ≤ fuel) :
    digitLoop cfg T c n fuel c.len n true NStr.newReverse ≠ .timeout := by
  obtain ⟨fuel, rfl⟩ : ∃ k, fuel = k + 1 := ⟨fuel - 1, by omega⟩
  rcases Option.eq_none_or_eq_some (c.digit 0) with hd | ⟨ch, hd⟩
  · rw [digitLoop_turn]
    simp [hz, turn, hl, remT, Nat.mod_one, asUsize, hd, Res.ofIndex, Res.bind]
  · by_cases h0 : n = 0
    · subst h0
      rw [digitLoop_turn]
      simp only [ne_eq, not_true_eq_false, or_true, ↓reduceIte, hz, Bool.not_true, Bool.false_and, Bool.false_eq_true]
      refine turn_ne_timeout _ fun s' => ?_
      obtain ⟨fuel, rfl⟩ : ∃ k, fuel = k + 1 := ⟨fuel - 1, by omega⟩
      rw [digitLoop_turn]
      simp
    · have ha : cfg.alloc = false := by
        rcases h with h | h | h
        · exact absurd hd (h ch)
        · exact absurd h h0
        · exact h
      have hh : HasDigits c [ch] := ⟨hl, fun i hi => by
        have : i = 0 := by simpa using hi
        subst this; rw [hd]; rfl⟩
      rw [hl, one_symbol_fails ha hh hz (fuel + 1) n h0 true _ [] NStr.newReverse_is (by simp) (by simp; omega)]
      simp

theorem neverFinishes_diverges {cfg : Cfg} {T : IntTy} {c : Coll} {n : Nat} (h : NeverFinishes cfg c n) (fuel : Nat) :
    digitLoop cfg T c n fuel c.len n true NStr.newReverse = .timeout := by
  obtain ⟨hz, hl, ⟨ch, hd⟩, h0, ha⟩ := h
  have hh : HasDigits c [ch] := ⟨hl, fun i hi => by
    have : i = 0 := by simpa using hi
    subst this; rw [hd]; rfl⟩
  rw [hl]
  exact one_symbol_diverges ha hh hz fuel n h0 true _ [] NStr.newReverse_is

theorem digitLoop_finishes {cfg : Cfg} {T : IntTy} {c : Coll} {n : Nat} (h : ¬ NeverFinishes cfg c n) (fuel : Nat)
    (hf : n + 64 ≤ fuel) : digitLoop cfg T c n fuel c.len n true NStr.newReverse ≠ .timeout := by
  by_cases h1 : c.hasZero = true ∧ c.len = 1
  · refine digitLoop_one_ends h1.1 h1.2 ?_ fuel (by omega)
    rcases Option.eq_none_or_eq_some (c.digit 0) with hd | ⟨ch, hd⟩
    · left; simp [hd]
    · by_cases h0 : n = 0
      · exact .inr (.inl h0)
      · refine .inr (.inr ?_)
        cases ha : cfg.alloc
        · rfl
        · exact absurd ⟨h1.1, h1.2, ⟨ch, hd⟩, h0, ha⟩ h
  · exact digitLoop_ends h1 fuel n true _ (by simp; omega)

/-- A larger budget gives the same result. -/
theorem Res.bind_mono {ε α β : Type} {r : Res ε α} {f g : α → Res ε β} (h : ∀ a, f a ≠ .timeout → g a = f a)
    (hr : r.bind f ≠ .timeout) : r.bind g = r.bind f := by
  cases r with
  | ok a => exact h a hr
  | err e => rfl
  | panic => rfl
  | ub => rfl
  | timeout => rfl

theorem digitLoop_mono {cfg : Cfg} {T : IntTy} {c : Coll} {n : Nat} (fuel k : Nat) (count r : Nat) (f : Bool) (s : NStr)
    (h : digitLoop cfg T c n fuel count r f s ≠ .timeout) :
    digitLoop cfg T c n (fuel + k) count r f s = digitLoop cfg T c n fuel count r f s := by
  induction fuel generalizing count r f s with
  | zero => exact absurd rfl h
  | succ fuel ih =>
    have step : ∀ r', turn cfg T c n fuel count r' s ≠ .timeout → turn cfg T c n (fuel + k) count r' s = turn cfg T c n fuel count r' s := by
      intro r' ht
      unfold turn at ht ⊢
      refine Res.bind_mono (fun i ht => Res.bind_mono (fun ch ht => Res.bind_mono (fun s' ht => Res.bind_mono (fun q ht => ?_) ht) ht) ht) ht
      split at ht
      · exact ih _ _ _ _ ht
      · rfl
    rw [show fuel + 1 + k = fuel + k + 1 by omega]
    rw [digitLoop_turn] at h ⊢
    rw [digitLoop_turn]
    repeat' split
    all_goals first
      | rfl
      | (refine step _ ?_; simp_all; done)
      | skip

end Nominals
