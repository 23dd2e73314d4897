import Verif.Proofs.Protocol
import Verif.Proofs.Silence
import Verif.Props.Dyn

/-!
# Property C67: which calls a user's collection receives, and what comes out

The vocabulary (`Call`, `converse`, `Round`, `Session`, …) is in `Verif/Spec/Protocol.lean`.
-/

namespace Nominals.Props

open Nominals Nominals.Spec Nominals.Conversation

theorem conversation_level_zero {σ : Type} (d : DynSys σ) : (⟨fun j => d.level (0 + j)⟩ : DynSys σ) = d := by
  cases d
  simp

/-- C67. A collection (with its fallbacks) whose answers may change makes `try_format_nominal` return the text `t` and leaves the program in
state `w'` if and only if some conversation with outcome `t` takes the program from `w` to `w'`. -/
theorem C67_text_iff {σ : Type} (cfg : Cfg) (T : IntTy) (d : DynSys σ) (hlen : ∀ k, UsizeLen cfg (d.level k)) (n : Nat) (w w' : σ)
    (t : List Char) :
    (∃ fuel depth s, dynTryFormat cfg T fuel depth d n w = .ok (s, w') ∧ s.asStr = some t ∧ s.isInline = decide (utf8Len t ≤ 62)) ↔
      ∃ tr, Session cfg T n 0 tr (.ok t) ∧ converse d w tr = some w' := by
  constructor
  · rintro ⟨fuel, depth, s, h, ht, _⟩
    have hs := dynTryFormat_sound (cfg := cfg) (T := T) (n := n) (fuel := fuel) d hlen depth 0 w
    rw [conversation_level_zero, h] at hs
    obtain ⟨tr, out, v, h1, h2, h3⟩ := hs trivial
    cases out with
    | ok u =>
      obtain ⟨s', h4, h5⟩ := h3
      cases h4
      have := h5.1.asStr
      rw [ht] at this
      cases this
      exact ⟨tr, h1, h2⟩
    | err e => cases h3
    | panic => cases h3
    | ub => exact h3.elim
    | timeout => exact h3.elim
  · rintro ⟨tr, h1, h2⟩
    obtain ⟨F, D, h⟩ := dynTryFormat_session d hlen h1 h2
    obtain ⟨s, h3, h4⟩ := h F D (Nat.le_refl _) (Nat.le_refl _)
    rw [conversation_level_zero] at h3
    exact ⟨F, D, s, h3, h4.1.asStr, h4.2⟩

/-- The conversation about 1 with two digits. -/
example : Session ⟨true, .w64, true⟩ .u8 1 0 [(0, .len 2), (0, .fixed false), (0, .hasZero true), (0, .digit 1 'i'), (0, .len 2)] (.ok ['i']) ∧
    converse (constantSys (.digitSetNew ['o', 'i'])) () [(0, .len 2), (0, .fixed false), (0, .hasZero true), (0, .digit 1 'i'), (0, .len 2)] = some () :=
  ⟨.digits 2 [⟨true, false, false, 1, 'i', 2⟩] (first := false) (base := 2) (m := 0) (by decide)
    ⟨.inr rfl, by decide, by decide, 0, rfl, rfl, rfl, rfl⟩ (.inl rfl) .done, by decide⟩

/-- C67. It returns the error `e` if and only if some conversation has that outcome. -/
theorem C67_error_iff {σ : Type} (cfg : Cfg) (T : IntTy) (d : DynSys σ) (hlen : ∀ k, UsizeLen cfg (d.level k)) (n : Nat) (w : σ)
    (e : Error) :
    (∃ fuel depth, dynTryFormat cfg T fuel depth d n w = .err e) ↔
      ∃ tr w', Session cfg T n 0 tr (.err e) ∧ converse d w tr = some w' := by
  constructor
  · rintro ⟨fuel, depth, h⟩
    have hs := dynTryFormat_sound (cfg := cfg) (T := T) (n := n) (fuel := fuel) d hlen depth 0 w
    rw [conversation_level_zero, h] at hs
    obtain ⟨tr, out, v, h1, h2, h3⟩ := hs trivial
    cases out with
    | ok u => obtain ⟨s', h4, h5⟩ := h3; cases h4
    | err e' => cases h3; exact ⟨tr, v, h1, h2⟩
    | panic => cases h3
    | ub => exact h3.elim
    | timeout => exact h3.elim
  · rintro ⟨tr, w', h1, h2⟩
    obtain ⟨F, D, h⟩ := dynTryFormat_session d hlen h1 h2
    have h3 : _ = _ := h F D (Nat.le_refl _) (Nat.le_refl _)
    rw [conversation_level_zero] at h3
    exact ⟨F, D, h3⟩

/-- A fixed collection of three symbols with an empty fallback, asked about 5: the conversation has five calls. -/
example : Session ⟨true, .w64, true⟩ .u8 5 0
      [(0, .len 3), (0, .fixed true), (0, .zeroBased true), (1, .default), (1, .isEmpty true)] (.err (.outOfBounds 5)) ∧
    converse (constantSys (.withFallback ⟨true, true, true, 3, fun i => ['a', 'b', 'c'][i]?⟩ .noFallback)) ()
      [(0, .len 3), (0, .fixed true), (0, .zeroBased true), (1, .default), (1, .isEmpty true)] = some () :=
  ⟨.refused 3 true (by decide) (by unfold Beyond; decide), by decide⟩

/-- C67. A conversation whose outcome is a panic (no symbols, or an underflow with overflow checks) does make the call panic, however much
time it is given. -/
theorem C67_panics {σ : Type} (cfg : Cfg) (T : IntTy) (d : DynSys σ) (hlen : ∀ k, UsizeLen cfg (d.level k)) (n : Nat) (w w' : σ)
    (tr : List (Nat × Call)) (h : Session cfg T n 0 tr .panic) (hc : converse d w tr = some w') :
    ∃ F D, ∀ fuel depth, F ≤ fuel → D ≤ depth → dynTryFormat cfg T fuel depth d n w = .panic := by
  obtain ⟨F, D, h⟩ := dynTryFormat_session d hlen h hc
  rw [conversation_level_zero] at h
  exact ⟨F, D, h⟩

/-- The collection of `C53` that contradicts itself about zero: this conversation about 0 takes place, and ends in a panic. -/
example : Session ⟨true, .w64, true⟩ .u8 0 0
      [(0, .len 10), (0, .fixed false), (0, .hasZero false), (0, .zeroBased false), (0, .hasZero true)] .panic ∧
    converse (⟨fun _ => contradictory⟩ : DynSys Bool) false
      [(0, .len 10), (0, .fixed false), (0, .hasZero false), (0, .zeroBased false), (0, .hasZero true)] = some true ∧
    ∀ k, UsizeLen ⟨true, .w64, true⟩ ((⟨fun _ => contradictory⟩ : DynSys Bool).level k) :=
  ⟨.digits 10 [] (by decide) ⟨rfl, rfl, rfl⟩ (.inl rfl) (.underflow rfl), by decide, fun k w l w' h => by
    simp only [contradictory, Res.ok.injEq, Prod.mk.injEq] at h
    rw [← h.1]; decide⟩

/-- Symbols `o` and `i`; asking for the second one panics, or never returns. -/
def mute (p : Silence) : DynColl Unit :=
  { constantSys (.digitSetNew ['o', 'i']) |>.level 0 with digit := fun i w => if i = 1 then p.res else .ok ('o', w) }

/-- C67. If the calls of a conversation take place up to a method that panics, the whole call panics; if that method never returns, neither
does the call, however much time it is given. No text and no error comes out. -/
theorem C67_silence {σ : Type} (cfg : Cfg) (T : IntTy) (d : DynSys σ) (hlen : ∀ k, UsizeLen cfg (d.level k)) (n : Nat) (w : σ) (p : Silence)
    (tr : List (Nat × Call)) (out : Res Error (List Char)) (h : Session cfg T n 0 tr out) (hb : breaksOff p d w tr) :
    ∃ F D, ∀ fuel depth, F ≤ fuel → D ≤ depth → dynTryFormat cfg T fuel depth d n w = p.res := by
  obtain ⟨F, D, h⟩ := dynTryFormat_breaksOff d hlen h hb
  rw [conversation_level_zero] at h
  exact ⟨F, D, h⟩

/-- Writing 2 with the symbols above: the first round is completed, and the second breaks off. -/
example (p : Silence) : Session ⟨true, .w64, true⟩ .u8 2 0
      [(0, .len 2), (0, .fixed false), (0, .hasZero true), (0, .digit 0 'o'), (0, .len 2), (0, .hasZero true), (0, .digit 1 'i'), (0, .len 2)]
      (.ok ['i', 'o']) ∧
    breaksOff p (⟨fun _ => mute p⟩ : DynSys Unit) ()
      [(0, .len 2), (0, .fixed false), (0, .hasZero true), (0, .digit 0 'o'), (0, .len 2), (0, .hasZero true), (0, .digit 1 'i'), (0, .len 2)] ∧
    ∀ k, UsizeLen ⟨true, .w64, true⟩ ((⟨fun _ => mute p⟩ : DynSys Unit).level k) :=
  ⟨.digits 2 [⟨true, false, false, 0, 'o', 2⟩, ⟨true, false, false, 1, 'i', 2⟩] (first := false) (base := 2) (m := 0) (by decide)
    ⟨.inr rfl, by decide, by decide, 1, rfl, .inl (by decide), by decide, by decide, 0, rfl, rfl, rfl, rfl⟩ (.inl rfl) .done,
   .inr ⟨(), rfl, .inr ⟨(), rfl, .inr ⟨(), rfl, .inr ⟨(), rfl, .inr ⟨(), rfl, .inr ⟨(), rfl, .inl rfl⟩⟩⟩⟩⟩⟩,
   fun k w l w' h => by
    have : l = 2 := by
      have h : (Res.ok (2, ()) : Res Empty (Nat × Unit)) = .ok (l, w') := h
      cases h
      rfl
    subst this
    decide⟩

/-- C67. The call panics if and only if a conversation whose outcome is a panic takes place, or one breaks off at a method that panics. -/
theorem C67_panic_iff {σ : Type} (cfg : Cfg) (T : IntTy) (d : DynSys σ) (hlen : ∀ k, UsizeLen cfg (d.level k)) (n : Nat) (w : σ) :
    (∃ fuel depth, dynTryFormat cfg T fuel depth d n w = .panic) ↔
      (∃ tr w', Session cfg T n 0 tr .panic ∧ converse d w tr = some w') ∨
      (∃ tr out, Session cfg T n 0 tr out ∧ breaksOff .panic d w tr) := by
  constructor
  · rintro ⟨fuel, depth, h⟩
    have hs := dynTryFormat_panic (cfg := cfg) (T := T) (n := n) (fuel := fuel) d hlen depth 0 w
    rw [conversation_level_zero] at hs
    obtain ⟨tr, out, h1, ⟨rfl, w', h2⟩ | h2⟩ := hs h
    · exact .inl ⟨tr, w', h1, h2⟩
    · exact .inr ⟨tr, out, h1, h2⟩
  · rintro (⟨tr, w', h1, h2⟩ | ⟨tr, out, h1, h2⟩)
    · obtain ⟨F, D, h⟩ := C67_panics cfg T d hlen n w w' tr h1 h2
      exact ⟨F, D, h F D (Nat.le_refl _) (Nat.le_refl _)⟩
    · obtain ⟨F, D, h⟩ := C67_silence cfg T d hlen n w .panic tr out h1 h2
      exact ⟨F, D, h F D (Nat.le_refl _) (Nat.le_refl _)⟩

/-- Both sides occur: 1 with the symbols above panics, and 0 does not. -/
example : dynTryFormat ⟨true, .w64, true⟩ .u8 9 9 (⟨fun _ => mute .panic⟩ : DynSys Unit) 1 () = .panic ∧
    ∃ s, dynTryFormat ⟨true, .w64, true⟩ .u8 9 9 (⟨fun _ => mute .panic⟩ : DynSys Unit) 0 () = .ok (s, ()) ∧ s.asStr = some ['o'] :=
  ⟨rfl, _, rfl, by decide +kernel⟩

/-- Complete rounds write the number in a positional system whose base changes at every place, following the lengths answered. The one
exception: 0, with a `has_zero_digit` that contradicts itself and without overflow checks, is written as `2^bits`. -/
theorem changing_bases (bits : Nat) (checks : Bool) (l n base : Nat) (rs : List Round) (h : Rounds bits checks true l n rs false base 0) :
    n = numeral true l rs ∨ (n = 0 ∧ checks = false ∧ numeral true l rs = 2 ^ bits) := by
  cases rs with
  | nil => exact absurd h.1 (by simp)
  | cons r rs =>
    obtain ⟨hm, _, _, q, hq, hr⟩ := h
    have hq' := rounds_numeral rs _ _ _ hr
    simp only [numeral, ← hq']
    unfold Round.Takes at hq
    split at hq <;> rename_i h <;> simp only [h, Bool.false_eq_true, ↓reduceIte]
    · split at hq
      · exact .inr ⟨by assumption, hq.2.1, by omega⟩
      · omega
    · omega

/-- C67. For a collection that never says it is fixed: the result is either the single symbol of a collection longer than the integer type,
or the symbols obtained for the digits of `n` in the changing bases, and the program has seen exactly the calls `len`, `fixed` and those of
the rounds, in this order. The one exception: 0, with a `has_zero_digit` that contradicts itself and without overflow checks, is written
as `2^bits`. -/
theorem C67_mixed_radix {σ : Type} (cfg : Cfg) (T : IntTy) (fuel depth : Nat) (d : DynSys σ)
    (hlen : ∀ k, UsizeLen cfg (d.level k)) (hfix : ∀ w a w', (d.level 0).fixed w = .ok (a, w') → a = false) (n : Nat) (w w' : σ) (s : NStr)
    (h : dynTryFormat cfg T fuel depth d n w = .ok (s, w')) :
    (∃ l c, 2 ^ T.bits cfg ≤ l ∧ s.asStr = some [c] ∧
      converse d w [(0, .len l), (0, .digit (n % 2 ^ cfg.ptr.bits) c)] = some w') ∨
    (∃ l rs, (n = numeral true l rs ∨ (n = 0 ∧ cfg.checks = false ∧ numeral true l rs = 2 ^ T.bits cfg)) ∧ s.asStr = some (symbols rs) ∧
      converse d w ((.len l :: .fixed false :: roundCalls true rs).map (0, ·)) = some w') := by
  have hs := dynTryFormat_sound (cfg := cfg) (T := T) (n := n) (fuel := fuel) d hlen depth 0 w
  rw [conversation_level_zero, h] at hs
  obtain ⟨tr, out, v, h1, h2, h3⟩ := hs trivial
  have hno : ∀ z rest, converse d w ((0, .len z) :: (0, .fixed true) :: rest) ≠ some v := by
    intro z rest hc
    simp only [converse, Option.bind_eq_some_iff] at hc
    obtain ⟨w1, _, w2, h5, _⟩ := hc
    have := hfix _ _ _ (reply_fixed.mp h5)
    cases this
  cases h1 with
  | symbol l c hl =>
    obtain ⟨s', h4, h5⟩ := h3
    cases h4
    exact .inl ⟨l, c, hl, h5.1.asStr, h2⟩
  | digits l rs hl hr ha he =>
    cases he with
    | done =>
      obtain ⟨s', h4, h5⟩ := h3
      cases h4
      rw [List.append_nil] at h2
      exact .inr ⟨l, rs, changing_bases _ _ _ _ _ _ hr, h5.1.asStr, h2⟩
    | noZero => cases h3
    | underflow => cases h3
    | empty => cases h3
    | memory => cases h3
    | grown => cases h3
  | fixedDigits l z rs hl hz hr ha he => exact absurd h2 (hno _ _)
  | refused l z hl hz => exact absurd h2 (hno _ _)
  | fallback l z hl hz h => exact absurd h2 (hno _ _)

/-- A collection that changes at every call of `len`: two letters with a zero among them, then three digits without one, and so on. -/
def rocking : DynColl Bool where
  fixed w := .ok (false, w)
  hasZero w := .ok (w, w)
  zeroBased w := .ok (true, w)
  len w := .ok (if w then 2 else 3, !w)
  isEmpty w := .ok (false, w)
  digit i w := .ok (Char.ofNat ((if w then 97 else 48) + i), w)
  default w := .ok ((), w)

theorem rocking_len : ∀ k, UsizeLen ⟨true, .w64, true⟩ ((⟨fun _ => rocking⟩ : DynSys Bool).level k) := by
  intro k w l w' h
  simp only [rocking, Res.ok.injEq, Prod.mk.injEq] at h
  rw [← h.1]
  cases w <;> decide

/-- 17 = 1 + 2 * (2 + 3 * (1 + 1)): the places have bases 2, 3, 2; the last symbol stands for one more than its index. -/
def rockingRounds : List Round :=
  [⟨false, true, false, 1, '1', 3⟩, ⟨true, false, false, 2, 'c', 2⟩, ⟨false, true, false, 1, '1', 3⟩]

example : ((dynTryFormat ⟨true, .w64, true⟩ .u32 9 1 ⟨fun _ => rocking⟩ 17 true).bind fun (s, w) => .ok (s.asStr, w)) =
    .ok (some (symbols rockingRounds), true) := by decide +kernel

example : numeral true 2 rockingRounds = 17 ∧ converse (⟨fun _ => rocking⟩ : DynSys Bool) true
    ((.len 2 :: .fixed false :: roundCalls true rockingRounds).map (0, ·)) = some true := by decide +kernel

end Nominals.Props
