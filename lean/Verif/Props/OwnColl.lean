import Verif.Proofs.OwnColl
import Verif.Props.Protocol
import Verif.Props.Own

/-!
# Property C94: `to_nominal` with a digit collection of the user's own

Conversations are those of C67 (`Verif/Spec/Protocol.lean`).
-/

namespace Nominals.Props

open Nominals Nominals.Spec Nominals.Conversation

/-- The code with and without the state after an error is the same code. -/
theorem C94_same_code {σ : Type} (cfg : Cfg) (T : IntTy) (fuel depth : Nat) (d : DynSys σ) (n : Nat) (w : σ) :
    (ownTryFormat cfg T fuel depth d n w).mapErr Prod.fst = dynTryFormat cfg T fuel depth d n w :=
  ownTryFormat_same cfg T fuel depth d n w

/-- A collection of two symbols that counts the questions about its length. -/
def counting : DynColl Nat where
  fixed w := .ok (true, w)
  hasZero w := .ok (true, w)
  zeroBased w := .ok (true, w)
  len w := .ok (2, w + 1)
  isEmpty w := .ok (true, w)
  digit i w := .ok (if i = 0 then 'o' else 'i', w)
  default w := .ok ((), w)

/-- The error comes with the state. -/
example : ownTryFormat ⟨true, .w64, true⟩ .u8 9 9 (⟨fun _ => counting⟩ : DynSys Nat) 5 7 = .err (.outOfBounds 5, 8) := rfl

theorem counting_usize (cfg : Cfg) (k : Nat) : UsizeLen cfg ((⟨fun _ => counting⟩ : DynSys Nat).level k) := by
  intro w l w' h
  simp only [counting, Res.ok.injEq, Prod.mk.injEq] at h
  rw [← h.1]
  cases cfg.ptr <;> decide

theorem rounds_first {bits : Nat} {checks : Bool} : ∀ (rs : List Round) (base m : Nat) {first' : Bool} {base' m' : Nat},
    Rounds bits checks false base m rs first' base' m' → first' = false := by
  intro rs
  induction rs with
  | nil => intro base m first' base' m' h; exact h.1
  | cons r rs ih => intro base m first' base' m' h; obtain ⟨_, _, _, q, _, h⟩ := h; exact ih _ _ h

theorem ends_error {alloc checks : Bool} {bits n l base m : Nat} {first : Bool} {rs : List Round} {t : List Char} {last : List Call} {e : Error}
    (hr : Rounds bits checks true l n rs first base m) (he : Ends alloc bits checks n first base m t last (.err e)) : about e = n := by
  cases he with
  | noZero =>
    cases rs with
    | nil => exact hr.2.2
    | cons r rs =>
      obtain ⟨_, _, _, q, _, hr⟩ := hr
      exact absurd (rounds_first rs _ _ hr) (by simp)
  | memory => rfl
  | grown => rfl

theorem session_error {cfg : Cfg} {T : IntTy} {n k : Nat} {tr : List (Nat × Call)} {out : Res Error (List Char)} (h : Session cfg T n k tr out) :
    ∀ e, out = .err e → about e = n := by
  induction h with
  | symbol l c hl => intro e h; cases h
  | digits l rs hl hr ha he => intro e h; subst h; exact ends_error hr he
  | fixedDigits l z rs hl hz hr ha he => intro e h; subst h; exact ends_error hr he
  | refused l z hl hz => intro e h; cases h; rfl
  | fallback l z hl hz h ih => exact ih

/-- C94. `try_format_nominal` returns the error `e` and leaves the program in state `w'` if and only if a conversation with that outcome
takes the program from `w` to `w'`; the error is about the number asked for. -/
theorem C94_error_iff {σ : Type} (cfg : Cfg) (T : IntTy) (d : DynSys σ) (hlen : ∀ k, UsizeLen cfg (d.level k)) (n : Nat) (w w' : σ) (e : Error) :
    ((∃ fuel depth, ownTryFormat cfg T fuel depth d n w = .err (e, w')) ↔
      ∃ tr, Session cfg T n 0 tr (.err e) ∧ converse d w tr = some w') ∧
    ((∃ fuel depth, ownTryFormat cfg T fuel depth d n w = .err (e, w')) → about e = n) := by
  have forth : (∃ fuel depth, ownTryFormat cfg T fuel depth d n w = .err (e, w')) →
      ∃ tr, Session cfg T n 0 tr (.err e) ∧ converse d w tr = some w' := by
    rintro ⟨fuel, depth, h⟩
    have hd : dynTryFormat cfg T fuel depth d n w = .err e := by rw [← ownTryFormat_same, h]; rfl
    obtain ⟨tr, v, h1, h2⟩ := (C67_error_iff cfg T d hlen n w e).mp ⟨fuel, depth, hd⟩
    obtain ⟨F, D, h3⟩ := ownTryFormat_session d hlen h1 h2
    have h4 : _ = _ := h3 (max F fuel) (max D depth) (by omega) (by omega)
    rw [conversation_level_zero, ownTryFormat_more (by simp) depth d w h (max F fuel) (max D depth) (by omega) (by omega)] at h4
    cases h4
    exact ⟨tr, h1, h2⟩
  refine ⟨⟨forth, ?_⟩, fun h => ?_⟩
  · rintro ⟨tr, h1, h2⟩
    obtain ⟨F, D, h3⟩ := ownTryFormat_session d hlen h1 h2
    have h4 : _ = _ := h3 F D (Nat.le_refl _) (Nat.le_refl _)
    rw [conversation_level_zero] at h4
    exact ⟨F, D, h4⟩
  · obtain ⟨tr, h1, _⟩ := forth h
    exact session_error h1 e rfl

/-- The collection above, asked about 5: the conversation takes the program from state 7 to state 8. -/
example : Session ⟨true, .w64, true⟩ .u8 5 0
      [(0, .len 2), (0, .fixed true), (0, .zeroBased true), (1, .default), (1, .isEmpty true)] (.err (.outOfBounds 5)) ∧
    converse (⟨fun _ => counting⟩ : DynSys Nat) 7 [(0, .len 2), (0, .fixed true), (0, .zeroBased true), (1, .default), (1, .isEmpty true)] = some 8 ∧
    ∀ k, UsizeLen ⟨true, .w64, true⟩ ((⟨fun _ => counting⟩ : DynSys Nat).level k) :=
  ⟨.refused 2 true (by decide) (by unfold Beyond; decide), by decide, counting_usize _⟩

theorem nominal_typed {σ : Type} (cfg : Cfg) (T : IntTy) (d : DynSys σ) (hlen : ∀ k, UsizeLen cfg (d.level k)) (n : Nat) (hn : T.Fits cfg n)
    (fuel depth : Nat) (w w' : σ) (r : Except Error NStr) (h : (d.nominal cfg T fuel depth).tryFormat n w = .ok (r, w')) :
    ∃ u t, dynToNominal cfg T n (d.nominal cfg T fuel depth) w = .ok (u, w') ∧ u.asStr = some t ∧
      ((ownTryFormat cfg T fuel depth d n w = .ok (u, w') ∧ r = .ok u) ∨
        ∃ e, ownTryFormat cfg T fuel depth d n w = .err (e, w') ∧ r = .error e ∧ t = Nat.toDigits 10 n ∧ u.isInline = true) := by
  simp only [DynSys.nominal] at h
  unfold dynToNominal DynNominal.format
  simp only [DynSys.nominal]
  cases ho : ownTryFormat cfg T fuel depth d n w with
  | ok p =>
    obtain ⟨u, v⟩ := p
    rw [ho] at h
    simp only [Res.ok.injEq, Prod.mk.injEq] at h
    obtain ⟨rfl, rfl⟩ := h
    have hd : dynTryFormat cfg T fuel depth d n w = .ok (u, v) := by rw [← ownTryFormat_same, ho]; rfl
    have hs := dynTryFormat_sound (cfg := cfg) (T := T) (n := n) (fuel := fuel) d hlen depth 0 w
    rw [conversation_level_zero, hd] at hs
    obtain ⟨tr, out, x, h1, h2, h3⟩ := hs trivial
    cases out with
    | ok t =>
      obtain ⟨s', h4, h5⟩ := h3
      cases h4
      exact ⟨u, t, rfl, h5.1.asStr, .inl ⟨rfl, rfl⟩⟩
    | err e => cases h3
    | panic => cases h3
    | ub => exact h3.elim
    | timeout => exact h3.elim
  | err p =>
    obtain ⟨e, v⟩ := p
    rw [ho] at h
    simp only [Res.ok.injEq, Prod.mk.injEq] at h
    obtain ⟨rfl, rfl⟩ := h
    have ha : about e = n := (C94_error_iff cfg T d hlen n w v e).2 ⟨fuel, depth, ho⟩
    have hv := C41_into_decimal (cfg := cfg) (T := T) e (by rw [ha]; exact hn)
    rw [ha] at hv
    simp only [Res.bind_ok, unwrapReturned]
    cases hx : e.intoDecimal cfg T with
    | ok u =>
      rw [hx] at hv
      simp only [view, Res.bind] at hv
      cases hu : u.asStr with
      | none => rw [hu] at hv; cases hv
      | some t =>
        rw [hu] at hv
        simp only [Res.ok.injEq, Prod.mk.injEq] at hv
        exact ⟨u, t, rfl, hu, .inr ⟨e, rfl, rfl, hv.1, hv.2⟩⟩
    | err e => exact e.elim
    | panic => rw [hx] at hv; cases hv
    | ub => rw [hx] at hv; cases hv
    | timeout => rw [hx] at hv; cases hv
  | panic => rw [ho] at h; cases h
  | ub => rw [ho] at h; cases h
  | timeout => rw [ho] at h; cases h

/-- C94. `to_nominal` with a collection whose answers may change returns the text `t` and leaves the program in state `w'` if and only if a
conversation that takes the program from `w` to `w'` has the outcome `t`, or has an error as its outcome and `t` is the number in decimal. -/
theorem C94_text_iff {σ : Type} (cfg : Cfg) (T : IntTy) (d : DynSys σ) (hlen : ∀ k, UsizeLen cfg (d.level k)) (n : Nat) (hn : T.Fits cfg n)
    (w w' : σ) (t : List Char) :
    (∃ fuel depth u, dynToNominal cfg T n (d.nominal cfg T fuel depth) w = .ok (u, w') ∧ u.asStr = some t) ↔
      (∃ tr, Session cfg T n 0 tr (.ok t) ∧ converse d w tr = some w') ∨
      (∃ tr e, Session cfg T n 0 tr (.err e) ∧ converse d w tr = some w' ∧ t = Nat.toDigits 10 n) := by
  constructor
  · rintro ⟨fuel, depth, u, h, hu⟩
    have hret : ∃ r v, (d.nominal cfg T fuel depth).tryFormat n w = .ok (r, v) := by
      unfold dynToNominal DynNominal.format at h
      cases hx : (d.nominal cfg T fuel depth).tryFormat n w with
      | ok p => exact ⟨p.1, p.2, rfl⟩
      | err e => exact e.elim
      | panic => simp only [DynSys.nominal] at h hx; rw [hx] at h; cases h
      | ub => simp only [DynSys.nominal] at h hx; rw [hx] at h; cases h
      | timeout => simp only [DynSys.nominal] at h hx; rw [hx] at h; cases h
    obtain ⟨r, v, hr⟩ := hret
    obtain ⟨u', t', h1, h2, h3⟩ := nominal_typed cfg T d hlen n hn fuel depth w v r hr
    rw [h] at h1
    cases h1
    rw [hu] at h2
    cases h2
    rcases h3 with ⟨h3, _⟩ | ⟨e, h3, _, h4, _⟩
    · have hd : dynTryFormat cfg T fuel depth d n w = .ok (u, w') := by rw [← ownTryFormat_same, h3]; rfl
      have hs := dynTryFormat_sound (cfg := cfg) (T := T) (n := n) (fuel := fuel) d hlen depth 0 w
      rw [conversation_level_zero, hd] at hs
      obtain ⟨tr, out, x, k1, k2, k3⟩ := hs trivial
      cases out with
      | ok y =>
        obtain ⟨s', k4, k5⟩ := k3
        cases k4
        have := k5.1.asStr
        rw [hu] at this
        cases this
        exact .inl ⟨tr, k1, k2⟩
      | err e => cases k3
      | panic => cases k3
      | ub => exact k3.elim
      | timeout => exact k3.elim
    · obtain ⟨tr, k1, k2⟩ := (C94_error_iff cfg T d hlen n w w' e).1.mp ⟨fuel, depth, h3⟩
      exact .inr ⟨tr, e, k1, k2, h4⟩
  · rintro (⟨tr, h1, h2⟩ | ⟨tr, e, h1, h2, rfl⟩)
    · obtain ⟨F, D, h⟩ := ownTryFormat_session d hlen h1 h2
      obtain ⟨s, h3, h4⟩ := h F D (Nat.le_refl _) (Nat.le_refl _)
      rw [conversation_level_zero] at h3
      have hr : (d.nominal cfg T F D).tryFormat n w = .ok (.ok s, w') := by simp only [DynSys.nominal, h3]
      refine ⟨F, D, s, ?_, h4.1.asStr⟩
      unfold dynToNominal DynNominal.format
      simp only [DynSys.nominal] at hr ⊢
      rw [hr]
      rfl
    · obtain ⟨F, D, h3⟩ := (C94_error_iff cfg T d hlen n w w' e).1.mpr ⟨tr, h1, h2⟩
      have hr : (d.nominal cfg T F D).tryFormat n w = .ok (.error e, w') := by simp only [DynSys.nominal, h3]
      obtain ⟨u, t, k1, k2, k3⟩ := nominal_typed cfg T d hlen n hn F D w w' _ hr
      rcases k3 with ⟨_, k3⟩ | ⟨_, _, _, rfl, _⟩
      · cases k3
      · exact ⟨F, D, u, k1, k2⟩

/-- Both cases occur with the collection above: 1 is written with its symbol, 5 in decimal. -/
example : (dynToNominal ⟨true, .w64, true⟩ .u8 1 (DynSys.nominal ⟨true, .w64, true⟩ .u8 9 9 (⟨fun _ => counting⟩ : DynSys Nat)) 7).bind
      (fun (u, w) => .ok (u.asStr, w)) = (.ok (some ['i'], 9) : Res Empty _) ∧
    (dynToNominal ⟨true, .w64, true⟩ .u8 5 (DynSys.nominal ⟨true, .w64, true⟩ .u8 9 9 (⟨fun _ => counting⟩ : DynSys Nat)) 7).bind
      (fun (u, w) => .ok (u.asStr, w)) = (.ok (some ['5'], 8) : Res Empty _) := ⟨by decide +kernel, by decide +kernel⟩

/-- C94. `to_nominal` panics if and only if a conversation whose outcome is a panic takes place, or one breaks off at a method that
panics. -/
theorem C94_panic_iff {σ : Type} (cfg : Cfg) (T : IntTy) (d : DynSys σ) (hlen : ∀ k, UsizeLen cfg (d.level k)) (n : Nat) (hn : T.Fits cfg n) (w : σ) :
    (∃ fuel depth, dynToNominal cfg T n (d.nominal cfg T fuel depth) w = .panic) ↔
      (∃ tr w', Session cfg T n 0 tr .panic ∧ converse d w tr = some w') ∨
      (∃ tr out, Session cfg T n 0 tr out ∧ breaksOff .panic d w tr) := by
  rw [← C67_panic_iff cfg T d hlen n w]
  have key : ∀ fuel depth, dynToNominal cfg T n (d.nominal cfg T fuel depth) w = .panic ↔ dynTryFormat cfg T fuel depth d n w = .panic := by
    intro fuel depth
    rw [← ownTryFormat_same]
    cases ho : ownTryFormat cfg T fuel depth d n w with
    | ok p =>
      obtain ⟨u, t, h1, _⟩ := nominal_typed cfg T d hlen n hn fuel depth w p.2 (.ok p.1) (by simp only [DynSys.nominal, ho])
      rw [h1]
      simp [Res.mapErr]
    | err p =>
      obtain ⟨u, t, h1, _⟩ := nominal_typed cfg T d hlen n hn fuel depth w p.2 (.error p.1) (by simp only [DynSys.nominal, ho])
      rw [h1]
      simp [Res.mapErr]
    | panic => simp [dynToNominal, DynNominal.format, DynSys.nominal, ho, Res.bind, Res.mapErr]
    | ub => simp [dynToNominal, DynNominal.format, DynSys.nominal, ho, Res.bind, Res.mapErr]
    | timeout => simp [dynToNominal, DynNominal.format, DynSys.nominal, ho, Res.bind, Res.mapErr]
  simp only [key]

/-- A panic is not replaced by a decimal numeral. -/
example : dynToNominal ⟨true, .w64, true⟩ .u8 1 (DynSys.nominal ⟨true, .w64, true⟩ .u8 9 9 (⟨fun _ => mute .panic⟩ : DynSys Unit)) () = .panic := rfl

/-- C94. If the calls of a conversation take place up to a method that panics, `to_nominal` panics; if that method never returns, neither does
`to_nominal`, however much time it is given. No decimal numeral comes out. -/
theorem C94_silence {σ : Type} (cfg : Cfg) (T : IntTy) (d : DynSys σ) (hlen : ∀ k, UsizeLen cfg (d.level k)) (n : Nat) (w : σ) (p : Silence)
    (tr : List (Nat × Call)) (out : Res Error (List Char)) (h : Session cfg T n 0 tr out) (hb : breaksOff p d w tr) :
    ∃ F D, ∀ fuel depth, F ≤ fuel → D ≤ depth → dynToNominal cfg T n (d.nominal cfg T fuel depth) w = p.res := by
  obtain ⟨F, D, h⟩ := C67_silence cfg T d hlen n w p tr out h hb
  refine ⟨F, D, fun fuel depth h1 h2 => ?_⟩
  have h := h fuel depth h1 h2
  rw [← ownTryFormat_same] at h
  cases ho : ownTryFormat cfg T fuel depth d n w with
  | ok q => rw [ho] at h; cases p <;> cases h
  | err q => rw [ho] at h; cases p <;> cases h
  | ub => rw [ho] at h; cases p <;> cases h
  | panic =>
    rw [ho] at h
    cases p
    · simp [dynToNominal, DynNominal.format, DynSys.nominal, ho, Res.bind, Silence.res]
    · cases h
  | timeout =>
    rw [ho] at h
    cases p
    · cases h
    · simp [dynToNominal, DynNominal.format, DynSys.nominal, ho, Res.bind, Silence.res]

/-- A method that never returns, asked about 1, for any allowance of time. -/
example (fuel depth : Nat) : dynToNominal ⟨true, .w64, true⟩ .u8 1
    (DynSys.nominal ⟨true, .w64, true⟩ .u8 fuel depth (⟨fun _ => mute .hang⟩ : DynSys Unit)) () = .timeout := by
  cases depth with
  | zero => rfl
  | succ depth => cases fuel <;> rfl

end Nominals.Props
