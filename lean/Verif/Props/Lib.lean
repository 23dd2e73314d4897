import Verif.Props.Catalogue

/-!
# Properties C20 and C41–C46: the `NominalSystem` interface

Vocabulary: `Verif/Spec/Outcome.lean`, `Verif/Spec/Catalogue.lean`. `tryToNominal` and `toNominal` are the user's entry points
(`n.try_to_nominal(&system)`, `n.to_nominal(&system)`).
-/

namespace Nominals.Props

open Nominals.Spec

/-! ## C20 -/

/-- C20. The integer type and the pointer width do not matter: equal numbers give equal results, in every named system. -/
theorem C20_integer_type {cfg cfg' : Cfg} {T T' : IntTy} {n : Nat} (s : Named) (ha : cfg.alloc = cfg'.alloc) (h : T.Fits cfg n)
    (h' : T'.Fits cfg' n) : view (tryToNominal cfg T n s.system) = view (tryToNominal cfg' T' n s.system) := by
  rw [C51_catalogue s h, C51_catalogue s h', ha]

/-- 200 fits all types; 10,000 (used by the Chinese systems) does not fit `u8`. -/
example : IntTy.u8.Fits ⟨true, .w16, true⟩ 200 ∧ IntTy.u128.Fits ⟨true, .w64, true⟩ 200 ∧ ¬ IntTy.u8.Fits ⟨true, .w16, true⟩ 10000 := by decide

/-! ## C43, C46 -/

/-- C43. A build without `alloc` agrees with a build with `alloc` on errors and on texts up to 62 bytes; longer texts become
`OutOfMemory(n)`. Builds with `alloc` never run out of memory. -/
theorem C43_no_alloc {cfg cfg' : Cfg} {T T' : IntTy} {n : Nat} (s : Named) (ha : cfg.alloc = true) (ha' : cfg'.alloc = false)
    (h : T.Fits cfg n) (h' : T'.Fits cfg' n) :
    (∃ t, view (tryToNominal cfg T n s.system) = .ok (t, decide (utf8Len t ≤ 62)) ∧
      view (tryToNominal cfg' T' n s.system) = if utf8Len t ≤ 62 then .ok (t, true) else .err (.outOfMemory n)) ∨
    (∃ e, (∀ m, e ≠ .outOfMemory m) ∧ view (tryToNominal cfg T n s.system) = .err e ∧
      view (tryToNominal cfg' T' n s.system) = .err e) := by
  rw [C51_catalogue s h, C51_catalogue s h', ha, ha']
  cases answer s n with
  | text t =>
    refine .inl ⟨t, deliver_alloc_gives n t, ?_⟩
    simp only [present, deliver, Bool.false_eq_true, ↓reduceIte]
  | noZero => exact .inr ⟨.noZeroSymbol, nofun, rfl, rfl⟩
  | outOfBounds => exact .inr ⟨.outOfBounds n, nofun, rfl, rfl⟩

/-- All three situations occur: a long text, a short text, an error. -/
example :
    view (tryToNominal ⟨true, .w64, true⟩ .u64 (64 * 10 ^ 6) Named.romanUpper.system) = .ok ((List.replicate 64 ['M', '\u0305']).flatten, false) ∧
    view (tryToNominal ⟨false, .w64, true⟩ .u64 (64 * 10 ^ 6) Named.romanUpper.system) = .err (.outOfMemory (64 * 10 ^ 6)) ∧
    view (tryToNominal ⟨false, .w64, true⟩ .u64 1999 Named.romanUpper.system) = .ok (['M', 'C', 'M', 'X', 'C', 'I', 'X'], true) ∧
    view (tryToNominal ⟨false, .w64, true⟩ .u64 51 Named.circledNumber.system) = .err (.outOfBounds 51) := by
  refine ⟨?_, ?_, ?_, ?_⟩
  · rw [C51_catalogue _ (by decide)]; decide +kernel
  · rw [C51_catalogue _ (by decide)]; decide +kernel
  · rw [C51_catalogue _ (by decide)]; decide +kernel
  · rw [C51_catalogue _ (by decide)]; decide +kernel

/-- C46. The string of a named system is inline exactly when its text has at most 62 bytes. -/
theorem C46_inline_iff_short {cfg : Cfg} {T : IntTy} {n : Nat} (s : Named) (hn : T.Fits cfg n) {t : List Char} {inline : Bool}
    (h : view (tryToNominal cfg T n s.system) = .ok (t, inline)) : inline = true ↔ utf8Len t ≤ 62 := by
  rw [C51_catalogue s hn] at h
  cases ha : answer s n with
  | text u =>
    rw [ha, present, deliver] at h
    split at h
    · next hl => cases h; simp [hl]
    · next hl =>
      split at h
      · cases h; simpa using hl
      · cases h
  | noZero => rw [ha] at h; cases h
  | outOfBounds => rw [ha] at h; cases h

/-- Both cases: an M with a bar takes three bytes, so 20 of them fit 62 bytes and 21 do not. -/
example : view (tryToNominal ⟨true, .w64, true⟩ .u64 (20 * 10 ^ 6) Named.romanUpper.system) = .ok ((List.replicate 20 ['M', '\u0305']).flatten, true) ∧
    view (tryToNominal ⟨true, .w64, true⟩ .u64 (21 * 10 ^ 6) Named.romanUpper.system) = .ok ((List.replicate 21 ['M', '\u0305']).flatten, false) := by
  constructor <;> rw [C51_catalogue _ (by decide)] <;> decide +kernel

/-! ## C41 -/

theorem answer_noZero {s : Named} {n : Nat} (h : answer s n = .noZero) : n = 0 := by
  cases s <;> simp only [answer, decimalFrom, columnName, series, additiveAnswer, reduceCtorEq] at h
  all_goals
    repeat' split at h
    all_goals first | assumption | cases h

/-- `Decimal.format_nominal` at any recursion budget: one call suffices, whatever the build. -/
theorem decimalFormat_ok {cfg : Cfg} {T : IntTy} {n : Nat} (hn : T.Fits cfg n) (depth : Nat) :
    view (decimalFormat cfg T (depth + 1) n) = .ok (Nat.toDigits 10 n, true) := by
  have h := C47_decimal (cfg := cfg) hn
  unfold decimalFormat
  cases hr : decimal.tryFormat cfg T n with
  | ok s => rw [hr] at h; simp only [view, Res.bind] at h ⊢; split <;> simp_all
  | _ => rw [hr] at h; cases h

/-- The number an error talks about. -/
def about : Error → Nat
  | .noZeroSymbol => 0
  | .outOfMemory n => n
  | .outOfBounds n => n

/-- C41, `Error::into_decimal`: the decimal numeral of the number carried by the error (which has the integer type `T`), 0 for
`NoZeroSymbol`. Always succeeds, in every build. -/
theorem C41_into_decimal {cfg : Cfg} {T : IntTy} (e : Error) (h : T.Fits cfg (about e)) :
    view (e.intoDecimal cfg T) = .ok (Nat.toDigits 10 (about e), true) := by
  cases e with
  | noZeroSymbol =>
    unfold Error.intoDecimal
    have : ∃ s, NStr.ofChar (ε := Empty) cfg '0' = .ok s ∧ s.Is ['0'] := by
      have h := ofChar_del (ε := Unit) cfg '0' ()
      have hs : utf8Len ['0'] ≤ 62 := by decide
      unfold NStr.ofChar at h ⊢
      generalize NStr.push cfg NStr.new '0' = r at h
      cases r with
      | ok s =>
        refine ⟨s, rfl, ?_⟩
        cases h with
        | ok _ _ h1 _ => exact h1
      | err e => cases h
      | panic => cases h
      | ub => cases h
      | timeout => cases h
    obtain ⟨s, e1, e2⟩ := this
    rw [e1]
    simp only [view, Res.bind, e2.1.asStr, e2.2]
    decide
  | outOfMemory n => exact decimalFormat_ok h 1
  | outOfBounds n => exact decimalFormat_ok h 1

example : view ((Error.outOfBounds 1500).intoDecimal ⟨false, .w32, true⟩ .u16) = .ok (['1', '5', '0', '0'], true) ∧
    view (Error.noZeroSymbol.intoDecimal ⟨false, .w32, true⟩ .u16) = .ok (['0'], true) := by decide +kernel

/-- C41, for every system whatsoever that does not override `format_nominal` (user-defined ones included): `format_nominal`
gives the text of `try_format_nominal` if there is one, and decimal if there is an error. -/
theorem C41_any_system {cfg : Cfg} {T : IntTy} {n : Nat} (s : NominalSystem) (ho : s.formatOverride = none) :
    (∀ x, view (s.tryFormat cfg T n) = .ok x → view (toNominal cfg T n s) = .ok x) ∧
    (∀ e, s.tryFormat cfg T n = .err e → T.Fits cfg (about e) →
      view (toNominal cfg T n s) = .ok (Nat.toDigits 10 (about e), true)) := by
  have e : toNominal cfg T n s = unwrapOrDecimal cfg T (s.tryFormat cfg T n) := by
    unfold toNominal NominalSystem.format; rw [ho]
  rw [e]
  refine ⟨fun x hx => ?_, fun er he hf => ?_⟩
  · cases hr : s.tryFormat cfg T n with
    | ok st => rw [hr] at hx; simp only [view, Res.bind, unwrapOrDecimal] at hx ⊢; split <;> simp_all
    | _ => rw [hr] at hx; cases hx
  · rw [he]; exact C41_into_decimal er hf

/-- A user's system that can write nothing but 7. -/
example : let s : NominalSystem := ⟨fun cfg _ n => if n = 7 then NStr.ofStr cfg ['l', 'u', 'c', 'k'] else .err (.outOfBounds n), none⟩
    view (toNominal ⟨true, .w64, true⟩ .u8 7 s) = .ok (['l', 'u', 'c', 'k'], true) ∧ view (toNominal ⟨true, .w64, true⟩ .u8 13 s) = .ok (['1', '3'], true) := by
  decide +kernel

/-- C41. `to_nominal` always succeeds for every named system, in every build: the text of `try_to_nominal`, or the decimal
numeral of the number when `try_to_nominal` reports an error. -/
theorem C41_always_succeeds {cfg : Cfg} {T : IntTy} {n : Nat} (s : Named) (hn : T.Fits cfg n) :
    (∃ x, view (tryToNominal cfg T n s.system) = .ok x ∧ view (toNominal cfg T n s.system) = .ok x) ∨
    (∃ e, view (tryToNominal cfg T n s.system) = .err e ∧ view (toNominal cfg T n s.system) = .ok (Nat.toDigits 10 n, true)) := by
  have ho : s.system.formatOverride = none := by cases s <;> rfl
  obtain ⟨h1, h2⟩ := C41_any_system (cfg := cfg) (T := T) (n := n) s.system ho
  have hc := C51_catalogue (cfg := cfg) (T := T) s hn
  have key : ∀ e, view (tryToNominal cfg T n s.system) = .err e → s.system.tryFormat cfg T n = .err e := by
    intro e he
    unfold tryToNominal view at he
    cases hr : s.system.tryFormat cfg T n with
    | ok st => rw [hr] at he; simp only [Res.bind] at he; split at he <;> cases he
    | err e' => rw [hr] at he; cases he; rfl
    | _ => rw [hr] at he; cases he
  cases ha : answer s n with
  | text t =>
    rw [ha] at hc
    have : (∃ x, present cfg.alloc n (.text t) = .ok x) ∨ present cfg.alloc n (.text t) = .err (.outOfMemory n) := by
      simp only [present, deliver]
      repeat' split
      · exact .inl ⟨_, rfl⟩
      · exact .inl ⟨_, rfl⟩
      · exact .inr rfl
    rcases this with ⟨x, hx⟩ | hx
    · exact .inl ⟨x, hc.trans hx, h1 x (hc.trans hx)⟩
    · exact .inr ⟨_, hc.trans hx, h2 _ (key _ (hc.trans hx)) hn⟩
  | noZero =>
    rw [ha] at hc
    have h0 : n = 0 := answer_noZero ha
    subst h0
    exact .inr ⟨_, hc, h2 _ (key _ hc) hn⟩
  | outOfBounds =>
    rw [ha] at hc
    exact .inr ⟨_, hc, h2 _ (key _ hc) hn⟩

/-- Both outcomes: an additive system without zero, and a text too long for a build without `alloc`. -/
example : answer .georgian 0 = .noZero ∧ present false (64 * 10 ^ 6) (answer .romanUpper (64 * 10 ^ 6)) = .err (.outOfMemory (64 * 10 ^ 6)) := by
  decide +kernel

/-! ## C42 -/

/-- An error is truthful about `n`. -/
def Truthful (n : Nat) : Error → Prop
  | .noZeroSymbol => n = 0
  | .outOfMemory m => m = n
  | .outOfBounds m => m = n

/-- C42, named systems. -/
theorem C42_named {cfg : Cfg} {T : IntTy} {n : Nat} (s : Named) (hn : T.Fits cfg n) {e : Error}
    (h : view (tryToNominal cfg T n s.system) = .err e) : Truthful n e := by
  rw [C51_catalogue s hn] at h
  cases ha : answer s n with
  | text t =>
    rw [ha, present, deliver] at h
    repeat' split at h
    all_goals cases h
    rfl
  | noZero => rw [ha] at h; cases h; exact answer_noZero ha
  | outOfBounds => rw [ha] at h; cases h; rfl

example : view (tryToNominal ⟨true, .w64, true⟩ .u8 77 Named.circledNumber.system) = .err (.outOfBounds 77) ∧ Truthful 77 (.outOfBounds 77) :=
  ⟨by decide +kernel, rfl⟩

theorem bind_err {ε α β : Type} {r : Res ε α} {f : α → Res ε β} {e : ε} (h : r.bind f = .err e) :
    r = .err e ∨ ∃ a, r = .ok a ∧ f a = .err e := by
  cases r with
  | ok a => exact .inr ⟨a, rfl, h⟩
  | err e' => cases h; exact .inl rfl
  | _ => cases h

theorem withNominal_err {α : Type} {r : Res OutOfMemoryError α} {n : Nat} {e : Error} (h : r.withNominal n = .err e) :
    e = .outOfMemory n := by
  cases r with
  | err e' => cases h; rfl
  | _ => cases h

theorem ofChar_err {cfg : Cfg} {c : Char} {e : Error} : NStr.ofChar cfg c ≠ .err e := by
  unfold NStr.ofChar; split <;> simp

theorem ofStr_err {cfg : Cfg} {t : List Char} {e : Error} : NStr.ofStr cfg t ≠ .err e := by
  unfold NStr.ofStr
  simp only
  split
  · unfold Res.ofIndex
    split <;> simp [Res.bind]
  · split <;> simp

theorem subT_err {cfg : Cfg} {T : IntTy} {a b : Nat} {e : Error} : subT cfg T a b ≠ .err e := by
  unfold subT; repeat' split
  all_goals simp

theorem ofIndex_err {α : Type} {o : Option α} {e : Error} : Res.ofIndex o ≠ .err e := by
  cases o <;> simp [Res.ofIndex]

/-- C42, user-defined digit collections: any collection (with any fallbacks), any budget. -/
theorem C42_digits {cfg : Cfg} {T : IntTy} {n : Nat} (d : DigitSys) (fuel depth : Nat) {e : Error}
    (h : digitTryFormat cfg T fuel depth d n = .err e) : Truthful n e := by
  have loop : ∀ (c : Coll) (fuel count remaining : Nat) (first : Bool) (f : NStr), (first = true → remaining = n) →
      digitLoop cfg T c n fuel count remaining first f = .err e → Truthful n e := by
    intro c fuel
    induction fuel with
    | zero => intro _ _ _ _ _ h; cases h
    | succ fuel ih =>
      intro count remaining first f hf h
      rw [digitLoop] at h
      split at h
      · next hcond =>
        rcases bind_err h with h | ⟨r, _, h⟩
        · split at h
          · split at h
            · next hz =>
              cases h
              simp only [Bool.and_eq_true, beq_iff_eq] at hz
              rcases hcond with hc | hc
              · exact absurd hz.2 hc
              · show n = 0; rw [← hf hc]; exact hz.2
            · exact absurd h subT_err
          · cases h
        rcases bind_err h with h | ⟨i, _, h⟩
        · unfold remT at h; split at h <;> cases h
        rcases bind_err h with h | ⟨ch, _, h⟩
        · exact absurd h ofIndex_err
        rcases bind_err h with h | ⟨st, _, h⟩
        · rw [withNominal_err h]; rfl
        rcases bind_err h with h | ⟨q, _, h⟩
        · unfold divT at h; split at h <;> cases h
        split at h
        · exact ih _ _ _ _ (by simp) h
        · cases h; rfl
      · cases h
  induction depth generalizing d with
  | zero => cases h
  | succ depth ih =>
    rw [digitTryFormat] at h
    dsimp only at h
    cases hc : T.tryFrom cfg (d.level 0).len with
    | none =>
      rw [hc] at h
      rcases bind_err h with h | ⟨ch, _, h⟩
      · exact absurd h ofIndex_err
      · exact absurd h ofChar_err
    | some count =>
      rw [hc] at h
      dsimp only at h
      generalize ((d.level 0).fixed && _ : Bool) = b at h
      cases b
      · exact loop _ _ _ _ _ _ (fun _ => rfl) h
      · simp only [↓reduceIte] at h
        split at h
        · cases h; rfl
        · exact ih _ h

example : digitTryFormat ⟨true, .w64, true⟩ .u8 9 3 (.withFallback ⟨true, true, true, 3, fun i => ['a', 'b', 'c'][i]?⟩ .noFallback) 7 =
    .err (.outOfBounds 7) := rfl

/-- C42, user-defined enumerated sets. -/
theorem C42_enumerated {cfg : Cfg} {T : IntTy} {n : Nat} (s : EnumSet) {e : Error} (h : s.tryFormat cfg T n = .err e) : Truthful n e := by
  unfold EnumSet.tryFormat at h
  split at h
  · cases h; rfl
  · split at h
    · next hz => cases h; simp only [Bool.and_eq_true, beq_iff_eq] at hz; exact hz.2
    · rcases bind_err h with h | ⟨i, _, h⟩
      · generalize (if s.hasZero = true then 0 else 1) = k at h
        exact absurd h subT_err
      · split at h
        · exact absurd h ofStr_err
        · cases h; rfl

example : (EnumSet.mk false [['x'], ['y']]).tryFormat ⟨true, .w64, true⟩ .u8 0 = .err .noZeroSymbol ∧
    (EnumSet.mk false [['x'], ['y']]).tryFormat ⟨true, .w64, true⟩ .u8 3 = .err (.outOfBounds 3) := by decide +kernel

/-- C42, user-defined additive sets. -/
theorem C42_additive {cfg : Cfg} {T : IntTy} {n : Nat} (s : AdditiveSet) {e : Error} (h : s.tryFormat cfg T n = .err e) : Truthful n e := by
  have inner : ∀ (sym : List Char) (v fuel r : Nat) (f : NStr), additiveWhile cfg T n sym v fuel r f = .err e → Truthful n e := by
    intro sym v fuel
    induction fuel with
    | zero => intro _ _ h; cases h
    | succ fuel ih =>
      intro r f h
      rw [additiveWhile] at h
      split at h
      · rcases bind_err h with h | ⟨r', _, h⟩
        · exact absurd h subT_err
        rcases bind_err h with h | ⟨f', _, h⟩
        · rw [withNominal_err h]; rfl
        · exact ih _ _ h
      · cases h
  have outer : ∀ (table : List (List Char × Nat)) (r : Nat) (f : NStr), additiveFor cfg T n table r f = .err e → Truthful n e := by
    intro table
    induction table with
    | nil => intro _ _ h; cases h
    | cons p rest ih =>
      intro r f h
      rw [additiveFor] at h
      split at h
      · cases h
      · split at h
        · exact ih _ _ h
        · rcases bind_err h with h | ⟨q, _, h⟩
          · exact inner _ _ _ _ _ h
          · exact ih _ _ h
  unfold AdditiveSet.tryFormat at h
  split at h
  · next h0 =>
    split at h
    · exact absurd h ofStr_err
    · cases h; exact h0
  · exact outer _ _ _ h

/-- Each kind of error does occur, in user-defined systems. -/
example : digitTryFormat ⟨true, .w64, true⟩ .u32 2 8 (DigitSys.digitSetZeroless ['x', 'y']).oneBased 0 = .err .noZeroSymbol ∧
    (EnumSet.mk true [['x']]).tryFormat ⟨true, .w64, true⟩ .u32 7 = .err (.outOfBounds 7) ∧
    (AdditiveSet.mk [(['x'], 1)] none).tryFormat ⟨false, .w64, true⟩ .u32 63 = .err (.outOfMemory 63) := by
  decide +kernel

/-! ## C44 -/

/-- C44. Behind a `Box`, `Rc` or `Arc` any system gives the same `try_to_nominal` result, and if it does not override
`format_nominal` the same `to_nominal` result; pointers can be nested. -/
theorem C44_boxed {cfg : Cfg} {T : IntTy} {n : Nat} (s : NominalSystem) :
    tryToNominal cfg T n s.boxed = tryToNominal cfg T n s ∧
    (s.formatOverride = none → toNominal cfg T n s.boxed = toNominal cfg T n s) ∧ s.boxed.boxed = s.boxed := by
  refine ⟨rfl, fun h => ?_, rfl⟩
  unfold toNominal NominalSystem.format
  rw [h]
  rfl

/-- A boxed box of the Georgian system. -/
example : view (tryToNominal ⟨true, .w64, true⟩ .u8 12 Named.georgian.system.boxed.boxed) = .ok (['ი', 'ბ'], true) := by decide +kernel

/-- C44. Every named system is transparent behind a pointer. -/
theorem C44_named {cfg : Cfg} {T : IntTy} {n : Nat} (s : Named) : toNominal cfg T n s.system.boxed = toNominal cfg T n s.system :=
  (C44_boxed s.system).2.1 (by cases s <;> rfl)

example : view (toNominal ⟨true, .w64, true⟩ .u8 0 Named.georgian.system.boxed) = .ok (['0'], true) := by decide +kernel

/-- C44. Behind a pointer an override of `format_nominal` is never used, whatever it does: the result is the text of
`try_format_nominal` if there is one, and the decimal numeral if there is an error. -/
theorem C44_override_bypassed {cfg : Cfg} {T : IntTy} {n : Nat} (s : NominalSystem) :
    (∀ x, view (s.tryFormat cfg T n) = .ok x → view (toNominal cfg T n s.boxed) = .ok x) ∧
    (∀ e, s.tryFormat cfg T n = .err e → T.Fits cfg (about e) →
      view (toNominal cfg T n s.boxed) = .ok (Nat.toDigits 10 (about e), true)) :=
  C41_any_system s.boxed rfl

/-- A system answering "none" instead of an error answers "0" when boxed. -/
example : ∃ s : NominalSystem,
    view (toNominal ⟨true, .w64, true⟩ .u32 0 s) = .ok (['n', 'o', 'n', 'e'], true) ∧
    view (toNominal ⟨true, .w64, true⟩ .u32 0 s.boxed) = .ok (['0'], true) :=
  ⟨{ tryFormat := fun _ _ _ => .err .noZeroSymbol, formatOverride := some fun cfg _ _ => NStr.ofStr cfg ['n', 'o', 'n', 'e'] },
    by decide +kernel, by decide +kernel⟩

end Nominals.Props
