import Verif.Proofs.Dyn

/-!
# Properties of formatting with arbitrary (also ill-behaved) digit collections
-/

namespace Nominals.Props

open Nominals Nominals.Spec

/-! ## C53: arbitrary implementations of `DigitCollection` -/

/-- C53. Whatever the methods of a collection and of its fallbacks answer, from call to call, formatting never executes undefined
behaviour: it returns a string, returns an error, panics, or does not end. -/
theorem C53_never_ub {σ : Type} (cfg : Cfg) (T : IntTy) (fuel depth : Nat) (d : DynSys σ) (n : Nat) (w : σ)
    (hsafe : ∀ k, SafeColl (d.level k)) : dynTryFormat cfg T fuel depth d n w ≠ .ub := by
  have h := dynTryFormat_inv (I := fun _ _ => True) (U := False) (n := n) (cfg := cfg) (T := T) (fuel := fuel) depth d
    (fun k => ⟨keeps_true (hsafe k).fixed, keeps_true (hsafe k).hasZero, keeps_true (hsafe k).zeroBased, keeps_true (hsafe k).len,
      keeps_true (hsafe k).isEmpty, keeps_true (hsafe k).default, fun i w t _ => by
        have := (hsafe k).digit i w
        split
        · trivial
        · contradiction
        · trivial⟩) w trivial
  intro he
  rw [he] at h
  exact h

/-- A collection whose every method panics. -/
example : dynTryFormat ⟨true, .w64, true⟩ .u8 9 3
    (⟨fun _ => ⟨fun _ => .panic, fun _ => .panic, fun _ => .panic, fun _ => .panic, fun _ => .panic, fun _ _ => .panic, fun _ => .panic⟩⟩ :
      DynSys Unit) 7 () ≠ .ub :=
  C53_never_ub _ _ _ _ _ _ _ fun _ => ⟨nofun, nofun, nofun, nofun, nofun, nofun, nofun⟩

/-- C53. The text is made of exactly the characters that the collection's `digit` returned during the call, the last one first; it is
valid UTF-8, inline if it has at most 62 bytes, and on the heap otherwise. -/
theorem C53_text_is_log {σ : Type} (cfg : Cfg) (T : IntTy) (fuel depth : Nat) (d : DynSys σ) (n : Nat) (w w' : σ) (s : NStr)
    (log : List Char) (h : dynTryFormat cfg T fuel depth (loggedSys d) n (w, []) = .ok (s, (w', log))) :
    s.asStr = some log ∧ s.isInline = decide (utf8Len log ≤ 62) := by
  have hi := dynTryFormat_inv (I := fun (w : σ × List Char) t => w.2 = t) (U := True) (n := n) (cfg := cfg) (T := T) (fuel := fuel) depth
    (loggedSys d) (fun k => logged_keeps _) (w, []) rfl
  rw [h] at hi
  obtain ⟨t, ht, hl⟩ := hi
  have hl : log = t := hl
  subst hl
  exact ⟨ht.1.asStr, ht.2⟩

/-- 6 in binary digits, with the log: the digits came in reverse, the log has them in the order of the text. -/
example : (dynTryFormat ⟨true, .w64, true⟩ .u8 9 3 (loggedSys (constantSys (.digitSetNew ['o', 'i']))) 6 ((), [])).bind (fun (s, (_, log)) => .ok (s.asStr, log)) =
    .ok (some ['i', 'i', 'o'], ['i', 'i', 'o']) := by decide +kernel

/-- C53. The log changes nothing: the same string, state, error or panic with and without it. -/
theorem C53_log_unobserved {σ : Type} (cfg : Cfg) (T : IntTy) (fuel depth : Nat) (d : DynSys σ) (n : Nat) (w : σ) :
    dynTryFormat cfg T fuel depth d n w =
      (dynTryFormat cfg T fuel depth (loggedSys d) n (w, [])).map fun (s, (w', _)) => (s, w') :=
  dynTryFormat_unlog depth d w []

/-- The same call without the log. -/
example : (dynTryFormat ⟨true, .w64, true⟩ .u8 9 3 (constantSys (.digitSetNew ['o', 'i'])) 6 ()).bind (fun (s, _) => .ok s.asStr) = .ok (some ['i', 'i', 'o']) := by
  decide +kernel

/-- C53. Errors are truthful even then: they carry the number that was asked for, and `OutOfMemory` occurs only without `alloc`. -/
theorem C53_errors {σ : Type} (cfg : Cfg) (T : IntTy) (fuel depth : Nat) (d : DynSys σ) (n : Nat) (w : σ) (e : Error)
    (h : dynTryFormat cfg T fuel depth d n w = .err e) :
    e = .noZeroSymbol ∨ (e = .outOfMemory n ∧ cfg.alloc = false) ∨ e = .outOfBounds n := by
  rw [C53_log_unobserved] at h
  have hi := dynTryFormat_inv (I := fun (w : σ × List Char) t => w.2 = t) (U := True) (n := n) (cfg := cfg) (T := T) (fuel := fuel) depth
    (loggedSys d) (fun k => logged_keeps _) (w, []) rfl
  generalize dynTryFormat cfg T fuel depth (loggedSys d) n (w, []) = r at h hi
  cases r with
  | err e' =>
    injection h with h
    subst h
    exact hi
  | ok p => cases h
  | panic => cases h
  | ub => cases h
  | timeout => cases h

/-- A collection that reports itself fixed and empty, and is its own fallback: `OutOfBounds`, with the number that was asked for. -/
example : dynTryFormat ⟨true, .w64, true⟩ .u8 9 3
    (⟨fun _ => ⟨fun w => .ok (true, w), fun w => .ok (false, w), fun w => .ok (true, w), fun w => .ok (0, w), fun w => .ok (true, w),
      fun _ _ => .panic, fun w => .ok ((), w)⟩⟩ : DynSys Unit) 200 () = .err (.outOfBounds 200) := by decide +kernel

/-- C53. For collections that always give the same answers, this is the formatting of `Model/Digital.lean`, about which the other
properties speak. -/
theorem C53_constant (cfg : Cfg) (T : IntTy) (fuel depth : Nat) (d : DigitSys) (n : Nat) :
    dynTryFormat cfg T fuel depth (constantSys d) n () = (digitTryFormat cfg T fuel depth d n).map fun s => (s, ()) :=
  dynTryFormat_constant depth d

/-- An ill-behaved collection: a counter is increased by every call; the length is the counter, `digit` answers with the letter of the
counter, and panics from the twentieth call on. -/
def fickle : DynColl Nat where
  fixed w := .ok (false, w + 1)
  hasZero w := .ok (w % 2 == 0, w + 1)
  zeroBased w := .ok (w % 3 == 0, w + 1)
  len w := .ok (w, w + 1)
  isEmpty w := .ok (false, w)
  digit _ w := if w < 20 then .ok (Char.ofNat (97 + w), w + 1) else .panic
  default w := .ok ((), w)

theorem fickle_safe : SafeColl fickle where
  fixed w := by simp [fickle]
  hasZero w := by simp [fickle]
  zeroBased w := by simp [fickle]
  len w := by simp [fickle]
  isEmpty w := by simp [fickle]
  digit i w := by simp only [fickle]; split <;> simp
  default w := by simp [fickle]

example : ∀ k, SafeColl ((⟨fun _ => fickle⟩ : DynSys Nat).level k) := fun _ => fickle_safe

example : (dynTryFormat ⟨true, .w64, true⟩ .u32 9 3 (loggedSys ⟨fun _ => fickle⟩) 17 (2, [])).bind (fun (s, (_, log)) => .ok (s.asStr, log))
    = .ok (some ['n', 'k', 'f'], ['n', 'k', 'f']) := by decide +kernel

example : (dynTryFormat ⟨true, .w64, true⟩ .u32 9 3 (loggedSys ⟨fun _ => fickle⟩) 5000 (2, [])).bind (fun (s, (_, log)) => .ok (s.asStr, log))
    = .panic := by decide +kernel

/-- C53. Overflow checks (debug profile) only turn outcomes into panics: a call that does not panic with them gives the same string,
state and error without them. -/
theorem C53_profiles {σ : Type} (cfg : Cfg) (T : IntTy) (fuel depth : Nat) (d : DynSys σ) (n : Nat) (w : σ) :
    dynTryFormat cfg.debug T fuel depth d n w = .panic ∨
      dynTryFormat cfg.debug T fuel depth d n w = dynTryFormat cfg.release T fuel depth d n w :=
  dynTryFormat_profiles depth d w

/-- The profiles do differ: a collection whose `has_zero_digit` first answers `false` and then `true` makes the subtraction from 0
underflow. With checks that is a panic; without, 0 is written with the digits of 255. -/
def contradictory : DynColl Bool where
  fixed w := .ok (false, w)
  hasZero w := .ok (w, true)
  zeroBased w := .ok (false, w)
  len w := .ok (10, w)
  isEmpty w := .ok (false, w)
  digit i w := .ok (Char.ofNat (48 + i), w)
  default w := .ok ((), w)

example : dynTryFormat ⟨true, .w64, true⟩ .u8 9 1 ⟨fun _ => contradictory⟩ 0 false = .panic ∧
    (dynTryFormat ⟨true, .w64, false⟩ .u8 9 1 ⟨fun _ => contradictory⟩ 0 false).bind (fun (s, _) => .ok s.asStr) =
      .ok (some ['2', '5', '5']) := by decide +kernel

/-! ## C54: adapters on arbitrary collections -/

/-- C54. The adapters make no call unsafe. -/
theorem C54_adapters_safe {σ : Type} (cfg : Cfg) {a b : DynColl σ} (ha : SafeColl a) (hb : SafeColl b) (count : Nat) :
    SafeColl a.oneBased ∧ SafeColl (a.chain cfg b) ∧ SafeColl (a.restrict count) := by
  have hlen : ∀ x y, chainLen cfg x y ≠ .ub := by
    intro x y
    unfold chainLen
    repeat' split
    all_goals simp
  have bindNe : ∀ {α β : Type} {r : Res Empty α} {f : α → Res Empty β}, r ≠ .ub → (∀ x, f x ≠ .ub) → r.bind f ≠ .ub := by
    intro α β r f h1 h2
    cases r with
    | ok x => exact h2 x
    | ub => exact absurd rfl h1
    | err e => exact e.elim
    | panic => simp [Res.bind]
    | timeout => simp [Res.bind]
  refine ⟨⟨fun w => by simp [DynColl.oneBased], ha.hasZero, fun w => by simp [DynColl.oneBased], ha.len, fun w => ?_, ha.digit, ha.default⟩,
    ⟨fun w => by simp [DynColl.chain], ha.hasZero, ha.zeroBased, fun w => ?_, fun w => ?_, fun i w => ?_, fun w => ?_⟩,
    ⟨fun w => by simp [DynColl.restrict], ha.hasZero, ha.zeroBased, fun w => by simp [DynColl.restrict],
      fun w => by simp [DynColl.restrict], ha.digit, ha.default⟩⟩
  · have := ha.len w
    simp only [DynColl.oneBased]
    revert this
    cases a.len w <;> simp [Res.map]
  · exact bindNe (ha.len w) fun _ => bindNe (hb.len _) fun _ => bindNe (hlen _ _) fun _ => by simp
  · exact bindNe (ha.len w) fun _ => bindNe (hb.len _) fun _ => bindNe (hlen _ _) fun _ => by simp
  · refine bindNe (ha.len w) fun x => ?_
    split
    split
    · exact hb.digit _ _
    · exact ha.digit _ _
  · exact bindNe (ha.default w) fun _ => hb.default _

/-- The ill-behaved collection chained with itself and cut to 4 digits: no number leads to undefined behaviour. -/
example (n w : Nat) : dynTryFormat ⟨true, .w64, false⟩ .u16 20 3 (⟨fun _ => (fickle.chain ⟨true, .w64, false⟩ fickle).restrict 4⟩ : DynSys Nat) n w ≠ .ub :=
  C53_never_ub _ _ _ _ _ _ _ fun _ => (C54_adapters_safe ⟨true, .w64, false⟩
    (C54_adapters_safe ⟨true, .w64, false⟩ fickle_safe fickle_safe 0).2.1 fickle_safe 4).2.2

/-- C54. On collections with constant answers the adapters are those of `Model/Digital.lean`, provided the sum of the lengths is a `usize`. -/
theorem C54_adapters_constant (cfg : Cfg) (a b : DigitSys) (count : Nat)
    (h : (a.level 0).len + (b.level 0).len < 2 ^ cfg.ptr.bits) :
    (constant (a.level 0)).oneBased = constant (a.oneBased.level 0) ∧
    (constant (a.level 0)).restrict count = constant ((a.restrict count).level 0) ∧
    (constant (a.level 0)).chain cfg (constant (b.level 0)) = constant ((a.chain b).level 0) := by
  refine ⟨rfl, rfl, ?_⟩
  simp only [DynColl.chain, constant, DigitSys.chain, DigitSys.chainColl, DynColl.mk.injEq, true_and, Res.bind, chainLen, if_pos h, and_true]
  funext i w
  split <;> rfl

/-- Two digits and three letters: five symbols in every build. -/
example (cfg : Cfg) : (constant ((DigitSys.digitSetNew ['0', '1']).level 0)).chain cfg (constant ((DigitSys.digitSetZeroless ['a', 'b', 'c']).level 0)) =
    constant (((DigitSys.digitSetNew ['0', '1']).chain (.digitSetZeroless ['a', 'b', 'c'])).level 0) :=
  (C54_adapters_constant cfg (.digitSetNew ['0', '1']) (.digitSetZeroless ['a', 'b', 'c']) 0
    (Nat.lt_of_lt_of_le (by decide : 5 < 2 ^ 16) (Nat.pow_le_pow_right (by decide) (by cases cfg.ptr <;> decide)))).2.2

/-- C54. A chain whose length overflows `usize`: with overflow checks every call of `try_format_nominal` panics. -/
theorem C54_chain_overflow_panics (cfg : Cfg) (T : IntTy) (fuel depth : Nat) (a b : Coll) (fb : DynSys Unit) (n : Nat)
    (hc : cfg.checks = true) (h : 2 ^ cfg.ptr.bits ≤ a.len + b.len) :
    dynTryFormat cfg T fuel (depth + 1) ⟨fun | 0 => (constant a).chain cfg (constant b) | k + 1 => fb.level k⟩ n () = .panic := by
  rw [dynTryFormat]
  simp only [DynColl.chain, constant, Res.bind, chainLen, if_neg (Nat.not_lt.mpr h), hc, ↓reduceIte, Res.call]

/-- Two collections of 40,000 digits each on a 16-bit target, asked about 0 with overflow checks. -/
example : dynTryFormat ⟨true, .w16, true⟩ .u8 9 1
    ⟨fun | 0 => (constant ⟨false, true, true, 40000, fun _ => some 'x'⟩).chain ⟨true, .w16, true⟩ (constant ⟨false, true, true, 40000, fun _ => some 'x'⟩)
         | k + 1 => (constantSys .noFallback).level k⟩ 0 () = .panic :=
  C54_chain_overflow_panics _ _ _ _ _ _ _ _ rfl (by decide)

/-- C54. Without overflow checks the length wraps around: the chain writes base-`(a + b) mod 2^width` numerals instead. -/
theorem C54_chain_overflow_wraps (cfg : Cfg) (T : IntTy) (fuel depth : Nat) (a b : Coll) (d : DigitSys) (n : Nat)
    (hc : cfg.checks = false) (h : 2 ^ cfg.ptr.bits ≤ a.len + b.len) :
    dynTryFormat cfg T fuel depth ⟨fun | 0 => (constant a).chain cfg (constant b) | k + 1 => constant (d.level k)⟩ n () =
      (digitTryFormat cfg T fuel depth (.withFallback { DigitSys.chainColl a b with len := (a.len + b.len) % 2 ^ cfg.ptr.bits } d) n).map
        fun s => (s, ()) := by
  rw [← C53_constant]
  congr 1
  simp only [constantSys, DigitSys.withFallback, DynSys.mk.injEq]
  funext k
  cases k with
  | succ k => rfl
  | zero =>
    simp only [DynColl.chain, constant, DigitSys.chainColl, DynColl.mk.injEq, true_and, Res.bind, chainLen, if_neg (Nat.not_lt.mpr h), hc,
      Bool.false_eq_true, ↓reduceIte, and_true]
    funext i w
    split <;> rfl

/-- On a 16-bit target two user collections of 40,000 digits each overflow. -/
example : 2 ^ (Cfg.mk true .w16 true).ptr.bits ≤ 40000 + 40000 := by decide

end Nominals.Props
