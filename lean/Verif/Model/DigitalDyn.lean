import Verif.Model.Digital

/-!
# src/digital.rs — digit collections whose answers change from call to call

`DigitCollection` is an open, safe trait: an implementation may read and write state behind `&self` (cells, thread locals,
random numbers), panic, or never return. `Model/Digital.lean` treats a collection as a record of answers; here every method call is
an event that may change the state `σ` of the rest of the program, and the calls are made in exactly the order of the source.
-/

namespace Nominals

/-- src/digital.rs:632-685 `trait DigitCollection`, every method with access to the state of the program. A method may return, panic or
not return (`timeout`). `default` is the `Default` implementation required of a `Fallback` (:635). -/
structure DynColl (σ : Type) where
  fixed : σ → Res Empty (Bool × σ)
  hasZero : σ → Res Empty (Bool × σ)
  zeroBased : σ → Res Empty (Bool × σ)
  len : σ → Res Empty (Nat × σ)
  isEmpty : σ → Res Empty (Bool × σ)
  digit : Nat → σ → Res Empty (Char × σ)
  default : σ → Res Empty (Unit × σ)

/-- src/digital.rs:635 `type Fallback`: a collection with its tower of `Fallback` types. -/
structure DynSys (σ : Type) where
  level : Nat → DynColl σ

/-- src/digital.rs:572 `<D::Fallback>::default()`: the fallback of a system. -/
def DynSys.fallback {σ : Type} (d : DynSys σ) : DynSys σ where
  level k := d.level (k + 1)

/-- src/digital.rs:632-685: a call of a method that has no error result, inside a function that has one. -/
def Res.call {ε α : Type} (r : Res Empty α) : Res ε α :=
  match r with
  | .ok a => .ok a
  | .panic => .panic
  | .ub => .ub
  | .timeout => .timeout

/-- src/digital.rs:586, the condition `!self.has_zero_digit() && (!self.zero_based() || !first_loop)` with short-circuit
evaluation. -/
def dynCondition {σ : Type} (c : DynColl σ) (firstLoop : Bool) (w : σ) : Res Error (Bool × σ) :=
  (c.hasZero w).call.bind fun (hz, w) =>
  if hz then .ok (false, w)
  else (c.zeroBased w).call.bind fun (zb, w) => .ok (!zb || !firstLoop, w)

/-- src/digital.rs:591 `remaining -= one`. With overflow checks (debug profile) an underflow panics, without them it wraps to the largest
value of the type. -/
def decrement (cfg : Cfg) (T : IntTy) (remaining : Nat) : Res Error Nat :=
  if remaining = 0 then if cfg.checks then .panic else .ok (2 ^ T.bits cfg - 1) else .ok (remaining - 1)

/-- src/digital.rs:586-592, the subtraction of one; `has_zero_digit` is called a second time at :587. -/
def dynSubtract {σ : Type} (cfg : Cfg) (T : IntTy) (c : DynColl σ) (firstLoop : Bool) (remaining : Nat) (w : σ) : Res Error (Nat × σ) :=
  (dynCondition c firstLoop w).bind fun (cond, w) =>
  if cond then
    (c.hasZero w).call.bind fun (hz, w) =>
    if !hz && remaining == 0 then .err .noZeroSymbol
    else (decrement cfg T remaining).bind fun remaining => .ok (remaining, w)
  else .ok (remaining, w)

/-- src/digital.rs:585-605, the `while` loop. -/
def dynLoop {σ : Type} (cfg : Cfg) (T : IntTy) (c : DynColl σ) (nominal : Nat) :
    (fuel : Nat) → (count remaining : Nat) → (firstLoop : Bool) → (formatted : NStr) → σ → Res Error (NStr × σ)
  | 0, _, _, _, _, _ => .timeout
  | fuel + 1, count, remaining, firstLoop, formatted, w =>
    if remaining ≠ 0 ∨ firstLoop = true then
      (dynSubtract cfg T c firstLoop remaining w).bind fun (remaining, w) =>
      (remT remaining count).bind fun idx =>
      (c.digit (asUsize cfg idx) w).call.bind fun (ch, w) =>
      ((formatted.pushFront cfg ch).withNominal nominal).bind fun formatted =>
      (divT remaining count).bind fun remaining =>
      (c.len w).call.bind fun (l, w) =>
      match T.tryFrom cfg l with
      | some count => dynLoop cfg T c nominal fuel count remaining false formatted w
      | none => .err (.outOfBounds nominal)
    else .ok (formatted, w)

/-- src/digital.rs:565-571, the condition `self.fixed() && (if self.zero_based() { nominal >= count } else { nominal > count })`. -/
def dynOutOfRange {σ : Type} (c : DynColl σ) (nominal count : Nat) (w : σ) : Res Error (Bool × σ) :=
  (c.fixed w).call.bind fun (fixed, w) =>
  if fixed then
    (c.zeroBased w).call.bind fun (zb, w) => .ok (if zb then decide (nominal ≥ count) else decide (nominal > count), w)
  else .ok (false, w)

/-- src/digital.rs:561-606 `try_format_nominal`; returns the string and the state of the program. -/
def dynTryFormat {σ : Type} (cfg : Cfg) (T : IntTy) (fuel : Nat) : (depth : Nat) → DynSys σ → (nominal : Nat) → σ → Res Error (NStr × σ)
  | 0, _, _, _ => .timeout
  | depth + 1, d, nominal, w =>
    let c := d.level 0
    (c.len w).call.bind fun (l, w) =>
    match T.tryFrom cfg l with
    | none =>
      (c.digit (asUsize cfg nominal) w).call.bind fun (ch, w) =>
      (NStr.ofChar cfg ch).bind fun s => .ok (s, w)
    | some count =>
      (dynOutOfRange c nominal count w).bind fun (out, w) =>
      if out then
        let fb := d.fallback
        ((fb.level 0).default w).call.bind fun (_, w) =>
        ((fb.level 0).isEmpty w).call.bind fun (empty, w) =>
        if empty then .err (.outOfBounds nominal) else dynTryFormat cfg T fuel depth fb nominal w
      else dynLoop cfg T c nominal fuel count nominal true NStr.newReverse w

/-! ## Adapters -/

/-- src/digital.rs:72-93 `OneBased<T>`: `has_zero_digit`, `len` and `digit` ask the wrapped collection; `fixed` (:638-640) and `is_empty`
(:655-657) are the provided methods. A `OneBased` is never built by `default`: the field keeps the wrapped collection's. -/
def DynColl.oneBased {σ : Type} (c : DynColl σ) : DynColl σ where
  fixed w := .ok (false, w)
  hasZero := c.hasZero
  zeroBased w := .ok (false, w)
  len := c.len
  isEmpty w := (c.len w).map fun (l, w) => (l == 0, w)
  digit := c.digit
  default := c.default

/-- src/digital.rs:459-461 `Chain::len`: the sum of two `usize`. With overflow checks (debug profile) an overflow panics, without them it
wraps. -/
def chainLen (cfg : Cfg) (a b : Nat) : Res Empty Nat :=
  if a + b < 2 ^ cfg.ptr.bits then .ok (a + b) else if cfg.checks then .panic else .ok ((a + b) % 2 ^ cfg.ptr.bits)

/-- src/digital.rs:444-470 `Chain<A, B>`. -/
def DynColl.chain {σ : Type} (cfg : Cfg) (a b : DynColl σ) : DynColl σ where
  fixed w := .ok (false, w)
  hasZero := a.hasZero
  zeroBased := a.zeroBased
  len w := (a.len w).bind fun (x, w) => (b.len w).bind fun (y, w) => (chainLen cfg x y).bind fun l => .ok (l, w)
  isEmpty w := (a.len w).bind fun (x, w) => (b.len w).bind fun (y, w) => (chainLen cfg x y).bind fun l => .ok (l == 0, w)
  digit index w := (a.len w).bind fun (x, w) => if x ≤ index then b.digit (index - x) w else a.digit index w
  default w := (a.default w).bind fun (_, w) => b.default w

/-- src/digital.rs:483-504 `Restrict<T>`. -/
def DynColl.restrict {σ : Type} (count : Nat) (c : DynColl σ) : DynColl σ where
  fixed w := .ok (false, w)
  hasZero := c.hasZero
  zeroBased := c.zeroBased
  len w := .ok (count, w)
  isEmpty w := .ok (count == 0, w)
  digit := c.digit
  default := c.default

end Nominals
