import Verif.Model.DigitalDyn
import Verif.Model.LibDyn

/-!
# src/digital.rs — user's collections as systems

The code of `Model/DigitalDyn.lean` once more, with the state of the program kept when an error is returned: `to_nominal` goes on after an
error. `C94_same_code` proves that otherwise the two are the same.
-/

namespace Nominals

/-- src/digital.rs:632-685: a call of a method that has no error result, inside a function whose errors carry the state. -/
abbrev Res.ask {σ α : Type} (r : Res Empty α) : Res (Error × σ) α := r.call

/-- The error of an expression that asks no method (src/digital.rs:591, 596-598), with the state in which it arises. -/
def Res.at {σ α : Type} (r : Res Error α) (w : σ) : Res (Error × σ) α := r.mapErr fun e => (e, w)

/-- src/digital.rs:586, see `dynCondition`. -/
def ownCondition {σ : Type} (c : DynColl σ) (firstLoop : Bool) (w : σ) : Res (Error × σ) (Bool × σ) :=
  (c.hasZero w).ask.bind fun (hz, w) =>
  if hz then .ok (false, w)
  else (c.zeroBased w).ask.bind fun (zb, w) => .ok (!zb || !firstLoop, w)

/-- src/digital.rs:586-592, see `dynSubtract`. -/
def ownSubtract {σ : Type} (cfg : Cfg) (T : IntTy) (c : DynColl σ) (firstLoop : Bool) (remaining : Nat) (w : σ) : Res (Error × σ) (Nat × σ) :=
  (ownCondition c firstLoop w).bind fun (cond, w) =>
  if cond then
    (c.hasZero w).ask.bind fun (hz, w) =>
    if !hz && remaining == 0 then .err (.noZeroSymbol, w)
    else ((decrement cfg T remaining).at w).bind fun remaining => .ok (remaining, w)
  else .ok (remaining, w)

/-- src/digital.rs:585-605, see `dynLoop`. -/
def ownLoop {σ : Type} (cfg : Cfg) (T : IntTy) (c : DynColl σ) (nominal : Nat) :
    (fuel : Nat) → (count remaining : Nat) → (firstLoop : Bool) → (formatted : NStr) → σ → Res (Error × σ) (NStr × σ)
  | 0, _, _, _, _, _ => .timeout
  | fuel + 1, count, remaining, firstLoop, formatted, w =>
    if remaining ≠ 0 ∨ firstLoop = true then
      (ownSubtract cfg T c firstLoop remaining w).bind fun (remaining, w) =>
      (remT remaining count).bind fun idx =>
      (c.digit (asUsize cfg idx) w).ask.bind fun (ch, w) =>
      (((formatted.pushFront cfg ch).withNominal nominal).at w).bind fun formatted =>
      (divT remaining count).bind fun remaining =>
      (c.len w).ask.bind fun (l, w) =>
      match T.tryFrom cfg l with
      | some count => ownLoop cfg T c nominal fuel count remaining false formatted w
      | none => .err (.outOfBounds nominal, w)
    else .ok (formatted, w)

/-- src/digital.rs:565-571, see `dynOutOfRange`. -/
def ownOutOfRange {σ : Type} (c : DynColl σ) (nominal count : Nat) (w : σ) : Res (Error × σ) (Bool × σ) :=
  (c.fixed w).ask.bind fun (fixed, w) =>
  if fixed then
    (c.zeroBased w).ask.bind fun (zb, w) => .ok (if zb then decide (nominal ≥ count) else decide (nominal > count), w)
  else .ok (false, w)

/-- src/digital.rs:561-606 `try_format_nominal`, see `dynTryFormat`; an error comes with the state of the program. -/
def ownTryFormat {σ : Type} (cfg : Cfg) (T : IntTy) (fuel : Nat) : (depth : Nat) → DynSys σ → (nominal : Nat) → σ → Res (Error × σ) (NStr × σ)
  | 0, _, _, _ => .timeout
  | depth + 1, d, nominal, w =>
    let c := d.level 0
    (c.len w).ask.bind fun (l, w) =>
    match T.tryFrom cfg l with
    | none =>
      (c.digit (asUsize cfg nominal) w).ask.bind fun (ch, w) =>
      ((NStr.ofChar cfg ch).at w).bind fun s => .ok (s, w)
    | some count =>
      (ownOutOfRange c nominal count w).bind fun (out, w) =>
      if out then
        let fb := d.fallback
        ((fb.level 0).default w).ask.bind fun (_, w) =>
        ((fb.level 0).isEmpty w).ask.bind fun (empty, w) =>
        if empty then .err (.outOfBounds nominal, w) else ownTryFormat cfg T fuel depth fb nominal w
      else ownLoop cfg T c nominal fuel count nominal true NStr.newReverse w

/-- src/digital.rs:556-607: every `DigitCollection` is a `NominalSystem` (`format_nominal` not overridden). `fuel` and `depth` bound the loop
and the chain of fallbacks, as in `ownTryFormat`. -/
def DynSys.nominal {σ : Type} (cfg : Cfg) (T : IntTy) (fuel depth : Nat) (d : DynSys σ) : DynNominal σ where
  tryFormat n w :=
    match ownTryFormat cfg T fuel depth d n w with
    | .ok (s, w) => .ok (.ok s, w)
    | .err (e, w) => .ok (.error e, w)
    | .panic => .panic
    | .ub => .ub
    | .timeout => .timeout

end Nominals
