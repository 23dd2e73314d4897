import Verif.Model.Error

/-!
# src/digital.rs — digit collections
-/

namespace Nominals

/-- src/digital.rs:632-685 `trait DigitCollection`, as the record of what its (pure) methods return.
`digit i = none` means that `digit(i)` panics. Simplification: `is_empty` is the provided method
(:655-657), i.e. `len() == 0`; methods are assumed to be pure functions of the collection. -/
structure Coll where
  fixed : Bool
  hasZero : Bool
  zeroBased : Bool
  len : Nat
  digit : Nat → Option Char

/-- A digit collection with its tower of `Fallback` types: `level 0` is the collection, `level (k+1)`
the `Default` value of the `Fallback` type of `level k` (src/digital.rs:635). -/
structure DigitSys where
  level : Nat → Coll

namespace DigitSys

/-- src/digital.rs:612-628 `NoFallback`; its `Fallback` is `Self` and `digit` is `unreachable!()`. -/
def noFallback : DigitSys where
  level _ := { fixed := false, hasZero := false, zeroBased := true, len := 0, digit := fun _ => none }

/-- src/digital.rs:635 `type Fallback`: a system whose fallback tower continues with `fb`. -/
def withFallback (c : Coll) (fb : DigitSys) : DigitSys where
  level
    | 0 => c
    | k + 1 => fb.level k

/-- src/digital.rs:40-50 and 540-554 `DigitSet<N, true>` (`DigitSet::new`). -/
def digitSetNew (digits : List Char) : DigitSys :=
  withFallback { fixed := false, hasZero := true, zeroBased := true, len := digits.length, digit := fun i => digits[i]? }
    noFallback

/-- src/digital.rs:52-59 and 524-538 `DigitSet<N, false>` (`DigitSet::zeroless`). -/
def digitSetZeroless (digits : List Char) : DigitSys :=
  withFallback { fixed := false, hasZero := false, zeroBased := true, len := digits.length, digit := fun i => digits[i]? }
    noFallback

/-- src/digital.rs:63-93 `OneBased<T>`, also `DigitCollection::one_based` (:679-684). Note that `fixed`
is not forwarded: it is the provided `false` (:638-640). `Fallback = T::Fallback`. -/
def oneBased (d : DigitSys) : DigitSys where
  level
    | 0 => { fixed := false, hasZero := (d.level 0).hasZero, zeroBased := false,
             len := (d.level 0).len, digit := (d.level 0).digit }
    | k + 1 => d.level (k + 1)

/-- src/digital.rs:444-470, one level of `Chain`. -/
def chainColl (a b : Coll) : Coll where
  fixed := false
  hasZero := a.hasZero
  zeroBased := a.zeroBased
  len := a.len + b.len
  digit index := if a.len ≤ index then b.digit (index - a.len) else a.digit index

/-- src/digital.rs:432-470 `Chain<A, B>`, also `DigitCollection::and` (:667-673). `fixed` is not
forwarded; `Fallback = Chain<A::Fallback, B::Fallback>`. Simplification: `len` is the natural sum (the
Rust `usize` sum could overflow). -/
def chain (a b : DigitSys) : DigitSys where
  level k := chainColl (a.level k) (b.level k)

/-- src/digital.rs:474-504 `Restrict<T>`. `fixed` is not forwarded; `Fallback = T::Fallback`. -/
def restrict (count : Nat) (d : DigitSys) : DigitSys where
  level
    | 0 => { fixed := false, hasZero := (d.level 0).hasZero, zeroBased := (d.level 0).zeroBased,
             len := count, digit := (d.level 0).digit }
    | k + 1 => d.level (k + 1)

/-- src/digital.rs:95-132 `impl_digit_set!`: a named unit struct delegating `has_zero_digit`, `zero_based`,
`len` and `digit` to a static collection; `fixed` stays the provided `false`, the fallback is `NoFallback`
(every use in the crate omits the fallback argument). -/
def named (d : DigitSys) : DigitSys :=
  withFallback { fixed := false, hasZero := (d.level 0).hasZero, zeroBased := (d.level 0).zeroBased,
                 len := (d.level 0).len, digit := (d.level 0).digit }
    noFallback

/-- src/digital.rs:572 `<D::Fallback>::default()`: the fallback of a system. -/
def fallback (d : DigitSys) : DigitSys where
  level k := d.level (k + 1)

end DigitSys

/-- src/digital.rs:585-605, the `while` loop of `try_format_nominal`. `count` is re-read at the end of each
iteration as in the source (:599-602). -/
def digitLoop (cfg : Cfg) (T : IntTy) (c : Coll) (nominal : Nat) :
    (fuel : Nat) → (count remaining : Nat) → (firstLoop : Bool) → (formatted : NStr) → Res Error NStr
  | 0, _, _, _, _ => .timeout
  | fuel + 1, count, remaining, firstLoop, formatted =>
    if remaining ≠ 0 ∨ firstLoop = true then
      (if !c.hasZero && (!c.zeroBased || !firstLoop) then
        if !c.hasZero && remaining == 0 then .err .noZeroSymbol
        else subT cfg T remaining 1
      else Res.ok remaining).bind fun remaining =>
      (remT remaining count).bind fun idx =>
      (Res.ofIndex (c.digit (asUsize cfg idx))).bind fun ch =>
      ((formatted.pushFront cfg ch).withNominal nominal).bind fun formatted =>
      (divT remaining count).bind fun remaining =>
      match T.tryFrom cfg c.len with
      | some count => digitLoop cfg T c nominal fuel count remaining false formatted
      | none => .err (.outOfBounds nominal)
    else .ok formatted

/-- src/digital.rs:561-606 `try_format_nominal` for `D: DigitCollection`. `depth` bounds the nested calls
on fallbacks (:576), `fuel` the loop. -/
def digitTryFormat (cfg : Cfg) (T : IntTy) (fuel : Nat) : (depth : Nat) → DigitSys → (nominal : Nat) → Res Error NStr
  | 0, _, _ => .timeout
  | depth + 1, d, nominal =>
    let c := d.level 0
    match T.tryFrom cfg c.len with
    | none => (Res.ofIndex (c.digit (asUsize cfg nominal))).bind fun ch => NStr.ofChar cfg ch
    | some count =>
      if c.fixed && (if c.zeroBased then decide (nominal ≥ count) else decide (nominal > count)) then
        let fb := d.fallback
        if (fb.level 0).len == 0 then .err (.outOfBounds nominal)
        else digitTryFormat cfg T fuel depth fb nominal
      else digitLoop cfg T c nominal fuel count nominal true NStr.newReverse

/-- Budget for nested fallback calls (src/digital.rs:576, no counterpart in the code); the crate's own types nest one fallback. -/
def DEFAULT_DEPTH : Nat := 8

/-- src/digital.rs:561-606 `try_format_nominal` with a loop budget of `nominal + 64` iterations, which `Proofs/Terminate.lean`
(`digitLoop_finishes`) proves sufficient whenever the loop terminates at all. -/
def DigitSys.tryFormat (d : DigitSys) (cfg : Cfg) (T : IntTy) (nominal : Nat) : Res Error NStr :=
  digitTryFormat cfg T (nominal + 64) DEFAULT_DEPTH d nominal

end Nominals
