import Verif.Spec.Protocol

/-!
# What an implementation of `DigitCollection` may rely on

A collection that checks how it is used: it keeps a record of the calls so far and answers only what it may be asked. A call that it
may not be asked is undefined behaviour (as if the implementation had used `unreachable_unchecked()` there), which no
implementation in safe Rust has otherwise.
-/

namespace Nominals.Spec

/-- A method call without its answer. -/
inductive Question where
  | fixed | hasZero | zeroBased | len | isEmpty | digit (index : Nat) | default
deriving DecidableEq

/-- The calls so far, the latest first, each with the level asked and the answer. -/
abbrev Past := List (Nat × Call)

/-- The length most recently reported by the collection at level `k`. -/
def lastLen (k : Nat) : Past → Option Nat
  | [] => none
  | (j, .len l) :: past => if j = k then some l else lastLen k past
  | _ :: past => lastLen k past

/-- What the collection at level `k` may be asked while `n` is formatted.

* `digit(i)`: only with `i` below the length it reported last.
* `zero_based`: only directly after it answered `false` to `has_zero_digit` or, unless `strict`, `true` to `fixed`.
* `default`: only directly after the collection one level above said that it is fixed and in which range, and `n` is not in that range.
* `is_empty`: only directly after `default`.
* `fixed`: only directly after `len`. -/
def permitted (strict : Bool) (n k : Nat) (past : Past) : Question → Bool
  | .digit i => match lastLen k past with
    | some l => decide (i < l)
    | none => false
  | .zeroBased => past.head? == some (k, .hasZero false) || (!strict && past.head? == some (k, .fixed true))
  | .default => match past with
    | (i, .zeroBased z) :: (j, .fixed true) :: (j', .len l) :: _ =>
      i + 1 == k && j + 1 == k && j' + 1 == k && (if z then decide (l ≤ n) else decide (l < n))
    | _ => false
  | .isEmpty => past.head? == some (k, .default)
  | .fixed => match past with
    | (j, .len _) :: _ => j == k
    | _ => false
  | .hasZero => true
  | .len => true

/-- Answer a question if it is permitted, and record it. -/
def checked {σ α : Type} (strict : Bool) (n k : Nat) (q : Question) (record : α → Call) (f : σ → Res Empty (α × σ)) :
    σ × Past → Res Empty (α × (σ × Past)) :=
  fun (w, past) => if permitted strict n k past q then (f w).map fun (a, w) => (a, (w, (k, record a) :: past)) else .ub

/-- The collection `c` at level `k`, checking how it is used. -/
def guarded {σ : Type} (strict : Bool) (n k : Nat) (c : DynColl σ) : DynColl (σ × Past) where
  fixed := checked strict n k .fixed .fixed c.fixed
  hasZero := checked strict n k .hasZero .hasZero c.hasZero
  zeroBased := checked strict n k .zeroBased .zeroBased c.zeroBased
  len := checked strict n k .len .len c.len
  isEmpty := checked strict n k .isEmpty .isEmpty c.isEmpty
  digit i := checked strict n k (.digit i) (.digit i) (c.digit i)
  default := checked strict n k .default (fun _ => .default) c.default

/-- A tower of such collections whose first one is at level `k`. -/
def guardedSys {σ : Type} (strict : Bool) (n k : Nat) (d : DynSys σ) : DynSys (σ × Past) where
  level j := guarded strict n (k + j) (d.level j)

end Nominals.Spec
