import Verif.Spec.Outcome
import Verif.Spec.Terminate

/-!
# The outcome of formatting with a digit collection and its chain of fallbacks

What a collection writes depends on four things only: its symbols, whether the first one is a zero digit, whether counting starts at
zero, and whether it is fixed. `Writes` is the outcome of a collection that keeps the number, `Settles` that of a whole chain.
-/

namespace Nominals.Spec

/-- Level `k` of the chain has the symbols `al k`, and no more of them than a `usize` can count. -/
structure Lawful (cfg : Cfg) (d : DigitSys) (al : Nat → List Char) : Prop where
  digits : ∀ k, HasDigits (d.level k) (al k)
  usize : ∀ k, (al k).length < 2 ^ cfg.ptr.bits

/-- The outcome of writing the number `n` of a type with `bits` bits with the symbols `al`, `n` not having been handed over. -/
inductive Writes (alloc : Bool) (bits : Nat) (hasZero zeroBased : Bool) (al : List Char) (n : Nat) : Res Error (List Char × Bool) → Prop
  /-- There are at least as many symbols as the type has values: the symbol number `n`. -/
  | symbol (c : Char) : 2 ^ bits ≤ al.length → al[n]? = some c → Writes alloc bits hasZero zeroBased al n (deliver alloc n [c])
  /-- With a zero digit: the positional numeral. -/
  | numeral (ds : List Nat) : al.length < 2 ^ bits → hasZero = true → 2 ≤ al.length → IsNumeral al.length n ds →
      Writes alloc bits hasZero zeroBased al n (deliver alloc n (spell al ds))
  /-- A zero digit and no other: it writes 0 … -/
  | lone (c : Char) : hasZero = true → al = [c] → n = 0 → Writes alloc bits hasZero zeroBased al n (deliver alloc n [c])
  /-- … and fills the inline buffer for every other number. -/
  | full (c : Char) : hasZero = true → al = [c] → n ≠ 0 → alloc = false → Writes alloc bits hasZero zeroBased al n (.err (.outOfMemory n))
  /-- Without a zero digit, counting from zero: the column name. -/
  | column : al.length < 2 ^ bits → hasZero = false → zeroBased = true → al ≠ [] →
      Writes alloc bits hasZero zeroBased al n (deliver alloc n (spell al (column al.length n)))
  /-- Without a zero digit, counting from one: the column name of the number before, … -/
  | shifted (m : Nat) : al.length < 2 ^ bits → hasZero = false → zeroBased = false → al ≠ [] → n = m + 1 →
      Writes alloc bits hasZero zeroBased al n (deliver alloc n (spell al (Spec.column al.length m)))
  /-- … and 0 cannot be written. -/
  | noZero : al.length < 2 ^ bits → hasZero = false → zeroBased = false → n = 0 →
      Writes alloc bits hasZero zeroBased al n (.err .noZeroSymbol)
  /-- Without any symbol: a division by zero. -/
  | empty : al = [] → hasZero = true ∨ zeroBased = true ∨ n ≠ 0 → Writes alloc bits hasZero zeroBased al n .panic

/-- The outcome for a whole chain: the number is handed down to the first collection `k` that keeps it, or that hands it over to a
collection without symbols. -/
def Settles (cfg : Cfg) (T : IntTy) (d : DigitSys) (al : Nat → List Char) (n : Nat) (r : Res Error (List Char × Bool)) : Prop :=
  ∃ k, (∀ i, i < k → HandsOver cfg T (d.level i) n ∧ al (i + 1) ≠ []) ∧
    (HandsOver cfg T (d.level k) n ∧ al (k + 1) = [] ∧ r = .err (.outOfBounds n) ∨
      ¬ HandsOver cfg T (d.level k) n ∧ Writes cfg.alloc (T.bits cfg) (d.level k).hasZero (d.level k).zeroBased (al k) n r)

end Nominals.Spec
