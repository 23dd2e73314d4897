import Verif.Model.Lib

/-!
# Reading a number back

What the standard library's `from_str_radix` and `str::parse` of the unsigned integer types make of the bytes of a `str`, reached
through `Deref` of `NominalString`.
-/

namespace Nominals.Spec

/-- `core::num::IntErrorKind`, as far as unsigned integers use it. -/
inductive ParseError where
  | empty | invalidDigit | posOverflow
deriving DecidableEq, Repr

/-- `(b as char).to_digit(radix)`: the digits 0 to 9 and the letters of either case from 10 on, if below the radix. -/
def byteDigit (radix : Nat) (b : UInt8) : Option Nat :=
  let v := b.toNat
  let d := if 48 ≤ v ∧ v ≤ 57 then some (v - 48)
    else if 97 ≤ v ∧ v ≤ 122 then some (v - 87)
    else if 65 ≤ v ∧ v ≤ 90 then some (v - 55)
    else none
  match d with
  | some x => if x < radix then some x else none
  | none => none

/-- One round of the loop: multiply with a check, read the digit, report a bad digit before an overflow, add with a check. -/
def parseStep (radix limit acc : Nat) (b : UInt8) : Except ParseError Nat :=
  match byteDigit radix b with
  | none => .error .invalidDigit
  | some x => if acc * radix < limit ∧ acc * radix + x < limit then .ok (acc * radix + x) else .error .posOverflow

/-- The loop over the bytes, most significant digit first. -/
def parseLoop (radix limit : Nat) : Nat → List UInt8 → Except ParseError Nat
  | acc, [] => .ok acc
  | acc, b :: bs =>
    match parseStep radix limit acc b with
    | .error e => .error e
    | .ok a => parseLoop radix limit a bs

/-- `T::from_str_radix` of an unsigned type with `limit` values: nothing to read, a lone sign, a leading `+`, anything else. -/
def parseBytes (radix limit : Nat) : List UInt8 → Except ParseError Nat
  | [] => .error .empty
  | [b] => if b = 43 ∨ b = 45 then .error .invalidDigit else parseLoop radix limit 0 [b]
  | b :: bs => if b = 43 then parseLoop radix limit 0 bs else parseLoop radix limit 0 (b :: bs)

/-- `T::from_str_radix(&label, radix)`. -/
def fromStrRadix (cfg : Cfg) (T : IntTy) (radix : Nat) (s : NStr) : Option (Except ParseError Nat) :=
  s.strBytes.map (parseBytes radix (2 ^ T.bits cfg))

/-- `label.parse::<T>()`. -/
def parse (cfg : Cfg) (T : IntTy) (s : NStr) : Option (Except ParseError Nat) := fromStrRadix cfg T 10 s

/-- What a numeral of `n` reads as in type `T`: the number, or an overflow when the type cannot hold it. -/
def numeralReads (cfg : Cfg) (T : IntTy) (n : Nat) : Except ParseError Nat :=
  if T.Fits cfg n then .ok n else .error .posOverflow

end Nominals.Spec
