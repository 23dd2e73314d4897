import Verif.Model.Lib

/-!
# ASCII case

What the standard library does to the bytes of a `str`, reached through `DerefMut` and `Deref` of `NominalString`.
-/

namespace Nominals.Spec

/-- `u8::to_ascii_lowercase`: the bytes of `A` to `Z` are raised by 32. -/
def lowerByte (b : UInt8) : UInt8 := if 65 ≤ b.toNat ∧ b.toNat ≤ 90 then UInt8.ofNat (b.toNat + 32) else b

/-- `u8::to_ascii_uppercase`: the bytes of `a` to `z` are lowered by 32. -/
def upperByte (b : UInt8) : UInt8 := if 97 ≤ b.toNat ∧ b.toNat ≤ 122 then UInt8.ofNat (b.toNat - 32) else b

/-- `label.make_ascii_lowercase()`: every byte of the `&mut str` in place. -/
def makeAsciiLowercase (s : NStr) : Option NStr := s.mutate (List.map lowerByte)

/-- `label.make_ascii_uppercase()`. -/
def makeAsciiUppercase (s : NStr) : Option NStr := s.mutate (List.map upperByte)

/-- `a.eq_ignore_ascii_case(&b)`: the bytes are equal up to ASCII case. -/
def eqIgnoreAsciiCase (a b : NStr) : Option Bool := do
  let x ← a.strBytes
  let y ← b.strBytes
  return x.map lowerByte == y.map lowerByte

/-- The system that writes lower case where `s` writes upper case, as far as that is a matter of ASCII letters. -/
def lowerTwin : Named → Named
  | .letterUpper => .letterLower
  | .hexUpper => .hexLower
  | .romanUpper => .romanLower
  | s => s

/-- The system that writes upper case where `s` writes lower case, as far as that is a matter of ASCII letters. -/
def upperTwin : Named → Named
  | .letterLower => .letterUpper
  | .hexLower => .hexUpper
  | .romanLower => .romanUpper
  | s => s

end Nominals.Spec
