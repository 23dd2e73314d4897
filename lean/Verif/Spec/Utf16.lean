import Verif.Spec.Outcome

/-!
# UTF-16

What languages such as JavaScript and Java make of a text: `str::encode_utf16`.
-/

namespace Nominals.Spec

/-- The code units of a character: one below 0x10000, otherwise a surrogate pair. -/
def units (c : Char) : List Nat :=
  if c.toNat < 0x10000 then [c.toNat]
  else [0xd800 + (c.toNat - 0x10000) / 0x400, 0xdc00 + (c.toNat - 0x10000) % 0x400]

/-- The code units of a text. -/
def utf16 (t : List Char) : List Nat := t.flatMap units

end Nominals.Spec
