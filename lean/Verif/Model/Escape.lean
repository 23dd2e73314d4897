import Verif.Model.Display

/-!
# How `Debug for str` escapes characters

`core::char::methods::escape_debug_ext`, which `Debug for str` calls for every character; reached from `Debug for MaybeInline`
(src/nominalstring.rs:256-264). The two Unicode tables of `core` it asks are parameters.
-/

namespace Nominals

/-- `char::escape_unicode`, reached from src/nominalstring.rs:259, 261: `\u{…}` with the code point in lower case hexadecimal digits. -/
def escapeUnicode (c : Char) : List Char := ['\\', 'u', '{'] ++ Nat.toDigits 16 c.toNat ++ ['}']

/-- `char::escape_debug_ext` with the arguments of `Debug for str` (grapheme extenders and double quotes are escaped, single quotes are
not), reached from src/nominalstring.rs:259, 261. `extends` is the table of `Grapheme_Extend`, `printable` that of printable characters. -/
def escapeDebug (extends_ printable : Char → Bool) (c : Char) : List Char :=
  if c = '\x00' then ['\\', '0']
  else if c = '\t' then ['\\', 't']
  else if c = '\r' then ['\\', 'r']
  else if c = '\n' then ['\\', 'n']
  else if c = '\\' then ['\\', '\\']
  else if c = '"' then ['\\', '"']
  else if extends_ c then escapeUnicode c
  else if printable c then [c]
  else escapeUnicode c

end Nominals
