import Verif.Model.Escape
import Verif.Spec.Display

/-!
# Reading Rust string literals
-/

namespace Nominals.Spec

/-- Where a reader of a string literal stands: between characters, after a backslash, after `\u`, or after `\u{` and some hexadecimal
digits, of which it knows the number and the value. -/
inductive LitState where
  | between | escape | brace | hex (digits value : Nat)

/-- The value of a hexadecimal digit. -/
def hexValue (c : Char) : Option Nat :=
  if '0' ≤ c ∧ c ≤ '9' then some (c.toNat - 48)
  else if 'a' ≤ c ∧ c ≤ 'f' then some (c.toNat - 87)
  else if 'A' ≤ c ∧ c ≤ 'F' then some (c.toNat - 55)
  else none

/-- What follows a backslash, other than `u`. -/
def simpleEscape : Char → Option Char
  | '0' => some '\x00'
  | 't' => some '\t'
  | 'r' => some '\r'
  | 'n' => some '\n'
  | '\\' => some '\\'
  | '"' => some '"'
  | '\'' => some '\''
  | _ => none

/-- The text a Rust string literal stands for, given what is between its quotes (Rust reference, "String literals", without line
continuations, `\x` and underscores, which `Debug` does not write). -/
def readLiteral : LitState → List Char → Option (List Char)
  | .between, [] => some []
  | .between, c :: r =>
    if c = '\\' then readLiteral .escape r
    else if c = '"' ∨ c = '\r' then none
    else (readLiteral .between r).map (c :: ·)
  | .escape, c :: r =>
    if c = 'u' then readLiteral .brace r
    else (simpleEscape c).bind fun x => (readLiteral .between r).map (x :: ·)
  | .brace, c :: r => if c = '{' then readLiteral (.hex 0 0) r else none
  | .hex k v, c :: r =>
    if c = '}' then
      if k = 0 ∨ ¬ v.isValidChar then none else (readLiteral .between r).map (Char.ofNat v :: ·)
    else if k = 6 then none
    else (hexValue c).bind fun d => readLiteral (.hex (k + 1) (v * 16 + d)) r
  | _, [] => none

/-- The two Unicode tables agree with Unicode about these characters: the combining overline extends the grapheme before it, the others
are printable and do not. -/
def KnowsOverline (cs : List Char) (extends_ printable : Char → Bool) : Prop :=
  extends_ '\u0305' = true ∧ ∀ c ∈ cs, c ≠ '\u0305' → extends_ c = false ∧ printable c = true

/-- A text with every combining overline spelled out. -/
def spellOverlines (t : List Char) : List Char :=
  t.flatMap fun c => if c = '\u0305' then ['\\', 'u', '{', '3', '0', '5', '}'] else [c]

end Nominals.Spec
