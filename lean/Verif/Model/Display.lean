import Verif.Model.NominalString

/-!
# src/nominalstring.rs — `Display`, `Debug` and `Clone` of `NominalString`

The parts of `core::fmt` these implementations reach are modelled after their documentation and source: `Formatter::pad`,
`debug_tuple` and its `{:#?}` form. How `Debug for str` escapes one character (a Unicode table) is a parameter.
-/

namespace Nominals

/-- `core::fmt::Alignment`, reached from src/nominalstring.rs:121-125. -/
inductive Align where
  | left | right | center
deriving DecidableEq, Repr

/-- What a format string such as `{:*^9.3}` says; `core::fmt::FormattingOptions`, reached from src/nominalstring.rs:121-125.
`plus`, `zeros` and `hex` are the flags `+`, `0` and `x?` or `X?` (`some true` for the latter), which only numbers read. A minus sign, a flag
nothing reads, is left out. -/
structure FmtOpts where
  fill : Char := ' '
  align : Option Align := none
  width : Option Nat := none
  precision : Option Nat := none
  alternate : Bool := false
  plus : Bool := false
  zeros : Bool := false
  hex : Option Bool := none

/-- The precision in `core::fmt::Formatter::pad` (called by src/nominalstring.rs:123): keep that many characters. -/
def fmtCut (precision : Option Nat) (t : List Char) : List Char :=
  match precision with
  | some p => t.take p
  | none => t

/-- `core::fmt::Formatter::padding`, reached from src/nominalstring.rs:123 and src/lib.rs:182: how many of `k` fill characters go before and
after. -/
def fmtPadding (align : Align) (k : Nat) : Nat × Nat :=
  match align with
  | .left => (0, k)
  | .right => (k, 0)
  | .center => (k / 2, (k + 1) / 2)

/-- `Display for str`, that is `core::fmt::Formatter::pad` (called by src/nominalstring.rs:123): cut to the precision, then
fill up to the width, left-aligned unless told otherwise. Both count characters. -/
def strDisplay (o : FmtOpts) (t : List Char) : List Char :=
  let t := fmtCut o.precision t
  match o.width with
  | none => t
  | some w =>
    let padding := w - t.length
    let (pre, post) := fmtPadding (o.align.getD .left) padding
    List.replicate pre o.fill ++ t ++ List.replicate post o.fill

/-- `Debug for str`, called through src/nominalstring.rs:259, 261: the characters, each escaped by `esc`, in double quotes. -/
def strDebug (esc : Char → List Char) (t : List Char) : List Char := ['"'] ++ t.flatMap esc ++ ['"']

/-- `core::fmt::builders::PadAdapter`, reached from src/nominalstring.rs:259, 261 with `{:#?}`: four spaces before the first
character of every line. The flag says that the next character starts a line. -/
def padAdapter : Bool → List Char → List Char
  | _, [] => []
  | start, c :: r => (if start then List.replicate 4 ' ' else []) ++ c :: padAdapter (c == '\n') r

/-- `debug_tuple(name).field(x).finish()`, src/nominalstring.rs:259, 261 and the derive at :14. -/
def debugTuple (alternate : Bool) (name field : List Char) : List Char :=
  if alternate then name ++ ['(', '\n'] ++ padAdapter true (field ++ [',', '\n']) ++ [')']
  else name ++ ['('] ++ field ++ [')']

namespace NStr

/-- src/nominalstring.rs:121-125 `Display for NominalString`; `none` is undefined behaviour. -/
def display (o : FmtOpts) (s : NStr) : Option (List Char) := s.asStr.map (strDisplay o)

/-- src/nominalstring.rs:256-264 `Debug for MaybeInline`. -/
def debugInner (esc : Char → List Char) (o : FmtOpts) (s : NStr) : Option (List Char) :=
  match s with
  | .inline _ => s.asStr.map fun t => debugTuple o.alternate ['I', 'n', 'l', 'i', 'n', 'e'] (strDebug esc t)
  | .heap _ => s.asStr.map fun t => debugTuple o.alternate ['H', 'e', 'a', 'p'] (strDebug esc t)

/-- src/nominalstring.rs:14-16 `derive(Debug)` of `NominalString`. -/
def debug (esc : Char → List Char) (o : FmtOpts) (s : NStr) : Option (List Char) :=
  (s.debugInner esc o).map (debugTuple o.alternate ['N', 'o', 'm', 'i', 'n', 'a', 'l', 'S', 't', 'r', 'i', 'n', 'g'])

/-- src/nominalstring.rs:15, 249, 266 `derive(Clone)` (alloc builds only): the inline record is copied, unwritten cells
included; a heap string is copied character by character. -/
def clone : NStr → NStr
  | .inline s => .inline { length := s.length, bytes := s.bytes }
  | .heap t => .heap t

end NStr

end Nominals
