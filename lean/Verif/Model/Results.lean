import Verif.Model.Display
import Verif.Model.Lib

/-!
# src/lib.rs — the derived traits of `Error`, and comparing and printing what `try_format_nominal` returns
-/

namespace Nominals

/-- `Result<R, Error<T>>` (src/lib.rs:55) of a call that returned; `none` if it did not (panic, undefined behaviour, still running). -/
def Res.returned {ε α : Type} (r : Res ε α) : Option (Except ε α) :=
  match r with
  | .ok a => some (.ok a)
  | .err e => some (.error e)
  | .panic => none
  | .ub => none
  | .timeout => none

/-- src/lib.rs:182 `derive(PartialEq)` of `Error<T>`: the same variant and, where there is one, an equal field. -/
def Error.eq : Error → Error → Bool
  | .noZeroSymbol, .noZeroSymbol => true
  | .outOfMemory a, .outOfMemory b => a == b
  | .outOfBounds a, .outOfBounds b => a == b
  | _, _ => false

/-- src/lib.rs:182 `derive(Clone, Copy)` of `Error<T>`: a copy of the variant and its field. -/
def Error.clone : Error → Error
  | .noZeroSymbol => .noZeroSymbol
  | .outOfMemory a => .outOfMemory a
  | .outOfBounds a => .outOfBounds a

/-- `PartialEq for Result<NominalString, Error<T>>` (derived in `core`), as used by `assert_eq!` in src/digital.rs:694-697; `none` is
undefined behaviour while reading a string. -/
def resultEq : Except Error NStr → Except Error NStr → Option Bool
  | .ok a, .ok b => a.eq b
  | .error a, .error b => some (a.eq b)
  | _, _ => some false

/-- The digits `Debug` of the integer types writes, reached from src/lib.rs:182: decimal, or hexadecimal with `{:x?}` and `{:X?}`. -/
def intDigits (hex : Option Bool) (n : Nat) : List Char :=
  match hex with
  | none => Nat.toDigits 10 n
  | some false => Nat.toDigits 16 n
  | some true => (Nat.toDigits 16 n).map Char.toUpper

/-- What goes before the digits, reached from src/lib.rs:182: a plus sign if asked for, and `0x` before hexadecimal digits with `#`. -/
def intPrefix (o : FmtOpts) : List Char :=
  (if o.plus then ['+'] else []) ++ (if o.alternate && o.hex.isSome then ['0', 'x'] else [])

/-- `Debug` of the unsigned integer types, reached from src/lib.rs:182, that is `core::fmt::Formatter::pad_integral`: nothing is filled if
sign, prefix and digits reach the width; the flag `0` fills with zeros between prefix and digits; otherwise the fill character
goes around all of it, before it unless told otherwise. The precision is ignored. -/
def intDebug (o : FmtOpts) (n : Nat) : List Char :=
  let buf := intDigits o.hex n
  let width := (intPrefix o).length + buf.length
  match o.width with
  | none => intPrefix o ++ buf
  | some w =>
    if width ≥ w then intPrefix o ++ buf
    else if o.zeros then
      let (pre, post) := fmtPadding .right (w - width)
      intPrefix o ++ List.replicate pre '0' ++ buf ++ List.replicate post '0'
    else
      let (pre, post) := fmtPadding (o.align.getD .right) (w - width)
      List.replicate pre o.fill ++ intPrefix o ++ buf ++ List.replicate post o.fill

/-- src/lib.rs:182 `derive(Debug)` of `Error<T>`. -/
def Error.debug (o : FmtOpts) : Error → List Char
  | .noZeroSymbol => ['N', 'o', 'Z', 'e', 'r', 'o', 'S', 'y', 'm', 'b', 'o', 'l']
  | .outOfMemory n => debugTuple o.alternate ['O', 'u', 't', 'O', 'f', 'M', 'e', 'm', 'o', 'r', 'y'] (intDebug o n)
  | .outOfBounds n => debugTuple o.alternate ['O', 'u', 't', 'O', 'f', 'B', 'o', 'u', 'n', 'd', 's'] (intDebug o n)

/-- `Debug for Result<NominalString, Error<T>>` (derived in `core`), what `assert_eq!` in src/digital.rs:694-697 prints when it fails;
`none` is undefined behaviour while reading a string. -/
def resultDebug (esc : Char → List Char) (o : FmtOpts) : Except Error NStr → Option (List Char)
  | .ok s => (s.debug esc o).map (debugTuple o.alternate ['O', 'k'])
  | .error e => some (debugTuple o.alternate ['E', 'r', 'r'] (e.debug o))

end Nominals
