import Verif.Spec.Catalogue
import Verif.Spec.Display
import Verif.Model.Results
import Verif.Spec.Strings

/-!
# Specification of comparing and printing results
-/

namespace Nominals.Spec

/-- A result as a caller sees it: the text (`none` if it cannot be read) or the error. -/
def seen : Except Error NStr → Except Error (Option (List Char))
  | .ok s => .ok s.asStr
  | .error e => .error e

/-- The string in a result, if any, came from the public API. -/
def SoundResult (cfg : Cfg) : Except Error NStr → Prop
  | .ok s => Reachable cfg s
  | .error _ => True

/-- The name of an error and the number it carries. -/
def errorParts : Error → List Char × Option Nat
  | .noZeroSymbol => (['N', 'o', 'Z', 'e', 'r', 'o', 'S', 'y', 'm', 'b', 'o', 'l'], none)
  | .outOfMemory n => (['O', 'u', 't', 'O', 'f', 'M', 'e', 'm', 'o', 'r', 'y'], some n)
  | .outOfBounds n => (['O', 'u', 't', 'O', 'f', 'B', 'o', 'u', 'n', 'd', 's'], some n)

/-- A format string that asks for nothing but `?` or `#?`, as far as numbers are concerned. -/
def PlainNumbers (o : FmtOpts) : Prop := o.width = none ∧ o.plus = false ∧ o.hex = none

/-- An error on one line: `NoZeroSymbol`, `OutOfBounds(7)`. -/
def errorLine (e : Error) : List Char :=
  match errorParts e with
  | (name, none) => name
  | (name, some n) => name ++ ['('] ++ Nat.toDigits 10 n ++ [')']

/-- What `{:?}` shows of the answer of a build to `try_to_nominal(n)`. -/
def resultLine (esc : Char → List Char) : Res Error (List Char × Bool) → Option (List Char)
  | .ok (t, inline) => some (['O', 'k', '('] ++ debugLine esc (!inline) t ++ [')'])
  | .err e => some (['E', 'r', 'r', '('] ++ errorLine e ++ [')'])
  | _ => none

/-- Lines with their levels of indentation, four spaces per level. -/
def layout : List (Nat × List Char) → List Char
  | [] => []
  | [(k, l)] => List.replicate (4 * k) ' ' ++ l
  | (k, l) :: rest => List.replicate (4 * k) ' ' ++ l ++ ['\n'] ++ layout rest

/-- What `{:#?}` shows of an answer, line by line. For texts whose escapes contain no line break. -/
def resultLines (esc : Char → List Char) : Res Error (List Char × Bool) → List (Nat × List Char)
  | .ok (t, inline) =>
    [(0, ['O', 'k', '(']),
      (1, ['N', 'o', 'm', 'i', 'n', 'a', 'l', 'S', 't', 'r', 'i', 'n', 'g', '(']),
        (2, if inline then ['I', 'n', 'l', 'i', 'n', 'e', '('] else ['H', 'e', 'a', 'p', '(']),
          (3, ['"'] ++ t.flatMap esc ++ ['"', ',']),
        (2, [')', ',']),
      (1, [')', ',']),
     (0, [')'])]
  | .err e =>
    match errorParts e with
    | (name, none) => [(0, ['E', 'r', 'r', '(']), (1, name ++ [',']), (0, [')'])]
    | (name, some n) =>
      [(0, ['E', 'r', 'r', '(']), (1, name ++ ['(']), (2, Nat.toDigits 10 n ++ [',']), (1, [')', ',']), (0, [')'])]
  | _ => []

end Nominals.Spec
