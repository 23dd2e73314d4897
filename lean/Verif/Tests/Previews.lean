import Verif.Model.Previews
import Verif.Tests.Replay

/-!
# The tables of the documentation replayed against the model of examples/previews.rs

Generated by `tools/genpreviews.py`. Tests of the model, not proofs: src/previews/*.md with all blanks, and src/previews/index.md.
-/

namespace Nominals.Tests

/-- Terminal cells of the characters that occur: 2 for East-Asian wide characters, 0 for combining ones, else 1. -/
def cellsOf (t : List Char) : Nat :=
  (t.map fun c => let n := c.toNat
    if n == 0x305 then 0 else if (0x1100 ≤ n && n < 0x1160) || (0x3000 ≤ n && n < 0xA000 && !(0x3248 ≤ n && n < 0x3250)) || (0xAC00 ≤ n && n < 0xD7B0) then 2 else 1).sum

/-- `preview` prints these lines and returns this entry. -/
def printed (name : List Char) (s : NominalSystem) (values : Res Empty (List Nat)) (lines : List (List Char)) (index : List Char) : Bool :=
  values.bind (preview cfg64 cellsOf name s) == .ok (lines, index)

/-- src/previews/Decimal.md -/
example : printed ['D', 'e', 'c', 'i', 'm', 'a', 'l'] Named.decimal.system
    (previewValues cfg64 (Nominals.decimal.level 0))
    [['|', ' ', '#', ' ', ' ', ' ', '|', ' ', 'D', 'e', 'c', 'i', 'm', 'a', 'l', ' ', '|', '\n'],
     ['|', '-', '-', '-', '-', '-', '|', '-', '-', '-', '-', '-', '-', '-', '-', '-', '|', '\n'],
     ['|', ' ', '0', ' ', ' ', ' ', '|', ' ', '0', ' ', ' ', ' ', ' ', ' ', ' ', ' ', '|', '\n'],
     ['|', ' ', '1', ' ', ' ', ' ', '|', ' ', '1', ' ', ' ', ' ', ' ', ' ', ' ', ' ', '|', '\n'],
     ['|', ' ', '2', ' ', ' ', ' ', '|', ' ', '2', ' ', ' ', ' ', ' ', ' ', ' ', ' ', '|', '\n'],
     ['|', ' ', '3', ' ', ' ', ' ', '|', ' ', '3', ' ', ' ', ' ', ' ', ' ', ' ', ' ', '|', '\n'],
     ['|', ' ', '4', ' ', ' ', ' ', '|', ' ', '4', ' ', ' ', ' ', ' ', ' ', ' ', ' ', '|', '\n'],
     ['|', ' ', '\u2026', ' ', ' ', ' ', '|', ' ', '\u2026', ' ', ' ', ' ', ' ', ' ', ' ', ' ', '|', '\n'],
     ['|', ' ', '9', ' ', ' ', ' ', '|', ' ', '9', ' ', ' ', ' ', ' ', ' ', ' ', ' ', '|', '\n'],
     ['|', ' ', '1', '0', ' ', ' ', '|', ' ', '1', '0', ' ', ' ', ' ', ' ', ' ', ' ', '|', '\n'],
     ['|', ' ', '1', '1', ' ', ' ', '|', ' ', '1', '1', ' ', ' ', ' ', ' ', ' ', ' ', '|', '\n'],
     ['|', ' ', '1', '2', ' ', ' ', '|', ' ', '1', '2', ' ', ' ', ' ', ' ', ' ', ' ', '|', '\n'],
     ['|', ' ', '\u2026', ' ', ' ', ' ', '|', ' ', '\u2026', ' ', ' ', ' ', ' ', ' ', ' ', ' ', '|', '\n'],
     ['|', ' ', '9', '9', ' ', ' ', '|', ' ', '9', '9', ' ', ' ', ' ', ' ', ' ', ' ', '|', '\n'],
     ['|', ' ', '1', '0', '0', ' ', '|', ' ', '1', '0', '0', ' ', ' ', ' ', ' ', ' ', '|', '\n'],
     ['|', ' ', '1', '0', '1', ' ', '|', ' ', '1', '0', '1', ' ', ' ', ' ', ' ', ' ', '|', '\n'],
     ['|', ' ', '1', '0', '2', ' ', '|', ' ', '1', '0', '2', ' ', ' ', ' ', ' ', ' ', '|', '\n']]
    ['0', '\u200e', ' ', '1', '\u200e', ' ', '2', '\u200e', ' ', '3', '\u200e', ' ', '4', '\u200e', ' ', '\u2026', '\u200e', ' ', '9', '\u200e', ' ', '1', '0', '\u200e', ' ', '1', '1', '\u200e', ' ', '1', '2', '\u200e', ' ', '\u2026', '\u200e', ' ', '9', '9', '\u200e', ' ', '1', '0', '0', '\u200e', ' ', '1', '0', '1', '\u200e', ' ', '1', '0', '2'] = true := by decide +kernel

/-- src/previews/LetterLower.md -/
example : printed ['L', 'e', 't', 't', 'e', 'r', 'L', 'o', 'w', 'e', 'r'] Named.letterLower.system
    (previewValues cfg64 (Nominals.letterLower.level 0))
    [['|', ' ', '#', ' ', ' ', ' ', '|', ' ', 'L', 'e', 't', 't', 'e', 'r', 'L', 'o', 'w', 'e', 'r', ' ', '|', '\n'],
     ['|', '-', '-', '-', '-', '-', '|', '-', '-', '-', '-', '-', '-', '-', '-', '-', '-', '-', '-', '-', '|', '\n'],
     ['|', ' ', '0', ' ', ' ', ' ', '|', ' ', 'a', ' ', ' ', ' ', ' ', ' ', ' ', ' ', ' ', ' ', ' ', ' ', '|', '\n'],
     ['|', ' ', '1', ' ', ' ', ' ', '|', ' ', 'b', ' ', ' ', ' ', ' ', ' ', ' ', ' ', ' ', ' ', ' ', ' ', '|', '\n'],
     ['|', ' ', '2', ' ', ' ', ' ', '|', ' ', 'c', ' ', ' ', ' ', ' ', ' ', ' ', ' ', ' ', ' ', ' ', ' ', '|', '\n'],
     ['|', ' ', '3', ' ', ' ', ' ', '|', ' ', 'd', ' ', ' ', ' ', ' ', ' ', ' ', ' ', ' ', ' ', ' ', ' ', '|', '\n'],
     ['|', ' ', '4', ' ', ' ', ' ', '|', ' ', 'e', ' ', ' ', ' ', ' ', ' ', ' ', ' ', ' ', ' ', ' ', ' ', '|', '\n'],
     ['|', ' ', '\u2026', ' ', ' ', ' ', '|', ' ', '\u2026', ' ', ' ', ' ', ' ', ' ', ' ', ' ', ' ', ' ', ' ', ' ', '|', '\n'],
     ['|', ' ', '2', '5', ' ', ' ', '|', ' ', 'z', ' ', ' ', ' ', ' ', ' ', ' ', ' ', ' ', ' ', ' ', ' ', '|', '\n'],
     ['|', ' ', '2', '6', ' ', ' ', '|', ' ', 'a', 'a', ' ', ' ', ' ', ' ', ' ', ' ', ' ', ' ', ' ', ' ', '|', '\n'],
     ['|', ' ', '2', '7', ' ', ' ', '|', ' ', 'a', 'b', ' ', ' ', ' ', ' ', ' ', ' ', ' ', ' ', ' ', ' ', '|', '\n'],
     ['|', ' ', '2', '8', ' ', ' ', '|', ' ', 'a', 'c', ' ', ' ', ' ', ' ', ' ', ' ', ' ', ' ', ' ', ' ', '|', '\n'],
     ['|', ' ', '\u2026', ' ', ' ', ' ', '|', ' ', '\u2026', ' ', ' ', ' ', ' ', ' ', ' ', ' ', ' ', ' ', ' ', ' ', '|', '\n'],
     ['|', ' ', '6', '7', '5', ' ', '|', ' ', 'y', 'z', ' ', ' ', ' ', ' ', ' ', ' ', ' ', ' ', ' ', ' ', '|', '\n'],
     ['|', ' ', '6', '7', '6', ' ', '|', ' ', 'z', 'a', ' ', ' ', ' ', ' ', ' ', ' ', ' ', ' ', ' ', ' ', '|', '\n'],
     ['|', ' ', '6', '7', '7', ' ', '|', ' ', 'z', 'b', ' ', ' ', ' ', ' ', ' ', ' ', ' ', ' ', ' ', ' ', '|', '\n'],
     ['|', ' ', '6', '7', '8', ' ', '|', ' ', 'z', 'c', ' ', ' ', ' ', ' ', ' ', ' ', ' ', ' ', ' ', ' ', '|', '\n']]
    ['a', '\u200e', ' ', 'b', '\u200e', ' ', 'c', '\u200e', ' ', 'd', '\u200e', ' ', 'e', '\u200e', ' ', '\u2026', '\u200e', ' ', 'z', '\u200e', ' ', 'a', 'a', '\u200e', ' ', 'a', 'b', '\u200e', ' ', 'a', 'c', '\u200e', ' ', '\u2026', '\u200e', ' ', 'y', 'z', '\u200e', ' ', 'z', 'a', '\u200e', ' ', 'z', 'b', '\u200e', ' ', 'z', 'c'] = true := by decide +kernel

/-- src/previews/LetterUpper.md -/
example : printed ['L', 'e', 't', 't', 'e', 'r', 'U', 'p', 'p', 'e', 'r'] Named.letterUpper.system
    (previewValues cfg64 (Nominals.letterUpper.level 0))
    [['|', ' ', '#', ' ', ' ', ' ', '|', ' ', 'L', 'e', 't', 't', 'e', 'r', 'U', 'p', 'p', 'e', 'r', ' ', '|', '\n'],
     ['|', '-', '-', '-', '-', '-', '|', '-', '-', '-', '-', '-', '-', '-', '-', '-', '-', '-', '-', '-', '|', '\n'],
     ['|', ' ', '0', ' ', ' ', ' ', '|', ' ', 'A', ' ', ' ', ' ', ' ', ' ', ' ', ' ', ' ', ' ', ' ', ' ', '|', '\n'],
     ['|', ' ', '1', ' ', ' ', ' ', '|', ' ', 'B', ' ', ' ', ' ', ' ', ' ', ' ', ' ', ' ', ' ', ' ', ' ', '|', '\n'],
     ['|', ' ', '2', ' ', ' ', ' ', '|', ' ', 'C', ' ', ' ', ' ', ' ', ' ', ' ', ' ', ' ', ' ', ' ', ' ', '|', '\n'],
     ['|', ' ', '3', ' ', ' ', ' ', '|', ' ', 'D', ' ', ' ', ' ', ' ', ' ', ' ', ' ', ' ', ' ', ' ', ' ', '|', '\n'],
     ['|', ' ', '4', ' ', ' ', ' ', '|', ' ', 'E', ' ', ' ', ' ', ' ', ' ', ' ', ' ', ' ', ' ', ' ', ' ', '|', '\n'],
     ['|', ' ', '\u2026', ' ', ' ', ' ', '|', ' ', '\u2026', ' ', ' ', ' ', ' ', ' ', ' ', ' ', ' ', ' ', ' ', ' ', '|', '\n'],
     ['|', ' ', '2', '5', ' ', ' ', '|', ' ', 'Z', ' ', ' ', ' ', ' ', ' ', ' ', ' ', ' ', ' ', ' ', ' ', '|', '\n'],
     ['|', ' ', '2', '6', ' ', ' ', '|', ' ', 'A', 'A', ' ', ' ', ' ', ' ', ' ', ' ', ' ', ' ', ' ', ' ', '|', '\n'],
     ['|', ' ', '2', '7', ' ', ' ', '|', ' ', 'A', 'B', ' ', ' ', ' ', ' ', ' ', ' ', ' ', ' ', ' ', ' ', '|', '\n'],
     ['|', ' ', '2', '8', ' ', ' ', '|', ' ', 'A', 'C', ' ', ' ', ' ', ' ', ' ', ' ', ' ', ' ', ' ', ' ', '|', '\n'],
     ['|', ' ', '\u2026', ' ', ' ', ' ', '|', ' ', '\u2026', ' ', ' ', ' ', ' ', ' ', ' ', ' ', ' ', ' ', ' ', ' ', '|', '\n'],
     ['|', ' ', '6', '7', '5', ' ', '|', ' ', 'Y', 'Z', ' ', ' ', ' ', ' ', ' ', ' ', ' ', ' ', ' ', ' ', '|', '\n'],
     ['|', ' ', '6', '7', '6', ' ', '|', ' ', 'Z', 'A', ' ', ' ', ' ', ' ', ' ', ' ', ' ', ' ', ' ', ' ', '|', '\n'],
     ['|', ' ', '6', '7', '7', ' ', '|', ' ', 'Z', 'B', ' ', ' ', ' ', ' ', ' ', ' ', ' ', ' ', ' ', ' ', '|', '\n'],
     ['|', ' ', '6', '7', '8', ' ', '|', ' ', 'Z', 'C', ' ', ' ', ' ', ' ', ' ', ' ', ' ', ' ', ' ', ' ', '|', '\n']]
    ['A', '\u200e', ' ', 'B', '\u200e', ' ', 'C', '\u200e', ' ', 'D', '\u200e', ' ', 'E', '\u200e', ' ', '\u2026', '\u200e', ' ', 'Z', '\u200e', ' ', 'A', 'A', '\u200e', ' ', 'A', 'B', '\u200e', ' ', 'A', 'C', '\u200e', ' ', '\u2026', '\u200e', ' ', 'Y', 'Z', '\u200e', ' ', 'Z', 'A', '\u200e', ' ', 'Z', 'B', '\u200e', ' ', 'Z', 'C'] = true := by decide +kernel

/-- src/previews/RomanLower.md -/
example : printed ['R', 'o', 'm', 'a', 'n', 'L', 'o', 'w', 'e', 'r'] Named.romanLower.system
    (.ok [1, 2, 3, 4, 5, 6, 9, 10, 11, 3999, 4000, 4001, 999999, 1000000, 1000001])
    [['|', ' ', '#', ' ', ' ', ' ', ' ', ' ', ' ', ' ', '|', ' ', 'R', 'o', 'm', 'a', 'n', 'L', 'o', 'w', 'e', 'r', ' ', ' ', ' ', '|', '\n'],
     ['|', '-', '-', '-', '-', '-', '-', '-', '-', '-', '|', '-', '-', '-', '-', '-', '-', '-', '-', '-', '-', '-', '-', '-', '-', '|', '\n'],
     ['|', ' ', '1', ' ', ' ', ' ', ' ', ' ', ' ', ' ', '|', ' ', 'i', ' ', ' ', ' ', ' ', ' ', ' ', ' ', ' ', ' ', ' ', ' ', ' ', '|', '\n'],
     ['|', ' ', '2', ' ', ' ', ' ', ' ', ' ', ' ', ' ', '|', ' ', 'i', 'i', ' ', ' ', ' ', ' ', ' ', ' ', ' ', ' ', ' ', ' ', ' ', '|', '\n'],
     ['|', ' ', '3', ' ', ' ', ' ', ' ', ' ', ' ', ' ', '|', ' ', 'i', 'i', 'i', ' ', ' ', ' ', ' ', ' ', ' ', ' ', ' ', ' ', ' ', '|', '\n'],
     ['|', ' ', '4', ' ', ' ', ' ', ' ', ' ', ' ', ' ', '|', ' ', 'i', 'v', ' ', ' ', ' ', ' ', ' ', ' ', ' ', ' ', ' ', ' ', ' ', '|', '\n'],
     ['|', ' ', '5', ' ', ' ', ' ', ' ', ' ', ' ', ' ', '|', ' ', 'v', ' ', ' ', ' ', ' ', ' ', ' ', ' ', ' ', ' ', ' ', ' ', ' ', '|', '\n'],
     ['|', ' ', '6', ' ', ' ', ' ', ' ', ' ', ' ', ' ', '|', ' ', 'v', 'i', ' ', ' ', ' ', ' ', ' ', ' ', ' ', ' ', ' ', ' ', ' ', '|', '\n'],
     ['|', ' ', '\u2026', ' ', ' ', ' ', ' ', ' ', ' ', ' ', '|', ' ', '\u2026', ' ', ' ', ' ', ' ', ' ', ' ', ' ', ' ', ' ', ' ', ' ', ' ', '|', '\n'],
     ['|', ' ', '9', ' ', ' ', ' ', ' ', ' ', ' ', ' ', '|', ' ', 'i', 'x', ' ', ' ', ' ', ' ', ' ', ' ', ' ', ' ', ' ', ' ', ' ', '|', '\n'],
     ['|', ' ', '1', '0', ' ', ' ', ' ', ' ', ' ', ' ', '|', ' ', 'x', ' ', ' ', ' ', ' ', ' ', ' ', ' ', ' ', ' ', ' ', ' ', ' ', '|', '\n'],
     ['|', ' ', '1', '1', ' ', ' ', ' ', ' ', ' ', ' ', '|', ' ', 'x', 'i', ' ', ' ', ' ', ' ', ' ', ' ', ' ', ' ', ' ', ' ', ' ', '|', '\n'],
     ['|', ' ', '\u2026', ' ', ' ', ' ', ' ', ' ', ' ', ' ', '|', ' ', '\u2026', ' ', ' ', ' ', ' ', ' ', ' ', ' ', ' ', ' ', ' ', ' ', ' ', '|', '\n'],
     ['|', ' ', '3', '9', '9', '9', ' ', ' ', ' ', ' ', '|', ' ', 'm', 'm', 'm', 'c', 'm', 'x', 'c', 'i', 'x', ' ', ' ', ' ', ' ', '|', '\n'],
     ['|', ' ', '4', '0', '0', '0', ' ', ' ', ' ', ' ', '|', ' ', 'i', '\u0305', 'v', '\u0305', ' ', ' ', ' ', ' ', ' ', ' ', ' ', ' ', ' ', ' ', ' ', '|', '\n'],
     ['|', ' ', '4', '0', '0', '1', ' ', ' ', ' ', ' ', '|', ' ', 'i', '\u0305', 'v', '\u0305', 'i', ' ', ' ', ' ', ' ', ' ', ' ', ' ', ' ', ' ', ' ', '|', '\n'],
     ['|', ' ', '\u2026', ' ', ' ', ' ', ' ', ' ', ' ', ' ', '|', ' ', '\u2026', ' ', ' ', ' ', ' ', ' ', ' ', ' ', ' ', ' ', ' ', ' ', ' ', '|', '\n'],
     ['|', ' ', '9', '9', '9', '9', '9', '9', ' ', ' ', '|', ' ', 'd', '\u0305', 'm', '\u0305', 'l', '\u0305', 'c', '\u0305', 'i', '\u0305', 'x', '\u0305', 'c', 'm', 'x', 'c', 'i', 'x', ' ', '|', '\n'],
     ['|', ' ', '1', '0', '0', '0', '0', '0', '0', ' ', '|', ' ', 'm', '\u0305', ' ', ' ', ' ', ' ', ' ', ' ', ' ', ' ', ' ', ' ', ' ', ' ', '|', '\n'],
     ['|', ' ', '1', '0', '0', '0', '0', '0', '1', ' ', '|', ' ', 'm', '\u0305', 'i', ' ', ' ', ' ', ' ', ' ', ' ', ' ', ' ', ' ', ' ', ' ', '|', '\n']]
    ['i', '\u200e', ' ', 'i', 'i', '\u200e', ' ', 'i', 'i', 'i', '\u200e', ' ', 'i', 'v', '\u200e', ' ', 'v', '\u200e', ' ', 'v', 'i', '\u200e', ' ', '\u2026', '\u200e', ' ', 'i', 'x', '\u200e', ' ', 'x', '\u200e', ' ', 'x', 'i', '\u200e', ' ', '\u2026', '\u200e', ' ', 'm', 'm', 'm', 'c', 'm', 'x', 'c', 'i', 'x', '\u200e', ' ', 'i', '\u0305', 'v', '\u0305', '\u200e', ' ', 'i', '\u0305', 'v', '\u0305', 'i', '\u200e', ' ', '\u2026', '\u200e', ' ', 'd', '\u0305', 'm', '\u0305', 'l', '\u0305', 'c', '\u0305', 'i', '\u0305', 'x', '\u0305', 'c', 'm', 'x', 'c', 'i', 'x', '\u200e', ' ', 'm', '\u0305', '\u200e', ' ', 'm', '\u0305', 'i'] = true := by decide +kernel

/-- src/previews/RomanUpper.md -/
example : printed ['R', 'o', 'm', 'a', 'n', 'U', 'p', 'p', 'e', 'r'] Named.romanUpper.system
    (.ok [1, 2, 3, 4, 5, 6, 9, 10, 11, 3999, 4000, 4001, 999999, 1000000, 1000001])
    [['|', ' ', '#', ' ', ' ', ' ', ' ', ' ', ' ', ' ', '|', ' ', 'R', 'o', 'm', 'a', 'n', 'U', 'p', 'p', 'e', 'r', ' ', ' ', ' ', '|', '\n'],
     ['|', '-', '-', '-', '-', '-', '-', '-', '-', '-', '|', '-', '-', '-', '-', '-', '-', '-', '-', '-', '-', '-', '-', '-', '-', '|', '\n'],
     ['|', ' ', '1', ' ', ' ', ' ', ' ', ' ', ' ', ' ', '|', ' ', 'I', ' ', ' ', ' ', ' ', ' ', ' ', ' ', ' ', ' ', ' ', ' ', ' ', '|', '\n'],
     ['|', ' ', '2', ' ', ' ', ' ', ' ', ' ', ' ', ' ', '|', ' ', 'I', 'I', ' ', ' ', ' ', ' ', ' ', ' ', ' ', ' ', ' ', ' ', ' ', '|', '\n'],
     ['|', ' ', '3', ' ', ' ', ' ', ' ', ' ', ' ', ' ', '|', ' ', 'I', 'I', 'I', ' ', ' ', ' ', ' ', ' ', ' ', ' ', ' ', ' ', ' ', '|', '\n'],
     ['|', ' ', '4', ' ', ' ', ' ', ' ', ' ', ' ', ' ', '|', ' ', 'I', 'V', ' ', ' ', ' ', ' ', ' ', ' ', ' ', ' ', ' ', ' ', ' ', '|', '\n'],
     ['|', ' ', '5', ' ', ' ', ' ', ' ', ' ', ' ', ' ', '|', ' ', 'V', ' ', ' ', ' ', ' ', ' ', ' ', ' ', ' ', ' ', ' ', ' ', ' ', '|', '\n'],
     ['|', ' ', '6', ' ', ' ', ' ', ' ', ' ', ' ', ' ', '|', ' ', 'V', 'I', ' ', ' ', ' ', ' ', ' ', ' ', ' ', ' ', ' ', ' ', ' ', '|', '\n'],
     ['|', ' ', '\u2026', ' ', ' ', ' ', ' ', ' ', ' ', ' ', '|', ' ', '\u2026', ' ', ' ', ' ', ' ', ' ', ' ', ' ', ' ', ' ', ' ', ' ', ' ', '|', '\n'],
     ['|', ' ', '9', ' ', ' ', ' ', ' ', ' ', ' ', ' ', '|', ' ', 'I', 'X', ' ', ' ', ' ', ' ', ' ', ' ', ' ', ' ', ' ', ' ', ' ', '|', '\n'],
     ['|', ' ', '1', '0', ' ', ' ', ' ', ' ', ' ', ' ', '|', ' ', 'X', ' ', ' ', ' ', ' ', ' ', ' ', ' ', ' ', ' ', ' ', ' ', ' ', '|', '\n'],
     ['|', ' ', '1', '1', ' ', ' ', ' ', ' ', ' ', ' ', '|', ' ', 'X', 'I', ' ', ' ', ' ', ' ', ' ', ' ', ' ', ' ', ' ', ' ', ' ', '|', '\n'],
     ['|', ' ', '\u2026', ' ', ' ', ' ', ' ', ' ', ' ', ' ', '|', ' ', '\u2026', ' ', ' ', ' ', ' ', ' ', ' ', ' ', ' ', ' ', ' ', ' ', ' ', '|', '\n'],
     ['|', ' ', '3', '9', '9', '9', ' ', ' ', ' ', ' ', '|', ' ', 'M', 'M', 'M', 'C', 'M', 'X', 'C', 'I', 'X', ' ', ' ', ' ', ' ', '|', '\n'],
     ['|', ' ', '4', '0', '0', '0', ' ', ' ', ' ', ' ', '|', ' ', 'I', '\u0305', 'V', '\u0305', ' ', ' ', ' ', ' ', ' ', ' ', ' ', ' ', ' ', ' ', ' ', '|', '\n'],
     ['|', ' ', '4', '0', '0', '1', ' ', ' ', ' ', ' ', '|', ' ', 'I', '\u0305', 'V', '\u0305', 'I', ' ', ' ', ' ', ' ', ' ', ' ', ' ', ' ', ' ', ' ', '|', '\n'],
     ['|', ' ', '\u2026', ' ', ' ', ' ', ' ', ' ', ' ', ' ', '|', ' ', '\u2026', ' ', ' ', ' ', ' ', ' ', ' ', ' ', ' ', ' ', ' ', ' ', ' ', '|', '\n'],
     ['|', ' ', '9', '9', '9', '9', '9', '9', ' ', ' ', '|', ' ', 'D', '\u0305', 'M', '\u0305', 'L', '\u0305', 'C', '\u0305', 'I', '\u0305', 'X', '\u0305', 'C', 'M', 'X', 'C', 'I', 'X', ' ', '|', '\n'],
     ['|', ' ', '1', '0', '0', '0', '0', '0', '0', ' ', '|', ' ', 'M', '\u0305', ' ', ' ', ' ', ' ', ' ', ' ', ' ', ' ', ' ', ' ', ' ', ' ', '|', '\n'],
     ['|', ' ', '1', '0', '0', '0', '0', '0', '1', ' ', '|', ' ', 'M', '\u0305', 'I', ' ', ' ', ' ', ' ', ' ', ' ', ' ', ' ', ' ', ' ', ' ', '|', '\n']]
    ['I', '\u200e', ' ', 'I', 'I', '\u200e', ' ', 'I', 'I', 'I', '\u200e', ' ', 'I', 'V', '\u200e', ' ', 'V', '\u200e', ' ', 'V', 'I', '\u200e', ' ', '\u2026', '\u200e', ' ', 'I', 'X', '\u200e', ' ', 'X', '\u200e', ' ', 'X', 'I', '\u200e', ' ', '\u2026', '\u200e', ' ', 'M', 'M', 'M', 'C', 'M', 'X', 'C', 'I', 'X', '\u200e', ' ', 'I', '\u0305', 'V', '\u0305', '\u200e', ' ', 'I', '\u0305', 'V', '\u0305', 'I', '\u200e', ' ', '\u2026', '\u200e', ' ', 'D', '\u0305', 'M', '\u0305', 'L', '\u0305', 'C', '\u0305', 'I', '\u0305', 'X', '\u0305', 'C', 'M', 'X', 'C', 'I', 'X', '\u200e', ' ', 'M', '\u0305', '\u200e', ' ', 'M', '\u0305', 'I'] = true := by decide +kernel

/-- src/previews/CircledNumber.md -/
example : printed ['C', 'i', 'r', 'c', 'l', 'e', 'd', 'N', 'u', 'm', 'b', 'e', 'r'] Named.circledNumber.system
    (.ok [0, 1, 2, 3, 4, 9, 10, 11, 12, 48, 49, 50])
    [['|', ' ', '#', ' ', ' ', '|', ' ', 'C', 'i', 'r', 'c', 'l', 'e', 'd', 'N', 'u', 'm', 'b', 'e', 'r', ' ', '|', '\n'],
     ['|', '-', '-', '-', '-', '|', '-', '-', '-', '-', '-', '-', '-', '-', '-', '-', '-', '-', '-', '-', '-', '|', '\n'],
     ['|', ' ', '0', ' ', ' ', '|', ' ', '\u24ea', ' ', ' ', ' ', ' ', ' ', ' ', ' ', ' ', ' ', ' ', ' ', ' ', ' ', '|', '\n'],
     ['|', ' ', '1', ' ', ' ', '|', ' ', '\u2460', ' ', ' ', ' ', ' ', ' ', ' ', ' ', ' ', ' ', ' ', ' ', ' ', ' ', '|', '\n'],
     ['|', ' ', '2', ' ', ' ', '|', ' ', '\u2461', ' ', ' ', ' ', ' ', ' ', ' ', ' ', ' ', ' ', ' ', ' ', ' ', ' ', '|', '\n'],
     ['|', ' ', '3', ' ', ' ', '|', ' ', '\u2462', ' ', ' ', ' ', ' ', ' ', ' ', ' ', ' ', ' ', ' ', ' ', ' ', ' ', '|', '\n'],
     ['|', ' ', '4', ' ', ' ', '|', ' ', '\u2463', ' ', ' ', ' ', ' ', ' ', ' ', ' ', ' ', ' ', ' ', ' ', ' ', ' ', '|', '\n'],
     ['|', ' ', '\u2026', ' ', ' ', '|', ' ', '\u2026', ' ', ' ', ' ', ' ', ' ', ' ', ' ', ' ', ' ', ' ', ' ', ' ', ' ', '|', '\n'],
     ['|', ' ', '9', ' ', ' ', '|', ' ', '\u2468', ' ', ' ', ' ', ' ', ' ', ' ', ' ', ' ', ' ', ' ', ' ', ' ', ' ', '|', '\n'],
     ['|', ' ', '1', '0', ' ', '|', ' ', '\u2469', ' ', ' ', ' ', ' ', ' ', ' ', ' ', ' ', ' ', ' ', ' ', ' ', ' ', '|', '\n'],
     ['|', ' ', '1', '1', ' ', '|', ' ', '\u246a', ' ', ' ', ' ', ' ', ' ', ' ', ' ', ' ', ' ', ' ', ' ', ' ', ' ', '|', '\n'],
     ['|', ' ', '1', '2', ' ', '|', ' ', '\u246b', ' ', ' ', ' ', ' ', ' ', ' ', ' ', ' ', ' ', ' ', ' ', ' ', ' ', '|', '\n'],
     ['|', ' ', '\u2026', ' ', ' ', '|', ' ', '\u2026', ' ', ' ', ' ', ' ', ' ', ' ', ' ', ' ', ' ', ' ', ' ', ' ', ' ', '|', '\n'],
     ['|', ' ', '4', '8', ' ', '|', ' ', '\u32bd', ' ', ' ', ' ', ' ', ' ', ' ', ' ', ' ', ' ', ' ', ' ', ' ', '|', '\n'],
     ['|', ' ', '4', '9', ' ', '|', ' ', '\u32be', ' ', ' ', ' ', ' ', ' ', ' ', ' ', ' ', ' ', ' ', ' ', ' ', '|', '\n'],
     ['|', ' ', '5', '0', ' ', '|', ' ', '\u32bf', ' ', ' ', ' ', ' ', ' ', ' ', ' ', ' ', ' ', ' ', ' ', ' ', '|', '\n']]
    ['\u24ea', '\u200e', ' ', '\u2460', '\u200e', ' ', '\u2461', '\u200e', ' ', '\u2462', '\u200e', ' ', '\u2463', '\u200e', ' ', '\u2026', '\u200e', ' ', '\u2468', '\u200e', ' ', '\u2469', '\u200e', ' ', '\u246a', '\u200e', ' ', '\u246b', '\u200e', ' ', '\u2026', '\u200e', ' ', '\u32bd', '\u200e', ' ', '\u32be', '\u200e', ' ', '\u32bf'] = true := by decide +kernel

/-- src/previews/DoubleCircledNumber.md -/
example : printed ['D', 'o', 'u', 'b', 'l', 'e', 'C', 'i', 'r', 'c', 'l', 'e', 'd', 'N', 'u', 'm', 'b', 'e', 'r'] Named.doubleCircledNumber.system
    (.ok [1, 2, 3, 4, 5, 6, 7, 8, 9, 10])
    [['|', ' ', '#', ' ', ' ', '|', ' ', 'D', 'o', 'u', 'b', 'l', 'e', 'C', 'i', 'r', 'c', 'l', 'e', 'd', 'N', 'u', 'm', 'b', 'e', 'r', ' ', '|', '\n'],
     ['|', '-', '-', '-', '-', '|', '-', '-', '-', '-', '-', '-', '-', '-', '-', '-', '-', '-', '-', '-', '-', '-', '-', '-', '-', '-', '-', '|', '\n'],
     ['|', ' ', '1', ' ', ' ', '|', ' ', '\u24f5', ' ', ' ', ' ', ' ', ' ', ' ', ' ', ' ', ' ', ' ', ' ', ' ', ' ', ' ', ' ', ' ', ' ', ' ', ' ', '|', '\n'],
     ['|', ' ', '2', ' ', ' ', '|', ' ', '\u24f6', ' ', ' ', ' ', ' ', ' ', ' ', ' ', ' ', ' ', ' ', ' ', ' ', ' ', ' ', ' ', ' ', ' ', ' ', ' ', '|', '\n'],
     ['|', ' ', '3', ' ', ' ', '|', ' ', '\u24f7', ' ', ' ', ' ', ' ', ' ', ' ', ' ', ' ', ' ', ' ', ' ', ' ', ' ', ' ', ' ', ' ', ' ', ' ', ' ', '|', '\n'],
     ['|', ' ', '4', ' ', ' ', '|', ' ', '\u24f8', ' ', ' ', ' ', ' ', ' ', ' ', ' ', ' ', ' ', ' ', ' ', ' ', ' ', ' ', ' ', ' ', ' ', ' ', ' ', '|', '\n'],
     ['|', ' ', '5', ' ', ' ', '|', ' ', '\u24f9', ' ', ' ', ' ', ' ', ' ', ' ', ' ', ' ', ' ', ' ', ' ', ' ', ' ', ' ', ' ', ' ', ' ', ' ', ' ', '|', '\n'],
     ['|', ' ', '6', ' ', ' ', '|', ' ', '\u24fa', ' ', ' ', ' ', ' ', ' ', ' ', ' ', ' ', ' ', ' ', ' ', ' ', ' ', ' ', ' ', ' ', ' ', ' ', ' ', '|', '\n'],
     ['|', ' ', '7', ' ', ' ', '|', ' ', '\u24fb', ' ', ' ', ' ', ' ', ' ', ' ', ' ', ' ', ' ', ' ', ' ', ' ', ' ', ' ', ' ', ' ', ' ', ' ', ' ', '|', '\n'],
     ['|', ' ', '8', ' ', ' ', '|', ' ', '\u24fc', ' ', ' ', ' ', ' ', ' ', ' ', ' ', ' ', ' ', ' ', ' ', ' ', ' ', ' ', ' ', ' ', ' ', ' ', ' ', '|', '\n'],
     ['|', ' ', '9', ' ', ' ', '|', ' ', '\u24fd', ' ', ' ', ' ', ' ', ' ', ' ', ' ', ' ', ' ', ' ', ' ', ' ', ' ', ' ', ' ', ' ', ' ', ' ', ' ', '|', '\n'],
     ['|', ' ', '1', '0', ' ', '|', ' ', '\u24fe', ' ', ' ', ' ', ' ', ' ', ' ', ' ', ' ', ' ', ' ', ' ', ' ', ' ', ' ', ' ', ' ', ' ', ' ', ' ', '|', '\n']]
    ['\u24f5', '\u200e', ' ', '\u24f6', '\u200e', ' ', '\u24f7', '\u200e', ' ', '\u24f8', '\u200e', ' ', '\u24f9', '\u200e', ' ', '\u24fa', '\u200e', ' ', '\u24fb', '\u200e', ' ', '\u24fc', '\u200e', ' ', '\u24fd', '\u200e', ' ', '\u24fe'] = true := by decide +kernel

/-- src/previews/ArmenianLower.md -/
example : printed ['A', 'r', 'm', 'e', 'n', 'i', 'a', 'n', 'L', 'o', 'w', 'e', 'r'] Named.armenianLower.system
    (.ok [1, 2, 3, 9, 10, 11, 12, 99, 100, 101])
    [['|', ' ', '#', ' ', ' ', ' ', '|', ' ', 'A', 'r', 'm', 'e', 'n', 'i', 'a', 'n', 'L', 'o', 'w', 'e', 'r', ' ', '|', '\n'],
     ['|', '-', '-', '-', '-', '-', '|', '-', '-', '-', '-', '-', '-', '-', '-', '-', '-', '-', '-', '-', '-', '-', '|', '\n'],
     ['|', ' ', '1', ' ', ' ', ' ', '|', ' ', '\u0561', ' ', ' ', ' ', ' ', ' ', ' ', ' ', ' ', ' ', ' ', ' ', ' ', ' ', '|', '\n'],
     ['|', ' ', '2', ' ', ' ', ' ', '|', ' ', '\u0562', ' ', ' ', ' ', ' ', ' ', ' ', ' ', ' ', ' ', ' ', ' ', ' ', ' ', '|', '\n'],
     ['|', ' ', '3', ' ', ' ', ' ', '|', ' ', '\u0563', ' ', ' ', ' ', ' ', ' ', ' ', ' ', ' ', ' ', ' ', ' ', ' ', ' ', '|', '\n'],
     ['|', ' ', '\u2026', ' ', ' ', ' ', '|', ' ', '\u2026', ' ', ' ', ' ', ' ', ' ', ' ', ' ', ' ', ' ', ' ', ' ', ' ', ' ', '|', '\n'],
     ['|', ' ', '9', ' ', ' ', ' ', '|', ' ', '\u0569', ' ', ' ', ' ', ' ', ' ', ' ', ' ', ' ', ' ', ' ', ' ', ' ', ' ', '|', '\n'],
     ['|', ' ', '1', '0', ' ', ' ', '|', ' ', '\u056a', ' ', ' ', ' ', ' ', ' ', ' ', ' ', ' ', ' ', ' ', ' ', ' ', ' ', '|', '\n'],
     ['|', ' ', '1', '1', ' ', ' ', '|', ' ', '\u056a', '\u0561', ' ', ' ', ' ', ' ', ' ', ' ', ' ', ' ', ' ', ' ', ' ', ' ', '|', '\n'],
     ['|', ' ', '1', '2', ' ', ' ', '|', ' ', '\u056a', '\u0562', ' ', ' ', ' ', ' ', ' ', ' ', ' ', ' ', ' ', ' ', ' ', ' ', '|', '\n'],
     ['|', ' ', '\u2026', ' ', ' ', ' ', '|', ' ', '\u2026', ' ', ' ', ' ', ' ', ' ', ' ', ' ', ' ', ' ', ' ', ' ', ' ', ' ', '|', '\n'],
     ['|', ' ', '9', '9', ' ', ' ', '|', ' ', '\u0572', '\u0569', ' ', ' ', ' ', ' ', ' ', ' ', ' ', ' ', ' ', ' ', ' ', ' ', '|', '\n'],
     ['|', ' ', '1', '0', '0', ' ', '|', ' ', '\u0573', ' ', ' ', ' ', ' ', ' ', ' ', ' ', ' ', ' ', ' ', ' ', ' ', ' ', '|', '\n'],
     ['|', ' ', '1', '0', '1', ' ', '|', ' ', '\u0573', '\u0561', ' ', ' ', ' ', ' ', ' ', ' ', ' ', ' ', ' ', ' ', ' ', ' ', '|', '\n']]
    ['\u0561', '\u200e', ' ', '\u0562', '\u200e', ' ', '\u0563', '\u200e', ' ', '\u2026', '\u200e', ' ', '\u0569', '\u200e', ' ', '\u056a', '\u200e', ' ', '\u056a', '\u0561', '\u200e', ' ', '\u056a', '\u0562', '\u200e', ' ', '\u2026', '\u200e', ' ', '\u0572', '\u0569', '\u200e', ' ', '\u0573', '\u200e', ' ', '\u0573', '\u0561'] = true := by decide +kernel

/-- src/previews/ArmenianUpper.md -/
example : printed ['A', 'r', 'm', 'e', 'n', 'i', 'a', 'n', 'U', 'p', 'p', 'e', 'r'] Named.armenianUpper.system
    (.ok [1, 2, 3, 9, 10, 11, 12, 99, 100, 101])
    [['|', ' ', '#', ' ', ' ', ' ', '|', ' ', 'A', 'r', 'm', 'e', 'n', 'i', 'a', 'n', 'U', 'p', 'p', 'e', 'r', ' ', '|', '\n'],
     ['|', '-', '-', '-', '-', '-', '|', '-', '-', '-', '-', '-', '-', '-', '-', '-', '-', '-', '-', '-', '-', '-', '|', '\n'],
     ['|', ' ', '1', ' ', ' ', ' ', '|', ' ', '\u0531', ' ', ' ', ' ', ' ', ' ', ' ', ' ', ' ', ' ', ' ', ' ', ' ', ' ', '|', '\n'],
     ['|', ' ', '2', ' ', ' ', ' ', '|', ' ', '\u0532', ' ', ' ', ' ', ' ', ' ', ' ', ' ', ' ', ' ', ' ', ' ', ' ', ' ', '|', '\n'],
     ['|', ' ', '3', ' ', ' ', ' ', '|', ' ', '\u0533', ' ', ' ', ' ', ' ', ' ', ' ', ' ', ' ', ' ', ' ', ' ', ' ', ' ', '|', '\n'],
     ['|', ' ', '\u2026', ' ', ' ', ' ', '|', ' ', '\u2026', ' ', ' ', ' ', ' ', ' ', ' ', ' ', ' ', ' ', ' ', ' ', ' ', ' ', '|', '\n'],
     ['|', ' ', '9', ' ', ' ', ' ', '|', ' ', '\u0539', ' ', ' ', ' ', ' ', ' ', ' ', ' ', ' ', ' ', ' ', ' ', ' ', ' ', '|', '\n'],
     ['|', ' ', '1', '0', ' ', ' ', '|', ' ', '\u053a', ' ', ' ', ' ', ' ', ' ', ' ', ' ', ' ', ' ', ' ', ' ', ' ', ' ', '|', '\n'],
     ['|', ' ', '1', '1', ' ', ' ', '|', ' ', '\u053a', '\u0531', ' ', ' ', ' ', ' ', ' ', ' ', ' ', ' ', ' ', ' ', ' ', ' ', '|', '\n'],
     ['|', ' ', '1', '2', ' ', ' ', '|', ' ', '\u053a', '\u0532', ' ', ' ', ' ', ' ', ' ', ' ', ' ', ' ', ' ', ' ', ' ', ' ', '|', '\n'],
     ['|', ' ', '\u2026', ' ', ' ', ' ', '|', ' ', '\u2026', ' ', ' ', ' ', ' ', ' ', ' ', ' ', ' ', ' ', ' ', ' ', ' ', ' ', '|', '\n'],
     ['|', ' ', '9', '9', ' ', ' ', '|', ' ', '\u0542', '\u0539', ' ', ' ', ' ', ' ', ' ', ' ', ' ', ' ', ' ', ' ', ' ', ' ', '|', '\n'],
     ['|', ' ', '1', '0', '0', ' ', '|', ' ', '\u0543', ' ', ' ', ' ', ' ', ' ', ' ', ' ', ' ', ' ', ' ', ' ', ' ', ' ', '|', '\n'],
     ['|', ' ', '1', '0', '1', ' ', '|', ' ', '\u0543', '\u0531', ' ', ' ', ' ', ' ', ' ', ' ', ' ', ' ', ' ', ' ', ' ', ' ', '|', '\n']]
    ['\u0531', ' ', '\u200e', ' ', '\u0532', '\u200e', ' ', '\u0533', '\u200e', ' ', '\u2026', '\u200e', ' ', '\u0539', '\u200e', ' ', '\u053a', '\u200e', ' ', '\u053a', '\u0531', ' ', '\u200e', ' ', '\u053a', '\u0532', '\u200e', ' ', '\u2026', '\u200e', ' ', '\u0542', '\u0539', '\u200e', ' ', '\u0543', '\u200e', ' ', '\u0543', '\u0531', ' '] = true := by decide +kernel

/-- src/previews/Bengali.md -/
example : printed ['B', 'e', 'n', 'g', 'a', 'l', 'i'] Named.bengali.system
    (previewValues cfg64 (Nominals.bengali.level 0))
    [['|', ' ', '#', ' ', ' ', ' ', '|', ' ', 'B', 'e', 'n', 'g', 'a', 'l', 'i', ' ', '|', '\n'],
     ['|', '-', '-', '-', '-', '-', '|', '-', '-', '-', '-', '-', '-', '-', '-', '-', '|', '\n'],
     ['|', ' ', '0', ' ', ' ', ' ', '|', ' ', '\u09e6', ' ', ' ', ' ', ' ', ' ', ' ', ' ', '|', '\n'],
     ['|', ' ', '1', ' ', ' ', ' ', '|', ' ', '\u09e7', ' ', ' ', ' ', ' ', ' ', ' ', ' ', '|', '\n'],
     ['|', ' ', '2', ' ', ' ', ' ', '|', ' ', '\u09e8', ' ', ' ', ' ', ' ', ' ', ' ', ' ', '|', '\n'],
     ['|', ' ', '3', ' ', ' ', ' ', '|', ' ', '\u09e9', ' ', ' ', ' ', ' ', ' ', ' ', ' ', '|', '\n'],
     ['|', ' ', '4', ' ', ' ', ' ', '|', ' ', '\u09ea', ' ', ' ', ' ', ' ', ' ', ' ', ' ', '|', '\n'],
     ['|', ' ', '\u2026', ' ', ' ', ' ', '|', ' ', '\u2026', ' ', ' ', ' ', ' ', ' ', ' ', ' ', '|', '\n'],
     ['|', ' ', '9', ' ', ' ', ' ', '|', ' ', '\u09ef', ' ', ' ', ' ', ' ', ' ', ' ', ' ', '|', '\n'],
     ['|', ' ', '1', '0', ' ', ' ', '|', ' ', '\u09e7', '\u09e6', ' ', ' ', ' ', ' ', ' ', ' ', '|', '\n'],
     ['|', ' ', '1', '1', ' ', ' ', '|', ' ', '\u09e7', '\u09e7', ' ', ' ', ' ', ' ', ' ', ' ', '|', '\n'],
     ['|', ' ', '1', '2', ' ', ' ', '|', ' ', '\u09e7', '\u09e8', ' ', ' ', ' ', ' ', ' ', ' ', '|', '\n'],
     ['|', ' ', '\u2026', ' ', ' ', ' ', '|', ' ', '\u2026', ' ', ' ', ' ', ' ', ' ', ' ', ' ', '|', '\n'],
     ['|', ' ', '9', '9', ' ', ' ', '|', ' ', '\u09ef', '\u09ef', ' ', ' ', ' ', ' ', ' ', ' ', '|', '\n'],
     ['|', ' ', '1', '0', '0', ' ', '|', ' ', '\u09e7', '\u09e6', '\u09e6', ' ', ' ', ' ', ' ', ' ', '|', '\n'],
     ['|', ' ', '1', '0', '1', ' ', '|', ' ', '\u09e7', '\u09e6', '\u09e7', ' ', ' ', ' ', ' ', ' ', '|', '\n'],
     ['|', ' ', '1', '0', '2', ' ', '|', ' ', '\u09e7', '\u09e6', '\u09e8', ' ', ' ', ' ', ' ', ' ', '|', '\n']]
    ['\u09e6', '\u200e', ' ', '\u09e7', '\u200e', ' ', '\u09e8', '\u200e', ' ', '\u09e9', '\u200e', ' ', '\u09ea', '\u200e', ' ', '\u2026', '\u200e', ' ', '\u09ef', '\u200e', ' ', '\u09e7', '\u09e6', '\u200e', ' ', '\u09e7', '\u09e7', '\u200e', ' ', '\u09e7', '\u09e8', '\u200e', ' ', '\u2026', '\u200e', ' ', '\u09ef', '\u09ef', '\u200e', ' ', '\u09e7', '\u09e6', '\u09e6', '\u200e', ' ', '\u09e7', '\u09e6', '\u09e7', '\u200e', ' ', '\u09e7', '\u09e6', '\u09e8'] = true := by decide +kernel

/-- src/previews/Cambodian.md -/
example : printed ['C', 'a', 'm', 'b', 'o', 'd', 'i', 'a', 'n'] Named.cambodian.system
    (previewValues cfg64 (Nominals.cambodian.level 0))
    [['|', ' ', '#', ' ', ' ', ' ', '|', ' ', 'C', 'a', 'm', 'b', 'o', 'd', 'i', 'a', 'n', ' ', '|', '\n'],
     ['|', '-', '-', '-', '-', '-', '|', '-', '-', '-', '-', '-', '-', '-', '-', '-', '-', '-', '|', '\n'],
     ['|', ' ', '0', ' ', ' ', ' ', '|', ' ', '\u17e0', ' ', ' ', ' ', ' ', ' ', ' ', ' ', ' ', ' ', '|', '\n'],
     ['|', ' ', '1', ' ', ' ', ' ', '|', ' ', '\u17e1', ' ', ' ', ' ', ' ', ' ', ' ', ' ', ' ', ' ', '|', '\n'],
     ['|', ' ', '2', ' ', ' ', ' ', '|', ' ', '\u17e2', ' ', ' ', ' ', ' ', ' ', ' ', ' ', ' ', ' ', '|', '\n'],
     ['|', ' ', '3', ' ', ' ', ' ', '|', ' ', '\u17e3', ' ', ' ', ' ', ' ', ' ', ' ', ' ', ' ', ' ', '|', '\n'],
     ['|', ' ', '4', ' ', ' ', ' ', '|', ' ', '\u17e4', ' ', ' ', ' ', ' ', ' ', ' ', ' ', ' ', ' ', '|', '\n'],
     ['|', ' ', '\u2026', ' ', ' ', ' ', '|', ' ', '\u2026', ' ', ' ', ' ', ' ', ' ', ' ', ' ', ' ', ' ', '|', '\n'],
     ['|', ' ', '9', ' ', ' ', ' ', '|', ' ', '\u17e9', ' ', ' ', ' ', ' ', ' ', ' ', ' ', ' ', ' ', '|', '\n'],
     ['|', ' ', '1', '0', ' ', ' ', '|', ' ', '\u17e1', '\u17e0', ' ', ' ', ' ', ' ', ' ', ' ', ' ', ' ', '|', '\n'],
     ['|', ' ', '1', '1', ' ', ' ', '|', ' ', '\u17e1', '\u17e1', ' ', ' ', ' ', ' ', ' ', ' ', ' ', ' ', '|', '\n'],
     ['|', ' ', '1', '2', ' ', ' ', '|', ' ', '\u17e1', '\u17e2', ' ', ' ', ' ', ' ', ' ', ' ', ' ', ' ', '|', '\n'],
     ['|', ' ', '\u2026', ' ', ' ', ' ', '|', ' ', '\u2026', ' ', ' ', ' ', ' ', ' ', ' ', ' ', ' ', ' ', '|', '\n'],
     ['|', ' ', '9', '9', ' ', ' ', '|', ' ', '\u17e9', '\u17e9', ' ', ' ', ' ', ' ', ' ', ' ', ' ', ' ', '|', '\n'],
     ['|', ' ', '1', '0', '0', ' ', '|', ' ', '\u17e1', '\u17e0', '\u17e0', ' ', ' ', ' ', ' ', ' ', ' ', ' ', '|', '\n'],
     ['|', ' ', '1', '0', '1', ' ', '|', ' ', '\u17e1', '\u17e0', '\u17e1', ' ', ' ', ' ', ' ', ' ', ' ', ' ', '|', '\n'],
     ['|', ' ', '1', '0', '2', ' ', '|', ' ', '\u17e1', '\u17e0', '\u17e2', ' ', ' ', ' ', ' ', ' ', ' ', ' ', '|', '\n']]
    ['\u17e0', '\u200e', ' ', '\u17e1', '\u200e', ' ', '\u17e2', '\u200e', ' ', '\u17e3', '\u200e', ' ', '\u17e4', '\u200e', ' ', '\u2026', '\u200e', ' ', '\u17e9', '\u200e', ' ', '\u17e1', '\u17e0', '\u200e', ' ', '\u17e1', '\u17e1', '\u200e', ' ', '\u17e1', '\u17e2', '\u200e', ' ', '\u2026', '\u200e', ' ', '\u17e9', '\u17e9', '\u200e', ' ', '\u17e1', '\u17e0', '\u17e0', '\u200e', ' ', '\u17e1', '\u17e0', '\u17e1', '\u200e', ' ', '\u17e1', '\u17e0', '\u17e2'] = true := by decide +kernel

/-- src/previews/SimplifiedChineseInformal.md -/
example : printed ['S', 'i', 'm', 'p', 'l', 'i', 'f', 'i', 'e', 'd', 'C', 'h', 'i', 'n', 'e', 's', 'e', 'I', 'n', 'f', 'o', 'r', 'm', 'a', 'l'] (Named.chinese .simplifiedInformal {}).system
    (.ok [0, 1, 2, 9, 10, 11, 19, 20, 21, 99, 100, 101])
    [['|', ' ', '#', ' ', ' ', ' ', '|', ' ', 'S', 'i', 'm', 'p', 'l', 'i', 'f', 'i', 'e', 'd', 'C', 'h', 'i', 'n', 'e', 's', 'e', 'I', 'n', 'f', 'o', 'r', 'm', 'a', 'l', ' ', '|', '\n'],
     ['|', '-', '-', '-', '-', '-', '|', '-', '-', '-', '-', '-', '-', '-', '-', '-', '-', '-', '-', '-', '-', '-', '-', '-', '-', '-', '-', '-', '-', '-', '-', '-', '-', '-', '|', '\n'],
     ['|', ' ', '0', ' ', ' ', ' ', '|', ' ', '\u96f6', ' ', ' ', ' ', ' ', ' ', ' ', ' ', ' ', ' ', ' ', ' ', ' ', ' ', ' ', ' ', ' ', ' ', ' ', ' ', ' ', ' ', ' ', ' ', ' ', '|', '\n'],
     ['|', ' ', '1', ' ', ' ', ' ', '|', ' ', '\u4e00', ' ', ' ', ' ', ' ', ' ', ' ', ' ', ' ', ' ', ' ', ' ', ' ', ' ', ' ', ' ', ' ', ' ', ' ', ' ', ' ', ' ', ' ', ' ', ' ', '|', '\n'],
     ['|', ' ', '2', ' ', ' ', ' ', '|', ' ', '\u4e8c', ' ', ' ', ' ', ' ', ' ', ' ', ' ', ' ', ' ', ' ', ' ', ' ', ' ', ' ', ' ', ' ', ' ', ' ', ' ', ' ', ' ', ' ', ' ', ' ', '|', '\n'],
     ['|', ' ', '\u2026', ' ', ' ', ' ', '|', ' ', '\u2026', ' ', ' ', ' ', ' ', ' ', ' ', ' ', ' ', ' ', ' ', ' ', ' ', ' ', ' ', ' ', ' ', ' ', ' ', ' ', ' ', ' ', ' ', ' ', ' ', ' ', '|', '\n'],
     ['|', ' ', '9', ' ', ' ', ' ', '|', ' ', '\u4e5d', ' ', ' ', ' ', ' ', ' ', ' ', ' ', ' ', ' ', ' ', ' ', ' ', ' ', ' ', ' ', ' ', ' ', ' ', ' ', ' ', ' ', ' ', ' ', ' ', '|', '\n'],
     ['|', ' ', '1', '0', ' ', ' ', '|', ' ', '\u5341', ' ', ' ', ' ', ' ', ' ', ' ', ' ', ' ', ' ', ' ', ' ', ' ', ' ', ' ', ' ', ' ', ' ', ' ', ' ', ' ', ' ', ' ', ' ', ' ', '|', '\n'],
     ['|', ' ', '1', '1', ' ', ' ', '|', ' ', '\u5341', '\u4e00', ' ', ' ', ' ', ' ', ' ', ' ', ' ', ' ', ' ', ' ', ' ', ' ', ' ', ' ', ' ', ' ', ' ', ' ', ' ', ' ', ' ', ' ', '|', '\n'],
     ['|', ' ', '\u2026', ' ', ' ', ' ', '|', ' ', '\u2026', ' ', ' ', ' ', ' ', ' ', ' ', ' ', ' ', ' ', ' ', ' ', ' ', ' ', ' ', ' ', ' ', ' ', ' ', ' ', ' ', ' ', ' ', ' ', ' ', ' ', '|', '\n'],
     ['|', ' ', '1', '9', ' ', ' ', '|', ' ', '\u5341', '\u4e5d', ' ', ' ', ' ', ' ', ' ', ' ', ' ', ' ', ' ', ' ', ' ', ' ', ' ', ' ', ' ', ' ', ' ', ' ', ' ', ' ', ' ', ' ', '|', '\n'],
     ['|', ' ', '2', '0', ' ', ' ', '|', ' ', '\u4e8c', '\u5341', ' ', ' ', ' ', ' ', ' ', ' ', ' ', ' ', ' ', ' ', ' ', ' ', ' ', ' ', ' ', ' ', ' ', ' ', ' ', ' ', ' ', ' ', '|', '\n'],
     ['|', ' ', '2', '1', ' ', ' ', '|', ' ', '\u4e8c', '\u5341', '\u4e00', ' ', ' ', ' ', ' ', ' ', ' ', ' ', ' ', ' ', ' ', ' ', ' ', ' ', ' ', ' ', ' ', ' ', ' ', ' ', ' ', '|', '\n'],
     ['|', ' ', '\u2026', ' ', ' ', ' ', '|', ' ', '\u2026', ' ', ' ', ' ', ' ', ' ', ' ', ' ', ' ', ' ', ' ', ' ', ' ', ' ', ' ', ' ', ' ', ' ', ' ', ' ', ' ', ' ', ' ', ' ', ' ', ' ', '|', '\n'],
     ['|', ' ', '9', '9', ' ', ' ', '|', ' ', '\u4e5d', '\u5341', '\u4e5d', ' ', ' ', ' ', ' ', ' ', ' ', ' ', ' ', ' ', ' ', ' ', ' ', ' ', ' ', ' ', ' ', ' ', ' ', ' ', ' ', '|', '\n'],
     ['|', ' ', '1', '0', '0', ' ', '|', ' ', '\u4e00', '\u767e', ' ', ' ', ' ', ' ', ' ', ' ', ' ', ' ', ' ', ' ', ' ', ' ', ' ', ' ', ' ', ' ', ' ', ' ', ' ', ' ', ' ', ' ', '|', '\n'],
     ['|', ' ', '1', '0', '1', ' ', '|', ' ', '\u4e00', '\u767e', '\u96f6', '\u4e00', ' ', ' ', ' ', ' ', ' ', ' ', ' ', ' ', ' ', ' ', ' ', ' ', ' ', ' ', ' ', ' ', ' ', ' ', '|', '\n']]
    ['\u96f6', '\u200e', ' ', '\u4e00', '\u200e', ' ', '\u4e8c', '\u200e', ' ', '\u2026', '\u200e', ' ', '\u4e5d', '\u200e', ' ', '\u5341', '\u200e', ' ', '\u5341', '\u4e00', '\u200e', ' ', '\u2026', '\u200e', ' ', '\u5341', '\u4e5d', '\u200e', ' ', '\u4e8c', '\u5341', '\u200e', ' ', '\u4e8c', '\u5341', '\u4e00', '\u200e', ' ', '\u2026', '\u200e', ' ', '\u4e5d', '\u5341', '\u4e5d', '\u200e', ' ', '\u4e00', '\u767e', '\u200e', ' ', '\u4e00', '\u767e', '\u96f6', '\u4e00'] = true := by decide +kernel

/-- src/previews/TraditionalChineseInformal.md -/
example : printed ['T', 'r', 'a', 'd', 'i', 't', 'i', 'o', 'n', 'a', 'l', 'C', 'h', 'i', 'n', 'e', 's', 'e', 'I', 'n', 'f', 'o', 'r', 'm', 'a', 'l'] (Named.chinese .traditionalInformal {}).system
    (.ok [0, 1, 2, 9, 10, 11, 19, 20, 21, 99, 100, 101])
    [['|', ' ', '#', ' ', ' ', ' ', '|', ' ', 'T', 'r', 'a', 'd', 'i', 't', 'i', 'o', 'n', 'a', 'l', 'C', 'h', 'i', 'n', 'e', 's', 'e', 'I', 'n', 'f', 'o', 'r', 'm', 'a', 'l', ' ', '|', '\n'],
     ['|', '-', '-', '-', '-', '-', '|', '-', '-', '-', '-', '-', '-', '-', '-', '-', '-', '-', '-', '-', '-', '-', '-', '-', '-', '-', '-', '-', '-', '-', '-', '-', '-', '-', '-', '|', '\n'],
     ['|', ' ', '0', ' ', ' ', ' ', '|', ' ', '\u96f6', ' ', ' ', ' ', ' ', ' ', ' ', ' ', ' ', ' ', ' ', ' ', ' ', ' ', ' ', ' ', ' ', ' ', ' ', ' ', ' ', ' ', ' ', ' ', ' ', ' ', '|', '\n'],
     ['|', ' ', '1', ' ', ' ', ' ', '|', ' ', '\u4e00', ' ', ' ', ' ', ' ', ' ', ' ', ' ', ' ', ' ', ' ', ' ', ' ', ' ', ' ', ' ', ' ', ' ', ' ', ' ', ' ', ' ', ' ', ' ', ' ', ' ', '|', '\n'],
     ['|', ' ', '2', ' ', ' ', ' ', '|', ' ', '\u4e8c', ' ', ' ', ' ', ' ', ' ', ' ', ' ', ' ', ' ', ' ', ' ', ' ', ' ', ' ', ' ', ' ', ' ', ' ', ' ', ' ', ' ', ' ', ' ', ' ', ' ', '|', '\n'],
     ['|', ' ', '\u2026', ' ', ' ', ' ', '|', ' ', '\u2026', ' ', ' ', ' ', ' ', ' ', ' ', ' ', ' ', ' ', ' ', ' ', ' ', ' ', ' ', ' ', ' ', ' ', ' ', ' ', ' ', ' ', ' ', ' ', ' ', ' ', ' ', '|', '\n'],
     ['|', ' ', '9', ' ', ' ', ' ', '|', ' ', '\u4e5d', ' ', ' ', ' ', ' ', ' ', ' ', ' ', ' ', ' ', ' ', ' ', ' ', ' ', ' ', ' ', ' ', ' ', ' ', ' ', ' ', ' ', ' ', ' ', ' ', ' ', '|', '\n'],
     ['|', ' ', '1', '0', ' ', ' ', '|', ' ', '\u5341', ' ', ' ', ' ', ' ', ' ', ' ', ' ', ' ', ' ', ' ', ' ', ' ', ' ', ' ', ' ', ' ', ' ', ' ', ' ', ' ', ' ', ' ', ' ', ' ', ' ', '|', '\n'],
     ['|', ' ', '1', '1', ' ', ' ', '|', ' ', '\u5341', '\u4e00', ' ', ' ', ' ', ' ', ' ', ' ', ' ', ' ', ' ', ' ', ' ', ' ', ' ', ' ', ' ', ' ', ' ', ' ', ' ', ' ', ' ', ' ', ' ', '|', '\n'],
     ['|', ' ', '\u2026', ' ', ' ', ' ', '|', ' ', '\u2026', ' ', ' ', ' ', ' ', ' ', ' ', ' ', ' ', ' ', ' ', ' ', ' ', ' ', ' ', ' ', ' ', ' ', ' ', ' ', ' ', ' ', ' ', ' ', ' ', ' ', ' ', '|', '\n'],
     ['|', ' ', '1', '9', ' ', ' ', '|', ' ', '\u5341', '\u4e5d', ' ', ' ', ' ', ' ', ' ', ' ', ' ', ' ', ' ', ' ', ' ', ' ', ' ', ' ', ' ', ' ', ' ', ' ', ' ', ' ', ' ', ' ', ' ', '|', '\n'],
     ['|', ' ', '2', '0', ' ', ' ', '|', ' ', '\u4e8c', '\u5341', ' ', ' ', ' ', ' ', ' ', ' ', ' ', ' ', ' ', ' ', ' ', ' ', ' ', ' ', ' ', ' ', ' ', ' ', ' ', ' ', ' ', ' ', ' ', '|', '\n'],
     ['|', ' ', '2', '1', ' ', ' ', '|', ' ', '\u4e8c', '\u5341', '\u4e00', ' ', ' ', ' ', ' ', ' ', ' ', ' ', ' ', ' ', ' ', ' ', ' ', ' ', ' ', ' ', ' ', ' ', ' ', ' ', ' ', ' ', '|', '\n'],
     ['|', ' ', '\u2026', ' ', ' ', ' ', '|', ' ', '\u2026', ' ', ' ', ' ', ' ', ' ', ' ', ' ', ' ', ' ', ' ', ' ', ' ', ' ', ' ', ' ', ' ', ' ', ' ', ' ', ' ', ' ', ' ', ' ', ' ', ' ', ' ', '|', '\n'],
     ['|', ' ', '9', '9', ' ', ' ', '|', ' ', '\u4e5d', '\u5341', '\u4e5d', ' ', ' ', ' ', ' ', ' ', ' ', ' ', ' ', ' ', ' ', ' ', ' ', ' ', ' ', ' ', ' ', ' ', ' ', ' ', ' ', ' ', '|', '\n'],
     ['|', ' ', '1', '0', '0', ' ', '|', ' ', '\u4e00', '\u767e', ' ', ' ', ' ', ' ', ' ', ' ', ' ', ' ', ' ', ' ', ' ', ' ', ' ', ' ', ' ', ' ', ' ', ' ', ' ', ' ', ' ', ' ', ' ', '|', '\n'],
     ['|', ' ', '1', '0', '1', ' ', '|', ' ', '\u4e00', '\u767e', '\u96f6', '\u4e00', ' ', ' ', ' ', ' ', ' ', ' ', ' ', ' ', ' ', ' ', ' ', ' ', ' ', ' ', ' ', ' ', ' ', ' ', ' ', '|', '\n']]
    ['\u96f6', '\u200e', ' ', '\u4e00', '\u200e', ' ', '\u4e8c', '\u200e', ' ', '\u2026', '\u200e', ' ', '\u4e5d', '\u200e', ' ', '\u5341', '\u200e', ' ', '\u5341', '\u4e00', '\u200e', ' ', '\u2026', '\u200e', ' ', '\u5341', '\u4e5d', '\u200e', ' ', '\u4e8c', '\u5341', '\u200e', ' ', '\u4e8c', '\u5341', '\u4e00', '\u200e', ' ', '\u2026', '\u200e', ' ', '\u4e5d', '\u5341', '\u4e5d', '\u200e', ' ', '\u4e00', '\u767e', '\u200e', ' ', '\u4e00', '\u767e', '\u96f6', '\u4e00'] = true := by decide +kernel

/-- src/previews/SimplifiedChineseFormal.md -/
example : printed ['S', 'i', 'm', 'p', 'l', 'i', 'f', 'i', 'e', 'd', 'C', 'h', 'i', 'n', 'e', 's', 'e', 'F', 'o', 'r', 'm', 'a', 'l'] (Named.chinese .simplifiedFormal {}).system
    (.ok [0, 1, 2, 9, 10, 11, 19, 20, 21, 99, 100, 101])
    [['|', ' ', '#', ' ', ' ', ' ', '|', ' ', 'S', 'i', 'm', 'p', 'l', 'i', 'f', 'i', 'e', 'd', 'C', 'h', 'i', 'n', 'e', 's', 'e', 'F', 'o', 'r', 'm', 'a', 'l', ' ', '|', '\n'],
     ['|', '-', '-', '-', '-', '-', '|', '-', '-', '-', '-', '-', '-', '-', '-', '-', '-', '-', '-', '-', '-', '-', '-', '-', '-', '-', '-', '-', '-', '-', '-', '-', '|', '\n'],
     ['|', ' ', '0', ' ', ' ', ' ', '|', ' ', '\u96f6', ' ', ' ', ' ', ' ', ' ', ' ', ' ', ' ', ' ', ' ', ' ', ' ', ' ', ' ', ' ', ' ', ' ', ' ', ' ', ' ', ' ', ' ', '|', '\n'],
     ['|', ' ', '1', ' ', ' ', ' ', '|', ' ', '\u4e00', ' ', ' ', ' ', ' ', ' ', ' ', ' ', ' ', ' ', ' ', ' ', ' ', ' ', ' ', ' ', ' ', ' ', ' ', ' ', ' ', ' ', ' ', '|', '\n'],
     ['|', ' ', '2', ' ', ' ', ' ', '|', ' ', '\u4e8c', ' ', ' ', ' ', ' ', ' ', ' ', ' ', ' ', ' ', ' ', ' ', ' ', ' ', ' ', ' ', ' ', ' ', ' ', ' ', ' ', ' ', ' ', '|', '\n'],
     ['|', ' ', '\u2026', ' ', ' ', ' ', '|', ' ', '\u2026', ' ', ' ', ' ', ' ', ' ', ' ', ' ', ' ', ' ', ' ', ' ', ' ', ' ', ' ', ' ', ' ', ' ', ' ', ' ', ' ', ' ', ' ', ' ', '|', '\n'],
     ['|', ' ', '9', ' ', ' ', ' ', '|', ' ', '\u4e5d', ' ', ' ', ' ', ' ', ' ', ' ', ' ', ' ', ' ', ' ', ' ', ' ', ' ', ' ', ' ', ' ', ' ', ' ', ' ', ' ', ' ', ' ', '|', '\n'],
     ['|', ' ', '1', '0', ' ', ' ', '|', ' ', '\u4e00', '\u5341', ' ', ' ', ' ', ' ', ' ', ' ', ' ', ' ', ' ', ' ', ' ', ' ', ' ', ' ', ' ', ' ', ' ', ' ', ' ', ' ', '|', '\n'],
     ['|', ' ', '1', '1', ' ', ' ', '|', ' ', '\u4e00', '\u5341', '\u4e00', ' ', ' ', ' ', ' ', ' ', ' ', ' ', ' ', ' ', ' ', ' ', ' ', ' ', ' ', ' ', ' ', ' ', ' ', '|', '\n'],
     ['|', ' ', '\u2026', ' ', ' ', ' ', '|', ' ', '\u2026', ' ', ' ', ' ', ' ', ' ', ' ', ' ', ' ', ' ', ' ', ' ', ' ', ' ', ' ', ' ', ' ', ' ', ' ', ' ', ' ', ' ', ' ', ' ', '|', '\n'],
     ['|', ' ', '1', '9', ' ', ' ', '|', ' ', '\u4e00', '\u5341', '\u4e5d', ' ', ' ', ' ', ' ', ' ', ' ', ' ', ' ', ' ', ' ', ' ', ' ', ' ', ' ', ' ', ' ', ' ', ' ', '|', '\n'],
     ['|', ' ', '2', '0', ' ', ' ', '|', ' ', '\u4e8c', '\u5341', ' ', ' ', ' ', ' ', ' ', ' ', ' ', ' ', ' ', ' ', ' ', ' ', ' ', ' ', ' ', ' ', ' ', ' ', ' ', ' ', '|', '\n'],
     ['|', ' ', '2', '1', ' ', ' ', '|', ' ', '\u4e8c', '\u5341', '\u4e00', ' ', ' ', ' ', ' ', ' ', ' ', ' ', ' ', ' ', ' ', ' ', ' ', ' ', ' ', ' ', ' ', ' ', ' ', '|', '\n'],
     ['|', ' ', '\u2026', ' ', ' ', ' ', '|', ' ', '\u2026', ' ', ' ', ' ', ' ', ' ', ' ', ' ', ' ', ' ', ' ', ' ', ' ', ' ', ' ', ' ', ' ', ' ', ' ', ' ', ' ', ' ', ' ', ' ', '|', '\n'],
     ['|', ' ', '9', '9', ' ', ' ', '|', ' ', '\u4e5d', '\u5341', '\u4e5d', ' ', ' ', ' ', ' ', ' ', ' ', ' ', ' ', ' ', ' ', ' ', ' ', ' ', ' ', ' ', ' ', ' ', ' ', '|', '\n'],
     ['|', ' ', '1', '0', '0', ' ', '|', ' ', '\u4e00', '\u767e', ' ', ' ', ' ', ' ', ' ', ' ', ' ', ' ', ' ', ' ', ' ', ' ', ' ', ' ', ' ', ' ', ' ', ' ', ' ', ' ', '|', '\n'],
     ['|', ' ', '1', '0', '1', ' ', '|', ' ', '\u4e00', '\u767e', '\u96f6', '\u4e00', ' ', ' ', ' ', ' ', ' ', ' ', ' ', ' ', ' ', ' ', ' ', ' ', ' ', ' ', ' ', ' ', '|', '\n']]
    ['\u96f6', '\u200e', ' ', '\u4e00', '\u200e', ' ', '\u4e8c', '\u200e', ' ', '\u2026', '\u200e', ' ', '\u4e5d', '\u200e', ' ', '\u4e00', '\u5341', '\u200e', ' ', '\u4e00', '\u5341', '\u4e00', '\u200e', ' ', '\u2026', '\u200e', ' ', '\u4e00', '\u5341', '\u4e5d', '\u200e', ' ', '\u4e8c', '\u5341', '\u200e', ' ', '\u4e8c', '\u5341', '\u4e00', '\u200e', ' ', '\u2026', '\u200e', ' ', '\u4e5d', '\u5341', '\u4e5d', '\u200e', ' ', '\u4e00', '\u767e', '\u200e', ' ', '\u4e00', '\u767e', '\u96f6', '\u4e00'] = true := by decide +kernel

/-- src/previews/TraditionalChineseFormal.md -/
example : printed ['T', 'r', 'a', 'd', 'i', 't', 'i', 'o', 'n', 'a', 'l', 'C', 'h', 'i', 'n', 'e', 's', 'e', 'F', 'o', 'r', 'm', 'a', 'l'] (Named.chinese .traditionalFormal {}).system
    (.ok [0, 1, 2, 9, 10, 11, 19, 20, 21, 99, 100, 101])
    [['|', ' ', '#', ' ', ' ', ' ', '|', ' ', 'T', 'r', 'a', 'd', 'i', 't', 'i', 'o', 'n', 'a', 'l', 'C', 'h', 'i', 'n', 'e', 's', 'e', 'F', 'o', 'r', 'm', 'a', 'l', ' ', '|', '\n'],
     ['|', '-', '-', '-', '-', '-', '|', '-', '-', '-', '-', '-', '-', '-', '-', '-', '-', '-', '-', '-', '-', '-', '-', '-', '-', '-', '-', '-', '-', '-', '-', '-', '-', '|', '\n'],
     ['|', ' ', '0', ' ', ' ', ' ', '|', ' ', '\u96f6', ' ', ' ', ' ', ' ', ' ', ' ', ' ', ' ', ' ', ' ', ' ', ' ', ' ', ' ', ' ', ' ', ' ', ' ', ' ', ' ', ' ', ' ', ' ', '|', '\n'],
     ['|', ' ', '1', ' ', ' ', ' ', '|', ' ', '\u4e00', ' ', ' ', ' ', ' ', ' ', ' ', ' ', ' ', ' ', ' ', ' ', ' ', ' ', ' ', ' ', ' ', ' ', ' ', ' ', ' ', ' ', ' ', ' ', '|', '\n'],
     ['|', ' ', '2', ' ', ' ', ' ', '|', ' ', '\u4e8c', ' ', ' ', ' ', ' ', ' ', ' ', ' ', ' ', ' ', ' ', ' ', ' ', ' ', ' ', ' ', ' ', ' ', ' ', ' ', ' ', ' ', ' ', ' ', '|', '\n'],
     ['|', ' ', '\u2026', ' ', ' ', ' ', '|', ' ', '\u2026', ' ', ' ', ' ', ' ', ' ', ' ', ' ', ' ', ' ', ' ', ' ', ' ', ' ', ' ', ' ', ' ', ' ', ' ', ' ', ' ', ' ', ' ', ' ', ' ', '|', '\n'],
     ['|', ' ', '9', ' ', ' ', ' ', '|', ' ', '\u4e5d', ' ', ' ', ' ', ' ', ' ', ' ', ' ', ' ', ' ', ' ', ' ', ' ', ' ', ' ', ' ', ' ', ' ', ' ', ' ', ' ', ' ', ' ', ' ', '|', '\n'],
     ['|', ' ', '1', '0', ' ', ' ', '|', ' ', '\u4e00', '\u5341', ' ', ' ', ' ', ' ', ' ', ' ', ' ', ' ', ' ', ' ', ' ', ' ', ' ', ' ', ' ', ' ', ' ', ' ', ' ', ' ', ' ', '|', '\n'],
     ['|', ' ', '1', '1', ' ', ' ', '|', ' ', '\u4e00', '\u5341', '\u4e00', ' ', ' ', ' ', ' ', ' ', ' ', ' ', ' ', ' ', ' ', ' ', ' ', ' ', ' ', ' ', ' ', ' ', ' ', ' ', '|', '\n'],
     ['|', ' ', '\u2026', ' ', ' ', ' ', '|', ' ', '\u2026', ' ', ' ', ' ', ' ', ' ', ' ', ' ', ' ', ' ', ' ', ' ', ' ', ' ', ' ', ' ', ' ', ' ', ' ', ' ', ' ', ' ', ' ', ' ', ' ', '|', '\n'],
     ['|', ' ', '1', '9', ' ', ' ', '|', ' ', '\u4e00', '\u5341', '\u4e5d', ' ', ' ', ' ', ' ', ' ', ' ', ' ', ' ', ' ', ' ', ' ', ' ', ' ', ' ', ' ', ' ', ' ', ' ', ' ', '|', '\n'],
     ['|', ' ', '2', '0', ' ', ' ', '|', ' ', '\u4e8c', '\u5341', ' ', ' ', ' ', ' ', ' ', ' ', ' ', ' ', ' ', ' ', ' ', ' ', ' ', ' ', ' ', ' ', ' ', ' ', ' ', ' ', ' ', '|', '\n'],
     ['|', ' ', '2', '1', ' ', ' ', '|', ' ', '\u4e8c', '\u5341', '\u4e00', ' ', ' ', ' ', ' ', ' ', ' ', ' ', ' ', ' ', ' ', ' ', ' ', ' ', ' ', ' ', ' ', ' ', ' ', ' ', '|', '\n'],
     ['|', ' ', '\u2026', ' ', ' ', ' ', '|', ' ', '\u2026', ' ', ' ', ' ', ' ', ' ', ' ', ' ', ' ', ' ', ' ', ' ', ' ', ' ', ' ', ' ', ' ', ' ', ' ', ' ', ' ', ' ', ' ', ' ', ' ', '|', '\n'],
     ['|', ' ', '9', '9', ' ', ' ', '|', ' ', '\u4e5d', '\u5341', '\u4e5d', ' ', ' ', ' ', ' ', ' ', ' ', ' ', ' ', ' ', ' ', ' ', ' ', ' ', ' ', ' ', ' ', ' ', ' ', ' ', '|', '\n'],
     ['|', ' ', '1', '0', '0', ' ', '|', ' ', '\u4e00', '\u767e', ' ', ' ', ' ', ' ', ' ', ' ', ' ', ' ', ' ', ' ', ' ', ' ', ' ', ' ', ' ', ' ', ' ', ' ', ' ', ' ', ' ', '|', '\n'],
     ['|', ' ', '1', '0', '1', ' ', '|', ' ', '\u4e00', '\u767e', '\u96f6', '\u4e00', ' ', ' ', ' ', ' ', ' ', ' ', ' ', ' ', ' ', ' ', ' ', ' ', ' ', ' ', ' ', ' ', ' ', '|', '\n']]
    ['\u96f6', '\u200e', ' ', '\u4e00', '\u200e', ' ', '\u4e8c', '\u200e', ' ', '\u2026', '\u200e', ' ', '\u4e5d', '\u200e', ' ', '\u4e00', '\u5341', '\u200e', ' ', '\u4e00', '\u5341', '\u4e00', '\u200e', ' ', '\u2026', '\u200e', ' ', '\u4e00', '\u5341', '\u4e5d', '\u200e', ' ', '\u4e8c', '\u5341', '\u200e', ' ', '\u4e8c', '\u5341', '\u4e00', '\u200e', ' ', '\u2026', '\u200e', ' ', '\u4e5d', '\u5341', '\u4e5d', '\u200e', ' ', '\u4e00', '\u767e', '\u200e', ' ', '\u4e00', '\u767e', '\u96f6', '\u4e00'] = true := by decide +kernel

/-- src/previews/CjkDecimal.md -/
example : printed ['C', 'j', 'k', 'D', 'e', 'c', 'i', 'm', 'a', 'l'] Named.cjkDecimal.system
    (previewValues cfg64 (Nominals.cjkDecimal.level 0))
    [['|', ' ', '#', ' ', ' ', ' ', '|', ' ', 'C', 'j', 'k', 'D', 'e', 'c', 'i', 'm', 'a', 'l', ' ', '|', '\n'],
     ['|', '-', '-', '-', '-', '-', '|', '-', '-', '-', '-', '-', '-', '-', '-', '-', '-', '-', '-', '|', '\n'],
     ['|', ' ', '0', ' ', ' ', ' ', '|', ' ', '\u3007', ' ', ' ', ' ', ' ', ' ', ' ', ' ', ' ', ' ', '|', '\n'],
     ['|', ' ', '1', ' ', ' ', ' ', '|', ' ', '\u4e00', ' ', ' ', ' ', ' ', ' ', ' ', ' ', ' ', ' ', '|', '\n'],
     ['|', ' ', '2', ' ', ' ', ' ', '|', ' ', '\u4e8c', ' ', ' ', ' ', ' ', ' ', ' ', ' ', ' ', ' ', '|', '\n'],
     ['|', ' ', '3', ' ', ' ', ' ', '|', ' ', '\u4e09', ' ', ' ', ' ', ' ', ' ', ' ', ' ', ' ', ' ', '|', '\n'],
     ['|', ' ', '4', ' ', ' ', ' ', '|', ' ', '\u56db', ' ', ' ', ' ', ' ', ' ', ' ', ' ', ' ', ' ', '|', '\n'],
     ['|', ' ', '\u2026', ' ', ' ', ' ', '|', ' ', '\u2026', ' ', ' ', ' ', ' ', ' ', ' ', ' ', ' ', ' ', ' ', '|', '\n'],
     ['|', ' ', '9', ' ', ' ', ' ', '|', ' ', '\u4e5d', ' ', ' ', ' ', ' ', ' ', ' ', ' ', ' ', ' ', '|', '\n'],
     ['|', ' ', '1', '0', ' ', ' ', '|', ' ', '\u4e00', '\u3007', ' ', ' ', ' ', ' ', ' ', ' ', ' ', '|', '\n'],
     ['|', ' ', '1', '1', ' ', ' ', '|', ' ', '\u4e00', '\u4e00', ' ', ' ', ' ', ' ', ' ', ' ', ' ', '|', '\n'],
     ['|', ' ', '1', '2', ' ', ' ', '|', ' ', '\u4e00', '\u4e8c', ' ', ' ', ' ', ' ', ' ', ' ', ' ', '|', '\n'],
     ['|', ' ', '\u2026', ' ', ' ', ' ', '|', ' ', '\u2026', ' ', ' ', ' ', ' ', ' ', ' ', ' ', ' ', ' ', ' ', '|', '\n'],
     ['|', ' ', '9', '9', ' ', ' ', '|', ' ', '\u4e5d', '\u4e5d', ' ', ' ', ' ', ' ', ' ', ' ', ' ', '|', '\n'],
     ['|', ' ', '1', '0', '0', ' ', '|', ' ', '\u4e00', '\u3007', '\u3007', ' ', ' ', ' ', ' ', ' ', '|', '\n'],
     ['|', ' ', '1', '0', '1', ' ', '|', ' ', '\u4e00', '\u3007', '\u4e00', ' ', ' ', ' ', ' ', ' ', '|', '\n'],
     ['|', ' ', '1', '0', '2', ' ', '|', ' ', '\u4e00', '\u3007', '\u4e8c', ' ', ' ', ' ', ' ', ' ', '|', '\n']]
    ['\u3007', '\u200e', ' ', '\u4e00', '\u200e', ' ', '\u4e8c', '\u200e', ' ', '\u4e09', '\u200e', ' ', '\u56db', '\u200e', ' ', '\u2026', '\u200e', ' ', '\u4e5d', '\u200e', ' ', '\u4e00', '\u3007', '\u200e', ' ', '\u4e00', '\u4e00', '\u200e', ' ', '\u4e00', '\u4e8c', '\u200e', ' ', '\u2026', '\u200e', ' ', '\u4e5d', '\u4e5d', '\u200e', ' ', '\u4e00', '\u3007', '\u3007', '\u200e', ' ', '\u4e00', '\u3007', '\u4e00', '\u200e', ' ', '\u4e00', '\u3007', '\u4e8c'] = true := by decide +kernel

/-- src/previews/CjkEarthlyBranch.md -/
example : printed ['C', 'j', 'k', 'E', 'a', 'r', 't', 'h', 'l', 'y', 'B', 'r', 'a', 'n', 'c', 'h'] Named.cjkEarthlyBranch.system
    (previewValues cfg64 (Nominals.cjkEarthlyBranch.level 0))
    [['|', ' ', '#', ' ', ' ', ' ', '|', ' ', 'C', 'j', 'k', 'E', 'a', 'r', 't', 'h', 'l', 'y', 'B', 'r', 'a', 'n', 'c', 'h', ' ', '|', '\n'],
     ['|', '-', '-', '-', '-', '-', '|', '-', '-', '-', '-', '-', '-', '-', '-', '-', '-', '-', '-', '-', '-', '-', '-', '-', '-', '|', '\n'],
     ['|', ' ', '1', ' ', ' ', ' ', '|', ' ', '\u5b50', ' ', ' ', ' ', ' ', ' ', ' ', ' ', ' ', ' ', ' ', ' ', ' ', ' ', ' ', ' ', '|', '\n'],
     ['|', ' ', '2', ' ', ' ', ' ', '|', ' ', '\u4e11', ' ', ' ', ' ', ' ', ' ', ' ', ' ', ' ', ' ', ' ', ' ', ' ', ' ', ' ', ' ', '|', '\n'],
     ['|', ' ', '3', ' ', ' ', ' ', '|', ' ', '\u5bc5', ' ', ' ', ' ', ' ', ' ', ' ', ' ', ' ', ' ', ' ', ' ', ' ', ' ', ' ', ' ', '|', '\n'],
     ['|', ' ', '4', ' ', ' ', ' ', '|', ' ', '\u536f', ' ', ' ', ' ', ' ', ' ', ' ', ' ', ' ', ' ', ' ', ' ', ' ', ' ', ' ', ' ', '|', '\n'],
     ['|', ' ', '5', ' ', ' ', ' ', '|', ' ', '\u8fb0', ' ', ' ', ' ', ' ', ' ', ' ', ' ', ' ', ' ', ' ', ' ', ' ', ' ', ' ', ' ', '|', '\n'],
     ['|', ' ', '\u2026', ' ', ' ', ' ', '|', ' ', '\u2026', ' ', ' ', ' ', ' ', ' ', ' ', ' ', ' ', ' ', ' ', ' ', ' ', ' ', ' ', ' ', ' ', '|', '\n'],
     ['|', ' ', '1', '2', ' ', ' ', '|', ' ', '\u4ea5', ' ', ' ', ' ', ' ', ' ', ' ', ' ', ' ', ' ', ' ', ' ', ' ', ' ', ' ', ' ', '|', '\n'],
     ['|', ' ', '1', '3', ' ', ' ', '|', ' ', '\u4e00', '\u4e09', ' ', ' ', ' ', ' ', ' ', ' ', ' ', ' ', ' ', ' ', ' ', ' ', ' ', '|', '\n'],
     ['|', ' ', '1', '4', ' ', ' ', '|', ' ', '\u4e00', '\u56db', ' ', ' ', ' ', ' ', ' ', ' ', ' ', ' ', ' ', ' ', ' ', ' ', ' ', '|', '\n'],
     ['|', ' ', '1', '5', ' ', ' ', '|', ' ', '\u4e00', '\u4e94', ' ', ' ', ' ', ' ', ' ', ' ', ' ', ' ', ' ', ' ', ' ', ' ', ' ', '|', '\n'],
     ['|', ' ', '\u2026', ' ', ' ', ' ', '|', ' ', '\u2026', ' ', ' ', ' ', ' ', ' ', ' ', ' ', ' ', ' ', ' ', ' ', ' ', ' ', ' ', ' ', ' ', '|', '\n'],
     ['|', ' ', '1', '4', '4', ' ', '|', ' ', '\u4e00', '\u56db', '\u56db', ' ', ' ', ' ', ' ', ' ', ' ', ' ', ' ', ' ', ' ', ' ', '|', '\n'],
     ['|', ' ', '1', '4', '5', ' ', '|', ' ', '\u4e00', '\u56db', '\u4e94', ' ', ' ', ' ', ' ', ' ', ' ', ' ', ' ', ' ', ' ', ' ', '|', '\n'],
     ['|', ' ', '1', '4', '6', ' ', '|', ' ', '\u4e00', '\u56db', '\u516d', ' ', ' ', ' ', ' ', ' ', ' ', ' ', ' ', ' ', ' ', ' ', '|', '\n'],
     ['|', ' ', '1', '4', '7', ' ', '|', ' ', '\u4e00', '\u56db', '\u4e03', ' ', ' ', ' ', ' ', ' ', ' ', ' ', ' ', ' ', ' ', ' ', '|', '\n']]
    ['\u5b50', '\u200e', ' ', '\u4e11', '\u200e', ' ', '\u5bc5', '\u200e', ' ', '\u536f', '\u200e', ' ', '\u8fb0', '\u200e', ' ', '\u2026', '\u200e', ' ', '\u4ea5', '\u200e', ' ', '\u4e00', '\u4e09', '\u200e', ' ', '\u4e00', '\u56db', '\u200e', ' ', '\u4e00', '\u4e94', '\u200e', ' ', '\u2026', '\u200e', ' ', '\u4e00', '\u56db', '\u56db', '\u200e', ' ', '\u4e00', '\u56db', '\u4e94', '\u200e', ' ', '\u4e00', '\u56db', '\u516d', '\u200e', ' ', '\u4e00', '\u56db', '\u4e03'] = true := by decide +kernel

/-- src/previews/CjkHeavenlyStem.md -/
example : printed ['C', 'j', 'k', 'H', 'e', 'a', 'v', 'e', 'n', 'l', 'y', 'S', 't', 'e', 'm'] Named.cjkHeavenlyStem.system
    (previewValues cfg64 (Nominals.cjkHeavenlyStem.level 0))
    [['|', ' ', '#', ' ', ' ', ' ', '|', ' ', 'C', 'j', 'k', 'H', 'e', 'a', 'v', 'e', 'n', 'l', 'y', 'S', 't', 'e', 'm', ' ', '|', '\n'],
     ['|', '-', '-', '-', '-', '-', '|', '-', '-', '-', '-', '-', '-', '-', '-', '-', '-', '-', '-', '-', '-', '-', '-', '-', '|', '\n'],
     ['|', ' ', '1', ' ', ' ', ' ', '|', ' ', '\u7532', ' ', ' ', ' ', ' ', ' ', ' ', ' ', ' ', ' ', ' ', ' ', ' ', ' ', ' ', '|', '\n'],
     ['|', ' ', '2', ' ', ' ', ' ', '|', ' ', '\u4e59', ' ', ' ', ' ', ' ', ' ', ' ', ' ', ' ', ' ', ' ', ' ', ' ', ' ', ' ', '|', '\n'],
     ['|', ' ', '3', ' ', ' ', ' ', '|', ' ', '\u4e19', ' ', ' ', ' ', ' ', ' ', ' ', ' ', ' ', ' ', ' ', ' ', ' ', ' ', ' ', '|', '\n'],
     ['|', ' ', '4', ' ', ' ', ' ', '|', ' ', '\u4e01', ' ', ' ', ' ', ' ', ' ', ' ', ' ', ' ', ' ', ' ', ' ', ' ', ' ', ' ', '|', '\n'],
     ['|', ' ', '5', ' ', ' ', ' ', '|', ' ', '\u620a', ' ', ' ', ' ', ' ', ' ', ' ', ' ', ' ', ' ', ' ', ' ', ' ', ' ', ' ', '|', '\n'],
     ['|', ' ', '\u2026', ' ', ' ', ' ', '|', ' ', '\u2026', ' ', ' ', ' ', ' ', ' ', ' ', ' ', ' ', ' ', ' ', ' ', ' ', ' ', ' ', ' ', '|', '\n'],
     ['|', ' ', '1', '0', ' ', ' ', '|', ' ', '\u7678', ' ', ' ', ' ', ' ', ' ', ' ', ' ', ' ', ' ', ' ', ' ', ' ', ' ', ' ', '|', '\n'],
     ['|', ' ', '1', '1', ' ', ' ', '|', ' ', '\u4e00', '\u4e00', ' ', ' ', ' ', ' ', ' ', ' ', ' ', ' ', ' ', ' ', ' ', ' ', '|', '\n'],
     ['|', ' ', '1', '2', ' ', ' ', '|', ' ', '\u4e00', '\u4e8c', ' ', ' ', ' ', ' ', ' ', ' ', ' ', ' ', ' ', ' ', ' ', ' ', '|', '\n'],
     ['|', ' ', '1', '3', ' ', ' ', '|', ' ', '\u4e00', '\u4e09', ' ', ' ', ' ', ' ', ' ', ' ', ' ', ' ', ' ', ' ', ' ', ' ', '|', '\n'],
     ['|', ' ', '\u2026', ' ', ' ', ' ', '|', ' ', '\u2026', ' ', ' ', ' ', ' ', ' ', ' ', ' ', ' ', ' ', ' ', ' ', ' ', ' ', ' ', ' ', '|', '\n'],
     ['|', ' ', '1', '0', '0', ' ', '|', ' ', '\u4e00', '\u3007', '\u3007', ' ', ' ', ' ', ' ', ' ', ' ', ' ', ' ', ' ', ' ', '|', '\n'],
     ['|', ' ', '1', '0', '1', ' ', '|', ' ', '\u4e00', '\u3007', '\u4e00', ' ', ' ', ' ', ' ', ' ', ' ', ' ', ' ', ' ', ' ', '|', '\n'],
     ['|', ' ', '1', '0', '2', ' ', '|', ' ', '\u4e00', '\u3007', '\u4e8c', ' ', ' ', ' ', ' ', ' ', ' ', ' ', ' ', ' ', ' ', '|', '\n'],
     ['|', ' ', '1', '0', '3', ' ', '|', ' ', '\u4e00', '\u3007', '\u4e09', ' ', ' ', ' ', ' ', ' ', ' ', ' ', ' ', ' ', ' ', '|', '\n']]
    ['\u7532', '\u200e', ' ', '\u4e59', '\u200e', ' ', '\u4e19', '\u200e', ' ', '\u4e01', '\u200e', ' ', '\u620a', '\u200e', ' ', '\u2026', '\u200e', ' ', '\u7678', '\u200e', ' ', '\u4e00', '\u4e00', '\u200e', ' ', '\u4e00', '\u4e8c', '\u200e', ' ', '\u4e00', '\u4e09', '\u200e', ' ', '\u2026', '\u200e', ' ', '\u4e00', '\u3007', '\u3007', '\u200e', ' ', '\u4e00', '\u3007', '\u4e00', '\u200e', ' ', '\u4e00', '\u3007', '\u4e8c', '\u200e', ' ', '\u4e00', '\u3007', '\u4e09'] = true := by decide +kernel

/-- src/previews/Devanagari.md -/
example : printed ['D', 'e', 'v', 'a', 'n', 'a', 'g', 'a', 'r', 'i'] Named.devanagari.system
    (previewValues cfg64 (Nominals.devanagari.level 0))
    [['|', ' ', '#', ' ', ' ', ' ', '|', ' ', 'D', 'e', 'v', 'a', 'n', 'a', 'g', 'a', 'r', 'i', ' ', '|', '\n'],
     ['|', '-', '-', '-', '-', '-', '|', '-', '-', '-', '-', '-', '-', '-', '-', '-', '-', '-', '-', '|', '\n'],
     ['|', ' ', '0', ' ', ' ', ' ', '|', ' ', '\u0966', ' ', ' ', ' ', ' ', ' ', ' ', ' ', ' ', ' ', ' ', '|', '\n'],
     ['|', ' ', '1', ' ', ' ', ' ', '|', ' ', '\u0967', ' ', ' ', ' ', ' ', ' ', ' ', ' ', ' ', ' ', ' ', '|', '\n'],
     ['|', ' ', '2', ' ', ' ', ' ', '|', ' ', '\u0968', ' ', ' ', ' ', ' ', ' ', ' ', ' ', ' ', ' ', ' ', '|', '\n'],
     ['|', ' ', '3', ' ', ' ', ' ', '|', ' ', '\u0969', ' ', ' ', ' ', ' ', ' ', ' ', ' ', ' ', ' ', ' ', '|', '\n'],
     ['|', ' ', '4', ' ', ' ', ' ', '|', ' ', '\u096a', ' ', ' ', ' ', ' ', ' ', ' ', ' ', ' ', ' ', ' ', '|', '\n'],
     ['|', ' ', '\u2026', ' ', ' ', ' ', '|', ' ', '\u2026', ' ', ' ', ' ', ' ', ' ', ' ', ' ', ' ', ' ', ' ', '|', '\n'],
     ['|', ' ', '9', ' ', ' ', ' ', '|', ' ', '\u096f', ' ', ' ', ' ', ' ', ' ', ' ', ' ', ' ', ' ', ' ', '|', '\n'],
     ['|', ' ', '1', '0', ' ', ' ', '|', ' ', '\u0967', '\u0966', ' ', ' ', ' ', ' ', ' ', ' ', ' ', ' ', ' ', '|', '\n'],
     ['|', ' ', '1', '1', ' ', ' ', '|', ' ', '\u0967', '\u0967', ' ', ' ', ' ', ' ', ' ', ' ', ' ', ' ', ' ', '|', '\n'],
     ['|', ' ', '1', '2', ' ', ' ', '|', ' ', '\u0967', '\u0968', ' ', ' ', ' ', ' ', ' ', ' ', ' ', ' ', ' ', '|', '\n'],
     ['|', ' ', '\u2026', ' ', ' ', ' ', '|', ' ', '\u2026', ' ', ' ', ' ', ' ', ' ', ' ', ' ', ' ', ' ', ' ', '|', '\n'],
     ['|', ' ', '9', '9', ' ', ' ', '|', ' ', '\u096f', '\u096f', ' ', ' ', ' ', ' ', ' ', ' ', ' ', ' ', ' ', '|', '\n'],
     ['|', ' ', '1', '0', '0', ' ', '|', ' ', '\u0967', '\u0966', '\u0966', ' ', ' ', ' ', ' ', ' ', ' ', ' ', ' ', '|', '\n'],
     ['|', ' ', '1', '0', '1', ' ', '|', ' ', '\u0967', '\u0966', '\u0967', ' ', ' ', ' ', ' ', ' ', ' ', ' ', ' ', '|', '\n'],
     ['|', ' ', '1', '0', '2', ' ', '|', ' ', '\u0967', '\u0966', '\u0968', ' ', ' ', ' ', ' ', ' ', ' ', ' ', ' ', '|', '\n']]
    ['\u0966', '\u200e', ' ', '\u0967', '\u200e', ' ', '\u0968', '\u200e', ' ', '\u0969', '\u200e', ' ', '\u096a', '\u200e', ' ', '\u2026', '\u200e', ' ', '\u096f', '\u200e', ' ', '\u0967', '\u0966', '\u200e', ' ', '\u0967', '\u0967', '\u200e', ' ', '\u0967', '\u0968', '\u200e', ' ', '\u2026', '\u200e', ' ', '\u096f', '\u096f', '\u200e', ' ', '\u0967', '\u0966', '\u0966', '\u200e', ' ', '\u0967', '\u0966', '\u0967', '\u200e', ' ', '\u0967', '\u0966', '\u0968'] = true := by decide +kernel

/-- src/previews/EasternArabic.md -/
example : printed ['E', 'a', 's', 't', 'e', 'r', 'n', 'A', 'r', 'a', 'b', 'i', 'c'] Named.easternArabic.system
    (previewValues cfg64 (Nominals.easternArabic.level 0))
    [['|', ' ', '#', ' ', ' ', ' ', '|', ' ', 'E', 'a', 's', 't', 'e', 'r', 'n', 'A', 'r', 'a', 'b', 'i', 'c', ' ', '|', '\n'],
     ['|', '-', '-', '-', '-', '-', '|', '-', '-', '-', '-', '-', '-', '-', '-', '-', '-', '-', '-', '-', '-', '-', '|', '\n'],
     ['|', ' ', '0', ' ', ' ', ' ', '|', ' ', '\u0660', ' ', ' ', ' ', ' ', ' ', ' ', ' ', ' ', ' ', ' ', ' ', ' ', ' ', '|', '\n'],
     ['|', ' ', '1', ' ', ' ', ' ', '|', ' ', '\u0661', ' ', ' ', ' ', ' ', ' ', ' ', ' ', ' ', ' ', ' ', ' ', ' ', ' ', '|', '\n'],
     ['|', ' ', '2', ' ', ' ', ' ', '|', ' ', '\u0662', ' ', ' ', ' ', ' ', ' ', ' ', ' ', ' ', ' ', ' ', ' ', ' ', ' ', '|', '\n'],
     ['|', ' ', '3', ' ', ' ', ' ', '|', ' ', '\u0663', ' ', ' ', ' ', ' ', ' ', ' ', ' ', ' ', ' ', ' ', ' ', ' ', ' ', '|', '\n'],
     ['|', ' ', '4', ' ', ' ', ' ', '|', ' ', '\u0664', ' ', ' ', ' ', ' ', ' ', ' ', ' ', ' ', ' ', ' ', ' ', ' ', ' ', '|', '\n'],
     ['|', ' ', '\u2026', ' ', ' ', ' ', '|', ' ', '\u2026', ' ', ' ', ' ', ' ', ' ', ' ', ' ', ' ', ' ', ' ', ' ', ' ', ' ', '|', '\n'],
     ['|', ' ', '9', ' ', ' ', ' ', '|', ' ', '\u0669', ' ', ' ', ' ', ' ', ' ', ' ', ' ', ' ', ' ', ' ', ' ', ' ', ' ', '|', '\n'],
     ['|', ' ', '1', '0', ' ', ' ', '|', ' ', '\u0661', '\u0660', ' ', ' ', ' ', ' ', ' ', ' ', ' ', ' ', ' ', ' ', ' ', ' ', '|', '\n'],
     ['|', ' ', '1', '1', ' ', ' ', '|', ' ', '\u0661', '\u0661', ' ', ' ', ' ', ' ', ' ', ' ', ' ', ' ', ' ', ' ', ' ', ' ', '|', '\n'],
     ['|', ' ', '1', '2', ' ', ' ', '|', ' ', '\u0661', '\u0662', ' ', ' ', ' ', ' ', ' ', ' ', ' ', ' ', ' ', ' ', ' ', ' ', '|', '\n'],
     ['|', ' ', '\u2026', ' ', ' ', ' ', '|', ' ', '\u2026', ' ', ' ', ' ', ' ', ' ', ' ', ' ', ' ', ' ', ' ', ' ', ' ', ' ', '|', '\n'],
     ['|', ' ', '9', '9', ' ', ' ', '|', ' ', '\u0669', '\u0669', ' ', ' ', ' ', ' ', ' ', ' ', ' ', ' ', ' ', ' ', ' ', ' ', '|', '\n'],
     ['|', ' ', '1', '0', '0', ' ', '|', ' ', '\u0661', '\u0660', '\u0660', ' ', ' ', ' ', ' ', ' ', ' ', ' ', ' ', ' ', ' ', ' ', '|', '\n'],
     ['|', ' ', '1', '0', '1', ' ', '|', ' ', '\u0661', '\u0660', '\u0661', ' ', ' ', ' ', ' ', ' ', ' ', ' ', ' ', ' ', ' ', ' ', '|', '\n'],
     ['|', ' ', '1', '0', '2', ' ', '|', ' ', '\u0661', '\u0660', '\u0662', ' ', ' ', ' ', ' ', ' ', ' ', ' ', ' ', ' ', ' ', ' ', '|', '\n']]
    ['\u0660', '\u200e', ' ', '\u0661', '\u200e', ' ', '\u0662', '\u200e', ' ', '\u0663', '\u200e', ' ', '\u0664', '\u200e', ' ', '\u2026', '\u200e', ' ', '\u0669', '\u200e', ' ', '\u0661', '\u0660', '\u200e', ' ', '\u0661', '\u0661', '\u200e', ' ', '\u0661', '\u0662', '\u200e', ' ', '\u2026', '\u200e', ' ', '\u0669', '\u0669', '\u200e', ' ', '\u0661', '\u0660', '\u0660', '\u200e', ' ', '\u0661', '\u0660', '\u0661', '\u200e', ' ', '\u0661', '\u0660', '\u0662'] = true := by decide +kernel

/-- src/previews/Ethiopic.md -/
example : printed ['E', 't', 'h', 'i', 'o', 'p', 'i', 'c'] Named.ethiopic.system
    (.ok [1, 2, 3, 10, 11, 12, 99, 100, 101, 999, 1000, 1001])
    [['|', ' ', '#', ' ', ' ', ' ', ' ', '|', ' ', 'E', 't', 'h', 'i', 'o', 'p', 'i', 'c', ' ', '|', '\n'],
     ['|', '-', '-', '-', '-', '-', '-', '|', '-', '-', '-', '-', '-', '-', '-', '-', '-', '-', '|', '\n'],
     ['|', ' ', '1', ' ', ' ', ' ', ' ', '|', ' ', '\u1369', ' ', ' ', ' ', ' ', ' ', ' ', ' ', ' ', '|', '\n'],
     ['|', ' ', '2', ' ', ' ', ' ', ' ', '|', ' ', '\u136a', ' ', ' ', ' ', ' ', ' ', ' ', ' ', ' ', '|', '\n'],
     ['|', ' ', '3', ' ', ' ', ' ', ' ', '|', ' ', '\u136b', ' ', ' ', ' ', ' ', ' ', ' ', ' ', ' ', '|', '\n'],
     ['|', ' ', '\u2026', ' ', ' ', ' ', ' ', '|', ' ', '\u2026', ' ', ' ', ' ', ' ', ' ', ' ', ' ', ' ', '|', '\n'],
     ['|', ' ', '1', '0', ' ', ' ', ' ', '|', ' ', '\u1372', ' ', ' ', ' ', ' ', ' ', ' ', ' ', ' ', '|', '\n'],
     ['|', ' ', '1', '1', ' ', ' ', ' ', '|', ' ', '\u1372', '\u1369', ' ', ' ', ' ', ' ', ' ', ' ', ' ', '|', '\n'],
     ['|', ' ', '1', '2', ' ', ' ', ' ', '|', ' ', '\u1372', '\u136a', ' ', ' ', ' ', ' ', ' ', ' ', ' ', '|', '\n'],
     ['|', ' ', '\u2026', ' ', ' ', ' ', ' ', '|', ' ', '\u2026', ' ', ' ', ' ', ' ', ' ', ' ', ' ', ' ', '|', '\n'],
     ['|', ' ', '9', '9', ' ', ' ', ' ', '|', ' ', '\u137a', '\u1371', ' ', ' ', ' ', ' ', ' ', ' ', ' ', '|', '\n'],
     ['|', ' ', '1', '0', '0', ' ', ' ', '|', ' ', '\u137b', ' ', ' ', ' ', ' ', ' ', ' ', ' ', ' ', '|', '\n'],
     ['|', ' ', '1', '0', '1', ' ', ' ', '|', ' ', '\u137b', '\u1369', ' ', ' ', ' ', ' ', ' ', ' ', ' ', '|', '\n'],
     ['|', ' ', '\u2026', ' ', ' ', ' ', ' ', '|', ' ', '\u2026', ' ', ' ', ' ', ' ', ' ', ' ', ' ', ' ', '|', '\n'],
     ['|', ' ', '9', '9', '9', ' ', ' ', '|', ' ', '\u1371', '\u137b', '\u137a', '\u1371', ' ', ' ', ' ', ' ', ' ', '|', '\n'],
     ['|', ' ', '1', '0', '0', '0', ' ', '|', ' ', '\u1372', '\u137b', ' ', ' ', ' ', ' ', ' ', ' ', ' ', '|', '\n'],
     ['|', ' ', '1', '0', '0', '1', ' ', '|', ' ', '\u1372', '\u137b', '\u1369', ' ', ' ', ' ', ' ', ' ', ' ', '|', '\n']]
    ['\u1369', '\u200e', ' ', '\u136a', '\u200e', ' ', '\u136b', '\u200e', ' ', '\u2026', '\u200e', ' ', '\u1372', '\u200e', ' ', '\u1372', '\u1369', '\u200e', ' ', '\u1372', '\u136a', '\u200e', ' ', '\u2026', '\u200e', ' ', '\u137a', '\u1371', '\u200e', ' ', '\u137b', '\u200e', ' ', '\u137b', '\u1369', '\u200e', ' ', '\u2026', '\u200e', ' ', '\u1371', '\u137b', '\u137a', '\u1371', '\u200e', ' ', '\u1372', '\u137b', '\u200e', ' ', '\u1372', '\u137b', '\u1369'] = true := by decide +kernel

/-- src/previews/Georgian.md -/
example : printed ['G', 'e', 'o', 'r', 'g', 'i', 'a', 'n'] Named.georgian.system
    (.ok [1, 2, 3, 9, 10, 11, 12, 99, 100, 101])
    [['|', ' ', '#', ' ', ' ', ' ', '|', ' ', 'G', 'e', 'o', 'r', 'g', 'i', 'a', 'n', ' ', '|', '\n'],
     ['|', '-', '-', '-', '-', '-', '|', '-', '-', '-', '-', '-', '-', '-', '-', '-', '-', '|', '\n'],
     ['|', ' ', '1', ' ', ' ', ' ', '|', ' ', '\u10d0', ' ', ' ', ' ', ' ', ' ', ' ', ' ', ' ', '|', '\n'],
     ['|', ' ', '2', ' ', ' ', ' ', '|', ' ', '\u10d1', ' ', ' ', ' ', ' ', ' ', ' ', ' ', ' ', '|', '\n'],
     ['|', ' ', '3', ' ', ' ', ' ', '|', ' ', '\u10d2', ' ', ' ', ' ', ' ', ' ', ' ', ' ', ' ', '|', '\n'],
     ['|', ' ', '\u2026', ' ', ' ', ' ', '|', ' ', '\u2026', ' ', ' ', ' ', ' ', ' ', ' ', ' ', ' ', '|', '\n'],
     ['|', ' ', '9', ' ', ' ', ' ', '|', ' ', '\u10d7', ' ', ' ', ' ', ' ', ' ', ' ', ' ', ' ', '|', '\n'],
     ['|', ' ', '1', '0', ' ', ' ', '|', ' ', '\u10d8', ' ', ' ', ' ', ' ', ' ', ' ', ' ', ' ', '|', '\n'],
     ['|', ' ', '1', '1', ' ', ' ', '|', ' ', '\u10d8', '\u10d0', ' ', ' ', ' ', ' ', ' ', ' ', ' ', '|', '\n'],
     ['|', ' ', '1', '2', ' ', ' ', '|', ' ', '\u10d8', '\u10d1', ' ', ' ', ' ', ' ', ' ', ' ', ' ', '|', '\n'],
     ['|', ' ', '\u2026', ' ', ' ', ' ', '|', ' ', '\u2026', ' ', ' ', ' ', ' ', ' ', ' ', ' ', ' ', '|', '\n'],
     ['|', ' ', '9', '9', ' ', ' ', '|', ' ', '\u10df', '\u10d7', ' ', ' ', ' ', ' ', ' ', ' ', ' ', '|', '\n'],
     ['|', ' ', '1', '0', '0', ' ', '|', ' ', '\u10e0', ' ', ' ', ' ', ' ', ' ', ' ', ' ', ' ', '|', '\n'],
     ['|', ' ', '1', '0', '1', ' ', '|', ' ', '\u10e0', '\u10d0', ' ', ' ', ' ', ' ', ' ', ' ', ' ', '|', '\n']]
    ['\u10d0', '\u200e', ' ', '\u10d1', '\u200e', ' ', '\u10d2', '\u200e', ' ', '\u2026', '\u200e', ' ', '\u10d7', '\u200e', ' ', '\u10d8', '\u200e', ' ', '\u10d8', '\u10d0', '\u200e', ' ', '\u10d8', '\u10d1', '\u200e', ' ', '\u2026', '\u200e', ' ', '\u10df', '\u10d7', '\u200e', ' ', '\u10e0', '\u200e', ' ', '\u10e0', '\u10d0'] = true := by decide +kernel

/-- src/previews/GreekLower.md -/
example : printed ['G', 'r', 'e', 'e', 'k', 'L', 'o', 'w', 'e', 'r'] Named.greekLower.system
    (previewValues cfg64 (Nominals.greekLower.level 0))
    [['|', ' ', '#', ' ', ' ', ' ', '|', ' ', 'G', 'r', 'e', 'e', 'k', 'L', 'o', 'w', 'e', 'r', ' ', '|', '\n'],
     ['|', '-', '-', '-', '-', '-', '|', '-', '-', '-', '-', '-', '-', '-', '-', '-', '-', '-', '-', '|', '\n'],
     ['|', ' ', '0', ' ', ' ', ' ', '|', ' ', '\u03b1', ' ', ' ', ' ', ' ', ' ', ' ', ' ', ' ', ' ', ' ', '|', '\n'],
     ['|', ' ', '1', ' ', ' ', ' ', '|', ' ', '\u03b2', ' ', ' ', ' ', ' ', ' ', ' ', ' ', ' ', ' ', ' ', '|', '\n'],
     ['|', ' ', '2', ' ', ' ', ' ', '|', ' ', '\u03b3', ' ', ' ', ' ', ' ', ' ', ' ', ' ', ' ', ' ', ' ', '|', '\n'],
     ['|', ' ', '3', ' ', ' ', ' ', '|', ' ', '\u03b4', ' ', ' ', ' ', ' ', ' ', ' ', ' ', ' ', ' ', ' ', '|', '\n'],
     ['|', ' ', '4', ' ', ' ', ' ', '|', ' ', '\u03b5', ' ', ' ', ' ', ' ', ' ', ' ', ' ', ' ', ' ', ' ', '|', '\n'],
     ['|', ' ', '\u2026', ' ', ' ', ' ', '|', ' ', '\u2026', ' ', ' ', ' ', ' ', ' ', ' ', ' ', ' ', ' ', ' ', '|', '\n'],
     ['|', ' ', '2', '3', ' ', ' ', '|', ' ', '\u03c9', ' ', ' ', ' ', ' ', ' ', ' ', ' ', ' ', ' ', ' ', '|', '\n'],
     ['|', ' ', '2', '4', ' ', ' ', '|', ' ', '\u03b1', '\u03b1', ' ', ' ', ' ', ' ', ' ', ' ', ' ', ' ', ' ', '|', '\n'],
     ['|', ' ', '2', '5', ' ', ' ', '|', ' ', '\u03b1', '\u03b2', ' ', ' ', ' ', ' ', ' ', ' ', ' ', ' ', ' ', '|', '\n'],
     ['|', ' ', '2', '6', ' ', ' ', '|', ' ', '\u03b1', '\u03b3', ' ', ' ', ' ', ' ', ' ', ' ', ' ', ' ', ' ', '|', '\n'],
     ['|', ' ', '\u2026', ' ', ' ', ' ', '|', ' ', '\u2026', ' ', ' ', ' ', ' ', ' ', ' ', ' ', ' ', ' ', ' ', '|', '\n'],
     ['|', ' ', '5', '7', '5', ' ', '|', ' ', '\u03c8', '\u03c9', ' ', ' ', ' ', ' ', ' ', ' ', ' ', ' ', ' ', '|', '\n'],
     ['|', ' ', '5', '7', '6', ' ', '|', ' ', '\u03c9', '\u03b1', ' ', ' ', ' ', ' ', ' ', ' ', ' ', ' ', ' ', '|', '\n'],
     ['|', ' ', '5', '7', '7', ' ', '|', ' ', '\u03c9', '\u03b2', ' ', ' ', ' ', ' ', ' ', ' ', ' ', ' ', ' ', '|', '\n'],
     ['|', ' ', '5', '7', '8', ' ', '|', ' ', '\u03c9', '\u03b3', ' ', ' ', ' ', ' ', ' ', ' ', ' ', ' ', ' ', '|', '\n']]
    ['\u03b1', '\u200e', ' ', '\u03b2', '\u200e', ' ', '\u03b3', '\u200e', ' ', '\u03b4', '\u200e', ' ', '\u03b5', '\u200e', ' ', '\u2026', '\u200e', ' ', '\u03c9', '\u200e', ' ', '\u03b1', '\u03b1', '\u200e', ' ', '\u03b1', '\u03b2', '\u200e', ' ', '\u03b1', '\u03b3', '\u200e', ' ', '\u2026', '\u200e', ' ', '\u03c8', '\u03c9', '\u200e', ' ', '\u03c9', '\u03b1', '\u200e', ' ', '\u03c9', '\u03b2', '\u200e', ' ', '\u03c9', '\u03b3'] = true := by decide +kernel

/-- src/previews/GreekUpper.md -/
example : printed ['G', 'r', 'e', 'e', 'k', 'U', 'p', 'p', 'e', 'r'] Named.greekUpper.system
    (previewValues cfg64 (Nominals.greekUpper.level 0))
    [['|', ' ', '#', ' ', ' ', ' ', '|', ' ', 'G', 'r', 'e', 'e', 'k', 'U', 'p', 'p', 'e', 'r', ' ', '|', '\n'],
     ['|', '-', '-', '-', '-', '-', '|', '-', '-', '-', '-', '-', '-', '-', '-', '-', '-', '-', '-', '|', '\n'],
     ['|', ' ', '0', ' ', ' ', ' ', '|', ' ', '\u0391', ' ', ' ', ' ', ' ', ' ', ' ', ' ', ' ', ' ', ' ', '|', '\n'],
     ['|', ' ', '1', ' ', ' ', ' ', '|', ' ', '\u0392', ' ', ' ', ' ', ' ', ' ', ' ', ' ', ' ', ' ', ' ', '|', '\n'],
     ['|', ' ', '2', ' ', ' ', ' ', '|', ' ', '\u0393', ' ', ' ', ' ', ' ', ' ', ' ', ' ', ' ', ' ', ' ', '|', '\n'],
     ['|', ' ', '3', ' ', ' ', ' ', '|', ' ', '\u0394', ' ', ' ', ' ', ' ', ' ', ' ', ' ', ' ', ' ', ' ', '|', '\n'],
     ['|', ' ', '4', ' ', ' ', ' ', '|', ' ', '\u0395', ' ', ' ', ' ', ' ', ' ', ' ', ' ', ' ', ' ', ' ', '|', '\n'],
     ['|', ' ', '\u2026', ' ', ' ', ' ', '|', ' ', '\u2026', ' ', ' ', ' ', ' ', ' ', ' ', ' ', ' ', ' ', ' ', '|', '\n'],
     ['|', ' ', '2', '3', ' ', ' ', '|', ' ', '\u03a9', ' ', ' ', ' ', ' ', ' ', ' ', ' ', ' ', ' ', ' ', '|', '\n'],
     ['|', ' ', '2', '4', ' ', ' ', '|', ' ', '\u0391', '\u0391', ' ', ' ', ' ', ' ', ' ', ' ', ' ', ' ', ' ', '|', '\n'],
     ['|', ' ', '2', '5', ' ', ' ', '|', ' ', '\u0391', '\u0392', ' ', ' ', ' ', ' ', ' ', ' ', ' ', ' ', ' ', '|', '\n'],
     ['|', ' ', '2', '6', ' ', ' ', '|', ' ', '\u0391', '\u0393', ' ', ' ', ' ', ' ', ' ', ' ', ' ', ' ', ' ', '|', '\n'],
     ['|', ' ', '\u2026', ' ', ' ', ' ', '|', ' ', '\u2026', ' ', ' ', ' ', ' ', ' ', ' ', ' ', ' ', ' ', ' ', '|', '\n'],
     ['|', ' ', '5', '7', '5', ' ', '|', ' ', '\u03a8', '\u03a9', ' ', ' ', ' ', ' ', ' ', ' ', ' ', ' ', ' ', '|', '\n'],
     ['|', ' ', '5', '7', '6', ' ', '|', ' ', '\u03a9', '\u0391', ' ', ' ', ' ', ' ', ' ', ' ', ' ', ' ', ' ', '|', '\n'],
     ['|', ' ', '5', '7', '7', ' ', '|', ' ', '\u03a9', '\u0392', ' ', ' ', ' ', ' ', ' ', ' ', ' ', ' ', ' ', '|', '\n'],
     ['|', ' ', '5', '7', '8', ' ', '|', ' ', '\u03a9', '\u0393', ' ', ' ', ' ', ' ', ' ', ' ', ' ', ' ', ' ', '|', '\n']]
    ['\u0391', '\u200e', ' ', '\u0392', '\u200e', ' ', '\u0393', '\u200e', ' ', '\u0394', '\u200e', ' ', '\u0395', '\u200e', ' ', '\u2026', '\u200e', ' ', '\u03a9', '\u200e', ' ', '\u0391', '\u0391', '\u200e', ' ', '\u0391', '\u0392', '\u200e', ' ', '\u0391', '\u0393', '\u200e', ' ', '\u2026', '\u200e', ' ', '\u03a8', '\u03a9', '\u200e', ' ', '\u03a9', '\u0391', '\u200e', ' ', '\u03a9', '\u0392', '\u200e', ' ', '\u03a9', '\u0393'] = true := by decide +kernel

/-- src/previews/Gujarati.md -/
example : printed ['G', 'u', 'j', 'a', 'r', 'a', 't', 'i'] Named.gujarati.system
    (previewValues cfg64 (Nominals.gujarati.level 0))
    [['|', ' ', '#', ' ', ' ', ' ', '|', ' ', 'G', 'u', 'j', 'a', 'r', 'a', 't', 'i', ' ', '|', '\n'],
     ['|', '-', '-', '-', '-', '-', '|', '-', '-', '-', '-', '-', '-', '-', '-', '-', '-', '|', '\n'],
     ['|', ' ', '0', ' ', ' ', ' ', '|', ' ', '\u0ae6', ' ', ' ', ' ', ' ', ' ', ' ', ' ', ' ', '|', '\n'],
     ['|', ' ', '1', ' ', ' ', ' ', '|', ' ', '\u0ae7', ' ', ' ', ' ', ' ', ' ', ' ', ' ', ' ', '|', '\n'],
     ['|', ' ', '2', ' ', ' ', ' ', '|', ' ', '\u0ae8', ' ', ' ', ' ', ' ', ' ', ' ', ' ', ' ', '|', '\n'],
     ['|', ' ', '3', ' ', ' ', ' ', '|', ' ', '\u0ae9', ' ', ' ', ' ', ' ', ' ', ' ', ' ', ' ', '|', '\n'],
     ['|', ' ', '4', ' ', ' ', ' ', '|', ' ', '\u0aea', ' ', ' ', ' ', ' ', ' ', ' ', ' ', ' ', '|', '\n'],
     ['|', ' ', '\u2026', ' ', ' ', ' ', '|', ' ', '\u2026', ' ', ' ', ' ', ' ', ' ', ' ', ' ', ' ', '|', '\n'],
     ['|', ' ', '9', ' ', ' ', ' ', '|', ' ', '\u0aef', ' ', ' ', ' ', ' ', ' ', ' ', ' ', ' ', '|', '\n'],
     ['|', ' ', '1', '0', ' ', ' ', '|', ' ', '\u0ae7', '\u0ae6', ' ', ' ', ' ', ' ', ' ', ' ', ' ', '|', '\n'],
     ['|', ' ', '1', '1', ' ', ' ', '|', ' ', '\u0ae7', '\u0ae7', ' ', ' ', ' ', ' ', ' ', ' ', ' ', '|', '\n'],
     ['|', ' ', '1', '2', ' ', ' ', '|', ' ', '\u0ae7', '\u0ae8', ' ', ' ', ' ', ' ', ' ', ' ', ' ', '|', '\n'],
     ['|', ' ', '\u2026', ' ', ' ', ' ', '|', ' ', '\u2026', ' ', ' ', ' ', ' ', ' ', ' ', ' ', ' ', '|', '\n'],
     ['|', ' ', '9', '9', ' ', ' ', '|', ' ', '\u0aef', '\u0aef', ' ', ' ', ' ', ' ', ' ', ' ', ' ', '|', '\n'],
     ['|', ' ', '1', '0', '0', ' ', '|', ' ', '\u0ae7', '\u0ae6', '\u0ae6', ' ', ' ', ' ', ' ', ' ', ' ', '|', '\n'],
     ['|', ' ', '1', '0', '1', ' ', '|', ' ', '\u0ae7', '\u0ae6', '\u0ae7', ' ', ' ', ' ', ' ', ' ', ' ', '|', '\n'],
     ['|', ' ', '1', '0', '2', ' ', '|', ' ', '\u0ae7', '\u0ae6', '\u0ae8', ' ', ' ', ' ', ' ', ' ', ' ', '|', '\n']]
    ['\u0ae6', '\u200e', ' ', '\u0ae7', '\u200e', ' ', '\u0ae8', '\u200e', ' ', '\u0ae9', '\u200e', ' ', '\u0aea', '\u200e', ' ', '\u2026', '\u200e', ' ', '\u0aef', '\u200e', ' ', '\u0ae7', '\u0ae6', '\u200e', ' ', '\u0ae7', '\u0ae7', '\u200e', ' ', '\u0ae7', '\u0ae8', '\u200e', ' ', '\u2026', '\u200e', ' ', '\u0aef', '\u0aef', '\u200e', ' ', '\u0ae7', '\u0ae6', '\u0ae6', '\u200e', ' ', '\u0ae7', '\u0ae6', '\u0ae7', '\u200e', ' ', '\u0ae7', '\u0ae6', '\u0ae8'] = true := by decide +kernel

/-- src/previews/Gurmukhi.md -/
example : printed ['G', 'u', 'r', 'm', 'u', 'k', 'h', 'i'] Named.gurmukhi.system
    (previewValues cfg64 (Nominals.gurmukhi.level 0))
    [['|', ' ', '#', ' ', ' ', ' ', '|', ' ', 'G', 'u', 'r', 'm', 'u', 'k', 'h', 'i', ' ', '|', '\n'],
     ['|', '-', '-', '-', '-', '-', '|', '-', '-', '-', '-', '-', '-', '-', '-', '-', '-', '|', '\n'],
     ['|', ' ', '0', ' ', ' ', ' ', '|', ' ', '\u0a66', ' ', ' ', ' ', ' ', ' ', ' ', ' ', ' ', '|', '\n'],
     ['|', ' ', '1', ' ', ' ', ' ', '|', ' ', '\u0a67', ' ', ' ', ' ', ' ', ' ', ' ', ' ', ' ', '|', '\n'],
     ['|', ' ', '2', ' ', ' ', ' ', '|', ' ', '\u0a68', ' ', ' ', ' ', ' ', ' ', ' ', ' ', ' ', '|', '\n'],
     ['|', ' ', '3', ' ', ' ', ' ', '|', ' ', '\u0a69', ' ', ' ', ' ', ' ', ' ', ' ', ' ', ' ', '|', '\n'],
     ['|', ' ', '4', ' ', ' ', ' ', '|', ' ', '\u0a6a', ' ', ' ', ' ', ' ', ' ', ' ', ' ', ' ', '|', '\n'],
     ['|', ' ', '\u2026', ' ', ' ', ' ', '|', ' ', '\u2026', ' ', ' ', ' ', ' ', ' ', ' ', ' ', ' ', '|', '\n'],
     ['|', ' ', '9', ' ', ' ', ' ', '|', ' ', '\u0a6f', ' ', ' ', ' ', ' ', ' ', ' ', ' ', ' ', '|', '\n'],
     ['|', ' ', '1', '0', ' ', ' ', '|', ' ', '\u0a67', '\u0a66', ' ', ' ', ' ', ' ', ' ', ' ', ' ', '|', '\n'],
     ['|', ' ', '1', '1', ' ', ' ', '|', ' ', '\u0a67', '\u0a67', ' ', ' ', ' ', ' ', ' ', ' ', ' ', '|', '\n'],
     ['|', ' ', '1', '2', ' ', ' ', '|', ' ', '\u0a67', '\u0a68', ' ', ' ', ' ', ' ', ' ', ' ', ' ', '|', '\n'],
     ['|', ' ', '\u2026', ' ', ' ', ' ', '|', ' ', '\u2026', ' ', ' ', ' ', ' ', ' ', ' ', ' ', ' ', '|', '\n'],
     ['|', ' ', '9', '9', ' ', ' ', '|', ' ', '\u0a6f', '\u0a6f', ' ', ' ', ' ', ' ', ' ', ' ', ' ', '|', '\n'],
     ['|', ' ', '1', '0', '0', ' ', '|', ' ', '\u0a67', '\u0a66', '\u0a66', ' ', ' ', ' ', ' ', ' ', ' ', '|', '\n'],
     ['|', ' ', '1', '0', '1', ' ', '|', ' ', '\u0a67', '\u0a66', '\u0a67', ' ', ' ', ' ', ' ', ' ', ' ', '|', '\n'],
     ['|', ' ', '1', '0', '2', ' ', '|', ' ', '\u0a67', '\u0a66', '\u0a68', ' ', ' ', ' ', ' ', ' ', ' ', '|', '\n']]
    ['\u0a66', '\u200e', ' ', '\u0a67', '\u200e', ' ', '\u0a68', '\u200e', ' ', '\u0a69', '\u200e', ' ', '\u0a6a', '\u200e', ' ', '\u2026', '\u200e', ' ', '\u0a6f', '\u200e', ' ', '\u0a67', '\u0a66', '\u200e', ' ', '\u0a67', '\u0a67', '\u200e', ' ', '\u0a67', '\u0a68', '\u200e', ' ', '\u2026', '\u200e', ' ', '\u0a6f', '\u0a6f', '\u200e', ' ', '\u0a67', '\u0a66', '\u0a66', '\u200e', ' ', '\u0a67', '\u0a66', '\u0a67', '\u200e', ' ', '\u0a67', '\u0a66', '\u0a68'] = true := by decide +kernel

/-- src/previews/HanjaInformal.md -/
example : printed ['H', 'a', 'n', 'j', 'a', 'I', 'n', 'f', 'o', 'r', 'm', 'a', 'l'] Named.hanjaInformal.system
    (.ok [0, 1, 2, 9, 10, 11, 19, 20, 21, 99, 100, 101])
    [['|', ' ', '#', ' ', ' ', ' ', '|', ' ', 'H', 'a', 'n', 'j', 'a', 'I', 'n', 'f', 'o', 'r', 'm', 'a', 'l', ' ', '|', '\n'],
     ['|', '-', '-', '-', '-', '-', '|', '-', '-', '-', '-', '-', '-', '-', '-', '-', '-', '-', '-', '-', '-', '-', '|', '\n'],
     ['|', ' ', '0', ' ', ' ', ' ', '|', ' ', '\u96f6', ' ', ' ', ' ', ' ', ' ', ' ', ' ', ' ', ' ', ' ', ' ', ' ', '|', '\n'],
     ['|', ' ', '1', ' ', ' ', ' ', '|', ' ', '\u4e00', ' ', ' ', ' ', ' ', ' ', ' ', ' ', ' ', ' ', ' ', ' ', ' ', '|', '\n'],
     ['|', ' ', '2', ' ', ' ', ' ', '|', ' ', '\u4e8c', ' ', ' ', ' ', ' ', ' ', ' ', ' ', ' ', ' ', ' ', ' ', ' ', '|', '\n'],
     ['|', ' ', '\u2026', ' ', ' ', ' ', '|', ' ', '\u2026', ' ', ' ', ' ', ' ', ' ', ' ', ' ', ' ', ' ', ' ', ' ', ' ', ' ', '|', '\n'],
     ['|', ' ', '9', ' ', ' ', ' ', '|', ' ', '\u4e5d', ' ', ' ', ' ', ' ', ' ', ' ', ' ', ' ', ' ', ' ', ' ', ' ', '|', '\n'],
     ['|', ' ', '1', '0', ' ', ' ', '|', ' ', '\u5341', ' ', ' ', ' ', ' ', ' ', ' ', ' ', ' ', ' ', ' ', ' ', ' ', '|', '\n'],
     ['|', ' ', '1', '1', ' ', ' ', '|', ' ', '\u5341', '\u4e00', ' ', ' ', ' ', ' ', ' ', ' ', ' ', ' ', ' ', ' ', '|', '\n'],
     ['|', ' ', '\u2026', ' ', ' ', ' ', '|', ' ', '\u2026', ' ', ' ', ' ', ' ', ' ', ' ', ' ', ' ', ' ', ' ', ' ', ' ', ' ', '|', '\n'],
     ['|', ' ', '1', '9', ' ', ' ', '|', ' ', '\u5341', '\u4e5d', ' ', ' ', ' ', ' ', ' ', ' ', ' ', ' ', ' ', ' ', '|', '\n'],
     ['|', ' ', '2', '0', ' ', ' ', '|', ' ', '\u4e8c', '\u5341', ' ', ' ', ' ', ' ', ' ', ' ', ' ', ' ', ' ', ' ', '|', '\n'],
     ['|', ' ', '2', '1', ' ', ' ', '|', ' ', '\u4e8c', '\u5341', '\u4e00', ' ', ' ', ' ', ' ', ' ', ' ', ' ', ' ', '|', '\n'],
     ['|', ' ', '\u2026', ' ', ' ', ' ', '|', ' ', '\u2026', ' ', ' ', ' ', ' ', ' ', ' ', ' ', ' ', ' ', ' ', ' ', ' ', ' ', '|', '\n'],
     ['|', ' ', '9', '9', ' ', ' ', '|', ' ', '\u4e5d', '\u5341', '\u4e5d', ' ', ' ', ' ', ' ', ' ', ' ', ' ', ' ', '|', '\n'],
     ['|', ' ', '1', '0', '0', ' ', '|', ' ', '\u767e', ' ', ' ', ' ', ' ', ' ', ' ', ' ', ' ', ' ', ' ', ' ', ' ', '|', '\n'],
     ['|', ' ', '1', '0', '1', ' ', '|', ' ', '\u767e', '\u4e00', ' ', ' ', ' ', ' ', ' ', ' ', ' ', ' ', ' ', ' ', '|', '\n']]
    ['\u96f6', '\u200e', ' ', '\u4e00', '\u200e', ' ', '\u4e8c', '\u200e', ' ', '\u2026', '\u200e', ' ', '\u4e5d', '\u200e', ' ', '\u5341', '\u200e', ' ', '\u5341', '\u4e00', '\u200e', ' ', '\u2026', '\u200e', ' ', '\u5341', '\u4e5d', '\u200e', ' ', '\u4e8c', '\u5341', '\u200e', ' ', '\u4e8c', '\u5341', '\u4e00', '\u200e', ' ', '\u2026', '\u200e', ' ', '\u4e5d', '\u5341', '\u4e5d', '\u200e', ' ', '\u767e', '\u200e', ' ', '\u767e', '\u4e00'] = true := by decide +kernel

/-- src/previews/HangeulFormal.md -/
example : printed ['H', 'a', 'n', 'g', 'e', 'u', 'l', 'F', 'o', 'r', 'm', 'a', 'l'] Named.hangeulFormal.system
    (.ok [0, 1, 2, 9, 10, 11, 19, 20, 21, 99, 100, 101])
    [['|', ' ', '#', ' ', ' ', ' ', '|', ' ', 'H', 'a', 'n', 'g', 'e', 'u', 'l', 'F', 'o', 'r', 'm', 'a', 'l', ' ', '|', '\n'],
     ['|', '-', '-', '-', '-', '-', '|', '-', '-', '-', '-', '-', '-', '-', '-', '-', '-', '-', '-', '-', '-', '-', '|', '\n'],
     ['|', ' ', '0', ' ', ' ', ' ', '|', ' ', '\uc601', ' ', ' ', ' ', ' ', ' ', ' ', ' ', ' ', ' ', ' ', ' ', ' ', '|', '\n'],
     ['|', ' ', '1', ' ', ' ', ' ', '|', ' ', '\uc77c', ' ', ' ', ' ', ' ', ' ', ' ', ' ', ' ', ' ', ' ', ' ', ' ', '|', '\n'],
     ['|', ' ', '2', ' ', ' ', ' ', '|', ' ', '\uc774', ' ', ' ', ' ', ' ', ' ', ' ', ' ', ' ', ' ', ' ', ' ', ' ', '|', '\n'],
     ['|', ' ', '\u2026', ' ', ' ', ' ', '|', ' ', '\u2026', ' ', ' ', ' ', ' ', ' ', ' ', ' ', ' ', ' ', ' ', ' ', ' ', ' ', '|', '\n'],
     ['|', ' ', '9', ' ', ' ', ' ', '|', ' ', '\uad6c', ' ', ' ', ' ', ' ', ' ', ' ', ' ', ' ', ' ', ' ', ' ', ' ', '|', '\n'],
     ['|', ' ', '1', '0', ' ', ' ', '|', ' ', '\uc77c', '\uc2ed', ' ', ' ', ' ', ' ', ' ', ' ', ' ', ' ', ' ', ' ', '|', '\n'],
     ['|', ' ', '1', '1', ' ', ' ', '|', ' ', '\uc77c', '\uc2ed', '\uc77c', ' ', ' ', ' ', ' ', ' ', ' ', ' ', ' ', '|', '\n'],
     ['|', ' ', '\u2026', ' ', ' ', ' ', '|', ' ', '\u2026', ' ', ' ', ' ', ' ', ' ', ' ', ' ', ' ', ' ', ' ', ' ', ' ', ' ', '|', '\n'],
     ['|', ' ', '1', '9', ' ', ' ', '|', ' ', '\uc77c', '\uc2ed', '\uad6c', ' ', ' ', ' ', ' ', ' ', ' ', ' ', ' ', '|', '\n'],
     ['|', ' ', '2', '0', ' ', ' ', '|', ' ', '\uc774', '\uc2ed', ' ', ' ', ' ', ' ', ' ', ' ', ' ', ' ', ' ', ' ', '|', '\n'],
     ['|', ' ', '2', '1', ' ', ' ', '|', ' ', '\uc774', '\uc2ed', '\uc77c', ' ', ' ', ' ', ' ', ' ', ' ', ' ', ' ', '|', '\n'],
     ['|', ' ', '\u2026', ' ', ' ', ' ', '|', ' ', '\u2026', ' ', ' ', ' ', ' ', ' ', ' ', ' ', ' ', ' ', ' ', ' ', ' ', ' ', '|', '\n'],
     ['|', ' ', '9', '9', ' ', ' ', '|', ' ', '\uad6c', '\uc2ed', '\uad6c', ' ', ' ', ' ', ' ', ' ', ' ', ' ', ' ', '|', '\n'],
     ['|', ' ', '1', '0', '0', ' ', '|', ' ', '\uc77c', '\ubc31', ' ', ' ', ' ', ' ', ' ', ' ', ' ', ' ', ' ', ' ', '|', '\n'],
     ['|', ' ', '1', '0', '1', ' ', '|', ' ', '\uc77c', '\ubc31', '\uc77c', ' ', ' ', ' ', ' ', ' ', ' ', ' ', ' ', '|', '\n']]
    ['\uc601', '\u200e', ' ', '\uc77c', '\u200e', ' ', '\uc774', '\u200e', ' ', '\u2026', '\u200e', ' ', '\uad6c', '\u200e', ' ', '\uc77c', '\uc2ed', '\u200e', ' ', '\uc77c', '\uc2ed', '\uc77c', '\u200e', ' ', '\u2026', '\u200e', ' ', '\uc77c', '\uc2ed', '\uad6c', '\u200e', ' ', '\uc774', '\uc2ed', '\u200e', ' ', '\uc774', '\uc2ed', '\uc77c', '\u200e', ' ', '\u2026', '\u200e', ' ', '\uad6c', '\uc2ed', '\uad6c', '\u200e', ' ', '\uc77c', '\ubc31', '\u200e', ' ', '\uc77c', '\ubc31', '\uc77c'] = true := by decide +kernel

/-- src/previews/HangeulJamo.md -/
example : printed ['H', 'a', 'n', 'g', 'e', 'u', 'l', 'J', 'a', 'm', 'o'] Named.hangeulJamo.system
    (previewValues cfg64 (Nominals.hangeulJamo.level 0))
    [['|', ' ', '#', ' ', ' ', ' ', '|', ' ', 'H', 'a', 'n', 'g', 'e', 'u', 'l', 'J', 'a', 'm', 'o', ' ', '|', '\n'],
     ['|', '-', '-', '-', '-', '-', '|', '-', '-', '-', '-', '-', '-', '-', '-', '-', '-', '-', '-', '-', '|', '\n'],
     ['|', ' ', '0', ' ', ' ', ' ', '|', ' ', '\u3131', ' ', ' ', ' ', ' ', ' ', ' ', ' ', ' ', ' ', ' ', '|', '\n'],
     ['|', ' ', '1', ' ', ' ', ' ', '|', ' ', '\u3134', ' ', ' ', ' ', ' ', ' ', ' ', ' ', ' ', ' ', ' ', '|', '\n'],
     ['|', ' ', '2', ' ', ' ', ' ', '|', ' ', '\u3137', ' ', ' ', ' ', ' ', ' ', ' ', ' ', ' ', ' ', ' ', '|', '\n'],
     ['|', ' ', '3', ' ', ' ', ' ', '|', ' ', '\u3139', ' ', ' ', ' ', ' ', ' ', ' ', ' ', ' ', ' ', ' ', '|', '\n'],
     ['|', ' ', '4', ' ', ' ', ' ', '|', ' ', '\u3141', ' ', ' ', ' ', ' ', ' ', ' ', ' ', ' ', ' ', ' ', '|', '\n'],
     ['|', ' ', '\u2026', ' ', ' ', ' ', '|', ' ', '\u2026', ' ', ' ', ' ', ' ', ' ', ' ', ' ', ' ', ' ', ' ', ' ', '|', '\n'],
     ['|', ' ', '1', '3', ' ', ' ', '|', ' ', '\u314e', ' ', ' ', ' ', ' ', ' ', ' ', ' ', ' ', ' ', ' ', '|', '\n'],
     ['|', ' ', '1', '4', ' ', ' ', '|', ' ', '\u3131', '\u3131', ' ', ' ', ' ', ' ', ' ', ' ', ' ', ' ', '|', '\n'],
     ['|', ' ', '1', '5', ' ', ' ', '|', ' ', '\u3131', '\u3134', ' ', ' ', ' ', ' ', ' ', ' ', ' ', ' ', '|', '\n'],
     ['|', ' ', '1', '6', ' ', ' ', '|', ' ', '\u3131', '\u3137', ' ', ' ', ' ', ' ', ' ', ' ', ' ', ' ', '|', '\n'],
     ['|', ' ', '\u2026', ' ', ' ', ' ', '|', ' ', '\u2026', ' ', ' ', ' ', ' ', ' ', ' ', ' ', ' ', ' ', ' ', ' ', '|', '\n'],
     ['|', ' ', '1', '9', '5', ' ', '|', ' ', '\u314d', '\u314e', ' ', ' ', ' ', ' ', ' ', ' ', ' ', ' ', '|', '\n'],
     ['|', ' ', '1', '9', '6', ' ', '|', ' ', '\u314e', '\u3131', ' ', ' ', ' ', ' ', ' ', ' ', ' ', ' ', '|', '\n'],
     ['|', ' ', '1', '9', '7', ' ', '|', ' ', '\u314e', '\u3134', ' ', ' ', ' ', ' ', ' ', ' ', ' ', ' ', '|', '\n'],
     ['|', ' ', '1', '9', '8', ' ', '|', ' ', '\u314e', '\u3137', ' ', ' ', ' ', ' ', ' ', ' ', ' ', ' ', '|', '\n']]
    ['\u3131', '\u200e', ' ', '\u3134', '\u200e', ' ', '\u3137', '\u200e', ' ', '\u3139', '\u200e', ' ', '\u3141', '\u200e', ' ', '\u2026', '\u200e', ' ', '\u314e', '\u200e', ' ', '\u3131', '\u3131', '\u200e', ' ', '\u3131', '\u3134', '\u200e', ' ', '\u3131', '\u3137', '\u200e', ' ', '\u2026', '\u200e', ' ', '\u314d', '\u314e', '\u200e', ' ', '\u314e', '\u3131', '\u200e', ' ', '\u314e', '\u3134', '\u200e', ' ', '\u314e', '\u3137'] = true := by decide +kernel

/-- src/previews/HangeulSyllable.md -/
example : printed ['H', 'a', 'n', 'g', 'e', 'u', 'l', 'S', 'y', 'l', 'l', 'a', 'b', 'l', 'e'] Named.hangeulSyllable.system
    (previewValues cfg64 (Nominals.hangeulSyllable.level 0))
    [['|', ' ', '#', ' ', ' ', ' ', '|', ' ', 'H', 'a', 'n', 'g', 'e', 'u', 'l', 'S', 'y', 'l', 'l', 'a', 'b', 'l', 'e', ' ', '|', '\n'],
     ['|', '-', '-', '-', '-', '-', '|', '-', '-', '-', '-', '-', '-', '-', '-', '-', '-', '-', '-', '-', '-', '-', '-', '-', '|', '\n'],
     ['|', ' ', '0', ' ', ' ', ' ', '|', ' ', '\uac00', ' ', ' ', ' ', ' ', ' ', ' ', ' ', ' ', ' ', ' ', ' ', ' ', ' ', ' ', '|', '\n'],
     ['|', ' ', '1', ' ', ' ', ' ', '|', ' ', '\ub098', ' ', ' ', ' ', ' ', ' ', ' ', ' ', ' ', ' ', ' ', ' ', ' ', ' ', ' ', '|', '\n'],
     ['|', ' ', '2', ' ', ' ', ' ', '|', ' ', '\ub2e4', ' ', ' ', ' ', ' ', ' ', ' ', ' ', ' ', ' ', ' ', ' ', ' ', ' ', ' ', '|', '\n'],
     ['|', ' ', '3', ' ', ' ', ' ', '|', ' ', '\ub77c', ' ', ' ', ' ', ' ', ' ', ' ', ' ', ' ', ' ', ' ', ' ', ' ', ' ', ' ', '|', '\n'],
     ['|', ' ', '4', ' ', ' ', ' ', '|', ' ', '\ub9c8', ' ', ' ', ' ', ' ', ' ', ' ', ' ', ' ', ' ', ' ', ' ', ' ', ' ', ' ', '|', '\n'],
     ['|', ' ', '\u2026', ' ', ' ', ' ', '|', ' ', '\u2026', ' ', ' ', ' ', ' ', ' ', ' ', ' ', ' ', ' ', ' ', ' ', ' ', ' ', ' ', ' ', '|', '\n'],
     ['|', ' ', '1', '3', ' ', ' ', '|', ' ', '\ud558', ' ', ' ', ' ', ' ', ' ', ' ', ' ', ' ', ' ', ' ', ' ', ' ', ' ', ' ', '|', '\n'],
     ['|', ' ', '1', '4', ' ', ' ', '|', ' ', '\uac00', '\uac00', ' ', ' ', ' ', ' ', ' ', ' ', ' ', ' ', ' ', ' ', ' ', ' ', '|', '\n'],
     ['|', ' ', '1', '5', ' ', ' ', '|', ' ', '\uac00', '\ub098', ' ', ' ', ' ', ' ', ' ', ' ', ' ', ' ', ' ', ' ', ' ', ' ', '|', '\n'],
     ['|', ' ', '1', '6', ' ', ' ', '|', ' ', '\uac00', '\ub2e4', ' ', ' ', ' ', ' ', ' ', ' ', ' ', ' ', ' ', ' ', ' ', ' ', '|', '\n'],
     ['|', ' ', '\u2026', ' ', ' ', ' ', '|', ' ', '\u2026', ' ', ' ', ' ', ' ', ' ', ' ', ' ', ' ', ' ', ' ', ' ', ' ', ' ', ' ', ' ', '|', '\n'],
     ['|', ' ', '1', '9', '5', ' ', '|', ' ', '\ud30c', '\ud558', ' ', ' ', ' ', ' ', ' ', ' ', ' ', ' ', ' ', ' ', ' ', ' ', '|', '\n'],
     ['|', ' ', '1', '9', '6', ' ', '|', ' ', '\ud558', '\uac00', ' ', ' ', ' ', ' ', ' ', ' ', ' ', ' ', ' ', ' ', ' ', ' ', '|', '\n'],
     ['|', ' ', '1', '9', '7', ' ', '|', ' ', '\ud558', '\ub098', ' ', ' ', ' ', ' ', ' ', ' ', ' ', ' ', ' ', ' ', ' ', ' ', '|', '\n'],
     ['|', ' ', '1', '9', '8', ' ', '|', ' ', '\ud558', '\ub2e4', ' ', ' ', ' ', ' ', ' ', ' ', ' ', ' ', ' ', ' ', ' ', ' ', '|', '\n']]
    ['\uac00', '\u200e', ' ', '\ub098', '\u200e', ' ', '\ub2e4', '\u200e', ' ', '\ub77c', '\u200e', ' ', '\ub9c8', '\u200e', ' ', '\u2026', '\u200e', ' ', '\ud558', '\u200e', ' ', '\uac00', '\uac00', '\u200e', ' ', '\uac00', '\ub098', '\u200e', ' ', '\uac00', '\ub2e4', '\u200e', ' ', '\u2026', '\u200e', ' ', '\ud30c', '\ud558', '\u200e', ' ', '\ud558', '\uac00', '\u200e', ' ', '\ud558', '\ub098', '\u200e', ' ', '\ud558', '\ub2e4'] = true := by decide +kernel

/-- src/previews/HanjaFormal.md -/
example : printed ['H', 'a', 'n', 'j', 'a', 'F', 'o', 'r', 'm', 'a', 'l'] Named.hanjaFormal.system
    (.ok [0, 1, 2, 9, 10, 11, 19, 20, 21, 99, 100, 101])
    [['|', ' ', '#', ' ', ' ', ' ', '|', ' ', 'H', 'a', 'n', 'j', 'a', 'F', 'o', 'r', 'm', 'a', 'l', ' ', '|', '\n'],
     ['|', '-', '-', '-', '-', '-', '|', '-', '-', '-', '-', '-', '-', '-', '-', '-', '-', '-', '-', '-', '|', '\n'],
     ['|', ' ', '0', ' ', ' ', ' ', '|', ' ', '\u96f6', ' ', ' ', ' ', ' ', ' ', ' ', ' ', ' ', ' ', ' ', '|', '\n'],
     ['|', ' ', '1', ' ', ' ', ' ', '|', ' ', '\u58f9', ' ', ' ', ' ', ' ', ' ', ' ', ' ', ' ', ' ', ' ', '|', '\n'],
     ['|', ' ', '2', ' ', ' ', ' ', '|', ' ', '\u8cb3', ' ', ' ', ' ', ' ', ' ', ' ', ' ', ' ', ' ', ' ', '|', '\n'],
     ['|', ' ', '\u2026', ' ', ' ', ' ', '|', ' ', '\u2026', ' ', ' ', ' ', ' ', ' ', ' ', ' ', ' ', ' ', ' ', ' ', '|', '\n'],
     ['|', ' ', '9', ' ', ' ', ' ', '|', ' ', '\u4e5d', ' ', ' ', ' ', ' ', ' ', ' ', ' ', ' ', ' ', ' ', '|', '\n'],
     ['|', ' ', '1', '0', ' ', ' ', '|', ' ', '\u58f9', '\u62fe', ' ', ' ', ' ', ' ', ' ', ' ', ' ', ' ', '|', '\n'],
     ['|', ' ', '1', '1', ' ', ' ', '|', ' ', '\u58f9', '\u62fe', '\u58f9', ' ', ' ', ' ', ' ', ' ', ' ', '|', '\n'],
     ['|', ' ', '\u2026', ' ', ' ', ' ', '|', ' ', '\u2026', ' ', ' ', ' ', ' ', ' ', ' ', ' ', ' ', ' ', ' ', ' ', '|', '\n'],
     ['|', ' ', '1', '9', ' ', ' ', '|', ' ', '\u58f9', '\u62fe', '\u4e5d', ' ', ' ', ' ', ' ', ' ', ' ', '|', '\n'],
     ['|', ' ', '2', '0', ' ', ' ', '|', ' ', '\u8cb3', '\u62fe', ' ', ' ', ' ', ' ', ' ', ' ', ' ', ' ', '|', '\n'],
     ['|', ' ', '2', '1', ' ', ' ', '|', ' ', '\u8cb3', '\u62fe', '\u58f9', ' ', ' ', ' ', ' ', ' ', ' ', '|', '\n'],
     ['|', ' ', '\u2026', ' ', ' ', ' ', '|', ' ', '\u2026', ' ', ' ', ' ', ' ', ' ', ' ', ' ', ' ', ' ', ' ', ' ', '|', '\n'],
     ['|', ' ', '9', '9', ' ', ' ', '|', ' ', '\u4e5d', '\u62fe', '\u4e5d', ' ', ' ', ' ', ' ', ' ', ' ', '|', '\n'],
     ['|', ' ', '1', '0', '0', ' ', '|', ' ', '\u58f9', '\u767e', ' ', ' ', ' ', ' ', ' ', ' ', ' ', ' ', '|', '\n'],
     ['|', ' ', '1', '0', '1', ' ', '|', ' ', '\u58f9', '\u767e', '\u58f9', ' ', ' ', ' ', ' ', ' ', ' ', '|', '\n']]
    ['\u96f6', '\u200e', ' ', '\u58f9', '\u200e', ' ', '\u8cb3', '\u200e', ' ', '\u2026', '\u200e', ' ', '\u4e5d', '\u200e', ' ', '\u58f9', '\u62fe', '\u200e', ' ', '\u58f9', '\u62fe', '\u58f9', '\u200e', ' ', '\u2026', '\u200e', ' ', '\u58f9', '\u62fe', '\u4e5d', '\u200e', ' ', '\u8cb3', '\u62fe', '\u200e', ' ', '\u8cb3', '\u62fe', '\u58f9', '\u200e', ' ', '\u2026', '\u200e', ' ', '\u4e5d', '\u62fe', '\u4e5d', '\u200e', ' ', '\u58f9', '\u767e', '\u200e', ' ', '\u58f9', '\u767e', '\u58f9'] = true := by decide +kernel

/-- src/previews/Hebrew.md -/
example : printed ['H', 'e', 'b', 'r', 'e', 'w'] Named.hebrew.system
    (.ok [1, 2, 3, 9, 10, 13, 14, 15, 16, 17, 396, 397, 398, 399, 400])
    [['|', ' ', '#', ' ', ' ', ' ', '|', ' ', 'H', 'e', 'b', 'r', 'e', 'w', ' ', '|', '\n'],
     ['|', '-', '-', '-', '-', '-', '|', '-', '-', '-', '-', '-', '-', '-', '-', '|', '\n'],
     ['|', ' ', '1', ' ', ' ', ' ', '|', ' ', '\u05f3', '\u05d0', '\u05f4', ' ', ' ', ' ', ' ', '|', '\n'],
     ['|', ' ', '2', ' ', ' ', ' ', '|', ' ', '\u05f3', '\u05d1', '\u05f4', ' ', ' ', ' ', ' ', '|', '\n'],
     ['|', ' ', '3', ' ', ' ', ' ', '|', ' ', '\u05f3', '\u05d2', '\u05f4', ' ', ' ', ' ', ' ', '|', '\n'],
     ['|', ' ', '\u2026', ' ', ' ', ' ', '|', ' ', '\u2026', ' ', ' ', ' ', ' ', ' ', ' ', '|', '\n'],
     ['|', ' ', '9', ' ', ' ', ' ', '|', ' ', '\u05f3', '\u05d8', '\u05f4', ' ', ' ', ' ', ' ', '|', '\n'],
     ['|', ' ', '1', '0', ' ', ' ', '|', ' ', '\u05f3', '\u05d9', '\u05f4', ' ', ' ', ' ', ' ', '|', '\n'],
     ['|', ' ', '\u2026', ' ', ' ', ' ', '|', ' ', '\u2026', ' ', ' ', ' ', ' ', ' ', ' ', '|', '\n'],
     ['|', ' ', '1', '3', ' ', ' ', '|', ' ', '\u05d9', '\u05d2', ' ', ' ', ' ', ' ', ' ', '|', '\n'],
     ['|', ' ', '1', '4', ' ', ' ', '|', ' ', '\u05d9', '\u05d3', ' ', ' ', ' ', ' ', ' ', '|', '\n'],
     ['|', ' ', '1', '5', ' ', ' ', '|', ' ', '\u05d8', '\u05f4', '\u05d5', ' ', ' ', ' ', ' ', '|', '\n'],
     ['|', ' ', '1', '6', ' ', ' ', '|', ' ', '\u05d8', '\u05f4', '\u05d6', ' ', ' ', ' ', ' ', '|', '\n'],
     ['|', ' ', '1', '7', ' ', ' ', '|', ' ', '\u05d9', '\u05d6', ' ', ' ', ' ', ' ', ' ', '|', '\n'],
     ['|', ' ', '\u2026', ' ', ' ', ' ', '|', ' ', '\u2026', ' ', ' ', ' ', ' ', ' ', ' ', '|', '\n'],
     ['|', ' ', '3', '9', '6', ' ', '|', ' ', '\u05e9', '\u05e6', '\u05d5', ' ', ' ', ' ', ' ', '|', '\n'],
     ['|', ' ', '3', '9', '7', ' ', '|', ' ', '\u05e9', '\u05e6', '\u05d6', ' ', ' ', ' ', ' ', '|', '\n'],
     ['|', ' ', '3', '9', '8', ' ', '|', ' ', '\u05e9', '\u05e6', '\u05d7', ' ', ' ', ' ', ' ', '|', '\n'],
     ['|', ' ', '3', '9', '9', ' ', '|', ' ', '\u05e9', '\u05e6', '\u05d8', ' ', ' ', ' ', ' ', '|', '\n'],
     ['|', ' ', '4', '0', '0', ' ', '|', ' ', '\u05f3', '\u05ea', '\u05f4', ' ', ' ', ' ', ' ', '|', '\n']]
    ['\u05f3', '\u05d0', '\u05f4', '\u200e', ' ', '\u05f3', '\u05d1', '\u05f4', '\u200e', ' ', '\u05f3', '\u05d2', '\u05f4', '\u200e', ' ', '\u2026', '\u200e', ' ', '\u05f3', '\u05d8', '\u05f4', '\u200e', ' ', '\u05f3', '\u05d9', '\u05f4', '\u200e', ' ', '\u2026', '\u200e', ' ', '\u05d9', '\u05d2', '\u200e', ' ', '\u05d9', '\u05d3', '\u200e', ' ', '\u05d8', '\u05f4', '\u05d5', '\u200e', ' ', '\u05d8', '\u05f4', '\u05d6', '\u200e', ' ', '\u05d9', '\u05d6', '\u200e', ' ', '\u2026', '\u200e', ' ', '\u05e9', '\u05e6', '\u05d5', '\u200e', ' ', '\u05e9', '\u05e6', '\u05d6', '\u200e', ' ', '\u05e9', '\u05e6', '\u05d7', '\u200e', ' ', '\u05e9', '\u05e6', '\u05d8', '\u200e', ' ', '\u05f3', '\u05ea', '\u05f4'] = true := by decide +kernel

/-- src/previews/HexLower.md -/
example : printed ['H', 'e', 'x', 'L', 'o', 'w', 'e', 'r'] Named.hexLower.system
    (previewValues cfg64 (Nominals.hexLower.level 0))
    [['|', ' ', '#', ' ', ' ', ' ', '|', ' ', 'H', 'e', 'x', 'L', 'o', 'w', 'e', 'r', ' ', '|', '\n'],
     ['|', '-', '-', '-', '-', '-', '|', '-', '-', '-', '-', '-', '-', '-', '-', '-', '-', '|', '\n'],
     ['|', ' ', '0', ' ', ' ', ' ', '|', ' ', '0', ' ', ' ', ' ', ' ', ' ', ' ', ' ', ' ', '|', '\n'],
     ['|', ' ', '1', ' ', ' ', ' ', '|', ' ', '1', ' ', ' ', ' ', ' ', ' ', ' ', ' ', ' ', '|', '\n'],
     ['|', ' ', '2', ' ', ' ', ' ', '|', ' ', '2', ' ', ' ', ' ', ' ', ' ', ' ', ' ', ' ', '|', '\n'],
     ['|', ' ', '3', ' ', ' ', ' ', '|', ' ', '3', ' ', ' ', ' ', ' ', ' ', ' ', ' ', ' ', '|', '\n'],
     ['|', ' ', '4', ' ', ' ', ' ', '|', ' ', '4', ' ', ' ', ' ', ' ', ' ', ' ', ' ', ' ', '|', '\n'],
     ['|', ' ', '\u2026', ' ', ' ', ' ', '|', ' ', '\u2026', ' ', ' ', ' ', ' ', ' ', ' ', ' ', ' ', '|', '\n'],
     ['|', ' ', '1', '5', ' ', ' ', '|', ' ', 'f', ' ', ' ', ' ', ' ', ' ', ' ', ' ', ' ', '|', '\n'],
     ['|', ' ', '1', '6', ' ', ' ', '|', ' ', '1', '0', ' ', ' ', ' ', ' ', ' ', ' ', ' ', '|', '\n'],
     ['|', ' ', '1', '7', ' ', ' ', '|', ' ', '1', '1', ' ', ' ', ' ', ' ', ' ', ' ', ' ', '|', '\n'],
     ['|', ' ', '1', '8', ' ', ' ', '|', ' ', '1', '2', ' ', ' ', ' ', ' ', ' ', ' ', ' ', '|', '\n'],
     ['|', ' ', '\u2026', ' ', ' ', ' ', '|', ' ', '\u2026', ' ', ' ', ' ', ' ', ' ', ' ', ' ', ' ', '|', '\n'],
     ['|', ' ', '2', '5', '5', ' ', '|', ' ', 'f', 'f', ' ', ' ', ' ', ' ', ' ', ' ', ' ', '|', '\n'],
     ['|', ' ', '2', '5', '6', ' ', '|', ' ', '1', '0', '0', ' ', ' ', ' ', ' ', ' ', ' ', '|', '\n'],
     ['|', ' ', '2', '5', '7', ' ', '|', ' ', '1', '0', '1', ' ', ' ', ' ', ' ', ' ', ' ', '|', '\n'],
     ['|', ' ', '2', '5', '8', ' ', '|', ' ', '1', '0', '2', ' ', ' ', ' ', ' ', ' ', ' ', '|', '\n']]
    ['0', '\u200e', ' ', '1', '\u200e', ' ', '2', '\u200e', ' ', '3', '\u200e', ' ', '4', '\u200e', ' ', '\u2026', '\u200e', ' ', 'f', '\u200e', ' ', '1', '0', '\u200e', ' ', '1', '1', '\u200e', ' ', '1', '2', '\u200e', ' ', '\u2026', '\u200e', ' ', 'f', 'f', '\u200e', ' ', '1', '0', '0', '\u200e', ' ', '1', '0', '1', '\u200e', ' ', '1', '0', '2'] = true := by decide +kernel

/-- src/previews/HexUpper.md -/
example : printed ['H', 'e', 'x', 'U', 'p', 'p', 'e', 'r'] Named.hexUpper.system
    (previewValues cfg64 (Nominals.hexUpper.level 0))
    [['|', ' ', '#', ' ', ' ', ' ', '|', ' ', 'H', 'e', 'x', 'U', 'p', 'p', 'e', 'r', ' ', '|', '\n'],
     ['|', '-', '-', '-', '-', '-', '|', '-', '-', '-', '-', '-', '-', '-', '-', '-', '-', '|', '\n'],
     ['|', ' ', '0', ' ', ' ', ' ', '|', ' ', '0', ' ', ' ', ' ', ' ', ' ', ' ', ' ', ' ', '|', '\n'],
     ['|', ' ', '1', ' ', ' ', ' ', '|', ' ', '1', ' ', ' ', ' ', ' ', ' ', ' ', ' ', ' ', '|', '\n'],
     ['|', ' ', '2', ' ', ' ', ' ', '|', ' ', '2', ' ', ' ', ' ', ' ', ' ', ' ', ' ', ' ', '|', '\n'],
     ['|', ' ', '3', ' ', ' ', ' ', '|', ' ', '3', ' ', ' ', ' ', ' ', ' ', ' ', ' ', ' ', '|', '\n'],
     ['|', ' ', '4', ' ', ' ', ' ', '|', ' ', '4', ' ', ' ', ' ', ' ', ' ', ' ', ' ', ' ', '|', '\n'],
     ['|', ' ', '\u2026', ' ', ' ', ' ', '|', ' ', '\u2026', ' ', ' ', ' ', ' ', ' ', ' ', ' ', ' ', '|', '\n'],
     ['|', ' ', '1', '5', ' ', ' ', '|', ' ', 'F', ' ', ' ', ' ', ' ', ' ', ' ', ' ', ' ', '|', '\n'],
     ['|', ' ', '1', '6', ' ', ' ', '|', ' ', '1', '0', ' ', ' ', ' ', ' ', ' ', ' ', ' ', '|', '\n'],
     ['|', ' ', '1', '7', ' ', ' ', '|', ' ', '1', '1', ' ', ' ', ' ', ' ', ' ', ' ', ' ', '|', '\n'],
     ['|', ' ', '1', '8', ' ', ' ', '|', ' ', '1', '2', ' ', ' ', ' ', ' ', ' ', ' ', ' ', '|', '\n'],
     ['|', ' ', '\u2026', ' ', ' ', ' ', '|', ' ', '\u2026', ' ', ' ', ' ', ' ', ' ', ' ', ' ', ' ', '|', '\n'],
     ['|', ' ', '2', '5', '5', ' ', '|', ' ', 'F', 'F', ' ', ' ', ' ', ' ', ' ', ' ', ' ', '|', '\n'],
     ['|', ' ', '2', '5', '6', ' ', '|', ' ', '1', '0', '0', ' ', ' ', ' ', ' ', ' ', ' ', '|', '\n'],
     ['|', ' ', '2', '5', '7', ' ', '|', ' ', '1', '0', '1', ' ', ' ', ' ', ' ', ' ', ' ', '|', '\n'],
     ['|', ' ', '2', '5', '8', ' ', '|', ' ', '1', '0', '2', ' ', ' ', ' ', ' ', ' ', ' ', '|', '\n']]
    ['0', '\u200e', ' ', '1', '\u200e', ' ', '2', '\u200e', ' ', '3', '\u200e', ' ', '4', '\u200e', ' ', '\u2026', '\u200e', ' ', 'F', '\u200e', ' ', '1', '0', '\u200e', ' ', '1', '1', '\u200e', ' ', '1', '2', '\u200e', ' ', '\u2026', '\u200e', ' ', 'F', 'F', '\u200e', ' ', '1', '0', '0', '\u200e', ' ', '1', '0', '1', '\u200e', ' ', '1', '0', '2'] = true := by decide +kernel

/-- src/previews/Hiragana.md -/
example : printed ['H', 'i', 'r', 'a', 'g', 'a', 'n', 'a'] Named.hiragana.system
    (previewValues cfg64 (Nominals.hiragana.level 0))
    [['|', ' ', '#', ' ', ' ', ' ', ' ', '|', ' ', 'H', 'i', 'r', 'a', 'g', 'a', 'n', 'a', ' ', '|', '\n'],
     ['|', '-', '-', '-', '-', '-', '-', '|', '-', '-', '-', '-', '-', '-', '-', '-', '-', '-', '|', '\n'],
     ['|', ' ', '0', ' ', ' ', ' ', ' ', '|', ' ', '\u3042', ' ', ' ', ' ', ' ', ' ', ' ', ' ', '|', '\n'],
     ['|', ' ', '1', ' ', ' ', ' ', ' ', '|', ' ', '\u3044', ' ', ' ', ' ', ' ', ' ', ' ', ' ', '|', '\n'],
     ['|', ' ', '2', ' ', ' ', ' ', ' ', '|', ' ', '\u3046', ' ', ' ', ' ', ' ', ' ', ' ', ' ', '|', '\n'],
     ['|', ' ', '3', ' ', ' ', ' ', ' ', '|', ' ', '\u3048', ' ', ' ', ' ', ' ', ' ', ' ', ' ', '|', '\n'],
     ['|', ' ', '4', ' ', ' ', ' ', ' ', '|', ' ', '\u304a', ' ', ' ', ' ', ' ', ' ', ' ', ' ', '|', '\n'],
     ['|', ' ', '\u2026', ' ', ' ', ' ', ' ', '|', ' ', '\u2026', ' ', ' ', ' ', ' ', ' ', ' ', ' ', ' ', '|', '\n'],
     ['|', ' ', '4', '5', ' ', ' ', ' ', '|', ' ', '\u3093', ' ', ' ', ' ', ' ', ' ', ' ', ' ', '|', '\n'],
     ['|', ' ', '4', '6', ' ', ' ', ' ', '|', ' ', '\u3042', '\u3042', ' ', ' ', ' ', ' ', ' ', '|', '\n'],
     ['|', ' ', '4', '7', ' ', ' ', ' ', '|', ' ', '\u3042', '\u3044', ' ', ' ', ' ', ' ', ' ', '|', '\n'],
     ['|', ' ', '4', '8', ' ', ' ', ' ', '|', ' ', '\u3042', '\u3046', ' ', ' ', ' ', ' ', ' ', '|', '\n'],
     ['|', ' ', '\u2026', ' ', ' ', ' ', ' ', '|', ' ', '\u2026', ' ', ' ', ' ', ' ', ' ', ' ', ' ', ' ', '|', '\n'],
     ['|', ' ', '2', '1', '1', '5', ' ', '|', ' ', '\u3092', '\u3093', ' ', ' ', ' ', ' ', ' ', '|', '\n'],
     ['|', ' ', '2', '1', '1', '6', ' ', '|', ' ', '\u3093', '\u3042', ' ', ' ', ' ', ' ', ' ', '|', '\n'],
     ['|', ' ', '2', '1', '1', '7', ' ', '|', ' ', '\u3093', '\u3044', ' ', ' ', ' ', ' ', ' ', '|', '\n'],
     ['|', ' ', '2', '1', '1', '8', ' ', '|', ' ', '\u3093', '\u3046', ' ', ' ', ' ', ' ', ' ', '|', '\n']]
    ['\u3042', '\u200e', ' ', '\u3044', '\u200e', ' ', '\u3046', '\u200e', ' ', '\u3048', '\u200e', ' ', '\u304a', '\u200e', ' ', '\u2026', '\u200e', ' ', '\u3093', '\u200e', ' ', '\u3042', '\u3042', '\u200e', ' ', '\u3042', '\u3044', '\u200e', ' ', '\u3042', '\u3046', '\u200e', ' ', '\u2026', '\u200e', ' ', '\u3092', '\u3093', '\u200e', ' ', '\u3093', '\u3042', '\u200e', ' ', '\u3093', '\u3044', '\u200e', ' ', '\u3093', '\u3046'] = true := by decide +kernel

/-- src/previews/HiraganaIroha.md -/
example : printed ['H', 'i', 'r', 'a', 'g', 'a', 'n', 'a', 'I', 'r', 'o', 'h', 'a'] Named.hiraganaIroha.system
    (previewValues cfg64 (Nominals.hiraganaIroha.level 0))
    [['|', ' ', '#', ' ', ' ', ' ', ' ', '|', ' ', 'H', 'i', 'r', 'a', 'g', 'a', 'n', 'a', 'I', 'r', 'o', 'h', 'a', ' ', '|', '\n'],
     ['|', '-', '-', '-', '-', '-', '-', '|', '-', '-', '-', '-', '-', '-', '-', '-', '-', '-', '-', '-', '-', '-', '-', '|', '\n'],
     ['|', ' ', '0', ' ', ' ', ' ', ' ', '|', ' ', '\u3044', ' ', ' ', ' ', ' ', ' ', ' ', ' ', ' ', ' ', ' ', ' ', ' ', '|', '\n'],
     ['|', ' ', '1', ' ', ' ', ' ', ' ', '|', ' ', '\u308d', ' ', ' ', ' ', ' ', ' ', ' ', ' ', ' ', ' ', ' ', ' ', ' ', '|', '\n'],
     ['|', ' ', '2', ' ', ' ', ' ', ' ', '|', ' ', '\u306f', ' ', ' ', ' ', ' ', ' ', ' ', ' ', ' ', ' ', ' ', ' ', ' ', '|', '\n'],
     ['|', ' ', '3', ' ', ' ', ' ', ' ', '|', ' ', '\u306b', ' ', ' ', ' ', ' ', ' ', ' ', ' ', ' ', ' ', ' ', ' ', ' ', '|', '\n'],
     ['|', ' ', '4', ' ', ' ', ' ', ' ', '|', ' ', '\u307b', ' ', ' ', ' ', ' ', ' ', ' ', ' ', ' ', ' ', ' ', ' ', ' ', '|', '\n'],
     ['|', ' ', '\u2026', ' ', ' ', ' ', ' ', '|', ' ', '\u2026', ' ', ' ', ' ', ' ', ' ', ' ', ' ', ' ', ' ', ' ', ' ', ' ', ' ', '|', '\n'],
     ['|', ' ', '4', '6', ' ', ' ', ' ', '|', ' ', '\u3059', ' ', ' ', ' ', ' ', ' ', ' ', ' ', ' ', ' ', ' ', ' ', ' ', '|', '\n'],
     ['|', ' ', '4', '7', ' ', ' ', ' ', '|', ' ', '\u3044', '\u3044', ' ', ' ', ' ', ' ', ' ', ' ', ' ', ' ', ' ', ' ', '|', '\n'],
     ['|', ' ', '4', '8', ' ', ' ', ' ', '|', ' ', '\u3044', '\u308d', ' ', ' ', ' ', ' ', ' ', ' ', ' ', ' ', ' ', ' ', '|', '\n'],
     ['|', ' ', '4', '9', ' ', ' ', ' ', '|', ' ', '\u3044', '\u306f', ' ', ' ', ' ', ' ', ' ', ' ', ' ', ' ', ' ', ' ', '|', '\n'],
     ['|', ' ', '\u2026', ' ', ' ', ' ', ' ', '|', ' ', '\u2026', ' ', ' ', ' ', ' ', ' ', ' ', ' ', ' ', ' ', ' ', ' ', ' ', ' ', '|', '\n'],
     ['|', ' ', '2', '2', '0', '8', ' ', '|', ' ', '\u305b', '\u3059', ' ', ' ', ' ', ' ', ' ', ' ', ' ', ' ', ' ', ' ', '|', '\n'],
     ['|', ' ', '2', '2', '0', '9', ' ', '|', ' ', '\u3059', '\u3044', ' ', ' ', ' ', ' ', ' ', ' ', ' ', ' ', ' ', ' ', '|', '\n'],
     ['|', ' ', '2', '2', '1', '0', ' ', '|', ' ', '\u3059', '\u308d', ' ', ' ', ' ', ' ', ' ', ' ', ' ', ' ', ' ', ' ', '|', '\n'],
     ['|', ' ', '2', '2', '1', '1', ' ', '|', ' ', '\u3059', '\u306f', ' ', ' ', ' ', ' ', ' ', ' ', ' ', ' ', ' ', ' ', '|', '\n']]
    ['\u3044', '\u200e', ' ', '\u308d', '\u200e', ' ', '\u306f', '\u200e', ' ', '\u306b', '\u200e', ' ', '\u307b', '\u200e', ' ', '\u2026', '\u200e', ' ', '\u3059', '\u200e', ' ', '\u3044', '\u3044', '\u200e', ' ', '\u3044', '\u308d', '\u200e', ' ', '\u3044', '\u306f', '\u200e', ' ', '\u2026', '\u200e', ' ', '\u305b', '\u3059', '\u200e', ' ', '\u3059', '\u3044', '\u200e', ' ', '\u3059', '\u308d', '\u200e', ' ', '\u3059', '\u306f'] = true := by decide +kernel

/-- src/previews/JapaneseFormal.md -/
example : printed ['J', 'a', 'p', 'a', 'n', 'e', 's', 'e', 'F', 'o', 'r', 'm', 'a', 'l'] Named.japaneseFormal.system
    (.ok [0, 1, 2, 9, 10, 11, 19, 20, 21, 99, 100, 101])
    [['|', ' ', '#', ' ', ' ', ' ', '|', ' ', 'J', 'a', 'p', 'a', 'n', 'e', 's', 'e', 'F', 'o', 'r', 'm', 'a', 'l', ' ', '|', '\n'],
     ['|', '-', '-', '-', '-', '-', '|', '-', '-', '-', '-', '-', '-', '-', '-', '-', '-', '-', '-', '-', '-', '-', '-', '|', '\n'],
     ['|', ' ', '0', ' ', ' ', ' ', '|', ' ', '\u96f6', ' ', ' ', ' ', ' ', ' ', ' ', ' ', ' ', ' ', ' ', ' ', ' ', ' ', '|', '\n'],
     ['|', ' ', '1', ' ', ' ', ' ', '|', ' ', '\u58f1', ' ', ' ', ' ', ' ', ' ', ' ', ' ', ' ', ' ', ' ', ' ', ' ', ' ', '|', '\n'],
     ['|', ' ', '2', ' ', ' ', ' ', '|', ' ', '\u5f10', ' ', ' ', ' ', ' ', ' ', ' ', ' ', ' ', ' ', ' ', ' ', ' ', ' ', '|', '\n'],
     ['|', ' ', '\u2026', ' ', ' ', ' ', '|', ' ', '\u2026', ' ', ' ', ' ', ' ', ' ', ' ', ' ', ' ', ' ', ' ', ' ', ' ', ' ', ' ', '|', '\n'],
     ['|', ' ', '9', ' ', ' ', ' ', '|', ' ', '\u4e5d', ' ', ' ', ' ', ' ', ' ', ' ', ' ', ' ', ' ', ' ', ' ', ' ', ' ', '|', '\n'],
     ['|', ' ', '1', '0', ' ', ' ', '|', ' ', '\u58f1', '\u62fe', ' ', ' ', ' ', ' ', ' ', ' ', ' ', ' ', ' ', ' ', ' ', '|', '\n'],
     ['|', ' ', '1', '1', ' ', ' ', '|', ' ', '\u58f1', '\u62fe', '\u58f1', ' ', ' ', ' ', ' ', ' ', ' ', ' ', ' ', ' ', '|', '\n'],
     ['|', ' ', '\u2026', ' ', ' ', ' ', '|', ' ', '\u2026', ' ', ' ', ' ', ' ', ' ', ' ', ' ', ' ', ' ', ' ', ' ', ' ', ' ', ' ', '|', '\n'],
     ['|', ' ', '1', '9', ' ', ' ', '|', ' ', '\u58f1', '\u62fe', '\u4e5d', ' ', ' ', ' ', ' ', ' ', ' ', ' ', ' ', ' ', '|', '\n'],
     ['|', ' ', '2', '0', ' ', ' ', '|', ' ', '\u5f10', '\u62fe', ' ', ' ', ' ', ' ', ' ', ' ', ' ', ' ', ' ', ' ', ' ', '|', '\n'],
     ['|', ' ', '2', '1', ' ', ' ', '|', ' ', '\u5f10', '\u62fe', '\u58f1', ' ', ' ', ' ', ' ', ' ', ' ', ' ', ' ', ' ', '|', '\n'],
     ['|', ' ', '\u2026', ' ', ' ', ' ', '|', ' ', '\u2026', ' ', ' ', ' ', ' ', ' ', ' ', ' ', ' ', ' ', ' ', ' ', ' ', ' ', ' ', '|', '\n'],
     ['|', ' ', '9', '9', ' ', ' ', '|', ' ', '\u4e5d', '\u62fe', '\u4e5d', ' ', ' ', ' ', ' ', ' ', ' ', ' ', ' ', ' ', '|', '\n'],
     ['|', ' ', '1', '0', '0', ' ', '|', ' ', '\u58f1', '\u767e', ' ', ' ', ' ', ' ', ' ', ' ', ' ', ' ', ' ', ' ', ' ', '|', '\n'],
     ['|', ' ', '1', '0', '1', ' ', '|', ' ', '\u58f1', '\u767e', '\u58f1', ' ', ' ', ' ', ' ', ' ', ' ', ' ', ' ', ' ', '|', '\n']]
    ['\u96f6', '\u200e', ' ', '\u58f1', '\u200e', ' ', '\u5f10', '\u200e', ' ', '\u2026', '\u200e', ' ', '\u4e5d', '\u200e', ' ', '\u58f1', '\u62fe', '\u200e', ' ', '\u58f1', '\u62fe', '\u58f1', '\u200e', ' ', '\u2026', '\u200e', ' ', '\u58f1', '\u62fe', '\u4e5d', '\u200e', ' ', '\u5f10', '\u62fe', '\u200e', ' ', '\u5f10', '\u62fe', '\u58f1', '\u200e', ' ', '\u2026', '\u200e', ' ', '\u4e5d', '\u62fe', '\u4e5d', '\u200e', ' ', '\u58f1', '\u767e', '\u200e', ' ', '\u58f1', '\u767e', '\u58f1'] = true := by decide +kernel

/-- src/previews/JapaneseInformal.md -/
example : printed ['J', 'a', 'p', 'a', 'n', 'e', 's', 'e', 'I', 'n', 'f', 'o', 'r', 'm', 'a', 'l'] Named.japaneseInformal.system
    (.ok [0, 1, 2, 9, 10, 11, 19, 20, 21, 99, 100, 101])
    [['|', ' ', '#', ' ', ' ', ' ', '|', ' ', 'J', 'a', 'p', 'a', 'n', 'e', 's', 'e', 'I', 'n', 'f', 'o', 'r', 'm', 'a', 'l', ' ', '|', '\n'],
     ['|', '-', '-', '-', '-', '-', '|', '-', '-', '-', '-', '-', '-', '-', '-', '-', '-', '-', '-', '-', '-', '-', '-', '-', '-', '|', '\n'],
     ['|', ' ', '0', ' ', ' ', ' ', '|', ' ', '\u3007', ' ', ' ', ' ', ' ', ' ', ' ', ' ', ' ', ' ', ' ', ' ', ' ', ' ', ' ', ' ', '|', '\n'],
     ['|', ' ', '1', ' ', ' ', ' ', '|', ' ', '\u4e00', ' ', ' ', ' ', ' ', ' ', ' ', ' ', ' ', ' ', ' ', ' ', ' ', ' ', ' ', ' ', '|', '\n'],
     ['|', ' ', '2', ' ', ' ', ' ', '|', ' ', '\u4e8c', ' ', ' ', ' ', ' ', ' ', ' ', ' ', ' ', ' ', ' ', ' ', ' ', ' ', ' ', ' ', '|', '\n'],
     ['|', ' ', '\u2026', ' ', ' ', ' ', '|', ' ', '\u2026', ' ', ' ', ' ', ' ', ' ', ' ', ' ', ' ', ' ', ' ', ' ', ' ', ' ', ' ', ' ', ' ', '|', '\n'],
     ['|', ' ', '9', ' ', ' ', ' ', '|', ' ', '\u4e5d', ' ', ' ', ' ', ' ', ' ', ' ', ' ', ' ', ' ', ' ', ' ', ' ', ' ', ' ', ' ', '|', '\n'],
     ['|', ' ', '1', '0', ' ', ' ', '|', ' ', '\u5341', ' ', ' ', ' ', ' ', ' ', ' ', ' ', ' ', ' ', ' ', ' ', ' ', ' ', ' ', ' ', '|', '\n'],
     ['|', ' ', '1', '1', ' ', ' ', '|', ' ', '\u5341', '\u4e00', ' ', ' ', ' ', ' ', ' ', ' ', ' ', ' ', ' ', ' ', ' ', ' ', ' ', '|', '\n'],
     ['|', ' ', '\u2026', ' ', ' ', ' ', '|', ' ', '\u2026', ' ', ' ', ' ', ' ', ' ', ' ', ' ', ' ', ' ', ' ', ' ', ' ', ' ', ' ', ' ', ' ', '|', '\n'],
     ['|', ' ', '1', '9', ' ', ' ', '|', ' ', '\u5341', '\u4e5d', ' ', ' ', ' ', ' ', ' ', ' ', ' ', ' ', ' ', ' ', ' ', ' ', ' ', '|', '\n'],
     ['|', ' ', '2', '0', ' ', ' ', '|', ' ', '\u4e8c', '\u5341', ' ', ' ', ' ', ' ', ' ', ' ', ' ', ' ', ' ', ' ', ' ', ' ', ' ', '|', '\n'],
     ['|', ' ', '2', '1', ' ', ' ', '|', ' ', '\u4e8c', '\u5341', '\u4e00', ' ', ' ', ' ', ' ', ' ', ' ', ' ', ' ', ' ', ' ', ' ', '|', '\n'],
     ['|', ' ', '\u2026', ' ', ' ', ' ', '|', ' ', '\u2026', ' ', ' ', ' ', ' ', ' ', ' ', ' ', ' ', ' ', ' ', ' ', ' ', ' ', ' ', ' ', ' ', '|', '\n'],
     ['|', ' ', '9', '9', ' ', ' ', '|', ' ', '\u4e5d', '\u5341', '\u4e5d', ' ', ' ', ' ', ' ', ' ', ' ', ' ', ' ', ' ', ' ', ' ', '|', '\n'],
     ['|', ' ', '1', '0', '0', ' ', '|', ' ', '\u767e', ' ', ' ', ' ', ' ', ' ', ' ', ' ', ' ', ' ', ' ', ' ', ' ', ' ', ' ', ' ', '|', '\n'],
     ['|', ' ', '1', '0', '1', ' ', '|', ' ', '\u767e', '\u4e00', ' ', ' ', ' ', ' ', ' ', ' ', ' ', ' ', ' ', ' ', ' ', ' ', ' ', '|', '\n']]
    ['\u3007', '\u200e', ' ', '\u4e00', '\u200e', ' ', '\u4e8c', '\u200e', ' ', '\u2026', '\u200e', ' ', '\u4e5d', '\u200e', ' ', '\u5341', '\u200e', ' ', '\u5341', '\u4e00', '\u200e', ' ', '\u2026', '\u200e', ' ', '\u5341', '\u4e5d', '\u200e', ' ', '\u4e8c', '\u5341', '\u200e', ' ', '\u4e8c', '\u5341', '\u4e00', '\u200e', ' ', '\u2026', '\u200e', ' ', '\u4e5d', '\u5341', '\u4e5d', '\u200e', ' ', '\u767e', '\u200e', ' ', '\u767e', '\u4e00'] = true := by decide +kernel

/-- src/previews/Kannada.md -/
example : printed ['K', 'a', 'n', 'n', 'a', 'd', 'a'] Named.kannada.system
    (previewValues cfg64 (Nominals.kannada.level 0))
    [['|', ' ', '#', ' ', ' ', ' ', '|', ' ', 'K', 'a', 'n', 'n', 'a', 'd', 'a', ' ', '|', '\n'],
     ['|', '-', '-', '-', '-', '-', '|', '-', '-', '-', '-', '-', '-', '-', '-', '-', '|', '\n'],
     ['|', ' ', '0', ' ', ' ', ' ', '|', ' ', '\u0ce6', ' ', ' ', ' ', ' ', ' ', ' ', ' ', '|', '\n'],
     ['|', ' ', '1', ' ', ' ', ' ', '|', ' ', '\u0ce7', ' ', ' ', ' ', ' ', ' ', ' ', ' ', '|', '\n'],
     ['|', ' ', '2', ' ', ' ', ' ', '|', ' ', '\u0ce8', ' ', ' ', ' ', ' ', ' ', ' ', ' ', '|', '\n'],
     ['|', ' ', '3', ' ', ' ', ' ', '|', ' ', '\u0ce9', ' ', ' ', ' ', ' ', ' ', ' ', ' ', '|', '\n'],
     ['|', ' ', '4', ' ', ' ', ' ', '|', ' ', '\u0cea', ' ', ' ', ' ', ' ', ' ', ' ', ' ', '|', '\n'],
     ['|', ' ', '\u2026', ' ', ' ', ' ', '|', ' ', '\u2026', ' ', ' ', ' ', ' ', ' ', ' ', ' ', '|', '\n'],
     ['|', ' ', '9', ' ', ' ', ' ', '|', ' ', '\u0cef', ' ', ' ', ' ', ' ', ' ', ' ', ' ', '|', '\n'],
     ['|', ' ', '1', '0', ' ', ' ', '|', ' ', '\u0ce7', '\u0ce6', ' ', ' ', ' ', ' ', ' ', ' ', '|', '\n'],
     ['|', ' ', '1', '1', ' ', ' ', '|', ' ', '\u0ce7', '\u0ce7', ' ', ' ', ' ', ' ', ' ', ' ', '|', '\n'],
     ['|', ' ', '1', '2', ' ', ' ', '|', ' ', '\u0ce7', '\u0ce8', ' ', ' ', ' ', ' ', ' ', ' ', '|', '\n'],
     ['|', ' ', '\u2026', ' ', ' ', ' ', '|', ' ', '\u2026', ' ', ' ', ' ', ' ', ' ', ' ', ' ', '|', '\n'],
     ['|', ' ', '9', '9', ' ', ' ', '|', ' ', '\u0cef', '\u0cef', ' ', ' ', ' ', ' ', ' ', ' ', '|', '\n'],
     ['|', ' ', '1', '0', '0', ' ', '|', ' ', '\u0ce7', '\u0ce6', '\u0ce6', ' ', ' ', ' ', ' ', ' ', '|', '\n'],
     ['|', ' ', '1', '0', '1', ' ', '|', ' ', '\u0ce7', '\u0ce6', '\u0ce7', ' ', ' ', ' ', ' ', ' ', '|', '\n'],
     ['|', ' ', '1', '0', '2', ' ', '|', ' ', '\u0ce7', '\u0ce6', '\u0ce8', ' ', ' ', ' ', ' ', ' ', '|', '\n']]
    ['\u0ce6', '\u200e', ' ', '\u0ce7', '\u200e', ' ', '\u0ce8', '\u200e', ' ', '\u0ce9', '\u200e', ' ', '\u0cea', '\u200e', ' ', '\u2026', '\u200e', ' ', '\u0cef', '\u200e', ' ', '\u0ce7', '\u0ce6', '\u200e', ' ', '\u0ce7', '\u0ce7', '\u200e', ' ', '\u0ce7', '\u0ce8', '\u200e', ' ', '\u2026', '\u200e', ' ', '\u0cef', '\u0cef', '\u200e', ' ', '\u0ce7', '\u0ce6', '\u0ce6', '\u200e', ' ', '\u0ce7', '\u0ce6', '\u0ce7', '\u200e', ' ', '\u0ce7', '\u0ce6', '\u0ce8'] = true := by decide +kernel

/-- src/previews/Katakana.md -/
example : printed ['K', 'a', 't', 'a', 'k', 'a', 'n', 'a'] Named.katakana.system
    (previewValues cfg64 (Nominals.katakana.level 0))
    [['|', ' ', '#', ' ', ' ', ' ', ' ', '|', ' ', 'K', 'a', 't', 'a', 'k', 'a', 'n', 'a', ' ', '|', '\n'],
     ['|', '-', '-', '-', '-', '-', '-', '|', '-', '-', '-', '-', '-', '-', '-', '-', '-', '-', '|', '\n'],
     ['|', ' ', '0', ' ', ' ', ' ', ' ', '|', ' ', '\u30a2', ' ', ' ', ' ', ' ', ' ', ' ', ' ', '|', '\n'],
     ['|', ' ', '1', ' ', ' ', ' ', ' ', '|', ' ', '\u30a4', ' ', ' ', ' ', ' ', ' ', ' ', ' ', '|', '\n'],
     ['|', ' ', '2', ' ', ' ', ' ', ' ', '|', ' ', '\u30a6', ' ', ' ', ' ', ' ', ' ', ' ', ' ', '|', '\n'],
     ['|', ' ', '3', ' ', ' ', ' ', ' ', '|', ' ', '\u30a8', ' ', ' ', ' ', ' ', ' ', ' ', ' ', '|', '\n'],
     ['|', ' ', '4', ' ', ' ', ' ', ' ', '|', ' ', '\u30aa', ' ', ' ', ' ', ' ', ' ', ' ', ' ', '|', '\n'],
     ['|', ' ', '\u2026', ' ', ' ', ' ', ' ', '|', ' ', '\u2026', ' ', ' ', ' ', ' ', ' ', ' ', ' ', ' ', '|', '\n'],
     ['|', ' ', '4', '5', ' ', ' ', ' ', '|', ' ', '\u30f3', ' ', ' ', ' ', ' ', ' ', ' ', ' ', '|', '\n'],
     ['|', ' ', '4', '6', ' ', ' ', ' ', '|', ' ', '\u30a2', '\u30a2', ' ', ' ', ' ', ' ', ' ', '|', '\n'],
     ['|', ' ', '4', '7', ' ', ' ', ' ', '|', ' ', '\u30a2', '\u30a4', ' ', ' ', ' ', ' ', ' ', '|', '\n'],
     ['|', ' ', '4', '8', ' ', ' ', ' ', '|', ' ', '\u30a2', '\u30a6', ' ', ' ', ' ', ' ', ' ', '|', '\n'],
     ['|', ' ', '\u2026', ' ', ' ', ' ', ' ', '|', ' ', '\u2026', ' ', ' ', ' ', ' ', ' ', ' ', ' ', ' ', '|', '\n'],
     ['|', ' ', '2', '1', '1', '5', ' ', '|', ' ', '\u30f2', '\u30f3', ' ', ' ', ' ', ' ', ' ', '|', '\n'],
     ['|', ' ', '2', '1', '1', '6', ' ', '|', ' ', '\u30f3', '\u30a2', ' ', ' ', ' ', ' ', ' ', '|', '\n'],
     ['|', ' ', '2', '1', '1', '7', ' ', '|', ' ', '\u30f3', '\u30a4', ' ', ' ', ' ', ' ', ' ', '|', '\n'],
     ['|', ' ', '2', '1', '1', '8', ' ', '|', ' ', '\u30f3', '\u30a6', ' ', ' ', ' ', ' ', ' ', '|', '\n']]
    ['\u30a2', '\u200e', ' ', '\u30a4', '\u200e', ' ', '\u30a6', '\u200e', ' ', '\u30a8', '\u200e', ' ', '\u30aa', '\u200e', ' ', '\u2026', '\u200e', ' ', '\u30f3', '\u200e', ' ', '\u30a2', '\u30a2', '\u200e', ' ', '\u30a2', '\u30a4', '\u200e', ' ', '\u30a2', '\u30a6', '\u200e', ' ', '\u2026', '\u200e', ' ', '\u30f2', '\u30f3', '\u200e', ' ', '\u30f3', '\u30a2', '\u200e', ' ', '\u30f3', '\u30a4', '\u200e', ' ', '\u30f3', '\u30a6'] = true := by decide +kernel

/-- src/previews/KatakanaIroha.md -/
example : printed ['K', 'a', 't', 'a', 'k', 'a', 'n', 'a', 'I', 'r', 'o', 'h', 'a'] Named.katakanaIroha.system
    (previewValues cfg64 (Nominals.katakanaIroha.level 0))
    [['|', ' ', '#', ' ', ' ', ' ', ' ', '|', ' ', 'K', 'a', 't', 'a', 'k', 'a', 'n', 'a', 'I', 'r', 'o', 'h', 'a', ' ', '|', '\n'],
     ['|', '-', '-', '-', '-', '-', '-', '|', '-', '-', '-', '-', '-', '-', '-', '-', '-', '-', '-', '-', '-', '-', '-', '|', '\n'],
     ['|', ' ', '0', ' ', ' ', ' ', ' ', '|', ' ', '\u30a4', ' ', ' ', ' ', ' ', ' ', ' ', ' ', ' ', ' ', ' ', ' ', ' ', '|', '\n'],
     ['|', ' ', '1', ' ', ' ', ' ', ' ', '|', ' ', '\u30ed', ' ', ' ', ' ', ' ', ' ', ' ', ' ', ' ', ' ', ' ', ' ', ' ', '|', '\n'],
     ['|', ' ', '2', ' ', ' ', ' ', ' ', '|', ' ', '\u30cf', ' ', ' ', ' ', ' ', ' ', ' ', ' ', ' ', ' ', ' ', ' ', ' ', '|', '\n'],
     ['|', ' ', '3', ' ', ' ', ' ', ' ', '|', ' ', '\u30cb', ' ', ' ', ' ', ' ', ' ', ' ', ' ', ' ', ' ', ' ', ' ', ' ', '|', '\n'],
     ['|', ' ', '4', ' ', ' ', ' ', ' ', '|', ' ', '\u30db', ' ', ' ', ' ', ' ', ' ', ' ', ' ', ' ', ' ', ' ', ' ', ' ', '|', '\n'],
     ['|', ' ', '\u2026', ' ', ' ', ' ', ' ', '|', ' ', '\u2026', ' ', ' ', ' ', ' ', ' ', ' ', ' ', ' ', ' ', ' ', ' ', ' ', ' ', '|', '\n'],
     ['|', ' ', '4', '6', ' ', ' ', ' ', '|', ' ', '\u30b9', ' ', ' ', ' ', ' ', ' ', ' ', ' ', ' ', ' ', ' ', ' ', ' ', '|', '\n'],
     ['|', ' ', '4', '7', ' ', ' ', ' ', '|', ' ', '\u30a4', '\u30a4', ' ', ' ', ' ', ' ', ' ', ' ', ' ', ' ', ' ', ' ', '|', '\n'],
     ['|', ' ', '4', '8', ' ', ' ', ' ', '|', ' ', '\u30a4', '\u30ed', ' ', ' ', ' ', ' ', ' ', ' ', ' ', ' ', ' ', ' ', '|', '\n'],
     ['|', ' ', '4', '9', ' ', ' ', ' ', '|', ' ', '\u30a4', '\u30cf', ' ', ' ', ' ', ' ', ' ', ' ', ' ', ' ', ' ', ' ', '|', '\n'],
     ['|', ' ', '\u2026', ' ', ' ', ' ', ' ', '|', ' ', '\u2026', ' ', ' ', ' ', ' ', ' ', ' ', ' ', ' ', ' ', ' ', ' ', ' ', ' ', '|', '\n'],
     ['|', ' ', '2', '2', '0', '8', ' ', '|', ' ', '\u30bb', '\u30b9', ' ', ' ', ' ', ' ', ' ', ' ', ' ', ' ', ' ', ' ', '|', '\n'],
     ['|', ' ', '2', '2', '0', '9', ' ', '|', ' ', '\u30b9', '\u30a4', ' ', ' ', ' ', ' ', ' ', ' ', ' ', ' ', ' ', ' ', '|', '\n'],
     ['|', ' ', '2', '2', '1', '0', ' ', '|', ' ', '\u30b9', '\u30ed', ' ', ' ', ' ', ' ', ' ', ' ', ' ', ' ', ' ', ' ', '|', '\n'],
     ['|', ' ', '2', '2', '1', '1', ' ', '|', ' ', '\u30b9', '\u30cf', ' ', ' ', ' ', ' ', ' ', ' ', ' ', ' ', ' ', ' ', '|', '\n']]
    ['\u30a4', '\u200e', ' ', '\u30ed', '\u200e', ' ', '\u30cf', '\u200e', ' ', '\u30cb', '\u200e', ' ', '\u30db', '\u200e', ' ', '\u2026', '\u200e', ' ', '\u30b9', '\u200e', ' ', '\u30a4', '\u30a4', '\u200e', ' ', '\u30a4', '\u30ed', '\u200e', ' ', '\u30a4', '\u30cf', '\u200e', ' ', '\u2026', '\u200e', ' ', '\u30bb', '\u30b9', '\u200e', ' ', '\u30b9', '\u30a4', '\u200e', ' ', '\u30b9', '\u30ed', '\u200e', ' ', '\u30b9', '\u30cf'] = true := by decide +kernel

/-- src/previews/Lao.md -/
example : printed ['L', 'a', 'o'] Named.lao.system
    (previewValues cfg64 (Nominals.lao.level 0))
    [['|', ' ', '#', ' ', ' ', ' ', '|', ' ', 'L', 'a', 'o', ' ', '|', '\n'],
     ['|', '-', '-', '-', '-', '-', '|', '-', '-', '-', '-', '-', '|', '\n'],
     ['|', ' ', '0', ' ', ' ', ' ', '|', ' ', '\u0ed0', ' ', ' ', ' ', '|', '\n'],
     ['|', ' ', '1', ' ', ' ', ' ', '|', ' ', '\u0ed1', ' ', ' ', ' ', '|', '\n'],
     ['|', ' ', '2', ' ', ' ', ' ', '|', ' ', '\u0ed2', ' ', ' ', ' ', '|', '\n'],
     ['|', ' ', '3', ' ', ' ', ' ', '|', ' ', '\u0ed3', ' ', ' ', ' ', '|', '\n'],
     ['|', ' ', '4', ' ', ' ', ' ', '|', ' ', '\u0ed4', ' ', ' ', ' ', '|', '\n'],
     ['|', ' ', '\u2026', ' ', ' ', ' ', '|', ' ', '\u2026', ' ', ' ', ' ', '|', '\n'],
     ['|', ' ', '9', ' ', ' ', ' ', '|', ' ', '\u0ed9', ' ', ' ', ' ', '|', '\n'],
     ['|', ' ', '1', '0', ' ', ' ', '|', ' ', '\u0ed1', '\u0ed0', ' ', ' ', '|', '\n'],
     ['|', ' ', '1', '1', ' ', ' ', '|', ' ', '\u0ed1', '\u0ed1', ' ', ' ', '|', '\n'],
     ['|', ' ', '1', '2', ' ', ' ', '|', ' ', '\u0ed1', '\u0ed2', ' ', ' ', '|', '\n'],
     ['|', ' ', '\u2026', ' ', ' ', ' ', '|', ' ', '\u2026', ' ', ' ', ' ', '|', '\n'],
     ['|', ' ', '9', '9', ' ', ' ', '|', ' ', '\u0ed9', '\u0ed9', ' ', ' ', '|', '\n'],
     ['|', ' ', '1', '0', '0', ' ', '|', ' ', '\u0ed1', '\u0ed0', '\u0ed0', ' ', '|', '\n'],
     ['|', ' ', '1', '0', '1', ' ', '|', ' ', '\u0ed1', '\u0ed0', '\u0ed1', ' ', '|', '\n'],
     ['|', ' ', '1', '0', '2', ' ', '|', ' ', '\u0ed1', '\u0ed0', '\u0ed2', ' ', '|', '\n']]
    ['\u0ed0', '\u200e', ' ', '\u0ed1', '\u200e', ' ', '\u0ed2', '\u200e', ' ', '\u0ed3', '\u200e', ' ', '\u0ed4', '\u200e', ' ', '\u2026', '\u200e', ' ', '\u0ed9', '\u200e', ' ', '\u0ed1', '\u0ed0', '\u200e', ' ', '\u0ed1', '\u0ed1', '\u200e', ' ', '\u0ed1', '\u0ed2', '\u200e', ' ', '\u2026', '\u200e', ' ', '\u0ed9', '\u0ed9', '\u200e', ' ', '\u0ed1', '\u0ed0', '\u0ed0', '\u200e', ' ', '\u0ed1', '\u0ed0', '\u0ed1', '\u200e', ' ', '\u0ed1', '\u0ed0', '\u0ed2'] = true := by decide +kernel

/-- src/previews/Malayalam.md -/
example : printed ['M', 'a', 'l', 'a', 'y', 'a', 'l', 'a', 'm'] Named.malayalam.system
    (previewValues cfg64 (Nominals.malayalam.level 0))
    [['|', ' ', '#', ' ', ' ', ' ', '|', ' ', 'M', 'a', 'l', 'a', 'y', 'a', 'l', 'a', 'm', ' ', '|', '\n'],
     ['|', '-', '-', '-', '-', '-', '|', '-', '-', '-', '-', '-', '-', '-', '-', '-', '-', '-', '|', '\n'],
     ['|', ' ', '0', ' ', ' ', ' ', '|', ' ', '\u0d66', ' ', ' ', ' ', ' ', ' ', ' ', ' ', ' ', ' ', '|', '\n'],
     ['|', ' ', '1', ' ', ' ', ' ', '|', ' ', '\u0d67', ' ', ' ', ' ', ' ', ' ', ' ', ' ', ' ', ' ', '|', '\n'],
     ['|', ' ', '2', ' ', ' ', ' ', '|', ' ', '\u0d68', ' ', ' ', ' ', ' ', ' ', ' ', ' ', ' ', ' ', '|', '\n'],
     ['|', ' ', '3', ' ', ' ', ' ', '|', ' ', '\u0d69', ' ', ' ', ' ', ' ', ' ', ' ', ' ', ' ', ' ', '|', '\n'],
     ['|', ' ', '4', ' ', ' ', ' ', '|', ' ', '\u0d6a', ' ', ' ', ' ', ' ', ' ', ' ', ' ', ' ', ' ', '|', '\n'],
     ['|', ' ', '\u2026', ' ', ' ', ' ', '|', ' ', '\u2026', ' ', ' ', ' ', ' ', ' ', ' ', ' ', ' ', ' ', '|', '\n'],
     ['|', ' ', '9', ' ', ' ', ' ', '|', ' ', '\u0d6f', ' ', ' ', ' ', ' ', ' ', ' ', ' ', ' ', ' ', '|', '\n'],
     ['|', ' ', '1', '0', ' ', ' ', '|', ' ', '\u0d67', '\u0d66', ' ', ' ', ' ', ' ', ' ', ' ', ' ', ' ', '|', '\n'],
     ['|', ' ', '1', '1', ' ', ' ', '|', ' ', '\u0d67', '\u0d67', ' ', ' ', ' ', ' ', ' ', ' ', ' ', ' ', '|', '\n'],
     ['|', ' ', '1', '2', ' ', ' ', '|', ' ', '\u0d67', '\u0d68', ' ', ' ', ' ', ' ', ' ', ' ', ' ', ' ', '|', '\n'],
     ['|', ' ', '\u2026', ' ', ' ', ' ', '|', ' ', '\u2026', ' ', ' ', ' ', ' ', ' ', ' ', ' ', ' ', ' ', '|', '\n'],
     ['|', ' ', '9', '9', ' ', ' ', '|', ' ', '\u0d6f', '\u0d6f', ' ', ' ', ' ', ' ', ' ', ' ', ' ', ' ', '|', '\n'],
     ['|', ' ', '1', '0', '0', ' ', '|', ' ', '\u0d67', '\u0d66', '\u0d66', ' ', ' ', ' ', ' ', ' ', ' ', ' ', '|', '\n'],
     ['|', ' ', '1', '0', '1', ' ', '|', ' ', '\u0d67', '\u0d66', '\u0d67', ' ', ' ', ' ', ' ', ' ', ' ', ' ', '|', '\n'],
     ['|', ' ', '1', '0', '2', ' ', '|', ' ', '\u0d67', '\u0d66', '\u0d68', ' ', ' ', ' ', ' ', ' ', ' ', ' ', '|', '\n']]
    ['\u0d66', '\u200e', ' ', '\u0d67', '\u200e', ' ', '\u0d68', '\u200e', ' ', '\u0d69', '\u200e', ' ', '\u0d6a', '\u200e', ' ', '\u2026', '\u200e', ' ', '\u0d6f', '\u200e', ' ', '\u0d67', '\u0d66', '\u200e', ' ', '\u0d67', '\u0d67', '\u200e', ' ', '\u0d67', '\u0d68', '\u200e', ' ', '\u2026', '\u200e', ' ', '\u0d6f', '\u0d6f', '\u200e', ' ', '\u0d67', '\u0d66', '\u0d66', '\u200e', ' ', '\u0d67', '\u0d66', '\u0d67', '\u200e', ' ', '\u0d67', '\u0d66', '\u0d68'] = true := by decide +kernel

/-- src/previews/Mongolian.md -/
example : printed ['M', 'o', 'n', 'g', 'o', 'l', 'i', 'a', 'n'] Named.mongolian.system
    (previewValues cfg64 (Nominals.mongolian.level 0))
    [['|', ' ', '#', ' ', ' ', ' ', '|', ' ', 'M', 'o', 'n', 'g', 'o', 'l', 'i', 'a', 'n', ' ', '|', '\n'],
     ['|', '-', '-', '-', '-', '-', '|', '-', '-', '-', '-', '-', '-', '-', '-', '-', '-', '-', '|', '\n'],
     ['|', ' ', '0', ' ', ' ', ' ', '|', ' ', '\u1810', ' ', ' ', ' ', ' ', ' ', ' ', ' ', ' ', ' ', '|', '\n'],
     ['|', ' ', '1', ' ', ' ', ' ', '|', ' ', '\u1811', ' ', ' ', ' ', ' ', ' ', ' ', ' ', ' ', ' ', '|', '\n'],
     ['|', ' ', '2', ' ', ' ', ' ', '|', ' ', '\u1812', ' ', ' ', ' ', ' ', ' ', ' ', ' ', ' ', ' ', '|', '\n'],
     ['|', ' ', '3', ' ', ' ', ' ', '|', ' ', '\u1813', ' ', ' ', ' ', ' ', ' ', ' ', ' ', ' ', ' ', '|', '\n'],
     ['|', ' ', '4', ' ', ' ', ' ', '|', ' ', '\u1814', ' ', ' ', ' ', ' ', ' ', ' ', ' ', ' ', ' ', '|', '\n'],
     ['|', ' ', '\u2026', ' ', ' ', ' ', '|', ' ', '\u2026', ' ', ' ', ' ', ' ', ' ', ' ', ' ', ' ', ' ', '|', '\n'],
     ['|', ' ', '9', ' ', ' ', ' ', '|', ' ', '\u1819', ' ', ' ', ' ', ' ', ' ', ' ', ' ', ' ', ' ', '|', '\n'],
     ['|', ' ', '1', '0', ' ', ' ', '|', ' ', '\u1811', '\u1810', ' ', ' ', ' ', ' ', ' ', ' ', ' ', ' ', '|', '\n'],
     ['|', ' ', '1', '1', ' ', ' ', '|', ' ', '\u1811', '\u1811', ' ', ' ', ' ', ' ', ' ', ' ', ' ', ' ', '|', '\n'],
     ['|', ' ', '1', '2', ' ', ' ', '|', ' ', '\u1811', '\u1812', ' ', ' ', ' ', ' ', ' ', ' ', ' ', ' ', '|', '\n'],
     ['|', ' ', '\u2026', ' ', ' ', ' ', '|', ' ', '\u2026', ' ', ' ', ' ', ' ', ' ', ' ', ' ', ' ', ' ', '|', '\n'],
     ['|', ' ', '9', '9', ' ', ' ', '|', ' ', '\u1819', '\u1819', ' ', ' ', ' ', ' ', ' ', ' ', ' ', ' ', '|', '\n'],
     ['|', ' ', '1', '0', '0', ' ', '|', ' ', '\u1811', '\u1810', '\u1810', ' ', ' ', ' ', ' ', ' ', ' ', ' ', '|', '\n'],
     ['|', ' ', '1', '0', '1', ' ', '|', ' ', '\u1811', '\u1810', '\u1811', ' ', ' ', ' ', ' ', ' ', ' ', ' ', '|', '\n'],
     ['|', ' ', '1', '0', '2', ' ', '|', ' ', '\u1811', '\u1810', '\u1812', ' ', ' ', ' ', ' ', ' ', ' ', ' ', '|', '\n']]
    ['\u1810', '\u200e', ' ', '\u1811', '\u200e', ' ', '\u1812', '\u200e', ' ', '\u1813', '\u200e', ' ', '\u1814', '\u200e', ' ', '\u2026', '\u200e', ' ', '\u1819', '\u200e', ' ', '\u1811', '\u1810', '\u200e', ' ', '\u1811', '\u1811', '\u200e', ' ', '\u1811', '\u1812', '\u200e', ' ', '\u2026', '\u200e', ' ', '\u1819', '\u1819', '\u200e', ' ', '\u1811', '\u1810', '\u1810', '\u200e', ' ', '\u1811', '\u1810', '\u1811', '\u200e', ' ', '\u1811', '\u1810', '\u1812'] = true := by decide +kernel

/-- src/previews/Myanmar.md -/
example : printed ['M', 'y', 'a', 'n', 'm', 'a', 'r'] Named.myanmar.system
    (previewValues cfg64 (Nominals.myanmar.level 0))
    [['|', ' ', '#', ' ', ' ', ' ', '|', ' ', 'M', 'y', 'a', 'n', 'm', 'a', 'r', ' ', '|', '\n'],
     ['|', '-', '-', '-', '-', '-', '|', '-', '-', '-', '-', '-', '-', '-', '-', '-', '|', '\n'],
     ['|', ' ', '0', ' ', ' ', ' ', '|', ' ', '\u1040', ' ', ' ', ' ', ' ', ' ', ' ', ' ', '|', '\n'],
     ['|', ' ', '1', ' ', ' ', ' ', '|', ' ', '\u1041', ' ', ' ', ' ', ' ', ' ', ' ', ' ', '|', '\n'],
     ['|', ' ', '2', ' ', ' ', ' ', '|', ' ', '\u1042', ' ', ' ', ' ', ' ', ' ', ' ', ' ', '|', '\n'],
     ['|', ' ', '3', ' ', ' ', ' ', '|', ' ', '\u1043', ' ', ' ', ' ', ' ', ' ', ' ', ' ', '|', '\n'],
     ['|', ' ', '4', ' ', ' ', ' ', '|', ' ', '\u1044', ' ', ' ', ' ', ' ', ' ', ' ', ' ', '|', '\n'],
     ['|', ' ', '\u2026', ' ', ' ', ' ', '|', ' ', '\u2026', ' ', ' ', ' ', ' ', ' ', ' ', ' ', '|', '\n'],
     ['|', ' ', '9', ' ', ' ', ' ', '|', ' ', '\u1049', ' ', ' ', ' ', ' ', ' ', ' ', ' ', '|', '\n'],
     ['|', ' ', '1', '0', ' ', ' ', '|', ' ', '\u1041', '\u1040', ' ', ' ', ' ', ' ', ' ', ' ', '|', '\n'],
     ['|', ' ', '1', '1', ' ', ' ', '|', ' ', '\u1041', '\u1041', ' ', ' ', ' ', ' ', ' ', ' ', '|', '\n'],
     ['|', ' ', '1', '2', ' ', ' ', '|', ' ', '\u1041', '\u1042', ' ', ' ', ' ', ' ', ' ', ' ', '|', '\n'],
     ['|', ' ', '\u2026', ' ', ' ', ' ', '|', ' ', '\u2026', ' ', ' ', ' ', ' ', ' ', ' ', ' ', '|', '\n'],
     ['|', ' ', '9', '9', ' ', ' ', '|', ' ', '\u1049', '\u1049', ' ', ' ', ' ', ' ', ' ', ' ', '|', '\n'],
     ['|', ' ', '1', '0', '0', ' ', '|', ' ', '\u1041', '\u1040', '\u1040', ' ', ' ', ' ', ' ', ' ', '|', '\n'],
     ['|', ' ', '1', '0', '1', ' ', '|', ' ', '\u1041', '\u1040', '\u1041', ' ', ' ', ' ', ' ', ' ', '|', '\n'],
     ['|', ' ', '1', '0', '2', ' ', '|', ' ', '\u1041', '\u1040', '\u1042', ' ', ' ', ' ', ' ', ' ', '|', '\n']]
    ['\u1040', '\u200e', ' ', '\u1041', '\u200e', ' ', '\u1042', '\u200e', ' ', '\u1043', '\u200e', ' ', '\u1044', '\u200e', ' ', '\u2026', '\u200e', ' ', '\u1049', '\u200e', ' ', '\u1041', '\u1040', '\u200e', ' ', '\u1041', '\u1041', '\u200e', ' ', '\u1041', '\u1042', '\u200e', ' ', '\u2026', '\u200e', ' ', '\u1049', '\u1049', '\u200e', ' ', '\u1041', '\u1040', '\u1040', '\u200e', ' ', '\u1041', '\u1040', '\u1041', '\u200e', ' ', '\u1041', '\u1040', '\u1042'] = true := by decide +kernel

/-- src/previews/Oriya.md -/
example : printed ['O', 'r', 'i', 'y', 'a'] Named.oriya.system
    (previewValues cfg64 (Nominals.oriya.level 0))
    [['|', ' ', '#', ' ', ' ', ' ', '|', ' ', 'O', 'r', 'i', 'y', 'a', ' ', '|', '\n'],
     ['|', '-', '-', '-', '-', '-', '|', '-', '-', '-', '-', '-', '-', '-', '|', '\n'],
     ['|', ' ', '0', ' ', ' ', ' ', '|', ' ', '\u0b66', ' ', ' ', ' ', ' ', ' ', '|', '\n'],
     ['|', ' ', '1', ' ', ' ', ' ', '|', ' ', '\u0b67', ' ', ' ', ' ', ' ', ' ', '|', '\n'],
     ['|', ' ', '2', ' ', ' ', ' ', '|', ' ', '\u0b68', ' ', ' ', ' ', ' ', ' ', '|', '\n'],
     ['|', ' ', '3', ' ', ' ', ' ', '|', ' ', '\u0b69', ' ', ' ', ' ', ' ', ' ', '|', '\n'],
     ['|', ' ', '4', ' ', ' ', ' ', '|', ' ', '\u0b6a', ' ', ' ', ' ', ' ', ' ', '|', '\n'],
     ['|', ' ', '\u2026', ' ', ' ', ' ', '|', ' ', '\u2026', ' ', ' ', ' ', ' ', ' ', '|', '\n'],
     ['|', ' ', '9', ' ', ' ', ' ', '|', ' ', '\u0b6f', ' ', ' ', ' ', ' ', ' ', '|', '\n'],
     ['|', ' ', '1', '0', ' ', ' ', '|', ' ', '\u0b67', '\u0b66', ' ', ' ', ' ', ' ', '|', '\n'],
     ['|', ' ', '1', '1', ' ', ' ', '|', ' ', '\u0b67', '\u0b67', ' ', ' ', ' ', ' ', '|', '\n'],
     ['|', ' ', '1', '2', ' ', ' ', '|', ' ', '\u0b67', '\u0b68', ' ', ' ', ' ', ' ', '|', '\n'],
     ['|', ' ', '\u2026', ' ', ' ', ' ', '|', ' ', '\u2026', ' ', ' ', ' ', ' ', ' ', '|', '\n'],
     ['|', ' ', '9', '9', ' ', ' ', '|', ' ', '\u0b6f', '\u0b6f', ' ', ' ', ' ', ' ', '|', '\n'],
     ['|', ' ', '1', '0', '0', ' ', '|', ' ', '\u0b67', '\u0b66', '\u0b66', ' ', ' ', ' ', '|', '\n'],
     ['|', ' ', '1', '0', '1', ' ', '|', ' ', '\u0b67', '\u0b66', '\u0b67', ' ', ' ', ' ', '|', '\n'],
     ['|', ' ', '1', '0', '2', ' ', '|', ' ', '\u0b67', '\u0b66', '\u0b68', ' ', ' ', ' ', '|', '\n']]
    ['\u0b66', '\u200e', ' ', '\u0b67', '\u200e', ' ', '\u0b68', '\u200e', ' ', '\u0b69', '\u200e', ' ', '\u0b6a', '\u200e', ' ', '\u2026', '\u200e', ' ', '\u0b6f', '\u200e', ' ', '\u0b67', '\u0b66', '\u200e', ' ', '\u0b67', '\u0b67', '\u200e', ' ', '\u0b67', '\u0b68', '\u200e', ' ', '\u2026', '\u200e', ' ', '\u0b6f', '\u0b6f', '\u200e', ' ', '\u0b67', '\u0b66', '\u0b66', '\u200e', ' ', '\u0b67', '\u0b66', '\u0b67', '\u200e', ' ', '\u0b67', '\u0b66', '\u0b68'] = true := by decide +kernel

/-- src/previews/Persian.md -/
example : printed ['P', 'e', 'r', 's', 'i', 'a', 'n'] Named.persian.system
    (previewValues cfg64 (Nominals.persian.level 0))
    [['|', ' ', '#', ' ', ' ', ' ', '|', ' ', 'P', 'e', 'r', 's', 'i', 'a', 'n', ' ', '|', '\n'],
     ['|', '-', '-', '-', '-', '-', '|', '-', '-', '-', '-', '-', '-', '-', '-', '-', '|', '\n'],
     ['|', ' ', '0', ' ', ' ', ' ', '|', ' ', '\u06f0', ' ', ' ', ' ', ' ', ' ', ' ', ' ', '|', '\n'],
     ['|', ' ', '1', ' ', ' ', ' ', '|', ' ', '\u06f1', ' ', ' ', ' ', ' ', ' ', ' ', ' ', '|', '\n'],
     ['|', ' ', '2', ' ', ' ', ' ', '|', ' ', '\u06f2', ' ', ' ', ' ', ' ', ' ', ' ', ' ', '|', '\n'],
     ['|', ' ', '3', ' ', ' ', ' ', '|', ' ', '\u06f3', ' ', ' ', ' ', ' ', ' ', ' ', ' ', '|', '\n'],
     ['|', ' ', '4', ' ', ' ', ' ', '|', ' ', '\u06f4', ' ', ' ', ' ', ' ', ' ', ' ', ' ', '|', '\n'],
     ['|', ' ', '\u2026', ' ', ' ', ' ', '|', ' ', '\u2026', ' ', ' ', ' ', ' ', ' ', ' ', ' ', '|', '\n'],
     ['|', ' ', '9', ' ', ' ', ' ', '|', ' ', '\u06f9', ' ', ' ', ' ', ' ', ' ', ' ', ' ', '|', '\n'],
     ['|', ' ', '1', '0', ' ', ' ', '|', ' ', '\u06f1', '\u06f0', ' ', ' ', ' ', ' ', ' ', ' ', '|', '\n'],
     ['|', ' ', '1', '1', ' ', ' ', '|', ' ', '\u06f1', '\u06f1', ' ', ' ', ' ', ' ', ' ', ' ', '|', '\n'],
     ['|', ' ', '1', '2', ' ', ' ', '|', ' ', '\u06f1', '\u06f2', ' ', ' ', ' ', ' ', ' ', ' ', '|', '\n'],
     ['|', ' ', '\u2026', ' ', ' ', ' ', '|', ' ', '\u2026', ' ', ' ', ' ', ' ', ' ', ' ', ' ', '|', '\n'],
     ['|', ' ', '9', '9', ' ', ' ', '|', ' ', '\u06f9', '\u06f9', ' ', ' ', ' ', ' ', ' ', ' ', '|', '\n'],
     ['|', ' ', '1', '0', '0', ' ', '|', ' ', '\u06f1', '\u06f0', '\u06f0', ' ', ' ', ' ', ' ', ' ', '|', '\n'],
     ['|', ' ', '1', '0', '1', ' ', '|', ' ', '\u06f1', '\u06f0', '\u06f1', ' ', ' ', ' ', ' ', ' ', '|', '\n'],
     ['|', ' ', '1', '0', '2', ' ', '|', ' ', '\u06f1', '\u06f0', '\u06f2', ' ', ' ', ' ', ' ', ' ', '|', '\n']]
    ['\u06f0', '\u200e', ' ', '\u06f1', '\u200e', ' ', '\u06f2', '\u200e', ' ', '\u06f3', '\u200e', ' ', '\u06f4', '\u200e', ' ', '\u2026', '\u200e', ' ', '\u06f9', '\u200e', ' ', '\u06f1', '\u06f0', '\u200e', ' ', '\u06f1', '\u06f1', '\u200e', ' ', '\u06f1', '\u06f2', '\u200e', ' ', '\u2026', '\u200e', ' ', '\u06f9', '\u06f9', '\u200e', ' ', '\u06f1', '\u06f0', '\u06f0', '\u200e', ' ', '\u06f1', '\u06f0', '\u06f1', '\u200e', ' ', '\u06f1', '\u06f0', '\u06f2'] = true := by decide +kernel

/-- src/previews/Tamil.md -/
example : printed ['T', 'a', 'm', 'i', 'l'] Named.tamil.system
    (previewValues cfg64 (Nominals.tamil.level 0))
    [['|', ' ', '#', ' ', ' ', ' ', '|', ' ', 'T', 'a', 'm', 'i', 'l', ' ', '|', '\n'],
     ['|', '-', '-', '-', '-', '-', '|', '-', '-', '-', '-', '-', '-', '-', '|', '\n'],
     ['|', ' ', '0', ' ', ' ', ' ', '|', ' ', '\u0be6', ' ', ' ', ' ', ' ', ' ', '|', '\n'],
     ['|', ' ', '1', ' ', ' ', ' ', '|', ' ', '\u0be7', ' ', ' ', ' ', ' ', ' ', '|', '\n'],
     ['|', ' ', '2', ' ', ' ', ' ', '|', ' ', '\u0be8', ' ', ' ', ' ', ' ', ' ', '|', '\n'],
     ['|', ' ', '3', ' ', ' ', ' ', '|', ' ', '\u0be9', ' ', ' ', ' ', ' ', ' ', '|', '\n'],
     ['|', ' ', '4', ' ', ' ', ' ', '|', ' ', '\u0bea', ' ', ' ', ' ', ' ', ' ', '|', '\n'],
     ['|', ' ', '\u2026', ' ', ' ', ' ', '|', ' ', '\u2026', ' ', ' ', ' ', ' ', ' ', '|', '\n'],
     ['|', ' ', '9', ' ', ' ', ' ', '|', ' ', '\u0bef', ' ', ' ', ' ', ' ', ' ', '|', '\n'],
     ['|', ' ', '1', '0', ' ', ' ', '|', ' ', '\u0be7', '\u0be6', ' ', ' ', ' ', ' ', '|', '\n'],
     ['|', ' ', '1', '1', ' ', ' ', '|', ' ', '\u0be7', '\u0be7', ' ', ' ', ' ', ' ', '|', '\n'],
     ['|', ' ', '1', '2', ' ', ' ', '|', ' ', '\u0be7', '\u0be8', ' ', ' ', ' ', ' ', '|', '\n'],
     ['|', ' ', '\u2026', ' ', ' ', ' ', '|', ' ', '\u2026', ' ', ' ', ' ', ' ', ' ', '|', '\n'],
     ['|', ' ', '9', '9', ' ', ' ', '|', ' ', '\u0bef', '\u0bef', ' ', ' ', ' ', ' ', '|', '\n'],
     ['|', ' ', '1', '0', '0', ' ', '|', ' ', '\u0be7', '\u0be6', '\u0be6', ' ', ' ', ' ', '|', '\n'],
     ['|', ' ', '1', '0', '1', ' ', '|', ' ', '\u0be7', '\u0be6', '\u0be7', ' ', ' ', ' ', '|', '\n'],
     ['|', ' ', '1', '0', '2', ' ', '|', ' ', '\u0be7', '\u0be6', '\u0be8', ' ', ' ', ' ', '|', '\n']]
    ['\u0be6', '\u200e', ' ', '\u0be7', '\u200e', ' ', '\u0be8', '\u200e', ' ', '\u0be9', '\u200e', ' ', '\u0bea', '\u200e', ' ', '\u2026', '\u200e', ' ', '\u0bef', '\u200e', ' ', '\u0be7', '\u0be6', '\u200e', ' ', '\u0be7', '\u0be7', '\u200e', ' ', '\u0be7', '\u0be8', '\u200e', ' ', '\u2026', '\u200e', ' ', '\u0bef', '\u0bef', '\u200e', ' ', '\u0be7', '\u0be6', '\u0be6', '\u200e', ' ', '\u0be7', '\u0be6', '\u0be7', '\u200e', ' ', '\u0be7', '\u0be6', '\u0be8'] = true := by decide +kernel

/-- src/previews/Telugu.md -/
example : printed ['T', 'e', 'l', 'u', 'g', 'u'] Named.telugu.system
    (previewValues cfg64 (Nominals.telugu.level 0))
    [['|', ' ', '#', ' ', ' ', ' ', '|', ' ', 'T', 'e', 'l', 'u', 'g', 'u', ' ', '|', '\n'],
     ['|', '-', '-', '-', '-', '-', '|', '-', '-', '-', '-', '-', '-', '-', '-', '|', '\n'],
     ['|', ' ', '0', ' ', ' ', ' ', '|', ' ', '\u0c66', ' ', ' ', ' ', ' ', ' ', ' ', '|', '\n'],
     ['|', ' ', '1', ' ', ' ', ' ', '|', ' ', '\u0c67', ' ', ' ', ' ', ' ', ' ', ' ', '|', '\n'],
     ['|', ' ', '2', ' ', ' ', ' ', '|', ' ', '\u0c68', ' ', ' ', ' ', ' ', ' ', ' ', '|', '\n'],
     ['|', ' ', '3', ' ', ' ', ' ', '|', ' ', '\u0c69', ' ', ' ', ' ', ' ', ' ', ' ', '|', '\n'],
     ['|', ' ', '4', ' ', ' ', ' ', '|', ' ', '\u0c6a', ' ', ' ', ' ', ' ', ' ', ' ', '|', '\n'],
     ['|', ' ', '\u2026', ' ', ' ', ' ', '|', ' ', '\u2026', ' ', ' ', ' ', ' ', ' ', ' ', '|', '\n'],
     ['|', ' ', '9', ' ', ' ', ' ', '|', ' ', '\u0c6f', ' ', ' ', ' ', ' ', ' ', ' ', '|', '\n'],
     ['|', ' ', '1', '0', ' ', ' ', '|', ' ', '\u0c67', '\u0c66', ' ', ' ', ' ', ' ', ' ', '|', '\n'],
     ['|', ' ', '1', '1', ' ', ' ', '|', ' ', '\u0c67', '\u0c67', ' ', ' ', ' ', ' ', ' ', '|', '\n'],
     ['|', ' ', '1', '2', ' ', ' ', '|', ' ', '\u0c67', '\u0c68', ' ', ' ', ' ', ' ', ' ', '|', '\n'],
     ['|', ' ', '\u2026', ' ', ' ', ' ', '|', ' ', '\u2026', ' ', ' ', ' ', ' ', ' ', ' ', '|', '\n'],
     ['|', ' ', '9', '9', ' ', ' ', '|', ' ', '\u0c6f', '\u0c6f', ' ', ' ', ' ', ' ', ' ', '|', '\n'],
     ['|', ' ', '1', '0', '0', ' ', '|', ' ', '\u0c67', '\u0c66', '\u0c66', ' ', ' ', ' ', ' ', '|', '\n'],
     ['|', ' ', '1', '0', '1', ' ', '|', ' ', '\u0c67', '\u0c66', '\u0c67', ' ', ' ', ' ', ' ', '|', '\n'],
     ['|', ' ', '1', '0', '2', ' ', '|', ' ', '\u0c67', '\u0c66', '\u0c68', ' ', ' ', ' ', ' ', '|', '\n']]
    ['\u0c66', '\u200e', ' ', '\u0c67', '\u200e', ' ', '\u0c68', '\u200e', ' ', '\u0c69', '\u200e', ' ', '\u0c6a', '\u200e', ' ', '\u2026', '\u200e', ' ', '\u0c6f', '\u200e', ' ', '\u0c67', '\u0c66', '\u200e', ' ', '\u0c67', '\u0c67', '\u200e', ' ', '\u0c67', '\u0c68', '\u200e', ' ', '\u2026', '\u200e', ' ', '\u0c6f', '\u0c6f', '\u200e', ' ', '\u0c67', '\u0c66', '\u0c66', '\u200e', ' ', '\u0c67', '\u0c66', '\u0c67', '\u200e', ' ', '\u0c67', '\u0c66', '\u0c68'] = true := by decide +kernel

/-- src/previews/Thai.md -/
example : printed ['T', 'h', 'a', 'i'] Named.thai.system
    (previewValues cfg64 (Nominals.thai.level 0))
    [['|', ' ', '#', ' ', ' ', ' ', '|', ' ', 'T', 'h', 'a', 'i', ' ', '|', '\n'],
     ['|', '-', '-', '-', '-', '-', '|', '-', '-', '-', '-', '-', '-', '|', '\n'],
     ['|', ' ', '0', ' ', ' ', ' ', '|', ' ', '\u0e50', ' ', ' ', ' ', ' ', '|', '\n'],
     ['|', ' ', '1', ' ', ' ', ' ', '|', ' ', '\u0e51', ' ', ' ', ' ', ' ', '|', '\n'],
     ['|', ' ', '2', ' ', ' ', ' ', '|', ' ', '\u0e52', ' ', ' ', ' ', ' ', '|', '\n'],
     ['|', ' ', '3', ' ', ' ', ' ', '|', ' ', '\u0e53', ' ', ' ', ' ', ' ', '|', '\n'],
     ['|', ' ', '4', ' ', ' ', ' ', '|', ' ', '\u0e54', ' ', ' ', ' ', ' ', '|', '\n'],
     ['|', ' ', '\u2026', ' ', ' ', ' ', '|', ' ', '\u2026', ' ', ' ', ' ', ' ', '|', '\n'],
     ['|', ' ', '9', ' ', ' ', ' ', '|', ' ', '\u0e59', ' ', ' ', ' ', ' ', '|', '\n'],
     ['|', ' ', '1', '0', ' ', ' ', '|', ' ', '\u0e51', '\u0e50', ' ', ' ', ' ', '|', '\n'],
     ['|', ' ', '1', '1', ' ', ' ', '|', ' ', '\u0e51', '\u0e51', ' ', ' ', ' ', '|', '\n'],
     ['|', ' ', '1', '2', ' ', ' ', '|', ' ', '\u0e51', '\u0e52', ' ', ' ', ' ', '|', '\n'],
     ['|', ' ', '\u2026', ' ', ' ', ' ', '|', ' ', '\u2026', ' ', ' ', ' ', ' ', '|', '\n'],
     ['|', ' ', '9', '9', ' ', ' ', '|', ' ', '\u0e59', '\u0e59', ' ', ' ', ' ', '|', '\n'],
     ['|', ' ', '1', '0', '0', ' ', '|', ' ', '\u0e51', '\u0e50', '\u0e50', ' ', ' ', '|', '\n'],
     ['|', ' ', '1', '0', '1', ' ', '|', ' ', '\u0e51', '\u0e50', '\u0e51', ' ', ' ', '|', '\n'],
     ['|', ' ', '1', '0', '2', ' ', '|', ' ', '\u0e51', '\u0e50', '\u0e52', ' ', ' ', '|', '\n']]
    ['\u0e50', '\u200e', ' ', '\u0e51', '\u200e', ' ', '\u0e52', '\u200e', ' ', '\u0e53', '\u200e', ' ', '\u0e54', '\u200e', ' ', '\u2026', '\u200e', ' ', '\u0e59', '\u200e', ' ', '\u0e51', '\u0e50', '\u200e', ' ', '\u0e51', '\u0e51', '\u200e', ' ', '\u0e51', '\u0e52', '\u200e', ' ', '\u2026', '\u200e', ' ', '\u0e59', '\u0e59', '\u200e', ' ', '\u0e51', '\u0e50', '\u0e50', '\u200e', ' ', '\u0e51', '\u0e50', '\u0e51', '\u200e', ' ', '\u0e51', '\u0e50', '\u0e52'] = true := by decide +kernel

/-- src/previews/Tibetan.md -/
example : printed ['T', 'i', 'b', 'e', 't', 'a', 'n'] Named.tibetan.system
    (previewValues cfg64 (Nominals.tibetan.level 0))
    [['|', ' ', '#', ' ', ' ', ' ', '|', ' ', 'T', 'i', 'b', 'e', 't', 'a', 'n', ' ', '|', '\n'],
     ['|', '-', '-', '-', '-', '-', '|', '-', '-', '-', '-', '-', '-', '-', '-', '-', '|', '\n'],
     ['|', ' ', '0', ' ', ' ', ' ', '|', ' ', '\u0f20', ' ', ' ', ' ', ' ', ' ', ' ', ' ', '|', '\n'],
     ['|', ' ', '1', ' ', ' ', ' ', '|', ' ', '\u0f21', ' ', ' ', ' ', ' ', ' ', ' ', ' ', '|', '\n'],
     ['|', ' ', '2', ' ', ' ', ' ', '|', ' ', '\u0f22', ' ', ' ', ' ', ' ', ' ', ' ', ' ', '|', '\n'],
     ['|', ' ', '3', ' ', ' ', ' ', '|', ' ', '\u0f23', ' ', ' ', ' ', ' ', ' ', ' ', ' ', '|', '\n'],
     ['|', ' ', '4', ' ', ' ', ' ', '|', ' ', '\u0f24', ' ', ' ', ' ', ' ', ' ', ' ', ' ', '|', '\n'],
     ['|', ' ', '\u2026', ' ', ' ', ' ', '|', ' ', '\u2026', ' ', ' ', ' ', ' ', ' ', ' ', ' ', '|', '\n'],
     ['|', ' ', '9', ' ', ' ', ' ', '|', ' ', '\u0f29', ' ', ' ', ' ', ' ', ' ', ' ', ' ', '|', '\n'],
     ['|', ' ', '1', '0', ' ', ' ', '|', ' ', '\u0f21', '\u0f20', ' ', ' ', ' ', ' ', ' ', ' ', '|', '\n'],
     ['|', ' ', '1', '1', ' ', ' ', '|', ' ', '\u0f21', '\u0f21', ' ', ' ', ' ', ' ', ' ', ' ', '|', '\n'],
     ['|', ' ', '1', '2', ' ', ' ', '|', ' ', '\u0f21', '\u0f22', ' ', ' ', ' ', ' ', ' ', ' ', '|', '\n'],
     ['|', ' ', '\u2026', ' ', ' ', ' ', '|', ' ', '\u2026', ' ', ' ', ' ', ' ', ' ', ' ', ' ', '|', '\n'],
     ['|', ' ', '9', '9', ' ', ' ', '|', ' ', '\u0f29', '\u0f29', ' ', ' ', ' ', ' ', ' ', ' ', '|', '\n'],
     ['|', ' ', '1', '0', '0', ' ', '|', ' ', '\u0f21', '\u0f20', '\u0f20', ' ', ' ', ' ', ' ', ' ', '|', '\n'],
     ['|', ' ', '1', '0', '1', ' ', '|', ' ', '\u0f21', '\u0f20', '\u0f21', ' ', ' ', ' ', ' ', ' ', '|', '\n'],
     ['|', ' ', '1', '0', '2', ' ', '|', ' ', '\u0f21', '\u0f20', '\u0f22', ' ', ' ', ' ', ' ', ' ', '|', '\n']]
    ['\u0f20', '\u200e', ' ', '\u0f21', '\u200e', ' ', '\u0f22', '\u200e', ' ', '\u0f23', '\u200e', ' ', '\u0f24', '\u200e', ' ', '\u2026', '\u200e', ' ', '\u0f29', '\u200e', ' ', '\u0f21', '\u0f20', '\u200e', ' ', '\u0f21', '\u0f21', '\u200e', ' ', '\u0f21', '\u0f22', '\u200e', ' ', '\u2026', '\u200e', ' ', '\u0f29', '\u0f29', '\u200e', ' ', '\u0f21', '\u0f20', '\u0f20', '\u200e', ' ', '\u0f21', '\u0f20', '\u0f21', '\u200e', ' ', '\u0f21', '\u0f20', '\u0f22'] = true := by decide +kernel

end Nominals.Tests
