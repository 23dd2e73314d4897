import Verif.Spec.Additive
import Verif.Model.Hebrew

/-!
# Hebrew numerals
-/

namespace Nominals.Spec

/-- The 22 letters in numeral order: nine ones, nine tens, four hundreds. -/
def hebrewLetters : List Char :=
  ['א', 'ב', 'ג', 'ד', 'ה', 'ו', 'ז', 'ח', 'ט', 'י', 'כ', 'ל', 'מ', 'נ', 'ס', 'ע', 'פ', 'צ', 'ק', 'ר', 'ש', 'ת']

/-- Value of a letter; geresh, gershayim and everything else count 0. -/
def hebrewValue (c : Char) : Nat := if c ∈ hebrewLetters then alphabetValue (hebrewLetters.idxOf c) else 0

/-- Symbol of digit `d` at place `10^k`; nothing for 0. -/
def hebrewDigit (k d : Nat) : List Char := if d = 0 then [] else [hebrewLetters.getD (9 * k + (d - 1)) '?']

/-- The part below 100; 15 and 16 are written 9+6 and 9+7 (with a gershayim). -/
def hebrewBelow100 (r : Nat) : List Char :=
  if r = 15 then ['ט', '״', 'ו'] else if r = 16 then ['ט', '״', 'ז'] else hebrewDigit 1 (r / 10) ++ hebrewDigit 0 (r % 10)

/-- All letters: tav for every 400, a letter for the remaining hundreds, then the part below 100. -/
def hebrewPlain (n : Nat) : List Char :=
  List.replicate (n / 400) 'ת' ++ hebrewDigit 2 (n % 400 / 100) ++ hebrewBelow100 (n % 100)

/-- The text: a single letter is put between geresh and gershayim. -/
def hebrewText (n : Nat) : List Char :=
  if (hebrewPlain n).length = 1 then '׳' :: hebrewPlain n ++ ['״'] else hebrewPlain n

end Nominals.Spec
