import Verif.Spec.Additive
import Verif.Spec.Hebrew
import Verif.Spec.Ethiopic

/-!
# Regular expressions over texts, and the shapes of well-formed numerals
-/

namespace Nominals.Spec

/-- Regular expressions; `upTo k r` is `r{0,k}`. -/
inductive Rx where
  | word (w : List Char)
  | cat (a b : Rx)
  | alt (a b : Rx)
  | upTo (k : Nat) (a : Rx)

/-- The texts a regular expression describes. -/
def Rx.Matches : Rx → List Char → Prop
  | .word w, t => t = w
  | .cat a b, t => ∃ u v, t = u ++ v ∧ a.Matches u ∧ b.Matches v
  | .alt a b, t => a.Matches t ∨ b.Matches t
  | .upTo k a, t => ∃ us : List (List Char), us.length ≤ k ∧ (∀ u ∈ us, a.Matches u) ∧ t = us.flatten

infixr:65 " ⬝ " => Rx.cat
infixr:60 " ∣∣ " => Rx.alt

/-- `r?` -/
def Rx.opt (r : Rx) : Rx := .word [] ∣∣ r

/-- One of the listed words (none if the list is empty). -/
def Rx.oneOf : List (List Char) → Rx
  | [] => .cat (.word []) (.upTo 0 (.word []))
  | [w] => .word w
  | w :: ws => .word w ∣∣ Rx.oneOf ws

/-- One decimal place of a Roman numeral: `nine|four|five?one{0,3}`. -/
def romanPlace (one four five nine : List Char) : Rx :=
  .word nine ∣∣ .word four ∣∣ (Rx.opt (.word five) ⬝ .upTo 3 (.word one))

/-- `(CM|CD|D?C{0,3})(XC|XL|L?X{0,3})(IX|IV|V?I{0,3})` -/
def romanBelow1000 : Rx :=
  romanPlace ['C'] ['C', 'D'] ['D'] ['C', 'M'] ⬝ romanPlace ['X'] ['X', 'L'] ['L'] ['X', 'C'] ⬝
    romanPlace ['I'] ['I', 'V'] ['V'] ['I', 'X']

/-- The classical expression `M{0,3}(CM|CD|D?C{0,3})(XC|XL|L?X{0,3})(IX|IV|V?I{0,3})`. -/
def romanClassic : Rx := .upTo 3 (.word ['M']) ⬝ romanBelow1000

/-- The same with overlined letters, and at most `k` overlined M in front. -/
def romanLong (k : Nat) : Rx :=
  .upTo k (.word (bar 'M')) ⬝
    romanPlace (bar 'C') (bar 'C' ++ bar 'D') (bar 'D') (bar 'D' ++ bar 'M') ⬝
    romanPlace (bar 'X') (bar 'X' ++ bar 'L') (bar 'L') (bar 'L' ++ bar 'C') ⬝
    romanPlace ['M'] (bar 'I' ++ bar 'V') (bar 'V') (bar 'I' ++ bar 'X') ⬝ romanBelow1000

/-- An optional symbol: one of `sym 1`, …, `sym d`. -/
def maybeDigit (sym : Nat → List Char) : Nat → Rx
  | 0 => .word []
  | d + 1 => maybeDigit sym d ∣∣ .word (sym (d + 1))

/-- At most `k` copies of the top symbol, then at most one symbol per decimal place, thousands first; the thousands digit is
at most `m`. -/
def placeShape (top : List Char) (sym : Nat → Nat → List Char) (m k : Nat) : Rx :=
  .upTo k (.word top) ⬝ maybeDigit (sym 3) m ⬝ maybeDigit (sym 2) 9 ⬝ maybeDigit (sym 1) 9 ⬝ maybeDigit (sym 0) 9

/-- Hebrew letters for a number below 100: `ט״ו|ט״ז|י[א-דז-ט]?|[כ-צ]?[א-ט]?`. -/
def hebrewShapeBelow100 : Rx :=
  .word ['ט', '״', 'ו'] ∣∣ .word ['ט', '״', 'ז'] ∣∣
  (.word ['י'] ⬝ Rx.opt (Rx.oneOf [['א'], ['ב'], ['ג'], ['ד'], ['ז'], ['ח'], ['ט']])) ∣∣
  (Rx.opt (Rx.oneOf [['כ'], ['ל'], ['מ'], ['נ'], ['ס'], ['ע'], ['פ'], ['צ']]) ⬝
    Rx.opt (Rx.oneOf [['א'], ['ב'], ['ג'], ['ד'], ['ה'], ['ו'], ['ז'], ['ח'], ['ט']]))

/-- `ת{0,k}[קרש]?` and the part below 100. -/
def hebrewShape (k : Nat) : Rx :=
  .upTo k (.word ['ת']) ⬝ Rx.opt (Rx.oneOf [['ק'], ['ר'], ['ש']]) ⬝ hebrewShapeBelow100

/-- A single letter stands between geresh and gershayim; longer words stand alone. -/
def hebrewMarked (p : List Char) : List Char := if p.length = 1 then '׳' :: p ++ ['״'] else p

/-- Ethiopic tens and ones. -/
def ethTenSigns : List (List Char) := [['፲'], ['፳'], ['፴'], ['፵'], ['፶'], ['፷'], ['፸'], ['፹'], ['፺']]
def ethOneSignsFrom2 : List (List Char) := [['፪'], ['፫'], ['፬'], ['፭'], ['፮'], ['፯'], ['፰'], ['፱']]

/-- Any two-digit group, possibly empty: `[፲-፺]?[፩-፱]?`. -/
def ethAnyGroup : Rx := Rx.opt (Rx.oneOf ethTenSigns) ⬝ Rx.opt (.word ['፩'] ∣∣ Rx.oneOf ethOneSignsFrom2)

/-- A group that is not just `፩`: `[፲-፺][፩-፱]?|[፪-፱]?`. -/
def ethGroupNotOne : Rx :=
  (Rx.oneOf ethTenSigns ⬝ Rx.opt (.word ['፩'] ∣∣ Rx.oneOf ethOneSignsFrom2)) ∣∣ Rx.opt (Rx.oneOf ethOneSignsFrom2)

/-- A hundreds group with its sign: never `፩፻`. -/
def ethHundreds : Rx := ethGroupNotOne ⬝ .word ['፻']

/-- Four digits: `((…)፻)?(…)?`. -/
def ethStretch : Rx := Rx.opt ethHundreds ⬝ ethAnyGroup

/-- Four digits in front of a ten-thousand sign at the beginning of a numeral: not just `፩`. -/
def ethFirstStretch : Rx := (ethHundreds ⬝ ethAnyGroup) ∣∣ ethGroupNotOne

/-- Up to `4 (k + 1)` digits: a stretch, or a first stretch and at most `k` further ones, each after a ten-thousand sign. -/
def ethShape (k : Nat) : Rx := ethStretch ∣∣ (ethFirstStretch ⬝ .upTo k (.word ['፼'] ⬝ ethStretch))

end Nominals.Spec
