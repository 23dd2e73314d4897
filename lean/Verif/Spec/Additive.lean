import Verif.Spec.Outcome

/-!
# Additive numerals, Roman numerals, letter numerals, digit-and-place numerals

A symbol is a pair (text, value).
-/

namespace Nominals.Spec

/-! ## Additive numerals in general -/

/-- Sum of the values of a sequence of symbols. -/
def total (ps : List (List Char × Nat)) : Nat := (ps.map Prod.snd).sum

/-- The text of a sequence of symbols. -/
def written (ps : List (List Char × Nat)) : List Char := ps.flatMap Prod.fst

/-- `Greedy table n ps`: starting from `n`, repeatedly take a symbol of the largest value that still fits; stop when no
symbol of non-zero value fits. -/
inductive Greedy (table : List (List Char × Nat)) : Nat → List (List Char × Nat) → Prop
  | stop (n : Nat) : (∀ q ∈ table, q.2 ≠ 0 → n < q.2) → Greedy table n []
  | take (n : Nat) (p : List Char × Nat) (ps : List (List Char × Nat)) : p ∈ table → p.2 ≠ 0 → p.2 ≤ n →
      (∀ q ∈ table, q.2 ≤ n → q.2 ≤ p.2) → Greedy table (n - p.2) ps → Greedy table n (p :: ps)

/-- The values of a table are strictly descending. -/
def Descending (table : List (List Char × Nat)) : Prop := table.Pairwise fun a b => a.2 > b.2

/-! ## Roman numerals -/

/-- A letter with an overline. -/
def bar (c : Char) : List Char := [c, '\u0305']

/-- The conventional way to write one decimal digit with the signs for one, four, five and nine. -/
def romanGroup (one four five nine : List Char) : Nat → List Char
  | 0 => []
  | 1 => one
  | 2 => one ++ one
  | 3 => one ++ one ++ one
  | 4 => four
  | 5 => five
  | 6 => five ++ one
  | 7 => five ++ one ++ one
  | 8 => five ++ one ++ one ++ one
  | _ => nine

/-- Roman text of `n`: millions, then one group per decimal place. (900,000 is D̅M̅ and 90,000 is L̅C̅ in this crate.) -/
def romanText (n : Nat) : List Char :=
  (List.replicate (n / 10 ^ 6) (bar 'M')).flatten
  ++ romanGroup (bar 'C') (bar 'C' ++ bar 'D') (bar 'D') (bar 'D' ++ bar 'M') (n / 10 ^ 5 % 10)
  ++ romanGroup (bar 'X') (bar 'X' ++ bar 'L') (bar 'L') (bar 'L' ++ bar 'C') (n / 10 ^ 4 % 10)
  ++ romanGroup ['M'] (bar 'I' ++ bar 'V') (bar 'V') (bar 'I' ++ bar 'X') (n / 10 ^ 3 % 10)
  ++ romanGroup ['C'] ['C', 'D'] ['D'] ['C', 'M'] (n / 10 ^ 2 % 10)
  ++ romanGroup ['X'] ['X', 'L'] ['L'] ['X', 'C'] (n / 10 % 10)
  ++ romanGroup ['I'] ['I', 'V'] ['V'] ['I', 'X'] (n % 10)

/-- Values of the Roman letters. -/
def romanLetter : Char → Nat
  | 'I' => 1
  | 'V' => 5
  | 'X' => 10
  | 'L' => 50
  | 'C' => 100
  | 'D' => 500
  | 'M' => 1000
  | _ => 0

/-- The letter values of a Roman text; an overline multiplies the letter before it by 1000. -/
def romanValues : List Char → List Nat
  | [] => []
  | [c] => [romanLetter c]
  | c :: d :: rest =>
    if d = '\u0305' then (1000 * romanLetter c) :: romanValues rest else romanLetter c :: romanValues (d :: rest)

/-- The standard subtractive rule: a letter smaller than its successor is subtracted, every other letter is added. -/
def subtractive : List Nat → Int
  | [] => 0
  | [v] => v
  | v :: w :: rest => if v < w then subtractive (w :: rest) - v else subtractive (w :: rest) + v

/-- Standard reading of a Roman text. -/
def readRoman (t : List Char) : Int := subtractive (romanValues t)

/-! ## Letter numerals: every non-zero digit at every place has its own letter -/

/-- Write the decimal digits of `n < 10000`, thousands first; `sym k d` is the symbol of digit `d ≠ 0` at place `10^k`. -/
def digitwise (sym : Nat → Nat → List Char) (n : Nat) : List Char :=
  let at_ (k d : Nat) := if d = 0 then [] else sym k d
  at_ 3 (n / 1000 % 10) ++ at_ 2 (n / 100 % 10) ++ at_ 1 (n / 10 % 10) ++ at_ 0 (n % 10)

/-- As many copies of the largest symbol (of value `top`) as fit, then the rest digit by digit. -/
def repeatedTop (top : Nat) (topSym : List Char) (sym : Nat → Nat → List Char) (n : Nat) : List Char :=
  (List.replicate (n / top) topSym).flatten ++ digitwise sym (n % top)

/-- Armenian letters are numbered in alphabetical order: nine ones, nine tens, nine hundreds, nine thousands. The crate
writes the capital letter for 1 with a trailing space. -/
def armenianUpperSym (k d : Nat) : List Char :=
  if k = 0 ∧ d = 1 then ['Ա', ' '] else [Char.ofNat (0x531 + 9 * k + (d - 1))]

/-- The same for small letters. -/
def armenianLowerSym (k d : Nat) : List Char := [Char.ofNat (0x561 + 9 * k + (d - 1))]

/-- The Georgian numeral letters in ascending order: nine ones, nine tens, nine hundreds, nine thousands, ten thousand. -/
def georgianLetters : List Char :=
  ['ა', 'ბ', 'გ', 'დ', 'ე', 'ვ', 'ზ', 'ჱ', 'თ', 'ი', 'კ', 'ლ', 'მ', 'ნ', 'ჲ', 'ო', 'პ', 'ჟ', 'რ', 'ს', 'ტ', 'ჳ', 'ფ', 'ქ', 'ღ', 'ყ', 'შ',
   'ჩ', 'ც', 'ძ', 'წ', 'ჭ', 'ხ', 'ჴ', 'ჯ', 'ჰ', 'ჵ']

def georgianSym (k d : Nat) : List Char := [georgianLetters.getD (9 * k + (d - 1)) '?']

/-- Sum of letter values. -/
def letterSum (val : Char → Nat) (t : List Char) : Nat := (t.map val).sum

/-- Value of a letter in a numbered alphabet: nine ones, nine tens, nine hundreds, … -/
def alphabetValue (i : Nat) : Nat := (i % 9 + 1) * 10 ^ (i / 9)

/-- Value of an Armenian letter (capital or small); anything else counts 0. -/
def armenianValue (c : Char) : Nat :=
  if 0x531 ≤ c.toNat ∧ c.toNat < 0x531 + 36 then alphabetValue (c.toNat - 0x531)
  else if 0x561 ≤ c.toNat ∧ c.toNat < 0x561 + 36 then alphabetValue (c.toNat - 0x561)
  else 0

/-- Value of a Georgian letter. -/
def georgianValue (c : Char) : Nat :=
  if c ∈ georgianLetters then alphabetValue (georgianLetters.idxOf c) else 0

/-- Small letter of an Armenian capital letter. -/
def armenianSmall (c : Char) : Char :=
  if 0x531 ≤ c.toNat ∧ c.toNat ≤ 0x556 then Char.ofNat (c.toNat + 0x30) else c

/-! ## Digit-and-place numerals (Japanese, Korean) -/

/-- Characters of a digit-and-place system: the digits 1..9, the signs for ten, hundred, thousand, and whether 1 is omitted
before a place sign. -/
structure DigitPlace where
  digits : List Char
  places : List Char
  omitOne : Bool

/-- Symbol of digit `d ≠ 0` at place `10^k`: the digit, then the place sign. -/
def DigitPlace.sym (s : DigitPlace) (k d : Nat) : List Char :=
  if k = 0 then [s.digits.getD (d - 1) '?']
  else if s.omitOne ∧ d = 1 then [s.places.getD (k - 1) '?']
  else [s.digits.getD (d - 1) '?', s.places.getD (k - 1) '?']

/-- Reading: remember a digit; a place sign multiplies the remembered digit (or 1) and adds it to the total; a remembered
digit without place sign counts itself. Other characters count nothing. -/
def DigitPlace.readFrom (s : DigitPlace) : (total pending : Nat) → List Char → Nat
  | tot, pending, [] => tot + pending
  | tot, pending, c :: t =>
    if c ∈ s.places then s.readFrom (tot + (if pending = 0 then 1 else pending) * 10 ^ (s.places.idxOf c + 1)) 0 t
    else if c ∈ s.digits then s.readFrom (tot + pending) (s.digits.idxOf c + 1) t
    else s.readFrom tot pending t

def DigitPlace.read (s : DigitPlace) (t : List Char) : Nat := s.readFrom 0 0 t

def japaneseFormalScript : DigitPlace := ⟨['壱', '弐', '参', '四', '伍', '六', '七', '八', '九'], ['拾', '百', '阡'], false⟩
def japaneseInformalScript : DigitPlace := ⟨['一', '二', '三', '四', '五', '六', '七', '八', '九'], ['十', '百', '千'], true⟩
def hangeulFormalScript : DigitPlace := ⟨['일', '이', '삼', '사', '오', '육', '칠', '팔', '구'], ['십', '백', '천'], false⟩
def hanjaInformalScript : DigitPlace := ⟨['一', '二', '三', '四', '五', '六', '七', '八', '九'], ['十', '百', '千'], true⟩
def hanjaFormalScript : DigitPlace := ⟨['壹', '貳', '參', '四', '五', '六', '七', '八', '九'], ['拾', '百', '仟'], false⟩

end Nominals.Spec
