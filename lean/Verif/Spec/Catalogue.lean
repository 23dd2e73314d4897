import Verif.Spec.Outcome
import Verif.Spec.Digits
import Verif.Spec.Additive
import Verif.Spec.Hebrew
import Verif.Spec.Ethiopic
import Verif.Spec.Chinese
import Verif.Model.Lib

/-!
# The catalogue: what every named system answers for every number

Neither the integer type nor the build nor the pointer width occurs here.
-/

namespace Nominals.Spec

/-- What a system has to say about a number. -/
inductive Answer where
  | text (t : List Char)
  | noZero
  | outOfBounds
deriving DecidableEq, Repr

/-- How a build presents an answer to `try_format_nominal(n)`. -/
def present (alloc : Bool) (n : Nat) : Answer → Res Error (List Char × Bool)
  | .text t => deliver alloc n t
  | .noZero => .err .noZeroSymbol
  | .outOfBounds => .err (.outOfBounds n)

/-- The decimal numeral of `n` with the digit characters starting at code point `first`. -/
def decimalFrom (first n : Nat) : Answer := .text ((Nat.toDigits 10 n).map fun c => Char.ofNat (first + (c.toNat - '0'.toNat)))

/-- The decimal numeral of `n` with the digits of a list. -/
def decimalWith (digits : List Char) (n : Nat) : List Char :=
  (Nat.toDigits 10 n).map fun c => digits.getD (c.toNat - '0'.toNat) '?'

/-- The `n`-th column name over the letters of a list. -/
def columnName (letters : List Char) (n : Nat) : Answer := .text (spell letters (column letters.length n))

/-- A fixed one-based series; numbers beyond it are written in CJK decimals. -/
def series (symbols : List Char) (n : Nat) : Answer :=
  if n = 0 then .noZero
  else .text (if n ≤ symbols.length then [symbols.getD (n - 1) '?'] else decimalWith ['〇', '一', '二', '三', '四', '五', '六', '七', '八', '九'] n)

/-- An additive system with place-value symbols `sym` below its largest symbol, whose value is `top`. -/
def additiveAnswer (zero : Answer) (top : Nat) (topSymbol : List Char) (sym : Nat → Nat → List Char) (n : Nat) : Answer :=
  if n = 0 then zero else .text (repeatedTop top topSymbol sym n)

/-- Code point of a circled number up to 50. -/
def circled (n : Nat) : Nat :=
  if n = 0 then 0x24ea else if n ≤ 20 then 0x2460 + (n - 1) else if n ≤ 35 then 0x3251 + (n - 21) else 0x32b1 + (n - 36)

/-- The forty-six hiragana in the order of the fifty sounds: the five vowels, the rows of k, s, t, n, h, m, y, r, w, and n. -/
def gojuon : List Char :=
  ['あ', 'い', 'う', 'え', 'お'] ++ ['か', 'き', 'く', 'け', 'こ'] ++ ['さ', 'し', 'す', 'せ', 'そ'] ++ ['た', 'ち', 'つ', 'て', 'と']
  ++ ['な', 'に', 'ぬ', 'ね', 'の'] ++ ['は', 'ひ', 'ふ', 'へ', 'ほ'] ++ ['ま', 'み', 'む', 'め', 'も'] ++ ['や', 'ゆ', 'よ']
  ++ ['ら', 'り', 'る', 'れ', 'ろ'] ++ ['わ', 'を'] ++ ['ん']

/-- The forty-seven hiragana in the order of the iroha poem, line by line. -/
def iroha : List Char :=
  ['い', 'ろ', 'は', 'に', 'ほ', 'へ', 'と'] ++ ['ち', 'り', 'ぬ', 'る', 'を'] ++ ['わ', 'か', 'よ', 'た', 'れ', 'そ'] ++ ['つ', 'ね', 'な', 'ら', 'む']
  ++ ['う', 'ゐ', 'の', 'お', 'く', 'や', 'ま'] ++ ['け', 'ふ', 'こ', 'え', 'て'] ++ ['あ', 'さ', 'き', 'ゆ', 'め', 'み', 'し'] ++ ['ゑ', 'ひ', 'も', 'せ', 'す']

/-- Katakana and hiragana are laid out alike in Unicode, 0x60 apart. -/
def toKatakana (c : Char) : Char := Char.ofNat (c.toNat + 0x60)

/-- The fourteen basic (not doubled) consonants of hangeul, in alphabetical order. -/
def jamo : List Char := ['ㄱ', 'ㄴ', 'ㄷ', 'ㄹ', 'ㅁ', 'ㅂ', 'ㅅ', 'ㅇ', 'ㅈ', 'ㅊ', 'ㅋ', 'ㅌ', 'ㅍ', 'ㅎ']

/-- The syllables of the basic consonants with the vowel `a`, by the composition rule of the Unicode standard: 588 code points
per leading consonant, of which numbers 1, 4, 8, 10 and 13 are the doubled ones. -/
def syllablesWithA : List Char := [0, 2, 3, 5, 6, 7, 9, 11, 12, 14, 15, 16, 17, 18].map fun lead => Char.ofNat (0xac00 + 588 * lead)

/-- The answer of every named system. -/
def answer : Named → Nat → Answer
  | .decimal, n => .text (Nat.toDigits 10 n)
  | .easternArabic, n => decimalFrom 0x660 n
  | .persian, n => decimalFrom 0x6f0 n
  | .bengali, n => decimalFrom 0x9e6 n
  | .cambodian, n => decimalFrom 0x17e0 n
  | .cjkDecimal, n => .text (decimalWith ['〇', '一', '二', '三', '四', '五', '六', '七', '八', '九'] n)
  | .devanagari, n => decimalFrom 0x966 n
  | .gujarati, n => decimalFrom 0xae6 n
  | .gurmukhi, n => decimalFrom 0xa66 n
  | .kannada, n => decimalFrom 0xce6 n
  | .lao, n => decimalFrom 0xed0 n
  | .malayalam, n => decimalFrom 0xd66 n
  | .mongolian, n => decimalFrom 0x1810 n
  | .myanmar, n => decimalFrom 0x1040 n
  | .oriya, n => decimalFrom 0xb66 n
  | .tamil, n => decimalFrom 0xbe6 n
  | .telugu, n => decimalFrom 0xc66 n
  | .thai, n => decimalFrom 0xe50 n
  | .tibetan, n => decimalFrom 0xf20 n
  | .letterUpper, n => columnName ((List.range 26).map fun i => Char.ofNat (0x41 + i)) n
  | .letterLower, n => columnName ((List.range 26).map fun i => Char.ofNat (0x61 + i)) n
  | .greekUpper, n => columnName ((List.range 24).map fun i => Char.ofNat (if i < 17 then 0x391 + i else 0x392 + i)) n
  | .greekLower, n => columnName ((List.range 24).map fun i => Char.ofNat (if i < 17 then 0x3b1 + i else 0x3b2 + i)) n
  | .hiragana, n => columnName gojuon n
  | .hiraganaIroha, n => columnName iroha n
  | .katakana, n => columnName (gojuon.map toKatakana) n
  | .katakanaIroha, n => columnName (iroha.map toKatakana) n
  | .hangeulJamo, n => columnName jamo n
  | .hangeulSyllable, n => columnName syllablesWithA n
  | .cjkHeavenlyStem, n => series ['甲', '乙', '丙', '丁', '戊', '己', '庚', '辛', '壬', '癸'] n
  | .cjkEarthlyBranch, n => series ['子', '丑', '寅', '卯', '辰', '巳', '午', '未', '申', '酉', '戌', '亥'] n
  | .hexUpper, n => .text ((Nat.toDigits 16 n).map Char.toUpper)
  | .hexLower, n => .text (Nat.toDigits 16 n)
  | .circledNumber, n => if n ≤ 50 then .text [Char.ofNat (circled n)] else .outOfBounds
  | .doubleCircledNumber, n => if n = 0 then .noZero else if n ≤ 10 then .text [Char.ofNat (0x24f5 + (n - 1))] else .outOfBounds
  | .romanLower, n => .text (if n = 0 then ['n'] else (romanText n).map Char.toLower)
  | .romanUpper, n => .text (if n = 0 then ['N'] else romanText n)
  | .armenianUpper, n => additiveAnswer .noZero 9000 ['Ք'] armenianUpperSym n
  | .armenianLower, n => additiveAnswer .noZero 9000 ['ք'] armenianLowerSym n
  | .georgian, n => additiveAnswer .noZero 10000 ['ჵ'] georgianSym n
  | .japaneseFormal, n => additiveAnswer (.text ['零']) 9000 ['九', '阡'] japaneseFormalScript.sym n
  | .japaneseInformal, n => additiveAnswer (.text ['〇']) 9000 ['九', '千'] japaneseInformalScript.sym n
  | .hangeulFormal, n => additiveAnswer (.text ['영']) 9000 ['구', '천'] hangeulFormalScript.sym n
  | .hanjaInformal, n => additiveAnswer (.text ['零']) 9000 ['九', '千'] hanjaInformalScript.sym n
  | .hanjaFormal, n => additiveAnswer (.text ['零']) 9000 ['九', '仟'] hanjaFormalScript.sym n
  | .hebrew, n => if n = 0 then .noZero else .text (hebrewText n)
  | .ethiopic, n => if n = 0 then .noZero else .text (ethiopicText n)
  | .chinese k o, n => if o.scale = .short ∧ 10 ^ 15 ≤ n then .outOfBounds else .text (chineseText k o n)

end Nominals.Spec
