import Verif.Spec.Catalogue

/-!
# CSS Counter Styles Level 3

The algorithms of the standard for values that are not negative, and those of its predefined styles that the crate also has. Fuel: every turn
of the loops of `numeric` (with at least two symbols) and `alphabetic` lowers the value, so the value itself bounds their number.
-/

namespace Nominals.Spec

/-- `numeric`: while the value is not 0, prepend the symbol of index `value mod length` and divide. -/
def numericLoop (length : Nat) : (fuel value : Nat) → List Nat → List Nat
  | 0, _, s => s
  | fuel + 1, value, s => if value = 0 then s else numericLoop length fuel (value / length) (value % length :: s)

/-- `alphabetic`: while the value is not 0, subtract 1, prepend the symbol of index `value mod length` and divide. -/
def alphabeticLoop (length : Nat) : (fuel value : Nat) → List Nat → List Nat
  | 0, _, s => s
  | fuel + 1, value, s => if value = 0 then s else alphabeticLoop length fuel ((value - 1) / length) ((value - 1) % length :: s)

/-- `additive`, step 3: what is written and what remains of the value. -/
def additiveLoop : List (List Char × Nat) → (value : Nat) → List Char × Nat
  | [], value => ([], value)
  | (symbol, weight) :: rest, value =>
    if weight = 0 ∨ value < weight then additiveLoop rest value
    else
      let reps := value / weight
      let (s, value) := additiveLoop rest (value - weight * reps)
      ((List.replicate reps symbol).flatten ++ s, value)

/-- Chinese longhand styles: a digit or a digit marker (of the tens, hundreds, thousands). -/
inductive LonghandPiece where
  | digit (d : Nat)
  | marker (place : Nat)
deriving DecidableEq

/-- Step 2: the decimal digits, each that is not 0 with the marker of its place. -/
def longhandMarked : List Nat → List LonghandPiece
  | [] => []
  | d :: ds => .digit d :: ((if d = 0 ∨ ds = [] then [] else [.marker ds.length]) ++ longhandMarked ds)

/-- Step 4, first half: drop trailing zeros. -/
def dropTrailingZeros (ps : List LonghandPiece) : List LonghandPiece := (ps.reverse.dropWhile (· = .digit 0)).reverse

/-- Step 4, second half: collapse zeros. -/
def collapseZeros : List LonghandPiece → List LonghandPiece
  | .digit 0 :: .digit 0 :: ps => collapseZeros (.digit 0 :: ps)
  | p :: ps => p :: collapseZeros ps
  | [] => []

/-- Step 5: replace digits and markers by characters. -/
def pieceChar (digits markers : List Char) : LonghandPiece → Char
  | .digit d => digits.getD d '?'
  | .marker place => markers.getD (place - 1) '?'

/-- The Chinese longhand styles, for values up to 9999. `digits` are the characters of 0 to 9, `markers` those of the tens,
hundreds and thousands. -/
def longhand (informal : Bool) (digits markers : List Char) (value : Nat) : List Char :=
  if value = 0 then [digits.getD 0 '?']
  else
    let marked := longhandMarked (numericLoop 10 value value [])
    let marked := if informal ∧ 10 ≤ value ∧ value ≤ 19 then marked.drop 1 else marked
    (collapseZeros (dropTrailingZeros marked)).map (pieceChar digits markers)

/-- The ways to generate a counter representation. -/
inductive CounterSystem where
  | numeric (symbols : List Char)
  | alphabetic (symbols : List Char)
  | additive (tuples : List (List Char × Nat))
  | fixed (first : Nat) (symbols : List (List Char))
  | ethiopicNumeric
  | chineseLonghand (informal : Bool) (digits markers : List Char)

/-- The representation of a value, if it has one. -/
def CounterSystem.represent : CounterSystem → Nat → Option (List Char)
  | .numeric symbols, value =>
    if value = 0 then some [symbols.getD 0 '?'] else some (spell symbols (numericLoop symbols.length value value []))
  | .alphabetic symbols, value => if value = 0 then none else some (spell symbols (alphabeticLoop symbols.length value value []))
  | .additive tuples, value =>
    if value = 0 then (tuples.find? (·.2 = 0)).map (·.1)
    else if (additiveLoop tuples value).2 = 0 then some (additiveLoop tuples value).1 else none
  | .fixed first symbols, value => if value < first then none else symbols[value - first]?
  | .ethiopicNumeric, value => if value = 0 then none else some (ethiopicText value)
  | .chineseLonghand informal digits markers, value => if value ≤ 9999 then some (longhand informal digits markers value) else none

/-- A counter style: how it writes, the values from `low` to `high` it writes, and what writes the others. -/
structure CounterStyle where
  system : CounterSystem
  low : Nat
  high : Option Nat
  fallback : Option CounterSystem

/-- Is the value in the range of the style? -/
def CounterStyle.InRange (s : CounterStyle) (value : Nat) : Prop := s.low ≤ value ∧ ∀ h, s.high = some h → value ≤ h

instance (s : CounterStyle) (value : Nat) : Decidable (s.InRange value) :=
  match h : s.high with
  | none => if hl : s.low ≤ value then .isTrue ⟨hl, by simp [h]⟩ else .isFalse fun c => hl c.1
  | some b =>
    if hl : s.low ≤ value ∧ value ≤ b then .isTrue ⟨hl.1, by simp only [h, Option.some.injEq]; rintro _ rfl; exact hl.2⟩
    else .isFalse fun c => hl ⟨c.1, c.2 b h⟩

/-- The text of a value. -/
def CounterStyle.text (s : CounterStyle) (value : Nat) : Option (List Char) :=
  match if s.InRange value then s.system.represent value else none with
  | some t => some t
  | none => s.fallback.bind fun f => f.represent value

/-! ## Predefined styles -/

/-- `decimal` and its relatives: ten digits in a row in Unicode. -/
def digitStyle (first : Nat) : CounterStyle := ⟨.numeric ((List.range 10).map fun i => Char.ofNat (first + i)), 0, none, none⟩

/-- `cjk-decimal`. -/
def cjkDecimalStyle : CounterSystem := .numeric ['〇', '一', '二', '三', '四', '五', '六', '七', '八', '九']

/-- `lower-alpha`, `upper-alpha`, …: one letter after the other. -/
def letterStyle (symbols : List Char) : CounterStyle := ⟨.alphabetic symbols, 1, none, none⟩

/-- `cjk-heavenly-stem`, `cjk-earthly-branch`. -/
def stemStyle (symbols : List Char) : CounterStyle := ⟨.fixed 1 (symbols.map fun c => [c]), 0, none, some cjkDecimalStyle⟩

/-- `upper-roman`. -/
def upperRomanStyle : CounterStyle :=
  ⟨.additive [(['M'], 1000), (['C', 'M'], 900), (['D'], 500), (['C', 'D'], 400), (['C'], 100), (['X', 'C'], 90), (['L'], 50), (['X', 'L'], 40),
    (['X'], 10), (['I', 'X'], 9), (['V'], 5), (['I', 'V'], 4), (['I'], 1)], 1, some 3999, none⟩

/-- `lower-roman`. -/
def lowerRomanStyle : CounterStyle :=
  ⟨.additive [(['m'], 1000), (['c', 'm'], 900), (['d'], 500), (['c', 'd'], 400), (['c'], 100), (['x', 'c'], 90), (['l'], 50), (['x', 'l'], 40),
    (['x'], 10), (['i', 'x'], 9), (['v'], 5), (['i', 'v'], 4), (['i'], 1)], 1, some 3999, none⟩

/-- Weights `9 * 10 ^ k`, …, `1 * 10 ^ k` for the places `k` from 3 down to 0. -/
def placeTuples (sym : Nat → Nat → List Char) : List (List Char × Nat) :=
  [3, 2, 1, 0].flatMap fun k => [9, 8, 7, 6, 5, 4, 3, 2, 1].map fun d => (sym k d, d * 10 ^ k)

/-- The capital Armenian letters in alphabetical order. -/
def armenianCapital (k d : Nat) : List Char := [Char.ofNat (0x531 + 9 * k + (d - 1))]

/-- `upper-armenian`. -/
def upperArmenianStyle : CounterStyle := ⟨.additive (placeTuples armenianCapital), 1, some 9999, none⟩

/-- `lower-armenian`. -/
def lowerArmenianStyle : CounterStyle := ⟨.additive (placeTuples armenianLowerSym), 1, some 9999, none⟩

/-- `georgian`. -/
def georgianStyle : CounterStyle := ⟨.additive ((['ჵ'], 10000) :: placeTuples georgianSym), 1, some 19999, none⟩

/-- `japanese-informal`, `korean-hangul-formal`, …: digit and place, and a symbol for zero. -/
def longhandStyle (script : DigitPlace) (zero : Char) : CounterStyle :=
  ⟨.additive (placeTuples script.sym ++ [([zero], 0)]), 0, some 9999, none⟩

/-- `ethiopic-numeric`. -/
def ethiopicStyle : CounterStyle := ⟨.ethiopicNumeric, 1, none, none⟩

/-- The characters of 0 to 9 of the Chinese styles: ordinary ones for the two informal styles, financial ones for the two formal styles. -/
def chineseDigits (traditional financial : Bool) : List Char :=
  if financial then
    if traditional then ['零', '壹', '貳', '參', '肆', '伍', '陸', '柒', '捌', '玖']
    else ['零', '壹', '贰', '叁', '肆', '伍', '陆', '柒', '捌', '玖']
  else ['零', '一', '二', '三', '四', '五', '六', '七', '八', '九']

/-- The markers of the Chinese styles. -/
def chineseMarkers (financial : Bool) : List Char := if financial then ['拾', '佰', '仟'] else ['十', '百', '千']

/-- The Chinese styles. The standard has `informal` with ordinary and not `informal` with financial characters. -/
def chineseStyle (informal traditional financial : Bool) : CounterStyle :=
  ⟨.chineseLonghand informal (chineseDigits traditional financial) (chineseMarkers financial), 0, some 9999, none⟩

/-- `hebrew`: thousands with a geresh, hundreds up to 400, 15 to 19 as single tuples. -/
def hebrewTuples : List (List Char × Nat) :=
  ([10, 9, 8, 7, 6, 5, 4, 3, 2, 1].map fun d => ([hebrewLetters.getD (d - 1) '?', '׳'], 1000 * d)) ++
  [(['ת'], 400), (['ש'], 300), (['ר'], 200), (['ק'], 100), (['צ'], 90), (['פ'], 80), (['ע'], 70), (['ס'], 60), (['נ'], 50), (['מ'], 40),
    (['ל'], 30), (['כ'], 20), (['י', 'ט'], 19), (['י', 'ח'], 18), (['י', 'ז'], 17), (['ט', 'ז'], 16), (['ט', 'ו'], 15), (['י'], 10), (['ט'], 9),
    (['ח'], 8), (['ז'], 7), (['ו'], 6), (['ה'], 5), (['ד'], 4), (['ג'], 3), (['ב'], 2), (['א'], 1)]

/-- `hebrew`. -/
def hebrewStyle : CounterStyle := ⟨.additive hebrewTuples, 1, some 10999, none⟩

/-- The letters of a Hebrew numeral, without geresh and gershayim. -/
def hebrewOnly (t : List Char) : List Char := t.filter (· ∈ hebrewLetters)

/-- The style of a named system, and what to add to the crate's number: styles with letters count from 1, the crate from 0. Not here:
the systems that the standard does not have, `Hiragana` and `Katakana` (the standard has ゐ and ゑ, the crate does not), and `ArmenianUpper` and
`Hebrew`, which deviate. -/
def styleOf : Named → Option (CounterStyle × Nat)
  | .decimal => some (digitStyle 0x30, 0)
  | .easternArabic => some (digitStyle 0x660, 0)
  | .persian => some (digitStyle 0x6f0, 0)
  | .bengali => some (digitStyle 0x9e6, 0)
  | .cambodian => some (digitStyle 0x17e0, 0)
  | .cjkDecimal => some (⟨cjkDecimalStyle, 0, none, none⟩, 0)
  | .devanagari => some (digitStyle 0x966, 0)
  | .gujarati => some (digitStyle 0xae6, 0)
  | .gurmukhi => some (digitStyle 0xa66, 0)
  | .kannada => some (digitStyle 0xce6, 0)
  | .lao => some (digitStyle 0xed0, 0)
  | .malayalam => some (digitStyle 0xd66, 0)
  | .mongolian => some (digitStyle 0x1810, 0)
  | .myanmar => some (digitStyle 0x1040, 0)
  | .oriya => some (digitStyle 0xb66, 0)
  | .tamil => some (digitStyle 0xbe6, 0)
  | .telugu => some (digitStyle 0xc66, 0)
  | .thai => some (digitStyle 0xe50, 0)
  | .tibetan => some (digitStyle 0xf20, 0)
  | .letterUpper => some (letterStyle ((List.range 26).map fun i => Char.ofNat (0x41 + i)), 1)
  | .letterLower => some (letterStyle ((List.range 26).map fun i => Char.ofNat (0x61 + i)), 1)
  | .greekLower => some (letterStyle ((List.range 24).map fun i => Char.ofNat (if i < 17 then 0x3b1 + i else 0x3b2 + i)), 1)
  | .hiraganaIroha => some (letterStyle iroha, 1)
  | .katakanaIroha => some (letterStyle (iroha.map toKatakana), 1)
  | .cjkHeavenlyStem => some (stemStyle ['甲', '乙', '丙', '丁', '戊', '己', '庚', '辛', '壬', '癸'], 0)
  | .cjkEarthlyBranch => some (stemStyle ['子', '丑', '寅', '卯', '辰', '巳', '午', '未', '申', '酉', '戌', '亥'], 0)
  | .romanLower => some (lowerRomanStyle, 0)
  | .romanUpper => some (upperRomanStyle, 0)
  | .armenianLower => some (lowerArmenianStyle, 0)
  | .georgian => some (georgianStyle, 0)
  | .japaneseFormal => some (longhandStyle japaneseFormalScript '零', 0)
  | .japaneseInformal => some (longhandStyle japaneseInformalScript '〇', 0)
  | .hangeulFormal => some (longhandStyle hangeulFormalScript '영', 0)
  | .hanjaInformal => some (longhandStyle hanjaInformalScript '零', 0)
  | .hanjaFormal => some (longhandStyle hanjaFormalScript '零', 0)
  | .ethiopic => some (ethiopicStyle, 0)
  | .chinese k o => some (chineseStyle (!isFormal k) (isTraditional k) (o.usage = .financial), 0)
  | _ => none

end Nominals.Spec
