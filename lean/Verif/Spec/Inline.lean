import Verif.Spec.Catalogue

/-!
# The first number whose text is too long for the inline buffer
-/

namespace Nominals.Spec

/-- For every named system: the smallest number whose text has more than 62 bytes, if there is one below 2^128. -/
def firstLong : Named → Option Nat
  | .decimal | .hexUpper | .hexLower | .letterUpper | .letterLower | .greekUpper | .greekLower | .circledNumber
  | .doubleCircledNumber => none
  | .easternArabic | .persian => some (10 ^ 31)
  | .bengali | .cambodian | .cjkDecimal | .devanagari | .gujarati | .gurmukhi | .kannada | .lao | .malayalam | .mongolian | .myanmar
  | .oriya | .tamil | .telugu | .thai | .tibetan | .cjkHeavenlyStem | .cjkEarthlyBranch => some (10 ^ 20)
  | .hiragana | .katakana => some (wordsUpTo 46 20)
  | .hiraganaIroha | .katakanaIroha => some (wordsUpTo 47 20)
  | .hangeulJamo | .hangeulSyllable => some (wordsUpTo 14 20)
  | .romanLower | .romanUpper => some 7884888
  | .armenianUpper => some 244111
  | .armenianLower => some 253111
  | .georgian => some 171111
  | .japaneseFormal | .hangeulFormal | .hanjaFormal => some 64111
  | .japaneseInformal | .hanjaInformal => some 65221
  | .hebrew => some 11315
  | .ethiopic => some 111111111111111
  | .chinese _ _ => some 11111111111

/-- The systems written with digits or letters, whose texts never get shorter as the numbers grow. -/
def ofDigits : Named → Bool
  | .decimal | .hexUpper | .hexLower | .letterUpper | .letterLower | .greekUpper | .greekLower | .easternArabic | .persian
  | .bengali | .cambodian | .cjkDecimal | .devanagari | .gujarati | .gurmukhi | .kannada | .lao | .malayalam | .mongolian | .myanmar
  | .oriya | .tamil | .telugu | .thai | .tibetan | .cjkHeavenlyStem | .cjkEarthlyBranch
  | .hiragana | .katakana | .hiraganaIroha | .katakanaIroha | .hangeulJamo | .hangeulSyllable => true
  | _ => false

end Nominals.Spec
