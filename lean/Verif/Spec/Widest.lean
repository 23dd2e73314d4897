import Verif.Model.Lib

/-!
# The systems in which a greater number never has a shorter label
-/

namespace Nominals.Spec

/-- The named systems made of digits, of letters, or of a series of symbols. -/
def growingSystems : List Named :=
  [.decimal, .easternArabic, .persian, .bengali, .cambodian, .cjkDecimal, .devanagari, .gujarati, .gurmukhi, .kannada, .lao, .malayalam, .mongolian,
    .myanmar, .oriya, .tamil, .telugu, .thai, .tibetan, .letterUpper, .letterLower, .greekUpper, .greekLower, .hiragana, .hiraganaIroha, .katakana,
    .katakanaIroha, .hangeulJamo, .hangeulSyllable, .cjkHeavenlyStem, .cjkEarthlyBranch, .hexUpper, .hexLower, .circledNumber, .doubleCircledNumber]

end Nominals.Spec
