import Verif.Spec.Catalogue

/-!
# How many characters the longest text has

For every named system and every width of integer type: the largest number of characters among the texts of all values of the
type. Digits, letters, Ethiopic and Chinese numerals grow with the number of digits; Roman, Hebrew and the other additive
numerals repeat their largest symbol and grow with the number itself.
-/

namespace Nominals.Spec

/-- A number for each of the widths 8, 16, 32, 64, 128. -/
def byBits (w8 w16 w32 w64 w128 bits : Nat) : Nat :=
  if bits = 8 then w8 else if bits = 16 then w16 else if bits = 32 then w32 else if bits = 64 then w64 else w128

/-- The length of the longest text, in characters (Unicode scalar values; an overlined Roman letter counts two). -/
def maxChars : Named → Nat → Nat
  | .decimal | .easternArabic | .persian | .bengali | .cambodian | .cjkDecimal | .devanagari | .gujarati | .gurmukhi | .kannada | .lao
  | .malayalam | .mongolian | .myanmar | .oriya | .tamil | .telugu | .thai | .tibetan | .cjkHeavenlyStem | .cjkEarthlyBranch =>
    byBits 3 5 10 20 39
  | .hexUpper | .hexLower => byBits 2 4 8 16 32
  | .letterUpper | .letterLower | .greekUpper | .greekLower => byBits 2 4 7 14 28
  | .hiragana | .katakana | .hiraganaIroha | .katakanaIroha => byBits 2 3 6 12 24
  | .hangeulJamo | .hangeulSyllable => byBits 3 5 9 17 34
  | .circledNumber | .doubleCircledNumber => byBits 1 1 1 1 1
  | .romanLower | .romanUpper => byBits 9 23 8621 36893488147449 680564733841876926926749214863567
  | .armenianUpper => byBits 4 12 477223 2049638230412177 37809151880104273718152734159085361
  | .armenianLower => byBits 3 11 477222 2049638230412176 37809151880104273718152734159085360
  | .georgian => byBits 3 10 429500 1844674407370959 34028236692093846346337460743176825
  | .japaneseFormal | .japaneseInformal | .hangeulFormal | .hanjaInformal | .hanjaFormal =>
    byBits 5 21 954443 4099276460824351 75618303760208547436305468318170719
  | .hebrew => byBits 4 167 10737421 46116860184273882 850705917302346158658436518579420532
  | .ethiopic => byBits 4 7 14 29 58
  | .chinese _ o => if o.scale = .short then byBits 5 9 19 29 29 else byBits 5 9 19 39 77

/-- A number of the given width with a longest text. -/
def widest : Named → Nat → Nat
  | .circledNumber | .doubleCircledNumber => byBits 1 1 1 1 1
  | .romanLower | .romanUpper => byBits 238 38888 4294888888 18446744073709388888 340282366920938463463374607431767888888
  | .armenianUpper => byBits 251 65531 4294967291 18446744073709551611 340282366920938463463374607431768211451
  | .japaneseInformal | .hanjaInformal => byBits 255 65535 4294967295 18446744073709551599 340282366920938463463374607431768211455
  | .hebrew => byBits 216 65516 4294967216 18446744073709551615 340282366920938463463374607431768211416
  | .ethiopic => byBits 211 21111 1111111111 11111111111111111111 211111111111111111111111111111111111111
  | .chinese _ o =>
    if o.scale = .short then byBits 111 11111 2111111111 111111111111111 111111111111111
    else byBits 111 11111 2111111111 11111111111111111111 111111111111111111111111111111111111111
  | _ => fun bits => 2 ^ bits - 1

end Nominals.Spec
