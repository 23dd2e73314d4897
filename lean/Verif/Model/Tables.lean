import Verif.Model.Digital
import Verif.Model.Enumerated
import Verif.Model.Additive

/-!
# Symbol tables

Generated by `tools/gentables.py` from the Rust text; do not edit by hand.
-/

namespace Nominals

/-- src/digital.rs:134-138 the digits of `Decimal`: 0 1 2 3 4 5 6 7 8 9 -/
def decimalDigits : List Char :=
  ['0', '1', '2', '3', '4', '5', '6', '7', '8', '9']

/-- src/digital.rs:134-138 `Decimal`. -/
def decimal : DigitSys := .named (.digitSetNew decimalDigits)

/-- src/digital.rs:140-144 the digits of `EasternArabic`: ٠ ١ ٢ ٣ ٤ ٥ ٦ ٧ ٨ ٩ -/
def easternArabicDigits : List Char :=
  ['\u0660', '\u0661', '\u0662', '\u0663', '\u0664', '\u0665', '\u0666', '\u0667', '\u0668', '\u0669']

/-- src/digital.rs:140-144 `EasternArabic`. -/
def easternArabic : DigitSys := .named (.digitSetNew easternArabicDigits)

/-- src/digital.rs:146-150 the digits of `Persian`: ۰ ۱ ۲ ۳ ۴ ۵ ۶ ۷ ۸ ۹ -/
def persianDigits : List Char :=
  ['\u06f0', '\u06f1', '\u06f2', '\u06f3', '\u06f4', '\u06f5', '\u06f6', '\u06f7', '\u06f8', '\u06f9']

/-- src/digital.rs:146-150 `Persian`. -/
def persian : DigitSys := .named (.digitSetNew persianDigits)

/-- src/digital.rs:159-163 the digits of `Bengali`: ০ ১ ২ ৩ ৪ ৫ ৬ ৭ ৮ ৯ -/
def bengaliDigits : List Char :=
  ['\u09e6', '\u09e7', '\u09e8', '\u09e9', '\u09ea', '\u09eb', '\u09ec', '\u09ed', '\u09ee', '\u09ef']

/-- src/digital.rs:159-163 `Bengali`. -/
def bengali : DigitSys := .named (.digitSetNew bengaliDigits)

/-- src/digital.rs:165-169 the digits of `Cambodian`: ០ ១ ២ ៣ ៤ ៥ ៦ ៧ ៨ ៩ -/
def cambodianDigits : List Char :=
  ['\u17e0', '\u17e1', '\u17e2', '\u17e3', '\u17e4', '\u17e5', '\u17e6', '\u17e7', '\u17e8', '\u17e9']

/-- src/digital.rs:165-169 `Cambodian`. -/
def cambodian : DigitSys := .named (.digitSetNew cambodianDigits)

/-- src/digital.rs:176-180 the digits of `CjkDecimal`: 〇 一 二 三 四 五 六 七 八 九 -/
def cjkDecimalDigits : List Char :=
  ['\u3007', '\u4e00', '\u4e8c', '\u4e09', '\u56db', '\u4e94', '\u516d', '\u4e03', '\u516b', '\u4e5d']

/-- src/digital.rs:176-180 `CjkDecimal`. -/
def cjkDecimal : DigitSys := .named (.digitSetNew cjkDecimalDigits)

/-- src/digital.rs:250-254 the digits of `Devanagari`: ० १ २ ३ ४ ५ ६ ७ ८ ९ -/
def devanagariDigits : List Char :=
  ['\u0966', '\u0967', '\u0968', '\u0969', '\u096a', '\u096b', '\u096c', '\u096d', '\u096e', '\u096f']

/-- src/digital.rs:250-254 `Devanagari`. -/
def devanagari : DigitSys := .named (.digitSetNew devanagariDigits)

/-- src/digital.rs:256-260 the digits of `Gujarati`: ૦ ૧ ૨ ૩ ૪ ૫ ૬ ૭ ૮ ૯ -/
def gujaratiDigits : List Char :=
  ['\u0ae6', '\u0ae7', '\u0ae8', '\u0ae9', '\u0aea', '\u0aeb', '\u0aec', '\u0aed', '\u0aee', '\u0aef']

/-- src/digital.rs:256-260 `Gujarati`. -/
def gujarati : DigitSys := .named (.digitSetNew gujaratiDigits)

/-- src/digital.rs:262-266 the digits of `Gurmukhi`: ੦ ੧ ੨ ੩ ੪ ੫ ੬ ੭ ੮ ੯ -/
def gurmukhiDigits : List Char :=
  ['\u0a66', '\u0a67', '\u0a68', '\u0a69', '\u0a6a', '\u0a6b', '\u0a6c', '\u0a6d', '\u0a6e', '\u0a6f']

/-- src/digital.rs:262-266 `Gurmukhi`. -/
def gurmukhi : DigitSys := .named (.digitSetNew gurmukhiDigits)

/-- src/digital.rs:268-272 the digits of `Kannada`: ೦ ೧ ೨ ೩ ೪ ೫ ೬ ೭ ೮ ೯ -/
def kannadaDigits : List Char :=
  ['\u0ce6', '\u0ce7', '\u0ce8', '\u0ce9', '\u0cea', '\u0ceb', '\u0cec', '\u0ced', '\u0cee', '\u0cef']

/-- src/digital.rs:268-272 `Kannada`. -/
def kannada : DigitSys := .named (.digitSetNew kannadaDigits)

/-- src/digital.rs:274-278 the digits of `Lao`: ໐ ໑ ໒ ໓ ໔ ໕ ໖ ໗ ໘ ໙ -/
def laoDigits : List Char :=
  ['\u0ed0', '\u0ed1', '\u0ed2', '\u0ed3', '\u0ed4', '\u0ed5', '\u0ed6', '\u0ed7', '\u0ed8', '\u0ed9']

/-- src/digital.rs:274-278 `Lao`. -/
def lao : DigitSys := .named (.digitSetNew laoDigits)

/-- src/digital.rs:280-284 the digits of `Malayalam`: ൦ ൧ ൨ ൩ ൪ ൫ ൬ ൭ ൮ ൯ -/
def malayalamDigits : List Char :=
  ['\u0d66', '\u0d67', '\u0d68', '\u0d69', '\u0d6a', '\u0d6b', '\u0d6c', '\u0d6d', '\u0d6e', '\u0d6f']

/-- src/digital.rs:280-284 `Malayalam`. -/
def malayalam : DigitSys := .named (.digitSetNew malayalamDigits)

/-- src/digital.rs:286-290 the digits of `Mongolian`: ᠐ ᠑ ᠒ ᠓ ᠔ ᠕ ᠖ ᠗ ᠘ ᠙ -/
def mongolianDigits : List Char :=
  ['\u1810', '\u1811', '\u1812', '\u1813', '\u1814', '\u1815', '\u1816', '\u1817', '\u1818', '\u1819']

/-- src/digital.rs:286-290 `Mongolian`. -/
def mongolian : DigitSys := .named (.digitSetNew mongolianDigits)

/-- src/digital.rs:292-296 the digits of `Myanmar`: ၀ ၁ ၂ ၃ ၄ ၅ ၆ ၇ ၈ ၉ -/
def myanmarDigits : List Char :=
  ['\u1040', '\u1041', '\u1042', '\u1043', '\u1044', '\u1045', '\u1046', '\u1047', '\u1048', '\u1049']

/-- src/digital.rs:292-296 `Myanmar`. -/
def myanmar : DigitSys := .named (.digitSetNew myanmarDigits)

/-- src/digital.rs:298-302 the digits of `Oriya`: ୦ ୧ ୨ ୩ ୪ ୫ ୬ ୭ ୮ ୯ -/
def oriyaDigits : List Char :=
  ['\u0b66', '\u0b67', '\u0b68', '\u0b69', '\u0b6a', '\u0b6b', '\u0b6c', '\u0b6d', '\u0b6e', '\u0b6f']

/-- src/digital.rs:298-302 `Oriya`. -/
def oriya : DigitSys := .named (.digitSetNew oriyaDigits)

/-- src/digital.rs:304-308 the digits of `Tamil`: ௦ ௧ ௨ ௩ ௪ ௫ ௬ ௭ ௮ ௯ -/
def tamilDigits : List Char :=
  ['\u0be6', '\u0be7', '\u0be8', '\u0be9', '\u0bea', '\u0beb', '\u0bec', '\u0bed', '\u0bee', '\u0bef']

/-- src/digital.rs:304-308 `Tamil`. -/
def tamil : DigitSys := .named (.digitSetNew tamilDigits)

/-- src/digital.rs:310-314 the digits of `Telugu`: ౦ ౧ ౨ ౩ ౪ ౫ ౬ ౭ ౮ ౯ -/
def teluguDigits : List Char :=
  ['\u0c66', '\u0c67', '\u0c68', '\u0c69', '\u0c6a', '\u0c6b', '\u0c6c', '\u0c6d', '\u0c6e', '\u0c6f']

/-- src/digital.rs:310-314 `Telugu`. -/
def telugu : DigitSys := .named (.digitSetNew teluguDigits)

/-- src/digital.rs:316-320 the digits of `Thai`: ๐ ๑ ๒ ๓ ๔ ๕ ๖ ๗ ๘ ๙ -/
def thaiDigits : List Char :=
  ['\u0e50', '\u0e51', '\u0e52', '\u0e53', '\u0e54', '\u0e55', '\u0e56', '\u0e57', '\u0e58', '\u0e59']

/-- src/digital.rs:316-320 `Thai`. -/
def thai : DigitSys := .named (.digitSetNew thaiDigits)

/-- src/digital.rs:322-326 the digits of `Tibetan`: ༠ ༡ ༢ ༣ ༤ ༥ ༦ ༧ ༨ ༩ -/
def tibetanDigits : List Char :=
  ['\u0f20', '\u0f21', '\u0f22', '\u0f23', '\u0f24', '\u0f25', '\u0f26', '\u0f27', '\u0f28', '\u0f29']

/-- src/digital.rs:322-326 `Tibetan`. -/
def tibetan : DigitSys := .named (.digitSetNew tibetanDigits)

/-- src/digital.rs:328-335 the digits of `LetterUpper`: A B C D E F G H I J K L M N O P Q R S T U V W X Y Z -/
def letterUpperDigits : List Char :=
  ['A', 'B', 'C', 'D', 'E', 'F', 'G', 'H', 'I', 'J',
   'K', 'L', 'M', 'N', 'O', 'P', 'Q', 'R', 'S', 'T',
   'U', 'V', 'W', 'X', 'Y', 'Z']

/-- src/digital.rs:328-335 `LetterUpper`. -/
def letterUpper : DigitSys := .named (.digitSetZeroless letterUpperDigits)

/-- src/digital.rs:337-344 the digits of `LetterLower`: a b c d e f g h i j k l m n o p q r s t u v w x y z -/
def letterLowerDigits : List Char :=
  ['a', 'b', 'c', 'd', 'e', 'f', 'g', 'h', 'i', 'j',
   'k', 'l', 'm', 'n', 'o', 'p', 'q', 'r', 's', 't',
   'u', 'v', 'w', 'x', 'y', 'z']

/-- src/digital.rs:337-344 `LetterLower`. -/
def letterLower : DigitSys := .named (.digitSetZeroless letterLowerDigits)

/-- src/digital.rs:346-353 the digits of `GreekUpper`: Α Β Γ Δ Ε Ζ Η Θ Ι Κ Λ Μ Ν Ξ Ο Π Ρ Σ Τ Υ Φ Χ Ψ Ω -/
def greekUpperDigits : List Char :=
  ['\u0391', '\u0392', '\u0393', '\u0394', '\u0395', '\u0396', '\u0397', '\u0398', '\u0399', '\u039a',
   '\u039b', '\u039c', '\u039d', '\u039e', '\u039f', '\u03a0', '\u03a1', '\u03a3', '\u03a4', '\u03a5',
   '\u03a6', '\u03a7', '\u03a8', '\u03a9']

/-- src/digital.rs:346-353 `GreekUpper`. -/
def greekUpper : DigitSys := .named (.digitSetZeroless greekUpperDigits)

/-- src/digital.rs:355-362 the digits of `GreekLower`: α β γ δ ε ζ η θ ι κ λ μ ν ξ ο π ρ σ τ υ φ χ ψ ω -/
def greekLowerDigits : List Char :=
  ['\u03b1', '\u03b2', '\u03b3', '\u03b4', '\u03b5', '\u03b6', '\u03b7', '\u03b8', '\u03b9', '\u03ba',
   '\u03bb', '\u03bc', '\u03bd', '\u03be', '\u03bf', '\u03c0', '\u03c1', '\u03c3', '\u03c4', '\u03c5',
   '\u03c6', '\u03c7', '\u03c8', '\u03c9']

/-- src/digital.rs:355-362 `GreekLower`. -/
def greekLower : DigitSys := .named (.digitSetZeroless greekLowerDigits)

/-- src/digital.rs:364-373 the digits of `Hiragana`: あ い う え お か き く け こ さ し す せ そ た ち つ て と な に ぬ ね の は ひ ふ へ ほ ま み む め も や ゆ よ ら り る れ ろ わ を ん -/
def hiraganaDigits : List Char :=
  ['\u3042', '\u3044', '\u3046', '\u3048', '\u304a', '\u304b', '\u304d', '\u304f', '\u3051', '\u3053',
   '\u3055', '\u3057', '\u3059', '\u305b', '\u305d', '\u305f', '\u3061', '\u3064', '\u3066', '\u3068',
   '\u306a', '\u306b', '\u306c', '\u306d', '\u306e', '\u306f', '\u3072', '\u3075', '\u3078', '\u307b',
   '\u307e', '\u307f', '\u3080', '\u3081', '\u3082', '\u3084', '\u3086', '\u3088', '\u3089', '\u308a',
   '\u308b', '\u308c', '\u308d', '\u308f', '\u3092', '\u3093']

/-- src/digital.rs:364-373 `Hiragana`. -/
def hiragana : DigitSys := .named (.digitSetZeroless hiraganaDigits)

/-- src/digital.rs:375-384 the digits of `HiraganaIroha`: い ろ は に ほ へ と ち り ぬ る を わ か よ た れ そ つ ね な ら む う ゐ の お く や ま け ふ こ え て あ さ き ゆ め み し ゑ ひ も せ す -/
def hiraganaIrohaDigits : List Char :=
  ['\u3044', '\u308d', '\u306f', '\u306b', '\u307b', '\u3078', '\u3068', '\u3061', '\u308a', '\u306c',
   '\u308b', '\u3092', '\u308f', '\u304b', '\u3088', '\u305f', '\u308c', '\u305d', '\u3064', '\u306d',
   '\u306a', '\u3089', '\u3080', '\u3046', '\u3090', '\u306e', '\u304a', '\u304f', '\u3084', '\u307e',
   '\u3051', '\u3075', '\u3053', '\u3048', '\u3066', '\u3042', '\u3055', '\u304d', '\u3086', '\u3081',
   '\u307f', '\u3057', '\u3091', '\u3072', '\u3082', '\u305b', '\u3059']

/-- src/digital.rs:375-384 `HiraganaIroha`. -/
def hiraganaIroha : DigitSys := .named (.digitSetZeroless hiraganaIrohaDigits)

/-- src/digital.rs:386-395 the digits of `Katakana`: ア イ ウ エ オ カ キ ク ケ コ サ シ ス セ ソ タ チ ツ テ ト ナ ニ ヌ ネ ノ ハ ヒ フ ヘ ホ マ ミ ム メ モ ヤ ユ ヨ ラ リ ル レ ロ ワ ヲ ン -/
def katakanaDigits : List Char :=
  ['\u30a2', '\u30a4', '\u30a6', '\u30a8', '\u30aa', '\u30ab', '\u30ad', '\u30af', '\u30b1', '\u30b3',
   '\u30b5', '\u30b7', '\u30b9', '\u30bb', '\u30bd', '\u30bf', '\u30c1', '\u30c4', '\u30c6', '\u30c8',
   '\u30ca', '\u30cb', '\u30cc', '\u30cd', '\u30ce', '\u30cf', '\u30d2', '\u30d5', '\u30d8', '\u30db',
   '\u30de', '\u30df', '\u30e0', '\u30e1', '\u30e2', '\u30e4', '\u30e6', '\u30e8', '\u30e9', '\u30ea',
   '\u30eb', '\u30ec', '\u30ed', '\u30ef', '\u30f2', '\u30f3']

/-- src/digital.rs:386-395 `Katakana`. -/
def katakana : DigitSys := .named (.digitSetZeroless katakanaDigits)

/-- src/digital.rs:397-406 the digits of `KatakanaIroha`: イ ロ ハ ニ ホ ヘ ト チ リ ヌ ル ヲ ワ カ ヨ タ レ ソ ツ ネ ナ ラ ム ウ ヰ ノ オ ク ヤ マ ケ フ コ エ テ ア サ キ ユ メ ミ シ ヱ ヒ モ セ ス -/
def katakanaIrohaDigits : List Char :=
  ['\u30a4', '\u30ed', '\u30cf', '\u30cb', '\u30db', '\u30d8', '\u30c8', '\u30c1', '\u30ea', '\u30cc',
   '\u30eb', '\u30f2', '\u30ef', '\u30ab', '\u30e8', '\u30bf', '\u30ec', '\u30bd', '\u30c4', '\u30cd',
   '\u30ca', '\u30e9', '\u30e0', '\u30a6', '\u30f0', '\u30ce', '\u30aa', '\u30af', '\u30e4', '\u30de',
   '\u30b1', '\u30d5', '\u30b3', '\u30a8', '\u30c6', '\u30a2', '\u30b5', '\u30ad', '\u30e6', '\u30e1',
   '\u30df', '\u30b7', '\u30f1', '\u30d2', '\u30e2', '\u30bb', '\u30b9']

/-- src/digital.rs:397-406 `KatakanaIroha`. -/
def katakanaIroha : DigitSys := .named (.digitSetZeroless katakanaIrohaDigits)

/-- src/digital.rs:408-416 the digits of `HangeulJamo`: ㄱ ㄴ ㄷ ㄹ ㅁ ㅂ ㅅ ㅇ ㅈ ㅊ ㅋ ㅌ ㅍ ㅎ -/
def hangeulJamoDigits : List Char :=
  ['\u3131', '\u3134', '\u3137', '\u3139', '\u3141', '\u3142', '\u3145', '\u3147', '\u3148', '\u314a',
   '\u314b', '\u314c', '\u314d', '\u314e']

/-- src/digital.rs:408-416 `HangeulJamo`. -/
def hangeulJamo : DigitSys := .named (.digitSetZeroless hangeulJamoDigits)

/-- src/digital.rs:418-426 the digits of `HangeulSyllable`: 가 나 다 라 마 바 사 아 자 차 카 타 파 하 -/
def hangeulSyllableDigits : List Char :=
  ['\uac00', '\ub098', '\ub2e4', '\ub77c', '\ub9c8', '\ubc14', '\uc0ac', '\uc544', '\uc790', '\ucc28',
   '\uce74', '\ud0c0', '\ud30c', '\ud558']

/-- src/digital.rs:418-426 `HangeulSyllable`. -/
def hangeulSyllable : DigitSys := .named (.digitSetZeroless hangeulSyllableDigits)

/-- src/digital.rs:189-214 the symbols of `CjkHeavenlyStem`: 甲 乙 丙 丁 戊 己 庚 辛 壬 癸 -/
def cjkHeavenlyStemDigits : List Char :=
  ['\u7532', '\u4e59', '\u4e19', '\u4e01', '\u620a', '\u5df1', '\u5e9a', '\u8f9b', '\u58ec', '\u7678']

/-- src/digital.rs:189-214 `CjkHeavenlyStem`: fixed, one-based, no zero digit, `Fallback = CjkDecimal`. -/
def cjkHeavenlyStem : DigitSys :=
  .withFallback { fixed := true, hasZero := false, zeroBased := false, len := 10, digit := fun i => cjkHeavenlyStemDigits[i]? }
    cjkDecimal

/-- src/digital.rs:223-248 the symbols of `CjkEarthlyBranch`: 子 丑 寅 卯 辰 巳 午 未 申 酉 戌 亥 -/
def cjkEarthlyBranchDigits : List Char :=
  ['\u5b50', '\u4e11', '\u5bc5', '\u536f', '\u8fb0', '\u5df3', '\u5348', '\u672a', '\u7533', '\u9149',
   '\u620c', '\u4ea5']

/-- src/digital.rs:223-248 `CjkEarthlyBranch`: fixed, one-based, no zero digit, `Fallback = CjkDecimal`. -/
def cjkEarthlyBranch : DigitSys :=
  .withFallback { fixed := true, hasZero := false, zeroBased := false, len := 12, digit := fun i => cjkEarthlyBranchDigits[i]? }
    cjkDecimal

/-- src/digital.rs:508-509 `HexUpper`. -/
def hexUpper : DigitSys := .named (.restrict 16 (.chain decimal letterUpper))

/-- src/digital.rs:514-515 `HexLower`. -/
def hexLower : DigitSys := .named (.restrict 16 (.chain decimal letterLower))

/-- src/enumerated.rs:67-75 `CircledNumber`: ⓪ ① ② ③ ④ ⑤ ⑥ ⑦ ⑧ ⑨ ⑩ ⑪ ⑫ ⑬ ⑭ ⑮ ⑯ ⑰ ⑱ ⑲ ⑳ ㉑ ㉒ ㉓ ㉔ ㉕ ㉖ ㉗ ㉘ ㉙ ㉚ ㉛ ㉜ ㉝ ㉞ ㉟ ㊱ ㊲ ㊳ ㊴ ㊵ ㊶ ㊷ ㊸ ㊹ ㊺ ㊻ ㊼ ㊽ ㊾ ㊿ -/
def circledNumber : EnumSet where
  hasZero := true
  symbols := [['\u24ea'], ['\u2460'], ['\u2461'], ['\u2462'], ['\u2463'], ['\u2464'], ['\u2465'], ['\u2466'], ['\u2467'], ['\u2468'],
    ['\u2469'], ['\u246a'], ['\u246b'], ['\u246c'], ['\u246d'], ['\u246e'], ['\u246f'], ['\u2470'], ['\u2471'], ['\u2472'],
    ['\u2473'], ['\u3251'], ['\u3252'], ['\u3253'], ['\u3254'], ['\u3255'], ['\u3256'], ['\u3257'], ['\u3258'], ['\u3259'],
    ['\u325a'], ['\u325b'], ['\u325c'], ['\u325d'], ['\u325e'], ['\u325f'], ['\u32b1'], ['\u32b2'], ['\u32b3'], ['\u32b4'],
    ['\u32b5'], ['\u32b6'], ['\u32b7'], ['\u32b8'], ['\u32b9'], ['\u32ba'], ['\u32bb'], ['\u32bc'], ['\u32bd'], ['\u32be'],
    ['\u32bf']]

/-- src/enumerated.rs:78-80 `DoubleCircledNumber`: ⓵ ⓶ ⓷ ⓸ ⓹ ⓺ ⓻ ⓼ ⓽ ⓾ -/
def doubleCircledNumber : EnumSet where
  hasZero := false
  symbols := [['\u24f5'], ['\u24f6'], ['\u24f7'], ['\u24f8'], ['\u24f9'], ['\u24fa'], ['\u24fb'], ['\u24fc'], ['\u24fd'], ['\u24fe']]

/-- src/additive.rs:88-115 the table of `RomanLower`: m̅ d̅m̅ d̅ c̅d̅ c̅ l̅c̅ l̅ x̅l̅ x̅ i̅x̅ v̅ i̅v̅ m cm d cd c xc l xl x ix v iv i n -/
def romanLowerTable : List (List Char × Nat) :=
  [(['m', '\u0305'], 1000000), (['d', '\u0305', 'm', '\u0305'], 900000), (['d', '\u0305'], 500000), (['c', '\u0305', 'd', '\u0305'], 400000),
   (['c', '\u0305'], 100000), (['l', '\u0305', 'c', '\u0305'], 90000), (['l', '\u0305'], 50000), (['x', '\u0305', 'l', '\u0305'], 40000),
   (['x', '\u0305'], 10000), (['i', '\u0305', 'x', '\u0305'], 9000), (['v', '\u0305'], 5000), (['i', '\u0305', 'v', '\u0305'], 4000),
   (['m'], 1000), (['c', 'm'], 900), (['d'], 500), (['c', 'd'], 400),
   (['c'], 100), (['x', 'c'], 90), (['l'], 50), (['x', 'l'], 40),
   (['x'], 10), (['i', 'x'], 9), (['v'], 5), (['i', 'v'], 4),
   (['i'], 1), (['n'], 0)]

/-- src/additive.rs:88-115 `RomanLower`. -/
def romanLowerTryFormat := additiveTryFormat romanLowerTable

/-- src/additive.rs:140-167 the table of `RomanUpper`: M̅ D̅M̅ D̅ C̅D̅ C̅ L̅C̅ L̅ X̅L̅ X̅ I̅X̅ V̅ I̅V̅ M CM D CD C XC L XL X IX V IV I N -/
def romanUpperTable : List (List Char × Nat) :=
  [(['M', '\u0305'], 1000000), (['D', '\u0305', 'M', '\u0305'], 900000), (['D', '\u0305'], 500000), (['C', '\u0305', 'D', '\u0305'], 400000),
   (['C', '\u0305'], 100000), (['L', '\u0305', 'C', '\u0305'], 90000), (['L', '\u0305'], 50000), (['X', '\u0305', 'L', '\u0305'], 40000),
   (['X', '\u0305'], 10000), (['I', '\u0305', 'X', '\u0305'], 9000), (['V', '\u0305'], 5000), (['I', '\u0305', 'V', '\u0305'], 4000),
   (['M'], 1000), (['C', 'M'], 900), (['D'], 500), (['C', 'D'], 400),
   (['C'], 100), (['X', 'C'], 90), (['L'], 50), (['X', 'L'], 40),
   (['X'], 10), (['I', 'X'], 9), (['V'], 5), (['I', 'V'], 4),
   (['I'], 1), (['N'], 0)]

/-- src/additive.rs:140-167 `RomanUpper`. -/
def romanUpperTryFormat := additiveTryFormat romanUpperTable

/-- src/additive.rs:209-246 the table of `ArmenianUpper`: Ք Փ Ւ Ց Ր Տ Վ Ս Ռ Ջ Պ Չ Ո Շ Ն Յ Մ Ճ Ղ Ձ Հ Կ Ծ Խ Լ Ի Ժ Թ Ը Է Զ Ե Դ Գ Բ Ա  -/
def armenianUpperTable : List (List Char × Nat) :=
  [(['\u0554'], 9000), (['\u0553'], 8000), (['\u0552'], 7000), (['\u0551'], 6000),
   (['\u0550'], 5000), (['\u054f'], 4000), (['\u054e'], 3000), (['\u054d'], 2000),
   (['\u054c'], 1000), (['\u054b'], 900), (['\u054a'], 800), (['\u0549'], 700),
   (['\u0548'], 600), (['\u0547'], 500), (['\u0546'], 400), (['\u0545'], 300),
   (['\u0544'], 200), (['\u0543'], 100), (['\u0542'], 90), (['\u0541'], 80),
   (['\u0540'], 70), (['\u053f'], 60), (['\u053e'], 50), (['\u053d'], 40),
   (['\u053c'], 30), (['\u053b'], 20), (['\u053a'], 10), (['\u0539'], 9),
   (['\u0538'], 8), (['\u0537'], 7), (['\u0536'], 6), (['\u0535'], 5),
   (['\u0534'], 4), (['\u0533'], 3), (['\u0532'], 2), (['\u0531', ' '], 1)]

/-- src/additive.rs:209-246 `ArmenianUpper`. -/
def armenianUpperTryFormat := additiveTryFormat armenianUpperTable

/-- src/additive.rs:260-297 the table of `ArmenianLower`: ք փ ւ ց ր տ վ ս ռ ջ պ չ ո շ ն յ մ ճ ղ ձ հ կ ծ խ լ ի ժ թ ը է զ ե դ գ բ ա -/
def armenianLowerTable : List (List Char × Nat) :=
  [(['\u0584'], 9000), (['\u0583'], 8000), (['\u0582'], 7000), (['\u0581'], 6000),
   (['\u0580'], 5000), (['\u057f'], 4000), (['\u057e'], 3000), (['\u057d'], 2000),
   (['\u057c'], 1000), (['\u057b'], 900), (['\u057a'], 800), (['\u0579'], 700),
   (['\u0578'], 600), (['\u0577'], 500), (['\u0576'], 400), (['\u0575'], 300),
   (['\u0574'], 200), (['\u0573'], 100), (['\u0572'], 90), (['\u0571'], 80),
   (['\u0570'], 70), (['\u056f'], 60), (['\u056e'], 50), (['\u056d'], 40),
   (['\u056c'], 30), (['\u056b'], 20), (['\u056a'], 10), (['\u0569'], 9),
   (['\u0568'], 8), (['\u0567'], 7), (['\u0566'], 6), (['\u0565'], 5),
   (['\u0564'], 4), (['\u0563'], 3), (['\u0562'], 2), (['\u0561'], 1)]

/-- src/additive.rs:260-297 `ArmenianLower`. -/
def armenianLowerTryFormat := additiveTryFormat armenianLowerTable

/-- src/additive.rs:311-349 the table of `Georgian`: ჵ ჰ ჯ ჴ ხ ჭ წ ძ ც ჩ შ ყ ღ ქ ფ ჳ ტ ს რ ჟ პ ო ჲ ნ მ ლ კ ი თ ჱ ზ ვ ე დ გ ბ ა -/
def georgianTable : List (List Char × Nat) :=
  [(['\u10f5'], 10000), (['\u10f0'], 9000), (['\u10ef'], 8000), (['\u10f4'], 7000),
   (['\u10ee'], 6000), (['\u10ed'], 5000), (['\u10ec'], 4000), (['\u10eb'], 3000),
   (['\u10ea'], 2000), (['\u10e9'], 1000), (['\u10e8'], 900), (['\u10e7'], 800),
   (['\u10e6'], 700), (['\u10e5'], 600), (['\u10e4'], 500), (['\u10f3'], 400),
   (['\u10e2'], 300), (['\u10e1'], 200), (['\u10e0'], 100), (['\u10df'], 90),
   (['\u10de'], 80), (['\u10dd'], 70), (['\u10f2'], 60), (['\u10dc'], 50),
   (['\u10db'], 40), (['\u10da'], 30), (['\u10d9'], 20), (['\u10d8'], 10),
   (['\u10d7'], 9), (['\u10f1'], 8), (['\u10d6'], 7), (['\u10d5'], 6),
   (['\u10d4'], 5), (['\u10d3'], 4), (['\u10d2'], 3), (['\u10d1'], 2),
   (['\u10d0'], 1)]

/-- src/additive.rs:311-349 `Georgian`. -/
def georgianTryFormat := additiveTryFormat georgianTable

/-- src/additive.rs:363-401 the table of `JapaneseFormal`: 九阡 八阡 七阡 六阡 伍阡 四阡 参阡 弐阡 壱阡 九百 八百 七百 六百 伍百 四百 参百 弐百 壱百 九拾 八拾 七拾 六拾 伍拾 四拾 参拾 弐拾 壱拾 九 八 七 六 伍 四 参 弐 壱 零 -/
def japaneseFormalTable : List (List Char × Nat) :=
  [(['\u4e5d', '\u9621'], 9000), (['\u516b', '\u9621'], 8000), (['\u4e03', '\u9621'], 7000), (['\u516d', '\u9621'], 6000),
   (['\u4f0d', '\u9621'], 5000), (['\u56db', '\u9621'], 4000), (['\u53c2', '\u9621'], 3000), (['\u5f10', '\u9621'], 2000),
   (['\u58f1', '\u9621'], 1000), (['\u4e5d', '\u767e'], 900), (['\u516b', '\u767e'], 800), (['\u4e03', '\u767e'], 700),
   (['\u516d', '\u767e'], 600), (['\u4f0d', '\u767e'], 500), (['\u56db', '\u767e'], 400), (['\u53c2', '\u767e'], 300),
   (['\u5f10', '\u767e'], 200), (['\u58f1', '\u767e'], 100), (['\u4e5d', '\u62fe'], 90), (['\u516b', '\u62fe'], 80),
   (['\u4e03', '\u62fe'], 70), (['\u516d', '\u62fe'], 60), (['\u4f0d', '\u62fe'], 50), (['\u56db', '\u62fe'], 40),
   (['\u53c2', '\u62fe'], 30), (['\u5f10', '\u62fe'], 20), (['\u58f1', '\u62fe'], 10), (['\u4e5d'], 9),
   (['\u516b'], 8), (['\u4e03'], 7), (['\u516d'], 6), (['\u4f0d'], 5),
   (['\u56db'], 4), (['\u53c2'], 3), (['\u5f10'], 2), (['\u58f1'], 1),
   (['\u96f6'], 0)]

/-- src/additive.rs:363-401 `JapaneseFormal`. -/
def japaneseFormalTryFormat := additiveTryFormat japaneseFormalTable

/-- src/additive.rs:415-453 the table of `JapaneseInformal`: 九千 八千 七千 六千 五千 四千 三千 二千 千 九百 八百 七百 六百 五百 四百 三百 二百 百 九十 八十 七十 六十 五十 四十 三十 二十 十 九 八 七 六 五 四 三 二 一 〇 -/
def japaneseInformalTable : List (List Char × Nat) :=
  [(['\u4e5d', '\u5343'], 9000), (['\u516b', '\u5343'], 8000), (['\u4e03', '\u5343'], 7000), (['\u516d', '\u5343'], 6000),
   (['\u4e94', '\u5343'], 5000), (['\u56db', '\u5343'], 4000), (['\u4e09', '\u5343'], 3000), (['\u4e8c', '\u5343'], 2000),
   (['\u5343'], 1000), (['\u4e5d', '\u767e'], 900), (['\u516b', '\u767e'], 800), (['\u4e03', '\u767e'], 700),
   (['\u516d', '\u767e'], 600), (['\u4e94', '\u767e'], 500), (['\u56db', '\u767e'], 400), (['\u4e09', '\u767e'], 300),
   (['\u4e8c', '\u767e'], 200), (['\u767e'], 100), (['\u4e5d', '\u5341'], 90), (['\u516b', '\u5341'], 80),
   (['\u4e03', '\u5341'], 70), (['\u516d', '\u5341'], 60), (['\u4e94', '\u5341'], 50), (['\u56db', '\u5341'], 40),
   (['\u4e09', '\u5341'], 30), (['\u4e8c', '\u5341'], 20), (['\u5341'], 10), (['\u4e5d'], 9),
   (['\u516b'], 8), (['\u4e03'], 7), (['\u516d'], 6), (['\u4e94'], 5),
   (['\u56db'], 4), (['\u4e09'], 3), (['\u4e8c'], 2), (['\u4e00'], 1),
   (['\u3007'], 0)]

/-- src/additive.rs:415-453 `JapaneseInformal`. -/
def japaneseInformalTryFormat := additiveTryFormat japaneseInformalTable

/-- src/additive.rs:469-507 the table of `HangeulFormal`: 구천 팔천 칠천 육천 오천 사천 삼천 이천 일천 구백 팔백 칠백 육백 오백 사백 삼백 이백 일백 구십 팔십 칠십 육십 오십 사십 삼십 이십 일십 구 팔 칠 육 오 사 삼 이 일 영 -/
def hangeulFormalTable : List (List Char × Nat) :=
  [(['\uad6c', '\ucc9c'], 9000), (['\ud314', '\ucc9c'], 8000), (['\uce60', '\ucc9c'], 7000), (['\uc721', '\ucc9c'], 6000),
   (['\uc624', '\ucc9c'], 5000), (['\uc0ac', '\ucc9c'], 4000), (['\uc0bc', '\ucc9c'], 3000), (['\uc774', '\ucc9c'], 2000),
   (['\uc77c', '\ucc9c'], 1000), (['\uad6c', '\ubc31'], 900), (['\ud314', '\ubc31'], 800), (['\uce60', '\ubc31'], 700),
   (['\uc721', '\ubc31'], 600), (['\uc624', '\ubc31'], 500), (['\uc0ac', '\ubc31'], 400), (['\uc0bc', '\ubc31'], 300),
   (['\uc774', '\ubc31'], 200), (['\uc77c', '\ubc31'], 100), (['\uad6c', '\uc2ed'], 90), (['\ud314', '\uc2ed'], 80),
   (['\uce60', '\uc2ed'], 70), (['\uc721', '\uc2ed'], 60), (['\uc624', '\uc2ed'], 50), (['\uc0ac', '\uc2ed'], 40),
   (['\uc0bc', '\uc2ed'], 30), (['\uc774', '\uc2ed'], 20), (['\uc77c', '\uc2ed'], 10), (['\uad6c'], 9),
   (['\ud314'], 8), (['\uce60'], 7), (['\uc721'], 6), (['\uc624'], 5),
   (['\uc0ac'], 4), (['\uc0bc'], 3), (['\uc774'], 2), (['\uc77c'], 1),
   (['\uc601'], 0)]

/-- src/additive.rs:469-507 `HangeulFormal`. -/
def hangeulFormalTryFormat := additiveTryFormat hangeulFormalTable

/-- src/additive.rs:521-559 the table of `HanjaInformal`: 九千 八千 七千 六千 五千 四千 三千 二千 千 九百 八百 七百 六百 五百 四百 三百 二百 百 九十 八十 七十 六十 五十 四十 三十 二十 十 九 八 七 六 五 四 三 二 一 零 -/
def hanjaInformalTable : List (List Char × Nat) :=
  [(['\u4e5d', '\u5343'], 9000), (['\u516b', '\u5343'], 8000), (['\u4e03', '\u5343'], 7000), (['\u516d', '\u5343'], 6000),
   (['\u4e94', '\u5343'], 5000), (['\u56db', '\u5343'], 4000), (['\u4e09', '\u5343'], 3000), (['\u4e8c', '\u5343'], 2000),
   (['\u5343'], 1000), (['\u4e5d', '\u767e'], 900), (['\u516b', '\u767e'], 800), (['\u4e03', '\u767e'], 700),
   (['\u516d', '\u767e'], 600), (['\u4e94', '\u767e'], 500), (['\u56db', '\u767e'], 400), (['\u4e09', '\u767e'], 300),
   (['\u4e8c', '\u767e'], 200), (['\u767e'], 100), (['\u4e5d', '\u5341'], 90), (['\u516b', '\u5341'], 80),
   (['\u4e03', '\u5341'], 70), (['\u516d', '\u5341'], 60), (['\u4e94', '\u5341'], 50), (['\u56db', '\u5341'], 40),
   (['\u4e09', '\u5341'], 30), (['\u4e8c', '\u5341'], 20), (['\u5341'], 10), (['\u4e5d'], 9),
   (['\u516b'], 8), (['\u4e03'], 7), (['\u516d'], 6), (['\u4e94'], 5),
   (['\u56db'], 4), (['\u4e09'], 3), (['\u4e8c'], 2), (['\u4e00'], 1),
   (['\u96f6'], 0)]

/-- src/additive.rs:521-559 `HanjaInformal`. -/
def hanjaInformalTryFormat := additiveTryFormat hanjaInformalTable

/-- src/additive.rs:573-611 the table of `HanjaFormal`: 九仟 八仟 七仟 六仟 五仟 四仟 參仟 貳仟 壹仟 九百 八百 七百 六百 五百 四百 參百 貳百 壹百 九拾 八拾 七拾 六拾 五拾 四拾 參拾 貳拾 壹拾 九 八 七 六 五 四 參 貳 壹 零 -/
def hanjaFormalTable : List (List Char × Nat) :=
  [(['\u4e5d', '\u4edf'], 9000), (['\u516b', '\u4edf'], 8000), (['\u4e03', '\u4edf'], 7000), (['\u516d', '\u4edf'], 6000),
   (['\u4e94', '\u4edf'], 5000), (['\u56db', '\u4edf'], 4000), (['\u53c3', '\u4edf'], 3000), (['\u8cb3', '\u4edf'], 2000),
   (['\u58f9', '\u4edf'], 1000), (['\u4e5d', '\u767e'], 900), (['\u516b', '\u767e'], 800), (['\u4e03', '\u767e'], 700),
   (['\u516d', '\u767e'], 600), (['\u4e94', '\u767e'], 500), (['\u56db', '\u767e'], 400), (['\u53c3', '\u767e'], 300),
   (['\u8cb3', '\u767e'], 200), (['\u58f9', '\u767e'], 100), (['\u4e5d', '\u62fe'], 90), (['\u516b', '\u62fe'], 80),
   (['\u4e03', '\u62fe'], 70), (['\u516d', '\u62fe'], 60), (['\u4e94', '\u62fe'], 50), (['\u56db', '\u62fe'], 40),
   (['\u53c3', '\u62fe'], 30), (['\u8cb3', '\u62fe'], 20), (['\u58f9', '\u62fe'], 10), (['\u4e5d'], 9),
   (['\u516b'], 8), (['\u4e03'], 7), (['\u516d'], 6), (['\u4e94'], 5),
   (['\u56db'], 4), (['\u53c3'], 3), (['\u8cb3'], 2), (['\u58f9'], 1),
   (['\u96f6'], 0)]

/-- src/additive.rs:573-611 `HanjaFormal`. -/
def hanjaFormalTryFormat := additiveTryFormat hanjaFormalTable

end Nominals
