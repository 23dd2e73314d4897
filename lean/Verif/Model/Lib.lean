import Verif.Model.Tables
import Verif.Model.Hebrew
import Verif.Model.Ethiopic
import Verif.Model.Chinese

/-!
# src/lib.rs — `NominalSystem`, `Nominal`, `Error::into_decimal`, smart-pointer forwarding
-/

namespace Nominals

/-- src/lib.rs:39-56 `trait NominalSystem<T>`: the required `try_format_nominal` and, if the implementation
overrides it, `format_nominal`. An infallible call has error type `Empty`. -/
structure NominalSystem where
  tryFormat : Cfg → IntTy → Nat → Res Error NStr
  formatOverride : Option (Cfg → IntTy → Nat → Res Empty NStr) := none

/-- src/lib.rs:44-46 `format_nominal` of `Decimal`, unfolded through `unwrap_or_decimal` (:221-231) and
`into_decimal` (:203-210), which calls `Decimal.format_nominal` again. `depth` bounds that recursion. -/
def decimalFormat (cfg : Cfg) (T : IntTy) : (depth : Nat) → (nominal : Nat) → Res Empty NStr
  | 0, _ => .timeout
  | depth + 1, nominal =>
    match decimal.tryFormat cfg T nominal with
    | .ok s => .ok s
    | .err .noZeroSymbol => NStr.ofChar cfg '0'
    | .err (.outOfBounds n) => decimalFormat cfg T depth n
    | .err (.outOfMemory n) => decimalFormat cfg T depth n
    | .panic => .panic
    | .ub => .ub
    | .timeout => .timeout

/-- Nested `Decimal.format_nominal` calls allowed (src/lib.rs:203-210, no counterpart in the code). -/
def DECIMAL_DEPTH : Nat := 2

/-- src/lib.rs:203-210 `Error::into_decimal`. -/
def Error.intoDecimal (e : Error) (cfg : Cfg) (T : IntTy) : Res Empty NStr :=
  match e with
  | .noZeroSymbol => NStr.ofChar cfg '0'
  | .outOfBounds nominal => decimalFormat cfg T DECIMAL_DEPTH nominal
  | .outOfMemory nominal => decimalFormat cfg T DECIMAL_DEPTH nominal

/-- src/lib.rs:221-231 `UnwrapOrDecimal::unwrap_or_decimal`. -/
def unwrapOrDecimal (cfg : Cfg) (T : IntTy) (r : Res Error NStr) : Res Empty NStr :=
  match r with
  | .ok s => .ok s
  | .err e => e.intoDecimal cfg T
  | .panic => .panic
  | .ub => .ub
  | .timeout => .timeout

namespace NominalSystem

/-- src/lib.rs:44-46 `format_nominal`. -/
def format (s : NominalSystem) (cfg : Cfg) (T : IntTy) (nominal : Nat) : Res Empty NStr :=
  match s.formatOverride with
  | some f => f cfg T nominal
  | none => unwrapOrDecimal cfg T (s.tryFormat cfg T nominal)

/-- src/lib.rs:58-86 `NominalSystem` for `Box`, `Rc` and `Arc` of a trait object: `try_format_nominal` is
forwarded, `format_nominal` is the provided method. -/
def boxed (s : NominalSystem) : NominalSystem where
  tryFormat cfg T nominal := s.tryFormat cfg T nominal

end NominalSystem

/-- src/lib.rs:101-106 `Nominal::to_nominal`. -/
def toNominal (cfg : Cfg) (T : IntTy) (n : Nat) (s : NominalSystem) : Res Empty NStr := s.format cfg T n

/-- src/lib.rs:115-120 `Nominal::try_to_nominal`. -/
def tryToNominal (cfg : Cfg) (T : IntTy) (n : Nat) (s : NominalSystem) : Res Error NStr := s.tryFormat cfg T n

/-- src/digital.rs:556-607: every `DigitCollection` is a `NominalSystem` (`format_nominal` not overridden). -/
def DigitSys.system (d : DigitSys) : NominalSystem where
  tryFormat := d.tryFormat

/-- src/enumerated.rs:26-43: every `EnumeratedSet` is a `NominalSystem`. -/
def EnumSet.system (e : EnumSet) : NominalSystem where
  tryFormat := e.tryFormat

/-- src/additive.rs:34-66: every `AdditiveSet` is a `NominalSystem`. -/
def AdditiveSet.system (a : AdditiveSet) : NominalSystem where
  tryFormat := a.tryFormat

/-- The named types of the crate implementing `NominalSystem`. `cjkHeavenlyStem` … are the digit
collections of src/digital.rs:134-430, then src/enumerated.rs, src/additive.rs, src/hebrew.rs,
src/ethiopic.rs, src/chinese.rs. -/
inductive Named where
  | decimal | easternArabic | persian | bengali | cambodian | cjkDecimal | devanagari | gujarati
  | gurmukhi | kannada | lao | malayalam | mongolian | myanmar | oriya | tamil | telugu | thai | tibetan
  | letterUpper | letterLower | greekUpper | greekLower | hiragana | hiraganaIroha | katakana
  | katakanaIroha | hangeulJamo | hangeulSyllable
  | cjkHeavenlyStem | cjkEarthlyBranch | hexUpper | hexLower
  | circledNumber | doubleCircledNumber
  | romanLower | romanUpper | armenianUpper | armenianLower | georgian | japaneseFormal
  | japaneseInformal | hangeulFormal | hanjaInformal | hanjaFormal
  | hebrew | ethiopic
  | chinese (k : ChineseKind) (o : ChineseOptions)

/-- The `NominalSystem` of a named type (src/digital.rs:134-430 and :507-516, src/enumerated.rs:45-81, src/additive.rs:67-614, src/hebrew.rs:6-76,
src/ethiopic.rs:66-76, src/chinese.rs:442-530). None of them overrides `format_nominal`. -/
def Named.system : Named → NominalSystem
  | .decimal => Nominals.decimal.system
  | .easternArabic => Nominals.easternArabic.system
  | .persian => Nominals.persian.system
  | .bengali => Nominals.bengali.system
  | .cambodian => Nominals.cambodian.system
  | .cjkDecimal => Nominals.cjkDecimal.system
  | .devanagari => Nominals.devanagari.system
  | .gujarati => Nominals.gujarati.system
  | .gurmukhi => Nominals.gurmukhi.system
  | .kannada => Nominals.kannada.system
  | .lao => Nominals.lao.system
  | .malayalam => Nominals.malayalam.system
  | .mongolian => Nominals.mongolian.system
  | .myanmar => Nominals.myanmar.system
  | .oriya => Nominals.oriya.system
  | .tamil => Nominals.tamil.system
  | .telugu => Nominals.telugu.system
  | .thai => Nominals.thai.system
  | .tibetan => Nominals.tibetan.system
  | .letterUpper => Nominals.letterUpper.system
  | .letterLower => Nominals.letterLower.system
  | .greekUpper => Nominals.greekUpper.system
  | .greekLower => Nominals.greekLower.system
  | .hiragana => Nominals.hiragana.system
  | .hiraganaIroha => Nominals.hiraganaIroha.system
  | .katakana => Nominals.katakana.system
  | .katakanaIroha => Nominals.katakanaIroha.system
  | .hangeulJamo => Nominals.hangeulJamo.system
  | .hangeulSyllable => Nominals.hangeulSyllable.system
  | .cjkHeavenlyStem => Nominals.cjkHeavenlyStem.system
  | .cjkEarthlyBranch => Nominals.cjkEarthlyBranch.system
  | .hexUpper => Nominals.hexUpper.system
  | .hexLower => Nominals.hexLower.system
  | .circledNumber => Nominals.circledNumber.system
  | .doubleCircledNumber => Nominals.doubleCircledNumber.system
  | .romanLower => { tryFormat := romanLowerTryFormat }
  | .romanUpper => { tryFormat := romanUpperTryFormat }
  | .armenianUpper => { tryFormat := armenianUpperTryFormat }
  | .armenianLower => { tryFormat := armenianLowerTryFormat }
  | .georgian => { tryFormat := georgianTryFormat }
  | .japaneseFormal => { tryFormat := japaneseFormalTryFormat }
  | .japaneseInformal => { tryFormat := japaneseInformalTryFormat }
  | .hangeulFormal => { tryFormat := hangeulFormalTryFormat }
  | .hanjaInformal => { tryFormat := hanjaInformalTryFormat }
  | .hanjaFormal => { tryFormat := hanjaFormalTryFormat }
  | .hebrew => { tryFormat := hebrewTryFormat }
  | .ethiopic => { tryFormat := ethiopicTryFormat }
  | .chinese k o => { tryFormat := chineseTryFormat k o }

end Nominals
