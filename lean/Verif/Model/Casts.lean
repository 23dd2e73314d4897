import Verif.Model.DigitalDyn
import Verif.Model.Lib

/-!
# The formatters with a checked `as_usize`

`UnsignedInteger::as_usize` (src/lib.rs:151-156) truncates, and "should only be invoked when it is guaranteed the value is within the range of
a usize". Here the formatters are written once more with a cast that does something else, `out`, when it is invoked on a larger value: panic,
not return, or undefined behaviour. As the rest of the call is then `out` too, the results of two different `out` are equal only if there is no
such invocation.
-/

namespace Nominals

/-- src/lib.rs:151-156 `as_usize`, with a value beyond `usize` reported. -/
def checkedUsize {ε : Type} (cfg : Cfg) (out : Res Empty Nat) (n : Nat) : Res ε Nat :=
  if n < 2 ^ cfg.ptr.bits then .ok n else out.call

/-- src/digital.rs:585-605, see `digitLoop`, with `checkedUsize` in place of `as_usize`. -/
def digitLoopK (cfg : Cfg) (out : Res Empty Nat) (T : IntTy) (c : Coll) (nominal : Nat) :
    (fuel : Nat) → (count remaining : Nat) → (firstLoop : Bool) → (formatted : NStr) → Res Error NStr
  | 0, _, _, _, _ => .timeout
  | fuel + 1, count, remaining, firstLoop, formatted =>
    if remaining ≠ 0 ∨ firstLoop = true then
      (if !c.hasZero && (!c.zeroBased || !firstLoop) then
        if !c.hasZero && remaining == 0 then .err .noZeroSymbol
        else subT cfg T remaining 1
      else Res.ok remaining).bind fun remaining =>
      (remT remaining count).bind fun idx =>
      (checkedUsize cfg out idx).bind fun idx =>
      (Res.ofIndex (c.digit idx)).bind fun ch =>
      ((formatted.pushFront cfg ch).withNominal nominal).bind fun formatted =>
      (divT remaining count).bind fun remaining =>
      match T.tryFrom cfg c.len with
      | some count => digitLoopK cfg out T c nominal fuel count remaining false formatted
      | none => .err (.outOfBounds nominal)
    else .ok formatted

/-- src/digital.rs:561-606, see `digitTryFormat`, with `checkedUsize` in place of `as_usize`. -/
def digitTryFormatK (cfg : Cfg) (out : Res Empty Nat) (T : IntTy) (fuel : Nat) : (depth : Nat) → DigitSys → (nominal : Nat) → Res Error NStr
  | 0, _, _ => .timeout
  | depth + 1, d, nominal =>
    let c := d.level 0
    match T.tryFrom cfg c.len with
    | none => (checkedUsize cfg out nominal).bind fun idx => (Res.ofIndex (c.digit idx)).bind fun ch => NStr.ofChar cfg ch
    | some count =>
      if c.fixed && (if c.zeroBased then decide (nominal ≥ count) else decide (nominal > count)) then
        let fb := d.fallback
        if (fb.level 0).len == 0 then .err (.outOfBounds nominal)
        else digitTryFormatK cfg out T fuel depth fb nominal
      else digitLoopK cfg out T c nominal fuel count nominal true NStr.newReverse

/-- src/digital.rs:585-605, see `dynLoop`, with `checkedUsize` in place of `as_usize`. -/
def dynLoopK {σ : Type} (cfg : Cfg) (out : Res Empty Nat) (T : IntTy) (c : DynColl σ) (nominal : Nat) :
    (fuel : Nat) → (count remaining : Nat) → (firstLoop : Bool) → (formatted : NStr) → σ → Res Error (NStr × σ)
  | 0, _, _, _, _, _ => .timeout
  | fuel + 1, count, remaining, firstLoop, formatted, w =>
    if remaining ≠ 0 ∨ firstLoop = true then
      (dynSubtract cfg T c firstLoop remaining w).bind fun (remaining, w) =>
      (remT remaining count).bind fun idx =>
      (checkedUsize cfg out idx).bind fun idx =>
      (c.digit idx w).call.bind fun (ch, w) =>
      ((formatted.pushFront cfg ch).withNominal nominal).bind fun formatted =>
      (divT remaining count).bind fun remaining =>
      (c.len w).call.bind fun (l, w) =>
      match T.tryFrom cfg l with
      | some count => dynLoopK cfg out T c nominal fuel count remaining false formatted w
      | none => .err (.outOfBounds nominal)
    else .ok (formatted, w)

/-- src/digital.rs:561-606, see `dynTryFormat`, with `checkedUsize` in place of `as_usize`. -/
def dynTryFormatK {σ : Type} (cfg : Cfg) (out : Res Empty Nat) (T : IntTy) (fuel : Nat) : (depth : Nat) → DynSys σ → (nominal : Nat) → σ → Res Error (NStr × σ)
  | 0, _, _, _ => .timeout
  | depth + 1, d, nominal, w =>
    let c := d.level 0
    (c.len w).call.bind fun (l, w) =>
    match T.tryFrom cfg l with
    | none =>
      (checkedUsize cfg out nominal).bind fun idx =>
      (c.digit idx w).call.bind fun (ch, w) =>
      (NStr.ofChar cfg ch).bind fun s => .ok (s, w)
    | some count =>
      (dynOutOfRange c nominal count w).bind fun (beyond, w) =>
      if beyond then
        let fb := d.fallback
        ((fb.level 0).default w).call.bind fun (_, w) =>
        ((fb.level 0).isEmpty w).call.bind fun (empty, w) =>
        if empty then .err (.outOfBounds nominal) else dynTryFormatK cfg out T fuel depth fb nominal w
      else dynLoopK cfg out T c nominal fuel count nominal true NStr.newReverse w

/-- src/ethiopic.rs:22-61, see `ethiopicLoop`, with `checkedUsize` in place of `as_usize`. -/
def ethiopicLoopK (cfg : Cfg) (out : Res Empty Nat) :
    (fuel : Nat) → (groupIndex remaining : Nat) → (formatted : NStr) → Res OutOfMemoryError NStr
  | 0, _, _, _ => .timeout
  | fuel + 1, groupIndex, remaining, formatted =>
    if remaining = 0 then .ok formatted
    else
      (remT remaining 10).bind fun first =>
      (divT remaining 10).bind fun remaining =>
      (remT remaining 10).bind fun second =>
      (divT remaining 10).bind fun remaining =>
      let firstIsZero := first == 0
      let secondIsZero := second == 0
      let firstIsOne := first == 1
      let groupIsOdd := groupIndex % 2 == 1
      let notFirstGroup := decide (groupIndex > 0)
      (if notFirstGroup then
        if !groupIsOdd then formatted.pushFront cfg '\u137C'
        else if !(firstIsZero && secondIsZero) then formatted.pushFront cfg '\u137B'
        else Res.ok formatted
      else Res.ok formatted).bind fun formatted =>
      let removeDigits := (firstIsZero && secondIsZero)
        || ((remaining == 0 || groupIsOdd) && notFirstGroup && secondIsZero && firstIsOne)
      (if !removeDigits then
        (if !firstIsZero then
          (checkedUsize cfg out first).bind fun i => (Res.ofIndex ethiopicOnes[i]?).bind fun ch => formatted.pushFront cfg ch
        else Res.ok formatted).bind fun formatted =>
        (if !secondIsZero then
          (checkedUsize cfg out second).bind fun i => (Res.ofIndex ethiopicTens[i]?).bind fun ch => formatted.pushFront cfg ch
        else Res.ok formatted)
      else Res.ok formatted).bind fun formatted =>
      ethiopicLoopK cfg out fuel (groupIndex + 1) remaining formatted

/-- src/ethiopic.rs:70-75 `try_format_nominal` with :16-64 `format_ethiopic`, with `checkedUsize` in place of `as_usize`. -/
def ethiopicTryFormatK (cfg : Cfg) (out : Res Empty Nat) (nominal : Nat) : Res Error NStr :=
  if nominal = 0 then .err .noZeroSymbol
  else (ethiopicLoopK cfg out (nominal + 1) 0 nominal NStr.newReverse).mapErr fun _ => .outOfMemory nominal

/-- src/chinese.rs:80, 91, 105, 112 and 211: `formatted.try_push(characters[digit.as_usize()])?`, with `checkedUsize` in place of `as_usize`. -/
def pushDigitK (cfg : Cfg) (out : Res Empty Nat) (characters : List Char) (digit : Nat) (formatted : NStr) : Res OutOfMemoryError NStr :=
  (checkedUsize cfg out digit).bind fun index => pushAt cfg characters index formatted

/-- src/chinese.rs:52-117, see `chineseInner`, with `checkedUsize` in place of `as_usize`. -/
def chineseInnerK (cfg : Cfg) (out : Res Empty Nat) (formal : Bool) (characters : List Char) (nominal : Nat) (noPrefix : Bool)
    (lastCharIsZero : Bool) : Res OutOfMemoryError (NStr × Bool) :=
  let ones := nominal % 10
  let tens := nominal / 10 % 10
  let hundreds := nominal / 10 / 10 % 10
  let thousands := nominal / 10 / 10 / 10
  let formatted := NStr.new
  (if thousands = 0 then
    if !noPrefix && !lastCharIsZero && hundreds != 0 then
      (pushAt cfg characters 0 formatted).bind fun f => .ok (f, true)
    else Res.ok (formatted, lastCharIsZero)
  else
    (pushDigitK cfg out characters thousands formatted).bind fun f =>
    (pushAt cfg characters 12 f).bind fun f => .ok (f, false)).bind fun (formatted, lastCharIsZero) =>
  (if hundreds = 0 then
    if (!formatted.isEmpty || !noPrefix) && !lastCharIsZero && tens != 0 then
      (pushAt cfg characters 0 formatted).bind fun f => .ok (f, true)
    else Res.ok (formatted, lastCharIsZero)
  else
    (pushDigitK cfg out characters hundreds formatted).bind fun f =>
    (pushAt cfg characters 11 f).bind fun f => .ok (f, false)).bind fun (formatted, lastCharIsZero) =>
  (if tens = 0 then
    if (!formatted.isEmpty || !noPrefix) && !lastCharIsZero && ones != 0 then
      (pushAt cfg characters 0 formatted).bind fun f => .ok (f, true)
    else Res.ok (formatted, lastCharIsZero)
  else
    let omitDigit := !(formal || (!formatted.isEmpty || !noPrefix) || lastCharIsZero || tens != 1)
    (if !omitDigit then pushDigitK cfg out characters tens formatted else Res.ok formatted).bind fun f =>
    (pushAt cfg characters 10 f).bind fun f => .ok (f, false)).bind fun (formatted, lastCharIsZero) =>
  if ones ≠ 0 then
    (pushDigitK cfg out characters ones formatted).bind fun f => .ok (f, false)
  else .ok (formatted, lastCharIsZero)

/-- src/chinese.rs:198-214, see `shortBody`, with `checkedUsize` in place of `as_usize`. -/
def shortBodyK (cfg : Cfg) (out : Res Empty Nat) (characters large : List Char) (rank scale remaining : Nat) (formatted : NStr) (lastWasZero : Bool) :
    Res ChineseFormatError (Nat × NStr × Bool) :=
  (divT remaining scale).bind fun rankValue =>
  if rankValue ≥ 10 then .err .outOfBounds
  else
    (remT remaining scale).bind fun remaining =>
    (if rankValue = 0 then
      if !formatted.isEmpty && !lastWasZero then
        (pushAt cfg characters 0 formatted).toChinese.bind fun f => .ok (remaining, f, true)
      else Res.ok (remaining, formatted, lastWasZero)
    else
      (pushDigitK cfg out characters rankValue formatted).toChinese.bind fun f =>
      (pushAt cfg large rank f).toChinese.bind fun f => .ok (remaining, f, false))

/-- src/chinese.rs:197-224, see `shortLoop`, with `checkedUsize` in place of `as_usize`. -/
def shortLoopK (cfg : Cfg) (out : Res Empty Nat) (T : IntTy) (characters large : List Char) :
    (rank : Nat) → (scale remaining : Nat) → (formatted : NStr) → (lastWasZero : Bool) →
      Res ChineseFormatError (Nat × NStr × Bool)
  | 0, scale, remaining, formatted, lastWasZero =>
    if remaining = 0 then .ok (remaining, formatted, lastWasZero)
    else shortBodyK cfg out characters large 0 scale remaining formatted lastWasZero
  | rank + 1, scale, remaining, formatted, lastWasZero =>
    if remaining = 0 then .ok (remaining, formatted, lastWasZero)
    else
      (shortBodyK cfg out characters large (rank + 1) scale remaining formatted lastWasZero).bind fun (remaining, formatted, lastWasZero) =>
      (Res.ofIndex SHORT_SCALE[rank]?).bind fun sc =>
      match T.tryFrom cfg sc with
      | none => .panic -- `unreachable!("rank + 1 was valid")`
      | some newScale => shortLoopK cfg out T characters large rank newScale remaining formatted lastWasZero

/-- src/chinese.rs:185-235, see `formatShortRankAt`, with `checkedUsize` in place of `as_usize`. -/
def formatShortRankAtK (cfg : Cfg) (out : Res Empty Nat) (T : IntTy) (formal : Bool) (characters large : List Char) (nominal rank scale : Nat) :
    Res ChineseFormatError NStr :=
  (shortLoopK cfg out T characters large rank scale nominal NStr.new false).bind fun (remaining, formatted, lastWasZero) =>
  if remaining ≠ 0 then
    (chineseInnerK cfg out formal characters remaining false lastWasZero).toChinese.bind fun (rem, _) =>
    (match rem.asStr with
     | some t => (formatted.pushStr cfg t).toChinese
     | none => .ub)
  else .ok formatted

/-- src/chinese.rs:176-236, see `formatShortRank`, with `checkedUsize` in place of `as_usize`. -/
def formatShortRankK (cfg : Cfg) (out : Res Empty Nat) (T : IntTy) (formal : Bool) (characters large : List Char) (nominal : Nat) :
    (rank : Nat) → Res ChineseFormatError NStr
  | 0 =>
    (Res.ofIndex SHORT_SCALE[0]?).bind fun sc =>
    match T.tryFrom cfg sc with
    | none => .panic
    | some scale => formatShortRankAtK cfg out T formal characters large nominal 0 scale
  | rank + 1 =>
    (Res.ofIndex SHORT_SCALE[rank + 1]?).bind fun sc =>
    match T.tryFrom cfg sc with
    | none => formatShortRankK cfg out T formal characters large nominal rank
    | some scale => formatShortRankAtK cfg out T formal characters large nominal (rank + 1) scale

/-- src/chinese.rs:280-306, see `scaledNext`, with `checkedUsize` in place of `as_usize`. -/
def scaledNextK (cfg : Cfg) (out : Res Empty Nat) (formal : Bool) (characters large : List Char) (scales : List (Option Nat)) : (rank : Nat) → ScaledFn
  | 0 => fun nominal noPrefix lastCharIsZero =>
      (chineseInnerK cfg out formal characters nominal noPrefix lastCharIsZero).toChinese
  | rank + 1 => scaledRankBody cfg large scales rank (scaledNextK cfg out formal characters large scales rank)

/-- src/chinese.rs:238-278, see `formatScaled`, with `checkedUsize` in place of `as_usize`. -/
def formatScaledK (cfg : Cfg) (out : Res Empty Nat) (T : IntTy) (formal : Bool) (scales : List Nat) (characters large : List Char) (nominal : Nat) :
    Res ChineseFormatError NStr :=
  let scales := scales.map (T.tryFrom cfg)
  (scaledRankBody cfg large scales 10 (scaledNextK cfg out formal characters large scales 10) nominal true false).map Prod.fst

/-- src/chinese.rs:142-174, see `ChineseScale.format`, with `checkedUsize` in place of `as_usize`. -/
def ChineseScale.formatK (scale : ChineseScale) (cfg : Cfg) (out : Res Empty Nat) (T : IntTy) (formal : Bool) (characters large : List Char)
    (nominal : Nat) : Res ChineseFormatError NStr :=
  match scale with
  | .short => formatShortRankK cfg out T formal characters large nominal 10
  | .myriad => formatScaledK cfg out T formal MYRIAD_SCALE characters large nominal
  | .mid => formatScaledK cfg out T formal MID_SCALE characters large nominal
  | .long => formatScaledK cfg out T formal LONG_SCALE characters large nominal

/-- src/chinese.rs:25-50, see `formatChinese`, with `checkedUsize` in place of `as_usize`. -/
def formatChineseK (cfg : Cfg) (out : Res Empty Nat) (T : IntTy) (formal : Bool) (characters large : List Char) (nominal : Nat)
    (scale : ChineseScale) : Res Error NStr :=
  if nominal = 0 then
    (Res.ofIndex characters[0]?).bind fun ch => NStr.ofChar cfg ch
  else
    let small : Res Error NStr :=
      ((chineseInnerK cfg out formal characters nominal true false).mapErr fun _ => Error.outOfMemory nominal).map Prod.fst
    match T.tryFrom cfg 10000 with
    | some tenThousand =>
      if nominal ≥ tenThousand then
        (scale.formatK cfg out T formal characters large nominal).mapErr fun
          | .outOfMemory => .outOfMemory nominal
          | .outOfBounds => .outOfBounds nominal
      else small
    | none => small

/-- `try_format_nominal` of a digit collection (src/digital.rs:561-606) with the budgets of `DigitSys.tryFormat`, with `checkedUsize` in place of `as_usize`. -/
def DigitSys.tryFormatK (d : DigitSys) (cfg : Cfg) (out : Res Empty Nat) (T : IntTy) (nominal : Nat) : Res Error NStr :=
  digitTryFormatK cfg out T (nominal + 64) DEFAULT_DEPTH d nominal

/-- src/enumerated.rs:30-42, see `EnumSet.tryFormat`, which has a fallible conversion and no `as_usize`. -/
def EnumSet.tryFormatK (e : EnumSet) (cfg : Cfg) (_T : IntTy) (nominal : Nat) : Res Error NStr :=
  match tryIntoUsize cfg nominal with
  | none => .err (.outOfBounds nominal)
  | some n =>
    if !e.hasZero && nominal == 0 then .err .noZeroSymbol
    else
      (subT cfg .usize n (if e.hasZero then 0 else 1)).bind fun i =>
      match e.symbols[i]? with
      | some symbol => NStr.ofStr cfg symbol
      | none => .err (.outOfBounds nominal)

/-- `try_format_nominal` of a named type (src/digital.rs:134-430 and :507-516, src/enumerated.rs:45-81, src/additive.rs:67-614, src/hebrew.rs:6-76, src/ethiopic.rs:66-76,
src/chinese.rs:442-530, as for `Named.system`), with `checkedUsize` in place of
`as_usize`. The additive and Hebrew
systems convert the values of their tables to the type of the number and have no use for `as_usize`. -/
def Named.tryFormatK (s : Named) (cfg : Cfg) (out : Res Empty Nat) (T : IntTy) (nominal : Nat) : Res Error NStr :=
  match s with
  | .decimal => Nominals.decimal.tryFormatK cfg out T nominal
  | .easternArabic => Nominals.easternArabic.tryFormatK cfg out T nominal
  | .persian => Nominals.persian.tryFormatK cfg out T nominal
  | .bengali => Nominals.bengali.tryFormatK cfg out T nominal
  | .cambodian => Nominals.cambodian.tryFormatK cfg out T nominal
  | .cjkDecimal => Nominals.cjkDecimal.tryFormatK cfg out T nominal
  | .devanagari => Nominals.devanagari.tryFormatK cfg out T nominal
  | .gujarati => Nominals.gujarati.tryFormatK cfg out T nominal
  | .gurmukhi => Nominals.gurmukhi.tryFormatK cfg out T nominal
  | .kannada => Nominals.kannada.tryFormatK cfg out T nominal
  | .lao => Nominals.lao.tryFormatK cfg out T nominal
  | .malayalam => Nominals.malayalam.tryFormatK cfg out T nominal
  | .mongolian => Nominals.mongolian.tryFormatK cfg out T nominal
  | .myanmar => Nominals.myanmar.tryFormatK cfg out T nominal
  | .oriya => Nominals.oriya.tryFormatK cfg out T nominal
  | .tamil => Nominals.tamil.tryFormatK cfg out T nominal
  | .telugu => Nominals.telugu.tryFormatK cfg out T nominal
  | .thai => Nominals.thai.tryFormatK cfg out T nominal
  | .tibetan => Nominals.tibetan.tryFormatK cfg out T nominal
  | .letterUpper => Nominals.letterUpper.tryFormatK cfg out T nominal
  | .letterLower => Nominals.letterLower.tryFormatK cfg out T nominal
  | .greekUpper => Nominals.greekUpper.tryFormatK cfg out T nominal
  | .greekLower => Nominals.greekLower.tryFormatK cfg out T nominal
  | .hiragana => Nominals.hiragana.tryFormatK cfg out T nominal
  | .hiraganaIroha => Nominals.hiraganaIroha.tryFormatK cfg out T nominal
  | .katakana => Nominals.katakana.tryFormatK cfg out T nominal
  | .katakanaIroha => Nominals.katakanaIroha.tryFormatK cfg out T nominal
  | .hangeulJamo => Nominals.hangeulJamo.tryFormatK cfg out T nominal
  | .hangeulSyllable => Nominals.hangeulSyllable.tryFormatK cfg out T nominal
  | .cjkHeavenlyStem => Nominals.cjkHeavenlyStem.tryFormatK cfg out T nominal
  | .cjkEarthlyBranch => Nominals.cjkEarthlyBranch.tryFormatK cfg out T nominal
  | .hexUpper => Nominals.hexUpper.tryFormatK cfg out T nominal
  | .hexLower => Nominals.hexLower.tryFormatK cfg out T nominal
  | .circledNumber => Nominals.circledNumber.tryFormatK cfg T nominal
  | .doubleCircledNumber => Nominals.doubleCircledNumber.tryFormatK cfg T nominal
  | .ethiopic => ethiopicTryFormatK cfg out nominal
  | .chinese k o => formatChineseK cfg out T k.formal (k.characters o.usage) k.large nominal o.scale
  | s => s.system.tryFormat cfg T nominal

end Nominals
