import Verif.Model.Writes
import Verif.Model.Lib

/-!
# The formatters with a log of the cells written

The formatters once more, calling the logged pushes of `Model/Writes.lean`. As there, the log has no influence on the results
(`C98_formatters_log`). The formatters of `src/chinese.rs` build parts of a numeral in strings of their own and append them to the numeral; the
log contains the cells written in all these buffers.
-/

namespace Nominals

/-- `Res.mapErr` with a log (`map_err` and `?`, src/lib.rs:245, src/chinese.rs:386-390). -/
def Writes.mapErr {ε ε' α : Type} (r : Writes ε α) (f : ε → ε') : Writes ε' α := (r.1, r.2.mapErr f)

/-- `Res.withNominal` with a log (src/lib.rs:243-247). -/
def Writes.withNominal {α : Type} (r : Writes OutOfMemoryError α) (n : Nat) : Writes Error α := (r.1, r.2.withNominal n)

/-- `Res.toChinese` with a log (src/chinese.rs:386-390). -/
def Writes.toChinese {α : Type} (r : Writes OutOfMemoryError α) : Writes ChineseFormatError α := (r.1, r.2.toChinese)

namespace NStr

/-- src/nominalstring.rs:66-68 `try_push`, logged. -/
def pushW (cfg : Cfg) (s : NStr) (ch : Char) : Writes OutOfMemoryError NStr := (s.tryPushW cfg ch).mapErr Prod.fst

/-- src/nominalstring.rs:76-78 `try_push_str`, logged. -/
def pushStrW (cfg : Cfg) (s : NStr) (str : List Char) : Writes OutOfMemoryError NStr := (s.tryPushStrW cfg str).mapErr Prod.fst

/-- src/nominalstring.rs:86-88 `try_push_front`, logged. -/
def pushFrontW (cfg : Cfg) (s : NStr) (ch : Char) : Writes OutOfMemoryError NStr := (s.tryPushFrontW cfg ch).mapErr Prod.fst

/-- src/nominalstring.rs:147-174 `From<&str>`, logged: the `zip` loop (:153-155) writes one cell per byte. -/
def ofStrW {ε : Type} (cfg : Cfg) (t : List Char) : Writes ε NStr :=
  let bs := utf8Encode t
  if bs.length < 256 ∧ bs.length ≤ INLINE_CAPACITY then
    (zipWriteW (List.replicate INLINE_CAPACITY none) 0 bs.length bs).bind fun b =>
    (Res.ok (.inline { length := UInt8.ofNat bs.length, bytes := b })).quiet
  else (if cfg.alloc then Res.ok (ofString t) else .panic).quiet

/-- src/nominalstring.rs:176-182 `From<char>`, logged. -/
def ofCharW {ε : Type} (cfg : Cfg) (ch : Char) : Writes ε NStr :=
  let r := pushW cfg new ch
  (r.1, match r.2 with
    | .ok s => .ok s
    | .err _ => .panic
    | .panic => .panic
    | .ub => .ub
    | .timeout => .timeout)

end NStr

/-- src/digital.rs:585-605, logged. -/
def digitLoopW (cfg : Cfg) (T : IntTy) (c : Coll) (nominal : Nat) :
    (fuel : Nat) → (count remaining : Nat) → (firstLoop : Bool) → (formatted : NStr) → Writes Error NStr
  | 0, _, _, _, _ => Res.timeout.quiet
  | fuel + 1, count, remaining, firstLoop, formatted =>
    if remaining ≠ 0 ∨ firstLoop = true then
      (if !c.hasZero && (!c.zeroBased || !firstLoop) then
        if !c.hasZero && remaining == 0 then .err .noZeroSymbol
        else subT cfg T remaining 1
      else Res.ok remaining).quiet.bind fun remaining =>
      (remT remaining count).quiet.bind fun idx =>
      (Res.ofIndex (c.digit (asUsize cfg idx))).quiet.bind fun ch =>
      ((formatted.pushFrontW cfg ch).withNominal nominal).bind fun formatted =>
      (divT remaining count).quiet.bind fun remaining =>
      match T.tryFrom cfg c.len with
      | some count => digitLoopW cfg T c nominal fuel count remaining false formatted
      | none => (Res.err (.outOfBounds nominal)).quiet
    else (Res.ok formatted).quiet

/-- src/digital.rs:561-606 `try_format_nominal` for `D: DigitCollection`, logged. -/
def digitTryFormatW (cfg : Cfg) (T : IntTy) (fuel : Nat) : (depth : Nat) → DigitSys → (nominal : Nat) → Writes Error NStr
  | 0, _, _ => Res.timeout.quiet
  | depth + 1, d, nominal =>
    let c := d.level 0
    match T.tryFrom cfg c.len with
    | none => (Res.ofIndex (c.digit (asUsize cfg nominal))).quiet.bind fun ch => NStr.ofCharW cfg ch
    | some count =>
      if c.fixed && (if c.zeroBased then decide (nominal ≥ count) else decide (nominal > count)) then
        let fb := d.fallback
        if (fb.level 0).len == 0 then (Res.err (.outOfBounds nominal)).quiet
        else digitTryFormatW cfg T fuel depth fb nominal
      else digitLoopW cfg T c nominal fuel count nominal true NStr.newReverse

/-- src/enumerated.rs:30-42 `try_format_nominal`, logged. -/
def EnumSet.tryFormatW (e : EnumSet) (cfg : Cfg) (_T : IntTy) (nominal : Nat) : Writes Error NStr :=
  match tryIntoUsize cfg nominal with
  | none => (Res.err (.outOfBounds nominal)).quiet
  | some n =>
    if !e.hasZero && nominal == 0 then (Res.err .noZeroSymbol).quiet
    else
      (subT cfg .usize n (if e.hasZero then 0 else 1)).quiet.bind fun i =>
      match e.symbols[i]? with
      | some symbol => NStr.ofStrW cfg symbol
      | none => (Res.err (.outOfBounds nominal)).quiet

/-- src/additive.rs:58-61, logged. -/
def additiveWhileW (cfg : Cfg) (T : IntTy) (nominal : Nat) (symbol : List Char) (value : Nat) :
    (fuel : Nat) → (remaining : Nat) → (formatted : NStr) → Writes Error (Nat × NStr)
  | 0, _, _ => Res.timeout.quiet
  | fuel + 1, remaining, formatted =>
    if remaining ≥ value then
      (subT cfg T remaining value).quiet.bind fun remaining =>
      ((formatted.pushStrW cfg symbol).withNominal nominal).bind fun formatted =>
      additiveWhileW cfg T nominal symbol value fuel remaining formatted
    else (Res.ok (remaining, formatted)).quiet

/-- src/additive.rs:50-64, logged. -/
def additiveForW (cfg : Cfg) (T : IntTy) (nominal : Nat) :
    List (List Char × Nat) → (remaining : Nat) → (formatted : NStr) → Writes Error NStr
  | [], _, formatted => (Res.ok formatted).quiet
  | (symbol, value) :: rest, remaining, formatted =>
    if value = 0 then (Res.ok formatted).quiet
    else match T.tryFrom cfg value with
      | none => additiveForW cfg T nominal rest remaining formatted
      | some valueAsT =>
        (additiveWhileW cfg T nominal symbol valueAsT (remaining + 1) remaining formatted).bind fun (remaining, formatted) =>
        additiveForW cfg T nominal rest remaining formatted

/-- src/additive.rs:38-65 `try_format_nominal`, logged. -/
def AdditiveSet.tryFormatW (a : AdditiveSet) (cfg : Cfg) (T : IntTy) (nominal : Nat) : Writes Error NStr :=
  if nominal = 0 then
    match a.zero with
    | some zero => NStr.ofStrW cfg zero
    | none => (Res.err .noZeroSymbol).quiet
  else additiveForW cfg T nominal a.symbols nominal NStr.new

/-- src/hebrew.rs:49-71, logged. -/
def hebrewWhileW (cfg : Cfg) (T : IntTy) (nominal : Nat) (symbol : Char) (value : Nat) :
    (fuel : Nat) → (remaining : Nat) → (formatted : NStr) → Writes Error HebrewExit
  | 0, _, _ => Res.timeout.quiet
  | fuel + 1, remaining, formatted =>
    if remaining ≥ value then
      if remaining = 15 then
        ((formatted.pushStrW cfg hebrewFifteen).withNominal nominal).bind fun formatted =>
        (Res.ok (.breakSymbolLoop formatted)).quiet
      else if remaining = 16 then
        ((formatted.pushStrW cfg hebrewSixteen).withNominal nominal).bind fun formatted =>
        (Res.ok (.breakSymbolLoop formatted)).quiet
      else
        let singleSymbol := decide (value = remaining) && formatted.isEmpty
        (if singleSymbol then (formatted.pushW cfg geresh).withNominal nominal
         else (Res.ok formatted).quiet).bind fun formatted =>
        (subT cfg T remaining value).quiet.bind fun remaining =>
        ((formatted.pushW cfg symbol).withNominal nominal).bind fun formatted =>
        if singleSymbol then
          ((formatted.pushW cfg gershayim).withNominal nominal).bind fun formatted =>
          (Res.ok (.next remaining formatted)).quiet
        else hebrewWhileW cfg T nominal symbol value fuel remaining formatted
    else (Res.ok (.next remaining formatted)).quiet

/-- src/hebrew.rs:21-74, logged. -/
def hebrewForW (cfg : Cfg) (T : IntTy) (nominal : Nat) :
    List (Char × Nat) → (remaining : Nat) → (formatted : NStr) → Writes Error NStr
  | [], _, formatted => (Res.ok formatted).quiet
  | (symbol, value) :: rest, remaining, formatted =>
    match T.tryFrom cfg value with
    | none => hebrewForW cfg T nominal rest remaining formatted
    | some value =>
      (hebrewWhileW cfg T nominal symbol value (remaining + 1) remaining formatted).bind fun
        | .next remaining formatted => hebrewForW cfg T nominal rest remaining formatted
        | .breakSymbolLoop formatted => (Res.ok formatted).quiet

/-- src/hebrew.rs:11-75 `try_format_nominal`, logged. -/
def hebrewTryFormatW (cfg : Cfg) (T : IntTy) (nominal : Nat) : Writes Error NStr :=
  if nominal = 0 then (Res.err .noZeroSymbol).quiet
  else hebrewForW cfg T nominal hebrewTable nominal NStr.new

/-- src/ethiopic.rs:22-61, logged. -/
def ethiopicLoopW (cfg : Cfg) :
    (fuel : Nat) → (groupIndex remaining : Nat) → (formatted : NStr) → Writes OutOfMemoryError NStr
  | 0, _, _, _ => Res.timeout.quiet
  | fuel + 1, groupIndex, remaining, formatted =>
    if remaining = 0 then (Res.ok formatted).quiet
    else
      (remT remaining 10).quiet.bind fun first =>
      (divT remaining 10).quiet.bind fun remaining =>
      (remT remaining 10).quiet.bind fun second =>
      (divT remaining 10).quiet.bind fun remaining =>
      let firstIsZero := first == 0
      let secondIsZero := second == 0
      let firstIsOne := first == 1
      let groupIsOdd := groupIndex % 2 == 1
      let notFirstGroup := decide (groupIndex > 0)
      (if notFirstGroup then
        if !groupIsOdd then formatted.pushFrontW cfg '፼'
        else if !(firstIsZero && secondIsZero) then formatted.pushFrontW cfg '፻'
        else (Res.ok formatted).quiet
      else (Res.ok formatted).quiet).bind fun formatted =>
      let removeDigits := (firstIsZero && secondIsZero)
        || ((remaining == 0 || groupIsOdd) && notFirstGroup && secondIsZero && firstIsOne)
      (if !removeDigits then
        (if !firstIsZero then
          (Res.ofIndex ethiopicOnes[asUsize cfg first]?).quiet.bind fun ch => formatted.pushFrontW cfg ch
        else (Res.ok formatted).quiet).bind fun formatted =>
        (if !secondIsZero then
          (Res.ofIndex ethiopicTens[asUsize cfg second]?).quiet.bind fun ch => formatted.pushFrontW cfg ch
        else (Res.ok formatted).quiet)
      else (Res.ok formatted).quiet).bind fun formatted =>
      ethiopicLoopW cfg fuel (groupIndex + 1) remaining formatted

/-- src/ethiopic.rs:70-75 `try_format_nominal` with :16-64 `format_ethiopic`, logged. -/
def ethiopicTryFormatW (cfg : Cfg) (nominal : Nat) : Writes Error NStr :=
  if nominal = 0 then (Res.err .noZeroSymbol).quiet
  else (ethiopicLoopW cfg (nominal + 1) 0 nominal NStr.newReverse).mapErr fun _ => .outOfMemory nominal

/-- src/chinese.rs:77-112, 208-212 and 358, logged. -/
def pushAtW (cfg : Cfg) (chars : List Char) (index : Nat) (formatted : NStr) : Writes OutOfMemoryError NStr :=
  (Res.ofIndex chars[index]?).quiet.bind fun ch => formatted.pushW cfg ch

/-- src/chinese.rs:52-117 `format_chinese_inner`, with a log of the cells written. -/
def chineseInnerW (cfg : Cfg) (formal : Bool) (characters : List Char) (nominal : Nat) (noPrefix : Bool)
    (lastCharIsZero : Bool) : Writes OutOfMemoryError (NStr × Bool) :=
  let ones := nominal % 10
  let tens := nominal / 10 % 10
  let hundreds := nominal / 10 / 10 % 10
  let thousands := nominal / 10 / 10 / 10
  let formatted := NStr.new
  (if thousands = 0 then
    if !noPrefix && !lastCharIsZero && hundreds != 0 then
      (pushAtW cfg characters 0 formatted).bind fun f => (Res.ok (f, true)).quiet
    else (Res.ok (formatted, lastCharIsZero)).quiet
  else
    (pushAtW cfg characters (asUsize cfg thousands) formatted).bind fun f =>
    (pushAtW cfg characters 12 f).bind fun f => (Res.ok (f, false)).quiet).bind fun (formatted, lastCharIsZero) =>
  (if hundreds = 0 then
    if (!formatted.isEmpty || !noPrefix) && !lastCharIsZero && tens != 0 then
      (pushAtW cfg characters 0 formatted).bind fun f => (Res.ok (f, true)).quiet
    else (Res.ok (formatted, lastCharIsZero)).quiet
  else
    (pushAtW cfg characters (asUsize cfg hundreds) formatted).bind fun f =>
    (pushAtW cfg characters 11 f).bind fun f => (Res.ok (f, false)).quiet).bind fun (formatted, lastCharIsZero) =>
  (if tens = 0 then
    if (!formatted.isEmpty || !noPrefix) && !lastCharIsZero && ones != 0 then
      (pushAtW cfg characters 0 formatted).bind fun f => (Res.ok (f, true)).quiet
    else (Res.ok (formatted, lastCharIsZero)).quiet
  else
    let omitDigit := !(formal || (!formatted.isEmpty || !noPrefix) || lastCharIsZero || tens != 1)
    (if !omitDigit then pushAtW cfg characters (asUsize cfg tens) formatted else (Res.ok formatted).quiet).bind fun f =>
    (pushAtW cfg characters 10 f).bind fun f => (Res.ok (f, false)).quiet).bind fun (formatted, lastCharIsZero) =>
  if ones ≠ 0 then
    (pushAtW cfg characters (asUsize cfg ones) formatted).bind fun f => (Res.ok (f, false)).quiet
  else (Res.ok (formatted, lastCharIsZero)).quiet

/-- src/chinese.rs:198-214, with a log of the cells written. -/
def shortBodyW (cfg : Cfg) (characters large : List Char) (rank scale remaining : Nat) (formatted : NStr) (lastWasZero : Bool) :
    Writes ChineseFormatError (Nat × NStr × Bool) :=
  (divT remaining scale).quiet.bind fun rankValue =>
  if rankValue ≥ 10 then (Res.err .outOfBounds).quiet
  else
    (remT remaining scale).quiet.bind fun remaining =>
    (if rankValue = 0 then
      if !formatted.isEmpty && !lastWasZero then
        (pushAtW cfg characters 0 formatted).toChinese.bind fun f => (Res.ok (remaining, f, true)).quiet
      else (Res.ok (remaining, formatted, lastWasZero)).quiet
    else
      (pushAtW cfg characters (asUsize cfg rankValue) formatted).toChinese.bind fun f =>
      (pushAtW cfg large rank f).toChinese.bind fun f => (Res.ok (remaining, f, false)).quiet)

/-- src/chinese.rs:197-224, with a log of the cells written. -/
def shortLoopW (cfg : Cfg) (T : IntTy) (characters large : List Char) :
    (rank : Nat) → (scale remaining : Nat) → (formatted : NStr) → (lastWasZero : Bool) →
      Writes ChineseFormatError (Nat × NStr × Bool)
  | 0, scale, remaining, formatted, lastWasZero =>
    if remaining = 0 then (Res.ok (remaining, formatted, lastWasZero)).quiet
    else shortBodyW cfg characters large 0 scale remaining formatted lastWasZero
  | rank + 1, scale, remaining, formatted, lastWasZero =>
    if remaining = 0 then (Res.ok (remaining, formatted, lastWasZero)).quiet
    else
      (shortBodyW cfg characters large (rank + 1) scale remaining formatted lastWasZero).bind fun (remaining, formatted, lastWasZero) =>
      (Res.ofIndex SHORT_SCALE[rank]?).quiet.bind fun sc =>
      match T.tryFrom cfg sc with
      | none => Res.panic.quiet
      | some newScale => shortLoopW cfg T characters large rank newScale remaining formatted lastWasZero

/-- src/chinese.rs:233, 375: append a part that has been formatted in a string of its own. -/
def appendPartW (cfg : Cfg) (formatted part : NStr) : Writes ChineseFormatError NStr :=
  match part.asStr with
  | some t => (formatted.pushStrW cfg t).toChinese
  | none => Res.ub.quiet

/-- src/chinese.rs:185-235, with a log of the cells written. -/
def formatShortRankAtW (cfg : Cfg) (T : IntTy) (formal : Bool) (characters large : List Char) (nominal rank scale : Nat) :
    Writes ChineseFormatError NStr :=
  (shortLoopW cfg T characters large rank scale nominal NStr.new false).bind fun (remaining, formatted, lastWasZero) =>
  if remaining ≠ 0 then
    (chineseInnerW cfg formal characters remaining false lastWasZero).toChinese.bind fun (rem, _) =>
    appendPartW cfg formatted rem
  else (Res.ok formatted).quiet

/-- src/chinese.rs:176-236 `format_short_rank`, with a log of the cells written. -/
def formatShortRankW (cfg : Cfg) (T : IntTy) (formal : Bool) (characters large : List Char) (nominal : Nat) :
    (rank : Nat) → Writes ChineseFormatError NStr
  | 0 =>
    (Res.ofIndex SHORT_SCALE[0]?).quiet.bind fun sc =>
    match T.tryFrom cfg sc with
    | none => Res.panic.quiet
    | some scale => formatShortRankAtW cfg T formal characters large nominal 0 scale
  | rank + 1 =>
    (Res.ofIndex SHORT_SCALE[rank + 1]?).quiet.bind fun sc =>
    match T.tryFrom cfg sc with
    | none => formatShortRankW cfg T formal characters large nominal rank
    | some scale => formatShortRankAtW cfg T formal characters large nominal (rank + 1) scale

/-- src/chinese.rs:280-306: the type of `format_next_scaled_rank` at a fixed rank, with a log of the cells written. -/
abbrev ScaledFnW := Nat → Bool → Bool → Writes ChineseFormatError (NStr × Bool)

/-- src/chinese.rs:308-378 `format_scaled_rank`, with a log of the cells written. -/
def scaledRankBodyW (cfg : Cfg) (large : List Char) (scales : List (Option Nat)) (rank : Nat) (next : ScaledFnW) : ScaledFnW :=
  fun nominal noPrefix lastCharIsZero =>
    match scales[rank]?.join with
    | none => next nominal noPrefix lastCharIsZero
    | some scale =>
      (remT nominal scale).quiet.bind fun remaining =>
      (divT nominal scale).quiet.bind fun rankValue =>
      (match scales[rank + 1]?.join with
       | some previousScale =>
         (divT previousScale scale).bind fun factor =>
         if rankValue ≥ factor then .err ChineseFormatError.outOfBounds else .ok ()
       | none =>
         if rank > 0 then
           (Res.ofIndex scales[rank - 1]?.join).bind fun s =>
           (divT scale s).bind fun factor =>
           if rankValue ≥ factor then .err ChineseFormatError.outOfBounds else .ok ()
         else .ok ()).quiet.bind fun _ =>
      (if rankValue = 0 then (Res.ok (NStr.new, lastCharIsZero)).quiet
       else
         (next rankValue noPrefix lastCharIsZero).bind fun (rankFormatted, lastCharIsZero) =>
         if !rankFormatted.isEmpty then
           (pushAtW cfg large rank rankFormatted).toChinese.bind fun f => (Res.ok (f, false)).quiet
         else (Res.ok (rankFormatted, lastCharIsZero)).quiet).bind fun (formatted, lastCharIsZero) =>
      if remaining = 0 then (Res.ok (formatted, lastCharIsZero)).quiet
      else
        (next remaining (formatted.isEmpty && noPrefix) lastCharIsZero).bind fun (rem, lastCharIsZero) =>
        (appendPartW cfg formatted rem).bind fun formatted =>
        (Res.ok (formatted, lastCharIsZero)).quiet

/-- src/chinese.rs:280-306 `format_next_scaled_rank`, with a log of the cells written. -/
def scaledNextW (cfg : Cfg) (formal : Bool) (characters large : List Char) (scales : List (Option Nat)) : (rank : Nat) → ScaledFnW
  | 0 => fun nominal noPrefix lastCharIsZero =>
      (chineseInnerW cfg formal characters nominal noPrefix lastCharIsZero).toChinese
  | rank + 1 => scaledRankBodyW cfg large scales rank (scaledNextW cfg formal characters large scales rank)

/-- src/chinese.rs:238-278 `format_scaled` and `format_scaled_inner`, with a log of the cells written. -/
def formatScaledW (cfg : Cfg) (T : IntTy) (formal : Bool) (scales : List Nat) (characters large : List Char) (nominal : Nat) :
    Writes ChineseFormatError NStr :=
  let scales := scales.map (T.tryFrom cfg)
  (scaledRankBodyW cfg large scales 10 (scaledNextW cfg formal characters large scales 10) nominal true false).map Prod.fst

/-- src/chinese.rs:142-174 `ChineseScale::format`, with a log of the cells written. -/
def ChineseScale.formatW (scale : ChineseScale) (cfg : Cfg) (T : IntTy) (formal : Bool) (characters large : List Char)
    (nominal : Nat) : Writes ChineseFormatError NStr :=
  match scale with
  | .short => formatShortRankW cfg T formal characters large nominal 10
  | .myriad => formatScaledW cfg T formal MYRIAD_SCALE characters large nominal
  | .mid => formatScaledW cfg T formal MID_SCALE characters large nominal
  | .long => formatScaledW cfg T formal LONG_SCALE characters large nominal

/-- src/chinese.rs:25-50 `format_chinese`, with a log of the cells written. -/
def formatChineseW (cfg : Cfg) (T : IntTy) (formal : Bool) (characters large : List Char) (nominal : Nat)
    (scale : ChineseScale) : Writes Error NStr :=
  if nominal = 0 then
    (Res.ofIndex characters[0]?).quiet.bind fun ch => NStr.ofCharW cfg ch
  else
    let small : Writes Error NStr :=
      ((chineseInnerW cfg formal characters nominal true false).mapErr fun _ => Error.outOfMemory nominal).map Prod.fst
    match T.tryFrom cfg 10000 with
    | some tenThousand =>
      if nominal ≥ tenThousand then
        (scale.formatW cfg T formal characters large nominal).mapErr fun
          | .outOfMemory => .outOfMemory nominal
          | .outOfBounds => .outOfBounds nominal
      else small
    | none => small

/-- The shape of every named additive system (e.g. src/additive.rs:87-117), logged. -/
def additiveTryFormatW (symbols : List (List Char × Nat)) (cfg : Cfg) (T : IntTy) (nominal : Nat) : Writes Error NStr :=
  (AdditiveSet.new symbols).quiet.bind fun a => a.tryFormatW cfg T nominal

/-- `try_format_nominal` of a digit collection (src/digital.rs:561-606) with the budgets of `DigitSys.tryFormat`, logged. -/
def DigitSys.tryFormatW (d : DigitSys) (cfg : Cfg) (T : IntTy) (nominal : Nat) : Writes Error NStr :=
  digitTryFormatW cfg T (nominal + 64) DEFAULT_DEPTH d nominal

/-- `try_format_nominal` of a named type (src/digital.rs:134-430 and :507-516, src/enumerated.rs:45-81, src/additive.rs:67-614, src/hebrew.rs:6-76, src/ethiopic.rs:66-76,
src/chinese.rs:442-530, as for `Named.system`), logged. -/
def Named.tryFormatW (s : Named) (cfg : Cfg) (T : IntTy) (nominal : Nat) : Writes Error NStr :=
  match s with
  | .decimal => Nominals.decimal.tryFormatW cfg T nominal
  | .easternArabic => Nominals.easternArabic.tryFormatW cfg T nominal
  | .persian => Nominals.persian.tryFormatW cfg T nominal
  | .bengali => Nominals.bengali.tryFormatW cfg T nominal
  | .cambodian => Nominals.cambodian.tryFormatW cfg T nominal
  | .cjkDecimal => Nominals.cjkDecimal.tryFormatW cfg T nominal
  | .devanagari => Nominals.devanagari.tryFormatW cfg T nominal
  | .gujarati => Nominals.gujarati.tryFormatW cfg T nominal
  | .gurmukhi => Nominals.gurmukhi.tryFormatW cfg T nominal
  | .kannada => Nominals.kannada.tryFormatW cfg T nominal
  | .lao => Nominals.lao.tryFormatW cfg T nominal
  | .malayalam => Nominals.malayalam.tryFormatW cfg T nominal
  | .mongolian => Nominals.mongolian.tryFormatW cfg T nominal
  | .myanmar => Nominals.myanmar.tryFormatW cfg T nominal
  | .oriya => Nominals.oriya.tryFormatW cfg T nominal
  | .tamil => Nominals.tamil.tryFormatW cfg T nominal
  | .telugu => Nominals.telugu.tryFormatW cfg T nominal
  | .thai => Nominals.thai.tryFormatW cfg T nominal
  | .tibetan => Nominals.tibetan.tryFormatW cfg T nominal
  | .letterUpper => Nominals.letterUpper.tryFormatW cfg T nominal
  | .letterLower => Nominals.letterLower.tryFormatW cfg T nominal
  | .greekUpper => Nominals.greekUpper.tryFormatW cfg T nominal
  | .greekLower => Nominals.greekLower.tryFormatW cfg T nominal
  | .hiragana => Nominals.hiragana.tryFormatW cfg T nominal
  | .hiraganaIroha => Nominals.hiraganaIroha.tryFormatW cfg T nominal
  | .katakana => Nominals.katakana.tryFormatW cfg T nominal
  | .katakanaIroha => Nominals.katakanaIroha.tryFormatW cfg T nominal
  | .hangeulJamo => Nominals.hangeulJamo.tryFormatW cfg T nominal
  | .hangeulSyllable => Nominals.hangeulSyllable.tryFormatW cfg T nominal
  | .cjkHeavenlyStem => Nominals.cjkHeavenlyStem.tryFormatW cfg T nominal
  | .cjkEarthlyBranch => Nominals.cjkEarthlyBranch.tryFormatW cfg T nominal
  | .hexUpper => Nominals.hexUpper.tryFormatW cfg T nominal
  | .hexLower => Nominals.hexLower.tryFormatW cfg T nominal
  | .circledNumber => Nominals.circledNumber.tryFormatW cfg T nominal
  | .doubleCircledNumber => Nominals.doubleCircledNumber.tryFormatW cfg T nominal
  | .romanLower => additiveTryFormatW romanLowerTable cfg T nominal
  | .romanUpper => additiveTryFormatW romanUpperTable cfg T nominal
  | .armenianUpper => additiveTryFormatW armenianUpperTable cfg T nominal
  | .armenianLower => additiveTryFormatW armenianLowerTable cfg T nominal
  | .georgian => additiveTryFormatW georgianTable cfg T nominal
  | .japaneseFormal => additiveTryFormatW japaneseFormalTable cfg T nominal
  | .japaneseInformal => additiveTryFormatW japaneseInformalTable cfg T nominal
  | .hangeulFormal => additiveTryFormatW hangeulFormalTable cfg T nominal
  | .hanjaInformal => additiveTryFormatW hanjaInformalTable cfg T nominal
  | .hanjaFormal => additiveTryFormatW hanjaFormalTable cfg T nominal
  | .hebrew => hebrewTryFormatW cfg T nominal
  | .ethiopic => ethiopicTryFormatW cfg nominal
  | .chinese k o => formatChineseW cfg T k.formal (k.characters o.usage) k.large nominal o.scale

end Nominals
