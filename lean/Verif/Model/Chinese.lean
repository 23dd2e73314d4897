import Verif.Model.Error

/-!
# src/chinese.rs — Chinese numerals
-/

namespace Nominals

/-- src/chinese.rs:381-384 `ChineseFormatError`. -/
inductive ChineseFormatError where
  | outOfBounds
  | outOfMemory
deriving DecidableEq, Repr

/-- src/chinese.rs:386-390 `From<OutOfMemoryError> for ChineseFormatError` (used by `?` and :304). -/
def Res.toChinese {α : Type} (r : Res OutOfMemoryError α) : Res ChineseFormatError α :=
  r.mapErr fun _ => .outOfMemory

/-- src/chinese.rs:126-130 `ChineseUsage`. -/
inductive ChineseUsage where
  | financial | ordinary
deriving DecidableEq, Repr

/-- src/chinese.rs:133-139 `ChineseScale`. -/
inductive ChineseScale where
  | short | myriad | mid | long
deriving DecidableEq, Repr

/-- src/chinese.rs:119-123 `ChineseOptions`; the defaults are `Ordinary` (:128) and `Myriad` (:135). -/
structure ChineseOptions where
  usage : ChineseUsage := .ordinary
  scale : ChineseScale := .myriad
deriving DecidableEq, Repr

/-- src/chinese.rs:538-541 `financial`. -/
def ChineseOptions.financial (o : ChineseOptions) : ChineseOptions := { o with usage := .financial }
/-- src/chinese.rs:546-549 `short_scale`. -/
def ChineseOptions.shortScale (o : ChineseOptions) : ChineseOptions := { o with scale := .short }
/-- src/chinese.rs:554-557 `mid_scale`. -/
def ChineseOptions.midScale (o : ChineseOptions) : ChineseOptions := { o with scale := .mid }
/-- src/chinese.rs:562-565 `long_scale`. -/
def ChineseOptions.longScale (o : ChineseOptions) : ChineseOptions := { o with scale := .long }

/-- src/chinese.rs:392-404 `SHORT_SCALE`. -/
def SHORT_SCALE : List Nat :=
  [10^4, 10^5, 10^6, 10^7, 10^8, 10^9, 10^10, 10^11, 10^12, 10^13, 10^14]

/-- src/chinese.rs:406-416 `MYRIAD_SCALE`. -/
def MYRIAD_SCALE : List Nat := [10^4, 10^8, 10^12, 10^16, 10^20, 10^24, 10^28, 10^32, 10^36]

/-- src/chinese.rs:418-424 `MID_SCALE`. -/
def MID_SCALE : List Nat := [10^4, 10^8, 10^16, 10^24, 10^32]

/-- src/chinese.rs:426-431 `LONG_SCALE`. -/
def LONG_SCALE : List Nat := [10^4, 10^8, 10^16, 10^32]

/-- src/chinese.rs:77-112, 208-212 and 358: push the character at `index` of an array (`formatted.try_push(characters[index])?`). -/
def pushAt (cfg : Cfg) (chars : List Char) (index : Nat) (formatted : NStr) : Res OutOfMemoryError NStr :=
  (Res.ofIndex chars[index]?).bind fun ch => formatted.push cfg ch

/-- src/chinese.rs:52-117 `format_chinese_inner`. The `&mut bool` argument `last_char_is_zero` is passed in
and returned. -/
def chineseInner (cfg : Cfg) (formal : Bool) (characters : List Char) (nominal : Nat) (noPrefix : Bool)
    (lastCharIsZero : Bool) : Res OutOfMemoryError (NStr × Bool) :=
  let ones := nominal % 10
  let tens := nominal / 10 % 10
  let hundreds := nominal / 10 / 10 % 10
  let thousands := nominal / 10 / 10 / 10
  let formatted := NStr.new
  -- :74-83
  (if thousands = 0 then
    if !noPrefix && !lastCharIsZero && hundreds != 0 then
      (pushAt cfg characters 0 formatted).bind fun f => .ok (f, true)
    else Res.ok (formatted, lastCharIsZero)
  else
    (pushAt cfg characters (asUsize cfg thousands) formatted).bind fun f =>
    (pushAt cfg characters 12 f).bind fun f => .ok (f, false)).bind fun (formatted, lastCharIsZero) =>
  -- :85-94
  (if hundreds = 0 then
    if (!formatted.isEmpty || !noPrefix) && !lastCharIsZero && tens != 0 then
      (pushAt cfg characters 0 formatted).bind fun f => .ok (f, true)
    else Res.ok (formatted, lastCharIsZero)
  else
    (pushAt cfg characters (asUsize cfg hundreds) formatted).bind fun f =>
    (pushAt cfg characters 11 f).bind fun f => .ok (f, false)).bind fun (formatted, lastCharIsZero) =>
  -- :96-109
  (if tens = 0 then
    if (!formatted.isEmpty || !noPrefix) && !lastCharIsZero && ones != 0 then
      (pushAt cfg characters 0 formatted).bind fun f => .ok (f, true)
    else Res.ok (formatted, lastCharIsZero)
  else
    let omitDigit := !(formal || (!formatted.isEmpty || !noPrefix) || lastCharIsZero || tens != 1)
    (if !omitDigit then pushAt cfg characters (asUsize cfg tens) formatted else Res.ok formatted).bind fun f =>
    (pushAt cfg characters 10 f).bind fun f => .ok (f, false)).bind fun (formatted, lastCharIsZero) =>
  -- :111-116
  if ones ≠ 0 then
    (pushAt cfg characters (asUsize cfg ones) formatted).bind fun f => .ok (f, false)
  else .ok (formatted, lastCharIsZero)

/-- src/chinese.rs:198-214, one pass of the `while` loop of `format_short_rank` up to the pushes. Returns the remaining
value, the string and `last_was_zero`. -/
def shortBody (cfg : Cfg) (characters large : List Char) (rank scale remaining : Nat) (formatted : NStr) (lastWasZero : Bool) :
    Res ChineseFormatError (Nat × NStr × Bool) :=
  (divT remaining scale).bind fun rankValue =>
  if rankValue ≥ 10 then .err .outOfBounds
  else
    (remT remaining scale).bind fun remaining =>
    (if rankValue = 0 then
      if !formatted.isEmpty && !lastWasZero then
        (pushAt cfg characters 0 formatted).toChinese.bind fun f => .ok (remaining, f, true)
      else Res.ok (remaining, formatted, lastWasZero)
    else
      (pushAt cfg characters (asUsize cfg rankValue) formatted).toChinese.bind fun f =>
      (pushAt cfg large rank f).toChinese.bind fun f => .ok (remaining, f, false))

/-- src/chinese.rs:197-224, the `while` loop of `format_short_rank`. The recursion is on `rank`, which the loop
decrements until it breaks at 0. -/
def shortLoop (cfg : Cfg) (T : IntTy) (characters large : List Char) :
    (rank : Nat) → (scale remaining : Nat) → (formatted : NStr) → (lastWasZero : Bool) →
      Res ChineseFormatError (Nat × NStr × Bool)
  | 0, scale, remaining, formatted, lastWasZero =>
    if remaining = 0 then .ok (remaining, formatted, lastWasZero)
    else shortBody cfg characters large 0 scale remaining formatted lastWasZero
  | rank + 1, scale, remaining, formatted, lastWasZero =>
    if remaining = 0 then .ok (remaining, formatted, lastWasZero)
    else
      (shortBody cfg characters large (rank + 1) scale remaining formatted lastWasZero).bind fun (remaining, formatted, lastWasZero) =>
      (Res.ofIndex SHORT_SCALE[rank]?).bind fun sc =>
      match T.tryFrom cfg sc with
      | none => .panic -- `unreachable!("rank + 1 was valid")`
      | some newScale => shortLoop cfg T characters large rank newScale remaining formatted lastWasZero

/-- src/chinese.rs:185-235, the part of `format_short_rank` after `scale` has been determined. -/
def formatShortRankAt (cfg : Cfg) (T : IntTy) (formal : Bool) (characters large : List Char) (nominal rank scale : Nat) :
    Res ChineseFormatError NStr :=
  (shortLoop cfg T characters large rank scale nominal NStr.new false).bind fun (remaining, formatted, lastWasZero) =>
  if remaining ≠ 0 then
    (chineseInner cfg formal characters remaining false lastWasZero).toChinese.bind fun (rem, _) =>
    (match rem.asStr with
     | some t => (formatted.pushStr cfg t).toChinese
     | none => .ub)
  else .ok formatted

/-- src/chinese.rs:176-236 `format_short_rank`: the recursive call when `SHORT_SCALE[rank]` does not fit in
`T`. `rank - 1` underflows at rank 0: a panic with overflow checks, and without them a panic on the index `usize::MAX`. -/
def formatShortRank (cfg : Cfg) (T : IntTy) (formal : Bool) (characters large : List Char) (nominal : Nat) :
    (rank : Nat) → Res ChineseFormatError NStr
  | 0 =>
    (Res.ofIndex SHORT_SCALE[0]?).bind fun sc =>
    match T.tryFrom cfg sc with
    | none => .panic
    | some scale => formatShortRankAt cfg T formal characters large nominal 0 scale
  | rank + 1 =>
    (Res.ofIndex SHORT_SCALE[rank + 1]?).bind fun sc =>
    match T.tryFrom cfg sc with
    | none => formatShortRank cfg T formal characters large nominal rank
    | some scale => formatShortRankAt cfg T formal characters large nominal (rank + 1) scale

/-- src/chinese.rs:280-306: the type of `format_next_scaled_rank` at a fixed rank: nominal, `no_prefix`, `last_char_is_zero`. -/
abbrev ScaledFn := Nat → Bool → Bool → Res ChineseFormatError (NStr × Bool)

/-- src/chinese.rs:308-378 `format_scaled_rank` at `rank`; `next` is `format_next_scaled_rank` at the same
`rank` (i.e. formatting with the ranks below). -/
def scaledRankBody (cfg : Cfg) (large : List Char) (scales : List (Option Nat)) (rank : Nat) (next : ScaledFn) : ScaledFn :=
  fun nominal noPrefix lastCharIsZero =>
    match scales[rank]?.join with
    | none => next nominal noPrefix lastCharIsZero
    | some scale =>
      (remT nominal scale).bind fun remaining =>
      (divT nominal scale).bind fun rankValue =>
      -- :334-344
      (match scales[rank + 1]?.join with
       | some previousScale =>
         (divT previousScale scale).bind fun factor =>
         if rankValue ≥ factor then .err ChineseFormatError.outOfBounds else .ok ()
       | none =>
         if rank > 0 then
           (Res.ofIndex scales[rank - 1]?.join).bind fun s =>
           (divT scale s).bind fun factor =>
           if rankValue ≥ factor then .err ChineseFormatError.outOfBounds else .ok ()
         else .ok ()).bind fun _ =>
      -- :345-362
      (if rankValue = 0 then Res.ok (NStr.new, lastCharIsZero)
       else
         (next rankValue noPrefix lastCharIsZero).bind fun (rankFormatted, lastCharIsZero) =>
         if !rankFormatted.isEmpty then
           (pushAt cfg large rank rankFormatted).toChinese.bind fun f => .ok (f, false)
         else .ok (rankFormatted, lastCharIsZero)).bind fun (formatted, lastCharIsZero) =>
      -- :363-377
      if remaining = 0 then .ok (formatted, lastCharIsZero)
      else
        (next remaining (formatted.isEmpty && noPrefix) lastCharIsZero).bind fun (rem, lastCharIsZero) =>
        (match rem.asStr with
         | some t => (formatted.pushStr cfg t).toChinese
         | none => .ub).bind fun formatted =>
        .ok (formatted, lastCharIsZero)

/-- src/chinese.rs:280-306 `format_next_scaled_rank`: `rank.checked_sub(1)` selects `format_scaled_rank` at
`rank - 1`, or `format_chinese_inner` at rank 0. -/
def scaledNext (cfg : Cfg) (formal : Bool) (characters large : List Char) (scales : List (Option Nat)) : (rank : Nat) → ScaledFn
  | 0 => fun nominal noPrefix lastCharIsZero =>
      (chineseInner cfg formal characters nominal noPrefix lastCharIsZero).toChinese
  | rank + 1 => scaledRankBody cfg large scales rank (scaledNext cfg formal characters large scales rank)

/-- src/chinese.rs:238-278 `format_scaled` and `format_scaled_inner` (which starts at rank 10). -/
def formatScaled (cfg : Cfg) (T : IntTy) (formal : Bool) (scales : List Nat) (characters large : List Char) (nominal : Nat) :
    Res ChineseFormatError NStr :=
  let scales := scales.map (T.tryFrom cfg)
  (scaledRankBody cfg large scales 10 (scaledNext cfg formal characters large scales 10) nominal true false).map Prod.fst

/-- src/chinese.rs:142-174 `ChineseScale::format`. -/
def ChineseScale.format (scale : ChineseScale) (cfg : Cfg) (T : IntTy) (formal : Bool) (characters large : List Char)
    (nominal : Nat) : Res ChineseFormatError NStr :=
  match scale with
  | .short => formatShortRank cfg T formal characters large nominal 10
  | .myriad => formatScaled cfg T formal MYRIAD_SCALE characters large nominal
  | .mid => formatScaled cfg T formal MID_SCALE characters large nominal
  | .long => formatScaled cfg T formal LONG_SCALE characters large nominal

/-- src/chinese.rs:25-50 `format_chinese`. -/
def formatChinese (cfg : Cfg) (T : IntTy) (formal : Bool) (characters large : List Char) (nominal : Nat)
    (scale : ChineseScale) : Res Error NStr :=
  if nominal = 0 then
    (Res.ofIndex characters[0]?).bind fun ch => NStr.ofChar cfg ch
  else
    let small : Res Error NStr :=
      ((chineseInner cfg formal characters nominal true false).mapErr fun _ => Error.outOfMemory nominal).map Prod.fst
    match T.tryFrom cfg 10000 with
    | some tenThousand =>
      if nominal ≥ tenThousand then
        (scale.format cfg T formal characters large nominal).mapErr fun
          | .outOfMemory => .outOfMemory nominal
          | .outOfBounds => .outOfBounds nominal
      else small
    | none => small

/-- src/chinese.rs:5-7 `SIMPLIFIED_ORDINARY`. -/
def SIMPLIFIED_ORDINARY : List Char :=
  ['零', '一', '二', '三', '四', '五', '六', '七', '八', '九', '十', '百', '千', '负']
/-- src/chinese.rs:8-10 `SIMPLIFIED_FINANCIAL`. -/
def SIMPLIFIED_FINANCIAL : List Char :=
  ['零', '壹', '贰', '叁', '肆', '伍', '陆', '柒', '捌', '玖', '拾', '佰', '仟', '负']
/-- src/chinese.rs:11-13 `TRADITIONAL_ORDINARY`. -/
def TRADITIONAL_ORDINARY : List Char :=
  ['零', '一', '二', '三', '四', '五', '六', '七', '八', '九', '十', '百', '千', '負']
/-- src/chinese.rs:14-16 `TRADITIONAL_FINANCIAL`. -/
def TRADITIONAL_FINANCIAL : List Char :=
  ['零', '壹', '貳', '參', '肆', '伍', '陸', '柒', '捌', '玖', '拾', '佰', '仟', '負']
/-- src/chinese.rs:18-20 `TRADITIONAL_LARGE`. -/
def TRADITIONAL_LARGE : List Char :=
  ['萬', '億', '兆', '京', '垓', '秭', '穰', '溝', '澗', '正', '載']
/-- src/chinese.rs:21-23 `SIMPLIFIED_LARGE`. -/
def SIMPLIFIED_LARGE : List Char :=
  ['万', '亿', '兆', '京', '垓', '秭', '穰', '沟', '涧', '正', '载']

/-- Which of the four public Chinese types (src/chinese.rs:442, 466, 490, 513). -/
inductive ChineseKind where
  | simplifiedInformal | simplifiedFormal | traditionalFormal | traditionalInformal
deriving DecidableEq, Repr

/-- src/chinese.rs:453, 477, 501, 524: the `FORMAL` argument of `format_chinese`. -/
def ChineseKind.formal : ChineseKind → Bool
  | .simplifiedInformal => false
  | .simplifiedFormal => true
  | .traditionalFormal => true
  | .traditionalInformal => false

/-- The `match self.0.usage` of src/chinese.rs:449-452, 473-476, 497-500, 520-523. -/
def ChineseKind.characters (k : ChineseKind) (u : ChineseUsage) : List Char :=
  match k, u with
  | .simplifiedInformal, .financial => SIMPLIFIED_FINANCIAL
  | .simplifiedInformal, .ordinary => SIMPLIFIED_ORDINARY
  | .simplifiedFormal, .financial => SIMPLIFIED_FINANCIAL
  | .simplifiedFormal, .ordinary => SIMPLIFIED_ORDINARY
  | .traditionalFormal, .financial => TRADITIONAL_FINANCIAL
  | .traditionalFormal, .ordinary => TRADITIONAL_ORDINARY
  | .traditionalInformal, .financial => TRADITIONAL_FINANCIAL
  | .traditionalInformal, .ordinary => TRADITIONAL_ORDINARY

/-- The large-number characters of src/chinese.rs:453, 477, 501, 524. -/
def ChineseKind.large : ChineseKind → List Char
  | .simplifiedInformal => SIMPLIFIED_LARGE
  | .simplifiedFormal => SIMPLIFIED_LARGE
  | .traditionalFormal => TRADITIONAL_LARGE
  | .traditionalInformal => TRADITIONAL_LARGE

/-- src/chinese.rs:448-454, 472-478, 496-502, 519-525 `try_format_nominal` of the four public types. -/
def chineseTryFormat (k : ChineseKind) (o : ChineseOptions) (cfg : Cfg) (T : IntTy) (nominal : Nat) : Res Error NStr :=
  formatChinese cfg T k.formal (k.characters o.usage) k.large nominal o.scale

end Nominals
