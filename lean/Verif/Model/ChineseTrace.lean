import Verif.Model.Chinese

/-!
# src/chinese.rs with a log

The functions of `Model/Chinese.lean` once more, with a log of the numbers that `format_chinese_inner` is called with. The log has no
influence on the results: `C69_chinese_calls` proves that without it these functions are those of `Model/Chinese.lean`.
-/

namespace Nominals

/-- A result with the log of the calls made on the way (src/chinese.rs:52). -/
abbrev Traced (ε α : Type) := List Nat × Res ε α

/-- `Res.bind` with a log: models `?` in src/chinese.rs:353, 373. -/
def Traced.bind {ε α β : Type} (r : Traced ε α) (f : α → Traced ε β) : Traced ε β :=
  match r.2 with
  | .ok a => (r.1 ++ (f a).1, (f a).2)
  | .err e => (r.1, .err e)
  | .panic => (r.1, .panic)
  | .ub => (r.1, .ub)
  | .timeout => (r.1, .timeout)

/-- A step that does not call `format_chinese_inner` (everything in src/chinese.rs but :49, 226, 304). -/
def Res.silent {ε α : Type} (r : Res ε α) : Traced ε α := ([], r)

/-- src/chinese.rs:52-117 `format_chinese_inner`, logged. -/
def chineseInnerT (cfg : Cfg) (formal : Bool) (characters : List Char) (nominal : Nat) (noPrefix lastCharIsZero : Bool) :
    Traced OutOfMemoryError (NStr × Bool) :=
  ([nominal], chineseInner cfg formal characters nominal noPrefix lastCharIsZero)

/-- src/chinese.rs:185-235, logged. -/
def formatShortRankAtT (cfg : Cfg) (T : IntTy) (formal : Bool) (characters large : List Char) (nominal rank scale : Nat) :
    Traced ChineseFormatError NStr :=
  (shortLoop cfg T characters large rank scale nominal NStr.new false).silent.bind fun (remaining, formatted, lastWasZero) =>
  if remaining ≠ 0 then
    let inner := chineseInnerT cfg formal characters remaining false lastWasZero
    Traced.bind (inner.1, inner.2.toChinese) fun (rem, _) =>
    (match rem.asStr with
     | some t => (formatted.pushStr cfg t).toChinese
     | none => .ub).silent
  else (Res.ok formatted).silent

/-- src/chinese.rs:176-236 `format_short_rank`, logged. -/
def formatShortRankT (cfg : Cfg) (T : IntTy) (formal : Bool) (characters large : List Char) (nominal : Nat) :
    (rank : Nat) → Traced ChineseFormatError NStr
  | 0 =>
    (Res.ofIndex SHORT_SCALE[0]?).silent.bind fun sc =>
    match T.tryFrom cfg sc with
    | none => Res.panic.silent
    | some scale => formatShortRankAtT cfg T formal characters large nominal 0 scale
  | rank + 1 =>
    (Res.ofIndex SHORT_SCALE[rank + 1]?).silent.bind fun sc =>
    match T.tryFrom cfg sc with
    | none => formatShortRankT cfg T formal characters large nominal rank
    | some scale => formatShortRankAtT cfg T formal characters large nominal (rank + 1) scale

/-- src/chinese.rs:280-306: the type of `format_next_scaled_rank` at a fixed rank, logged. -/
abbrev ScaledFnT := Nat → Bool → Bool → Traced ChineseFormatError (NStr × Bool)

/-- src/chinese.rs:308-378 `format_scaled_rank` at `rank`, logged. -/
def scaledRankBodyT (cfg : Cfg) (large : List Char) (scales : List (Option Nat)) (rank : Nat) (next : ScaledFnT) : ScaledFnT :=
  fun nominal noPrefix lastCharIsZero =>
    match scales[rank]?.join with
    | none => next nominal noPrefix lastCharIsZero
    | some scale =>
      (remT nominal scale).silent.bind fun remaining =>
      (divT nominal scale).silent.bind fun rankValue =>
      (match scales[rank + 1]?.join with
       | some previousScale =>
         (divT previousScale scale).bind fun factor =>
         if rankValue ≥ factor then .err ChineseFormatError.outOfBounds else .ok ()
       | none =>
         if rank > 0 then
           (Res.ofIndex scales[rank - 1]?.join).bind fun s =>
           (divT scale s).bind fun factor =>
           if rankValue ≥ factor then .err ChineseFormatError.outOfBounds else .ok ()
         else .ok ()).silent.bind fun _ =>
      Traced.bind
        (if rankValue = 0 then (Res.ok (NStr.new, lastCharIsZero)).silent
         else
           (next rankValue noPrefix lastCharIsZero).bind fun (rankFormatted, lastCharIsZero) =>
           (if !rankFormatted.isEmpty then
             (pushAt cfg large rank rankFormatted).toChinese.bind fun f => .ok (f, false)
           else .ok (rankFormatted, lastCharIsZero)).silent) fun (formatted, lastCharIsZero) =>
      if remaining = 0 then (Res.ok (formatted, lastCharIsZero)).silent
      else
        (next remaining (formatted.isEmpty && noPrefix) lastCharIsZero).bind fun (rem, lastCharIsZero) =>
        ((match rem.asStr with
         | some t => (formatted.pushStr cfg t).toChinese
         | none => .ub).bind fun formatted =>
        .ok (formatted, lastCharIsZero)).silent

/-- src/chinese.rs:280-306 `format_next_scaled_rank`, logged. -/
def scaledNextT (cfg : Cfg) (formal : Bool) (characters large : List Char) (scales : List (Option Nat)) : (rank : Nat) → ScaledFnT
  | 0 => fun nominal noPrefix lastCharIsZero =>
      let inner := chineseInnerT cfg formal characters nominal noPrefix lastCharIsZero
      (inner.1, inner.2.toChinese)
  | rank + 1 => scaledRankBodyT cfg large scales rank (scaledNextT cfg formal characters large scales rank)

/-- src/chinese.rs:238-278 `format_scaled` and `format_scaled_inner`, logged. -/
def formatScaledT (cfg : Cfg) (T : IntTy) (formal : Bool) (scales : List Nat) (characters large : List Char) (nominal : Nat) :
    Traced ChineseFormatError NStr :=
  let scales := scales.map (T.tryFrom cfg)
  let r := scaledRankBodyT cfg large scales 10 (scaledNextT cfg formal characters large scales 10) nominal true false
  (r.1, r.2.map Prod.fst)

/-- src/chinese.rs:142-174 `ChineseScale::format`, logged. -/
def ChineseScale.formatT (scale : ChineseScale) (cfg : Cfg) (T : IntTy) (formal : Bool) (characters large : List Char)
    (nominal : Nat) : Traced ChineseFormatError NStr :=
  match scale with
  | .short => formatShortRankT cfg T formal characters large nominal 10
  | .myriad => formatScaledT cfg T formal MYRIAD_SCALE characters large nominal
  | .mid => formatScaledT cfg T formal MID_SCALE characters large nominal
  | .long => formatScaledT cfg T formal LONG_SCALE characters large nominal

/-- src/chinese.rs:25-50 `format_chinese`, logged. -/
def formatChineseT (cfg : Cfg) (T : IntTy) (formal : Bool) (characters large : List Char) (nominal : Nat)
    (scale : ChineseScale) : Traced Error NStr :=
  if nominal = 0 then
    ((Res.ofIndex characters[0]?).bind fun ch => NStr.ofChar cfg ch).silent
  else
    let inner := chineseInnerT cfg formal characters nominal true false
    let small : Traced Error NStr := (inner.1, (inner.2.mapErr fun _ => Error.outOfMemory nominal).map Prod.fst)
    match T.tryFrom cfg 10000 with
    | some tenThousand =>
      if nominal ≥ tenThousand then
        let r := scale.formatT cfg T formal characters large nominal
        (r.1, r.2.mapErr fun
          | .outOfMemory => .outOfMemory nominal
          | .outOfBounds => .outOfBounds nominal)
      else small
    | none => small

end Nominals
