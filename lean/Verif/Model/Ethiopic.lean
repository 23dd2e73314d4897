import Verif.Model.Error

/-!
# src/ethiopic.rs — Ethiopic numerals
-/

namespace Nominals

/-- src/ethiopic.rs:7-10 `ONES`. -/
def ethiopicOnes : List Char :=
  ['\x00', '\u1369', '\u136A', '\u136B', '\u136C', '\u136D', '\u136E', '\u136F', '\u1370', '\u1371']

/-- src/ethiopic.rs:11-14 `TENS`. -/
def ethiopicTens : List Char :=
  ['\x00', '\u1372', '\u1373', '\u1374', '\u1375', '\u1376', '\u1377', '\u1378', '\u1379', '\u137A']

/-- src/ethiopic.rs:22-61, the `for group_index in 0..` loop. Simplification: `group_index` is a natural
number (an `i32` in the source; at most 20 groups occur). -/
def ethiopicLoop (cfg : Cfg) :
    (fuel : Nat) → (groupIndex remaining : Nat) → (formatted : NStr) → Res OutOfMemoryError NStr
  | 0, _, _, _ => .timeout
  | fuel + 1, groupIndex, remaining, formatted =>
    if remaining = 0 then .ok formatted
    else
      (remT remaining 10).bind fun first =>
      (divT remaining 10).bind fun remaining =>
      (remT remaining 10).bind fun second =>
      (divT remaining 10).bind fun remaining =>
      let firstIsZero := first == 0
      let secondIsZero := second == 0
      let firstIsOne := first == 1
      let groupIsOdd := groupIndex % 2 == 1
      let notFirstGroup := decide (groupIndex > 0)
      (if notFirstGroup then
        if !groupIsOdd then formatted.pushFront cfg '\u137C'
        else if !(firstIsZero && secondIsZero) then formatted.pushFront cfg '\u137B'
        else Res.ok formatted
      else Res.ok formatted).bind fun formatted =>
      let removeDigits := (firstIsZero && secondIsZero)
        || ((remaining == 0 || groupIsOdd) && notFirstGroup && secondIsZero && firstIsOne)
      (if !removeDigits then
        (if !firstIsZero then
          (Res.ofIndex ethiopicOnes[asUsize cfg first]?).bind fun ch => formatted.pushFront cfg ch
        else Res.ok formatted).bind fun formatted =>
        (if !secondIsZero then
          (Res.ofIndex ethiopicTens[asUsize cfg second]?).bind fun ch => formatted.pushFront cfg ch
        else Res.ok formatted)
      else Res.ok formatted).bind fun formatted =>
      ethiopicLoop cfg fuel (groupIndex + 1) remaining formatted

/-- src/ethiopic.rs:16-64 `format_ethiopic`. -/
def formatEthiopic (cfg : Cfg) (nominal : Nat) : Res OutOfMemoryError NStr :=
  ethiopicLoop cfg (nominal + 1) 0 nominal NStr.newReverse

/-- src/ethiopic.rs:70-75 `try_format_nominal`. -/
def ethiopicTryFormat (cfg : Cfg) (_T : IntTy) (nominal : Nat) : Res Error NStr :=
  if nominal = 0 then .err .noZeroSymbol
  else (formatEthiopic cfg nominal).mapErr fun _ => .outOfMemory nominal

end Nominals
