import Verif.Model.Error

/-!
# src/hebrew.rs — Hebrew numerals
-/

namespace Nominals

/-- What the inner `while` of src/hebrew.rs:49-71 does next: fall out of the `while` (loop condition false or
plain `break`) or leave the `'symbol_loop` altogether. -/
inductive HebrewExit where
  | next (remaining : Nat) (formatted : NStr)
  | breakSymbolLoop (formatted : NStr)

/-- geresh U+05F3 (src/hebrew.rs:63). -/
def geresh : Char := '\u05f3'
/-- gershayim U+05F4 (src/hebrew.rs:68). -/
def gershayim : Char := '\u05f4'
/-- src/hebrew.rs:51 `"ט״ו"`. -/
def hebrewFifteen : List Char := ['\u05d8', '\u05f4', '\u05d5']
/-- src/hebrew.rs:54 `"ט״ז"`. -/
def hebrewSixteen : List Char := ['\u05d8', '\u05f4', '\u05d6']

/-- src/hebrew.rs:49-71, the inner `while`. -/
def hebrewWhile (cfg : Cfg) (T : IntTy) (nominal : Nat) (symbol : Char) (value : Nat) :
    (fuel : Nat) → (remaining : Nat) → (formatted : NStr) → Res Error HebrewExit
  | 0, _, _ => .timeout
  | fuel + 1, remaining, formatted =>
    if remaining ≥ value then
      if remaining = 15 then
        ((formatted.pushStr cfg hebrewFifteen).withNominal nominal).bind fun formatted =>
        .ok (.breakSymbolLoop formatted)
      else if remaining = 16 then
        ((formatted.pushStr cfg hebrewSixteen).withNominal nominal).bind fun formatted =>
        .ok (.breakSymbolLoop formatted)
      else
        let singleSymbol := decide (value = remaining) && formatted.isEmpty
        (if singleSymbol then (formatted.push cfg geresh).withNominal nominal
         else Res.ok formatted).bind fun formatted =>
        (subT cfg T remaining value).bind fun remaining =>
        ((formatted.push cfg symbol).withNominal nominal).bind fun formatted =>
        if singleSymbol then
          ((formatted.push cfg gershayim).withNominal nominal).bind fun formatted =>
          .ok (.next remaining formatted)
        else hebrewWhile cfg T nominal symbol value fuel remaining formatted
    else .ok (.next remaining formatted)

/-- src/hebrew.rs:21-74, `'symbol_loop`. `T::try_from(value)` fails for u8 and values above 255. -/
def hebrewFor (cfg : Cfg) (T : IntTy) (nominal : Nat) :
    List (Char × Nat) → (remaining : Nat) → (formatted : NStr) → Res Error NStr
  | [], _, formatted => .ok formatted
  | (symbol, value) :: rest, remaining, formatted =>
    match T.tryFrom cfg value with
    | none => hebrewFor cfg T nominal rest remaining formatted
    | some value =>
      (hebrewWhile cfg T nominal symbol value (remaining + 1) remaining formatted).bind fun
        | .next remaining formatted => hebrewFor cfg T nominal rest remaining formatted
        | .breakSymbolLoop formatted => .ok formatted

/-- src/hebrew.rs:21-44, the symbol table. -/
def hebrewTable : List (Char × Nat) :=
  [('\u05ea', 400), ('\u05e9', 300), ('\u05e8', 200), ('\u05e7', 100), ('\u05e6', 90), ('\u05e4', 80),
   ('\u05e2', 70), ('\u05e1', 60), ('\u05e0', 50), ('\u05de', 40), ('\u05dc', 30), ('\u05db', 20),
   ('\u05d9', 10), ('\u05d8', 9), ('\u05d7', 8), ('\u05d6', 7), ('\u05d5', 6), ('\u05d4', 5),
   ('\u05d3', 4), ('\u05d2', 3), ('\u05d1', 2), ('\u05d0', 1)]

/-- src/hebrew.rs:11-75 `try_format_nominal`. -/
def hebrewTryFormat (cfg : Cfg) (T : IntTy) (nominal : Nat) : Res Error NStr :=
  if nominal = 0 then .err .noZeroSymbol
  else hebrewFor cfg T nominal hebrewTable nominal NStr.new

end Nominals
