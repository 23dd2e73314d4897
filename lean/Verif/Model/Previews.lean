import Verif.Model.Lib
import Verif.Model.Display

/-!
# examples/previews.rs — the tables of the documentation

The example that writes src/previews/*.md. Simplifications: what it writes to standard output and, with `SAVE` set, to a file is
the list of lines the model returns; the file's heading, the blank line after the table, the type names and the links of the index
are left out (the name is a parameter). The number of terminal cells of a text comes from two other crates (grapheme
segmentation and Unicode width) and is a parameter. `u32` arithmetic is checked, as in the debug profile `cargo run` uses.
-/

namespace Nominals

/-- `a + b` on `u32` (examples/previews.rs:106, 215-230): overflow panics. -/
def addU32 {ε : Type} (a b : Nat) : Res ε Nat := if a + b < 2 ^ 32 then .ok (a + b) else .panic

/-- `a - b` on `u32` and `usize` (examples/previews.rs:153, 219, 227): underflow panics. -/
def subU32 {ε : Type} (a b : Nat) : Res ε Nat := if b ≤ a then .ok (a - b) else .panic

/-- `a * b` on `u32` (examples/previews.rs:226): overflow panics. -/
def mulU32 {ε : Type} (a b : Nat) : Res ε Nat := if a * b < 2 ^ 32 then .ok (a * b) else .panic

/-- examples/previews.rs:214-216, `for i in 1..iters { values.push(base + i) }`, from `i` on with `k` turns left. -/
def previewFirst {ε : Type} (base : Nat) : (k i : Nat) → Res ε (List Nat)
  | 0, _ => .ok []
  | k + 1, i =>
    (addU32 base i).bind fun v =>
    (previewFirst base k (i + 1)).bind fun rest => .ok (v :: rest)

/-- examples/previews.rs:206-233 `DigitPreview::preview_values`. -/
def previewValues {ε : Type} (cfg : Cfg) (c : Coll) : Res ε (List Nat) :=
  match IntTy.tryFrom cfg .u32 c.len with
  | none => .panic
  | some count =>
    let base := if c.hasZero || c.zeroBased then 0 else 1
    let iters := min count 5
    (previewFirst base (iters - 1) 1).bind fun first =>
    (if iters ≠ count then
      (addU32 base count).bind fun v => (subU32 v 1).bind fun v => .ok [v]
     else .ok []).bind fun last =>
    (addU32 base count).bind fun c0 =>
    (addU32 c0 1).bind fun c1 =>
    (addU32 c0 2).bind fun c2 =>
    (mulU32 count count).bind fun hundred =>
    (addU32 base hundred).bind fun h0 =>
    (subU32 h0 1).bind fun hm =>
    (addU32 h0 1).bind fun h1 =>
    (addU32 h0 2).bind fun h2 =>
    .ok (base :: first ++ last ++ [c0, c1, c2, hm, h0, h1, h2])

/-- A text borrowed from a `NominalString`, as in `decimal.len()` (examples/previews.rs:111-116, 146-152). -/
def borrowed {ε : Type} (s : NStr) : Res ε (List Char) :=
  match s.asStr with
  | some t => .ok t
  | none => .ub

/-- examples/previews.rs:105-121, the loop that collects the rows: `results`, `max_decimal_width` and `nominal_pad`. -/
def previewLoop (cfg : Cfg) (cells : List Char → Nat) (system : NominalSystem) :
    (values : List Nat) → (previous : Option Nat) → (results : List (NStr × NStr)) → (maxDecimalWidth nominalPad : Nat) →
      Res Empty (List (NStr × NStr) × Nat × Nat)
  | [], _, results, maxDecimalWidth, nominalPad => .ok (results, maxDecimalWidth, nominalPad)
  | value :: rest, previous, results, maxDecimalWidth, nominalPad =>
    (match previous with
     | some previous =>
       (addU32 previous 1).bind fun next =>
       if next ≠ value then
         (NStr.ofChar cfg '…').bind fun a => (NStr.ofChar cfg '…').bind fun b => .ok (results ++ [(a, b)])
       else .ok results
     | none => Res.ok results).bind fun results =>
    (toNominal cfg .u32 value Named.decimal.system).bind fun decimal =>
    (borrowed decimal).bind fun decimalText =>
    (system.format cfg .u32 value).bind fun nominal =>
    (borrowed nominal).bind fun nominalText =>
    previewLoop cfg cells system rest (some value) (results ++ [(decimal, nominal)])
      (max maxDecimalWidth (utf8Len decimalText)) (max nominalPad (cells nominalText))

/-- examples/previews.rs:142-158, the loop that prints the rows and collects `one_line`. -/
def previewPrint (cells : List Char → Nat) (maxDecimalWidth nominalPad : Nat) :
    (results : List (NStr × NStr)) → (lines : List (List Char)) → (oneLine : List Char) → Res Empty (List (List Char) × List Char)
  | [], lines, oneLine => .ok (lines, oneLine)
  | (decimal, nominal) :: rest, lines, oneLine =>
    (borrowed decimal).bind fun decimalText =>
    (borrowed nominal).bind fun nominalText =>
    let oneLine := (if oneLine.isEmpty then oneLine else oneLine ++ ['\u200e', ' ']) ++ nominalText
    (subU32 (nominalPad + nominalText.length) (cells nominalText)).bind fun pad =>
    let line := ['|', ' '] ++ strDisplay { width := some maxDecimalWidth } decimalText ++ [' ', '|', ' '] ++
      strDisplay { width := some pad } nominalText ++ [' ', '|', '\n']
    previewPrint cells maxDecimalWidth nominalPad rest (lines ++ [line]) oneLine

/-- examples/previews.rs:95-161 `preview`: the lines of the table and the entry of the index. -/
def preview (cfg : Cfg) (cells : List Char → Nat) (name : List Char) (system : NominalSystem) (values : List Nat) :
    Res Empty (List (List Char) × List Char) :=
  (previewLoop cfg cells system values none [] 1 (utf8Len name)).bind fun (results, maxDecimalWidth, nominalPad) =>
  let headerPad := if utf8Len name + 4 = nominalPad then utf8Len name else nominalPad
  let header := ['|', ' '] ++ strDisplay { width := some maxDecimalWidth } ['#'] ++ [' ', '|', ' '] ++
    strDisplay { width := some headerPad } name ++ [' ', '|', '\n']
  let rule := ['|', '-'] ++ strDisplay { fill := '-', align := some .center, width := some maxDecimalWidth } [] ++ ['-', '|', '-'] ++
    strDisplay { fill := '-', align := some .center, width := some nominalPad } [] ++ ['-', '|', '\n']
  previewPrint cells maxDecimalWidth nominalPad results [header, rule] []

end Nominals
