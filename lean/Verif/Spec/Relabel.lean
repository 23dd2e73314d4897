import Verif.Model.Lib
import Verif.Model.DigitalDyn

/-! # C104: the same system in other signs -/

namespace Nominals.Spec

/-- Two runs end alike: both with a value, related by `P`, both with the same error, both with a panic, or neither ends. -/
inductive EndAlike {ε α β : Type} (P : α → β → Prop) : Res ε α → Res ε β → Prop
  | ok {a b} : P a b → EndAlike P (.ok a) (.ok b)
  | err (e) : EndAlike P (.err e) (.err e)
  | panic : EndAlike P .panic .panic
  | ub : EndAlike P .ub .ub
  | timeout : EndAlike P .timeout .timeout

/-- `y` shows what `x` shows, with every character `c` replaced by the text `g c`. -/
def Shows (g : Char → List Char) (x y : NStr) : Prop := ∃ t, x.asStr = some t ∧ y.asStr = some (t.flatMap g)

/-- The replacement keeps the sizes in bytes. -/
def SameSize (g : Char → List Char) : Prop := ∀ c, utf8Len (g c) = c.utf8Size

/-- A user's wrapper around a collection that replaces its digits; all other questions are passed on. -/
def relabelled {σ : Type} (f : Char → Char) (c : DynColl σ) : DynColl σ :=
  { c with digit := fun i w => (c.digit i w).map fun (ch, w) => (f ch, w) }

/-- The wrapper around a collection and its fallbacks. -/
def relabelledSys {σ : Type} (f : Char → Char) (d : DynSys σ) : DynSys σ := ⟨fun k => relabelled f (d.level k)⟩

/-- A table with other signs for the same values. -/
def relabelledTable (g : Char → List Char) (table : List (List Char × Nat)) : List (List Char × Nat) := table.map fun (s, v) => (s.flatMap g, v)

/-- An enumeration with other signs. -/
def relabelledEnum (g : Char → List Char) (e : EnumSet) : EnumSet := { e with symbols := e.symbols.map fun s => s.flatMap g }

/-- Which named systems write alike, apart from their signs: the nineteen decimal scripts, the cases of letters, Greek, hexadecimals and Roman
numerals, hiragana and katakana in each of the two orders, Hangeul consonants and syllables, the three formal and the two informal additive
systems of Japan and Korea, and, for each scale, the formal and the informal Chinese numerals. All others stand alone. -/
def writing : Named → Nat
  | .decimal | .easternArabic | .persian | .bengali | .cambodian | .cjkDecimal | .devanagari | .gujarati | .gurmukhi | .kannada | .lao
  | .malayalam | .mongolian | .myanmar | .oriya | .tamil | .telugu | .thai | .tibetan => 0
  | .letterUpper | .letterLower => 1
  | .greekUpper | .greekLower => 2
  | .hiragana | .katakana => 3
  | .hiraganaIroha | .katakanaIroha => 4
  | .hangeulJamo | .hangeulSyllable => 5
  | .hexUpper | .hexLower => 6
  | .romanLower | .romanUpper => 7
  | .japaneseFormal | .hangeulFormal | .hanjaFormal => 8
  | .japaneseInformal | .hanjaInformal => 9
  | .cjkHeavenlyStem => 10
  | .cjkEarthlyBranch => 11
  | .circledNumber => 12
  | .doubleCircledNumber => 13
  | .armenianUpper => 14
  | .armenianLower => 15
  | .georgian => 16
  | .hebrew => 17
  | .ethiopic => 18
  | .chinese k o =>
    (match k with | .simplifiedFormal | .traditionalFormal => 20 | .simplifiedInformal | .traditionalInformal => 30) +
      (match o.scale with | .short => 0 | .myriad => 1 | .mid => 2 | .long => 3)

end Nominals.Spec
