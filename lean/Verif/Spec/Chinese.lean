import Verif.Spec.Outcome
import Verif.Model.Chinese

/-!
# Chinese numerals

Numerals are described at the level of tokens; a character set is a map from tokens to characters.
-/

namespace Nominals.Spec

/-- Tokens of a Chinese numeral. `large i` is the `i`-th unit above 千: 萬, 億, 兆, 京, … -/
inductive CTok where
  | zero
  | num (d : Nat)
  | ten | hundred | thousand
  | large (i : Nat)
deriving DecidableEq, Repr

/-- A unit with its value; lists of units are in descending order. -/
abbrev Units := List (Nat × CTok)

/-- The units within a group of four digits. -/
def sectionUnits : Units := [(1000, .thousand), (100, .hundred), (10, .ten)]

/-- `10^(e i)` for the large units `i < k`, largest first, followed by the units of a group. -/
def unitsOf (e : Nat → Nat) : Nat → Units
  | 0 => sectionUnits
  | k + 1 => (10 ^ e k, .large k) :: unitsOf e k

/-- The four scales: short (each unit ten times the previous one), myriad (ten thousand times), mid (10^8 times above 億), long
(the square). -/
def scaleUnits : ChineseScale → Units
  | .short => unitsOf (fun i => 4 + i) 11
  | .myriad => unitsOf (fun i => 4 * (i + 1)) 9
  | .mid => unitsOf (fun i => if i = 0 then 4 else 8 * i) 5
  | .long => unitsOf (fun i => 4 * 2 ^ i) 4

/-- Place of the leading digit. -/
def topPlace (n : Nat) : Nat := if n < 10 then 0 else topPlace (n / 10) + 1
termination_by n

/-- Is 零 written between unit `s` and what follows, `lo`? In the short scale: if a place is skipped. In the other scales: the
same within a group of four digits, while after a large unit 零 is written unless `lo` starts with a thousands digit. -/
def needsZero (scale : ChineseScale) (s lo : Nat) : Bool :=
  match scale with
  | .short => decide (lo ≠ 0 ∧ 10 * lo < s)
  | _ => decide (lo ≠ 0 ∧ if s ≤ 1000 then 10 * lo < s else topPlace lo % 4 ≠ 3)

/-- The numeral of `n`: with the largest unit `s ≤ n`, the numeral of `n / s`, the unit, and the numeral of `n % s`. -/
def spellWith (zero : Nat → Nat → Bool) : Units → Nat → List CTok
  | [], n => if n = 0 then [] else [.num n]
  | (s, u) :: rest, n =>
    if n < s then spellWith zero rest n
    else spellWith zero rest (n / s) ++ u :: ((if zero s (n % s) then [CTok.zero] else []) ++ spellWith zero rest (n % s))

/-- Informal numerals say 十 instead of 一十 at the start. -/
def dropLeadingOne : List CTok → List CTok
  | .num 1 :: .ten :: rest => .ten :: rest
  | ts => ts

/-- The numeral of `n` as tokens. -/
def chineseTokens (formal : Bool) (scale : ChineseScale) (n : Nat) : List CTok :=
  if n = 0 then [.zero]
  else
    let ts := spellWith (needsZero scale) (scaleUnits scale) n
    if formal then ts else dropLeadingOne ts

/-- Characters of the tokens: traditional or simplified, financial or ordinary. Outside the tokens in use: `?`. -/
def chineseGlyph (traditional financial : Bool) : CTok → Char
  | .zero => '零'
  | .num d =>
    (if financial then
      if traditional then ['壹', '貳', '參', '肆', '伍', '陸', '柒', '捌', '玖']
      else ['壹', '贰', '叁', '肆', '伍', '陆', '柒', '捌', '玖']
    else ['一', '二', '三', '四', '五', '六', '七', '八', '九']).getD (d - 1) '?'
  | .ten => if financial then '拾' else '十'
  | .hundred => if financial then '佰' else '百'
  | .thousand => if financial then '仟' else '千'
  | .large i =>
    (if traditional then ['萬', '億', '兆', '京', '垓', '秭', '穰', '溝', '澗', '正', '載']
    else ['万', '亿', '兆', '京', '垓', '秭', '穰', '沟', '涧', '正', '载']).getD i '?'

/-- Which public type uses traditional characters. -/
def isTraditional : ChineseKind → Bool
  | .traditionalFormal | .traditionalInformal => true
  | .simplifiedFormal | .simplifiedInformal => false

/-- Which public type is formal. -/
def isFormal : ChineseKind → Bool
  | .traditionalFormal | .simplifiedFormal => true
  | .traditionalInformal | .simplifiedInformal => false

/-- The text of `n`. -/
def chineseText (k : ChineseKind) (o : ChineseOptions) (n : Nat) : List Char :=
  (chineseTokens (isFormal k) o.scale n).map (chineseGlyph (isTraditional k) (o.usage = .financial))

/-! ## Reading -/

/-- Meaning of a character in any of the character sets. -/
def tokenOf (c : Char) : Option CTok :=
  if c = '零' then some .zero
  else if c ∈ ['一', '壹'] then some (.num 1)
  else if c ∈ ['二', '贰', '貳'] then some (.num 2)
  else if c ∈ ['三', '叁', '參'] then some (.num 3)
  else if c ∈ ['四', '肆'] then some (.num 4)
  else if c ∈ ['五', '伍'] then some (.num 5)
  else if c ∈ ['六', '陆', '陸'] then some (.num 6)
  else if c ∈ ['七', '柒'] then some (.num 7)
  else if c ∈ ['八', '捌'] then some (.num 8)
  else if c ∈ ['九', '玖'] then some (.num 9)
  else if c ∈ ['十', '拾'] then some .ten
  else if c ∈ ['百', '佰'] then some .hundred
  else if c ∈ ['千', '仟'] then some .thousand
  else if c ∈ ['万', '萬'] then some (.large 0)
  else if c ∈ ['亿', '億'] then some (.large 1)
  else if c = '兆' then some (.large 2)
  else if c = '京' then some (.large 3)
  else if c = '垓' then some (.large 4)
  else if c = '秭' then some (.large 5)
  else if c = '穰' then some (.large 6)
  else if c ∈ ['沟', '溝'] then some (.large 7)
  else if c ∈ ['涧', '澗'] then some (.large 8)
  else if c = '正' then some (.large 9)
  else if c ∈ ['载', '載'] then some (.large 10)
  else none

/-- Value of a token standing alone; 零 counts nothing. -/
def digitValue : CTok → Nat
  | .num d => d
  | _ => 0

/-- The usual way of reading: the largest unit present multiplies everything to its left (nothing to its left counts one);
what follows it is added. -/
def readTokens : Units → List CTok → Nat
  | [], ts => (ts.map digitValue).sum
  | (s, u) :: rest, ts =>
    if u ∈ ts then
      let multiplier := readTokens rest (ts.takeWhile (· ≠ u))
      (if multiplier = 0 then 1 else multiplier) * s + readTokens rest ((ts.dropWhile (· ≠ u)).drop 1)
    else readTokens rest ts

/-- Reading a Chinese numeral in a given scale (unknown characters are skipped). -/
def readChinese (scale : ChineseScale) (t : List Char) : Nat := readTokens (scaleUnits scale) (t.filterMap tokenOf)

/-- The counterpart of a character in another character set. -/
def recast (traditional financial : Bool) (c : Char) : Char :=
  match tokenOf c with
  | some t => chineseGlyph traditional financial t
  | none => c

/-! ## Options -/

/-- The builder calls of the public types. -/
inductive Setting where
  | financial | shortScale | midScale | longScale
deriving DecidableEq, Repr

/-- One builder call. -/
def Setting.run (o : ChineseOptions) : Setting → ChineseOptions
  | .financial => o.financial
  | .shortScale => o.shortScale
  | .midScale => o.midScale
  | .longScale => o.longScale

/-- The scale selected by a builder call, if any. -/
def Setting.scale? : Setting → Option ChineseScale
  | .financial => none
  | .shortScale => some .short
  | .midScale => some .mid
  | .longScale => some .long

end Nominals.Spec
