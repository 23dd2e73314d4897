import Verif.Spec.Catalogue

/-!
# Counting with characters

How a label becomes the next one, in terms of the characters of the labels only: no numbers, no bases.
-/

namespace Nominals.Spec

/-- The label `t` is followed by the label `t'`. `al` are the symbols in order and `lead` is the symbol a label grows by. -/
inductive Follows (al : List Char) (lead : Char) : List Char → List Char → Prop
  /-- A symbol that is not the last one is replaced by the symbol after it, and the last symbols to its right by first ones. -/
  | advance (p : List Char) (i k : Nat) (c c' first last : Char) : al[i]? = some c → al[i + 1]? = some c' →
      al.head? = some first → al.getLast? = some last →
      Follows al lead (p ++ c :: List.replicate k last) (p ++ c' :: List.replicate k first)
  /-- A label of last symbols only grows. -/
  | grow (k : Nat) (first last : Char) : al.head? = some first → al.getLast? = some last →
      Follows al lead (List.replicate (k + 1) last) (lead :: List.replicate (k + 1) first)

/-- The labels of a counter: it starts with the first symbol alone, and every label is followed by the next. -/
structure Counts (al : List Char) (lead : Char) (label : Nat → List Char) : Prop where
  first : ∃ c, al.head? = some c ∧ label 0 = [c]
  next : ∀ n, Follows al lead (label n) (label (n + 1))

/-- The ten characters from one code point on. -/
def tenFrom (first : Nat) : List Char := (List.range 10).map fun i => Char.ofNat (first + i)

/-- The named systems that are counters with a zero digit, with their digits. -/
def digitCounters : List (Named × List Char) :=
  [(.decimal, tenFrom 0x30), (.easternArabic, tenFrom 0x660), (.persian, tenFrom 0x6f0), (.bengali, tenFrom 0x9e6),
   (.cambodian, tenFrom 0x17e0), (.cjkDecimal, ['〇', '一', '二', '三', '四', '五', '六', '七', '八', '九']), (.devanagari, tenFrom 0x966),
   (.gujarati, tenFrom 0xae6), (.gurmukhi, tenFrom 0xa66), (.kannada, tenFrom 0xce6), (.lao, tenFrom 0xed0), (.malayalam, tenFrom 0xd66),
   (.mongolian, tenFrom 0x1810), (.myanmar, tenFrom 0x1040), (.oriya, tenFrom 0xb66), (.tamil, tenFrom 0xbe6), (.telugu, tenFrom 0xc66),
   (.thai, tenFrom 0xe50), (.tibetan, tenFrom 0xf20), (.hexUpper, tenFrom 0x30 ++ ['A', 'B', 'C', 'D', 'E', 'F']),
   (.hexLower, tenFrom 0x30 ++ ['a', 'b', 'c', 'd', 'e', 'f'])]

/-- The named systems that are counters without a zero digit, with their letters. -/
def letterCounters : List (Named × List Char) :=
  [(.letterUpper, (List.range 26).map fun i => Char.ofNat (0x41 + i)), (.letterLower, (List.range 26).map fun i => Char.ofNat (0x61 + i)),
   (.greekUpper, (List.range 24).map fun i => Char.ofNat (if i < 17 then 0x391 + i else 0x392 + i)),
   (.greekLower, (List.range 24).map fun i => Char.ofNat (if i < 17 then 0x3b1 + i else 0x3b2 + i)),
   (.hiragana, gojuon), (.hiraganaIroha, iroha), (.katakana, gojuon.map toKatakana), (.katakanaIroha, iroha.map toKatakana),
   (.hangeulJamo, jamo), (.hangeulSyllable, syllablesWithA)]

end Nominals.Spec
