import Verif.Spec.Catalogue

/-!
# Which named systems can be taken for each other
-/

namespace Nominals.Spec

/-- Pairs of systems, other than Chinese ones, in which one text stands for different numbers. -/
def ambiguousPairs : List (Named × Named) :=
  [(.decimal, .hexUpper), (.decimal, .hexLower),
   (.letterUpper, .hexUpper), (.letterUpper, .romanUpper), (.hexUpper, .romanUpper),
   (.letterLower, .hexLower), (.letterLower, .romanLower), (.hexLower, .romanLower),
   (.hiragana, .hiraganaIroha), (.katakana, .katakanaIroha), (.hangeulFormal, .hangeulSyllable)]

/-- One text can stand for different numbers in these two systems: the pairs above, and Chinese systems of the same usage with different
scales. -/
inductive Misread : Named → Named → Prop
  | pair (s s' : Named) : (s, s') ∈ ambiguousPairs → Misread s s'
  | riap (s s' : Named) : (s, s') ∈ ambiguousPairs → Misread s' s
  | chinese (k k' : ChineseKind) (u : ChineseUsage) (a b : ChineseScale) : a ≠ b → Misread (.chinese k ⟨u, a⟩) (.chinese k' ⟨u, b⟩)

/-- The systems that write with the CJK digits by position. -/
def cjkPositional : List Named := [.cjkDecimal, .cjkHeavenlyStem, .cjkEarthlyBranch]

/-- Does a system write four as 四 and use signs for ten, hundred and thousand? Of the Chinese systems those of ordinary usage. -/
def cjkUnits : Named → Bool
  | .japaneseFormal | .japaneseInformal | .hanjaInformal | .hanjaFormal => true
  | .chinese _ o => o.usage = .ordinary
  | _ => false

/-- Does a system write zero as 零? -/
def zeroLing : Named → Bool
  | .japaneseFormal | .hanjaInformal | .hanjaFormal | .chinese _ _ => true
  | _ => false

/-- Two different systems have a text in common without being misread: the numbers are the same. -/
inductive Common : Named → Named → Prop
  | hex : Common .hexUpper .hexLower
  | xeh : Common .hexLower .hexUpper
  | positional (s s' : Named) : s ∈ cjkPositional → s' ∈ cjkPositional → Common s s'
  | digits (s : Named) : cjkUnits s = true → Common .cjkDecimal s
  | stigid (s : Named) : cjkUnits s = true → Common s .cjkDecimal
  | units (s s' : Named) : cjkUnits s = true → cjkUnits s' = true → Common s s'
  | zero (s s' : Named) : zeroLing s = true → zeroLing s' = true → Common s s'

end Nominals.Spec
