import Verif.Spec.Catalogue

/-!
# Which named systems write alike
-/

namespace Nominals.Spec

/-- The first number two different scales write differently: 10^5 if one of them is the short scale, 10^24 between mid and long, 10^12
otherwise. -/
def scalesPart (a b : ChineseScale) : Nat :=
  if a = .short ∨ b = .short then 10 ^ 5 else if a = .myriad ∨ b = .myriad then 10 ^ 12 else 10 ^ 24

/-- Two systems that cannot be told apart by numbers below `m`. -/
inductive Alike (m : Nat) : Named → Named → Prop
  /-- A system and itself. -/
  | same (s : Named) : Alike m s s
  /-- Two scales of a Chinese system, below the number at which they part. -/
  | scales (k : ChineseKind) (u : ChineseUsage) (a b : ChineseScale) : m ≤ scalesPart a b → Alike m (.chinese k ⟨u, a⟩) (.chinese k ⟨u, b⟩)
  /-- Simplified and traditional ordinary characters, which are the same up to 9999. -/
  | scripts (k l : ChineseKind) (a b : ChineseScale) : isFormal k = isFormal l → m ≤ 10 ^ 4 →
      Alike m (.chinese k ⟨.ordinary, a⟩) (.chinese l ⟨.ordinary, b⟩)

end Nominals.Spec
