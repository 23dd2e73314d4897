import Verif.Spec.Collections
import Verif.Model.Defaults

/-!
# Fallback types built from adapters
-/

namespace Nominals.Spec

/-- The symbols a fallback type brings along, given those of the types that are no adapters: a chain brings those of both parts, a
restriction none at all. -/
inductive Brings : FallbackTy → List Char → Prop
  | noFallback : Brings .noFallback []
  | other (d : DigitSys) (al : List Char) : HasDigits (d.level 0) al → Brings (.other d) al
  | chain (a b : FallbackTy) (x y : List Char) : Brings a x → Brings b y → Brings (.chain a b) (x ++ y)
  | restrict (a : FallbackTy) : Brings (.restrict a) []

/-- The first part of a chain of fallback types that is no adapter: it decides about the zero digit and where counting starts. -/
def leader : FallbackTy → DigitSys
  | .noFallback => .noFallback
  | .other d => d
  | .chain a _ => leader a
  | .restrict a => leader a

end Nominals.Spec
