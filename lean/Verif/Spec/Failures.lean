import Verif.Spec.Inline

/-!
# Which numbers a named system cannot write
-/

namespace Nominals.Spec

/-- The systems without a way to write zero. -/
def lacksZero : Named → Bool
  | .cjkHeavenlyStem | .cjkEarthlyBranch | .doubleCircledNumber | .armenianUpper | .armenianLower | .georgian | .hebrew | .ethiopic => true
  | _ => false

/-- The systems that end, and the first number beyond their end. -/
def endsAt : Named → Option Nat
  | .circledNumber => some 51
  | .doubleCircledNumber => some 11
  | .chinese _ o => if o.scale = .short then some (10 ^ 15) else none
  | _ => none

/-- The smallest number that a system refuses in a build with or without `alloc`, if there is one below 2^128. -/
def firstFailure (alloc : Bool) (s : Named) : Option Nat :=
  if lacksZero s then some 0
  else match s with
    | .circledNumber => some 51
    | .chinese _ o => if alloc = false then some 11111111111 else if o.scale = .short then some (10 ^ 15) else none
    | s => if alloc then none else firstLong s

end Nominals.Spec
