import Verif.Model.Lib
import Verif.Spec.Outcome

/-!
# A system of the user's own that decorates another one

What a program does that wants its labels to read "(iv)" or "4." or "§ 4": a `NominalSystem` that asks another one and then adds to the
`NominalString` it got.
-/

namespace Nominals.Spec

/-- One addition to a `NominalString`. -/
inductive Piece where
  | push (c : Char)
  | pushStr (u : List Char)
  | pushFront (c : Char)

/-- Effect on an ordinary text. -/
def Piece.on : Piece → List Char → List Char
  | .push c, t => t ++ [c]
  | .pushStr u, t => t ++ u
  | .pushFront c, t => c :: t

/-- The call that makes the addition. -/
def Piece.call (cfg : Cfg) (x : NStr) : Piece → Res OutOfMemoryError NStr
  | .push c => x.push cfg c
  | .pushStr u => x.pushStr cfg u
  | .pushFront c => x.pushFront cfg c

/-- `x.try_push…(…).with_nominal(nominal)?` for each addition, then `Ok(x)`. -/
def addAll (cfg : Cfg) (nominal : Nat) : List Piece → NStr → Res Error NStr
  | [], x => .ok x
  | p :: ps, x => ((p.call cfg x).withNominal nominal).bind (addAll cfg nominal ps)

/-- The user's system: `let mut x = inner.try_format_nominal(nominal)?;` and then the additions, which may depend on the number. -/
def decorated (pieces : Nat → List Piece) (inner : NominalSystem) : NominalSystem where
  tryFormat cfg T nominal := (inner.tryFormat cfg T nominal).bind (addAll cfg nominal (pieces nominal))

/-- The additions that put `pre` before and `suf` behind the text. -/
def around (pre suf : List Char) : List Piece := .pushStr suf :: pre.reverse.map .pushFront

end Nominals.Spec
