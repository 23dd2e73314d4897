import Verif.Model.Lib
import Verif.Spec.Outcome

/-!
# Several systems in turn

What a program does that prefers one system but has others for the numbers it cannot write:
`a.try_format_nominal(n).or_else(|_| b.try_format_nominal(n)).or_else(…)`, as a `NominalSystem` of its own.
-/

namespace Nominals.Spec

/-- `s`, or the first of the `others` that can write the number; if none can, the error of the last one. -/
def inTurn (s : NominalSystem) : List NominalSystem → NominalSystem
  | [] => { tryFormat := s.tryFormat }
  | r :: rs =>
    { tryFormat := fun cfg T n =>
        match s.tryFormat cfg T n with
        | .err _ => (inTurn r rs).tryFormat cfg T n
        | x => x }

end Nominals.Spec
