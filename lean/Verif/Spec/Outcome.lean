import Verif.Model.Error

/-!
# What a caller sees of a formatting result

`view` turns the result of a formatter into what is observable: the text and `is_inline()`, or the error. `deliver` is the
outcome of a system whose text for `n` is `t`: every build returns `t` inline when it has at most 62 UTF-8 bytes; longer
texts are returned on the heap with the `alloc` feature and refused with `OutOfMemory(n)` without it.
-/

namespace Nominals.Spec

/-- Observable part of a result: text and `is_inline()`. A string without readable text counts as undefined behaviour. -/
def view {ε : Type} (r : Res ε NStr) : Res ε (List Char × Bool) :=
  r.bind fun s =>
    match s.asStr with
    | some t => .ok (t, s.isInline)
    | none => .ub

/-- Outcome of a system whose text for `n` is `t`. -/
def deliver (alloc : Bool) (n : Nat) (t : List Char) : Res Error (List Char × Bool) :=
  if utf8Len t ≤ 62 then .ok (t, true)
  else if alloc then .ok (t, false)
  else .err (.outOfMemory n)

end Nominals.Spec
