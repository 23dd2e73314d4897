import Verif.Spec.Outcome

/-!
# What a build without `alloc` makes of an outcome
-/

namespace Nominals.Spec

/-- The outcome for `n` with `alloc`, in a build that can hold 62 bytes and reports a longer text as an error. -/
def squeezed (n : Nat) : Res Error (List Char × Bool) → Res Error (List Char × Bool)
  | .ok (t, _) => if utf8Len t ≤ 62 then .ok (t, true) else .err (.outOfMemory n)
  | r => r

/-- The same in a build that panics for a longer text. -/
def burst : Res Error (List Char × Bool) → Res Error (List Char × Bool)
  | .ok (t, _) => if utf8Len t ≤ 62 then .ok (t, true) else .panic
  | r => r

end Nominals.Spec
