import Verif.Model.NominalString

/-!
# src/lib.rs — the `Error` type
-/

namespace Nominals

/-- src/lib.rs:182-192 `Error<T>`. -/
inductive Error where
  | noZeroSymbol
  | outOfMemory (nominal : Nat)
  | outOfBounds (nominal : Nat)
deriving DecidableEq, Repr

/-- src/lib.rs:234-247 `WithNominal::with_nominal`. -/
def Res.withNominal {α : Type} (r : Res OutOfMemoryError α) (nominal : Nat) : Res Error α :=
  r.mapErr fun _ => .outOfMemory nominal

end Nominals
