import Verif.Model.Error

/-!
# src/enumerated.rs — enumerated sets
-/

namespace Nominals

/-- src/enumerated.rs:4-24 `EnumeratedSet<N, HAS_ZERO>` (`new` / `zeroless`). -/
structure EnumSet where
  hasZero : Bool
  symbols : List (List Char)

/-- src/enumerated.rs:30-42 `try_format_nominal`. -/
def EnumSet.tryFormat (e : EnumSet) (cfg : Cfg) (_T : IntTy) (nominal : Nat) : Res Error NStr :=
  match tryIntoUsize cfg nominal with
  | none => .err (.outOfBounds nominal)
  | some n =>
    if !e.hasZero && nominal == 0 then .err .noZeroSymbol
    else
      (subT cfg .usize n (if e.hasZero then 0 else 1)).bind fun i =>
      match e.symbols[i]? with
      | some symbol => NStr.ofStr cfg symbol
      | none => .err (.outOfBounds nominal)

end Nominals
