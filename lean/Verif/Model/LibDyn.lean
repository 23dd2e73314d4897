import Verif.Model.Lib

/-!
# src/lib.rs — systems of the user's own, whose answers may change

`NominalSystem` is an open, safe trait: `try_format_nominal` takes `&self`, but may read and write state behind it, panic, or never
return. `Model/Lib.lean` treats a system as a function; here every call may change the state `σ` of the rest of the program.
-/

namespace Nominals

/-- src/lib.rs:39-56 `trait NominalSystem<T>` for one integer type, with access to the state of the program: the required
`try_format_nominal` (:55) and, if the implementation overrides it, `format_nominal` (:44-46). A method may return, panic or not return
(`timeout`). -/
structure DynNominal (σ : Type) where
  tryFormat : Nat → σ → Res Empty (Except Error NStr × σ)
  formatOverride : Option (Nat → σ → Res Empty (NStr × σ)) := none

/-- src/lib.rs:221-231 `UnwrapOrDecimal::unwrap_or_decimal`, on a result that has been returned. -/
def unwrapReturned (cfg : Cfg) (T : IntTy) : Except Error NStr → Res Empty NStr
  | .ok s => .ok s
  | .error e => e.intoDecimal cfg T

/-- src/lib.rs:44-46 `format_nominal`. -/
def DynNominal.format {σ : Type} (s : DynNominal σ) (cfg : Cfg) (T : IntTy) (nominal : Nat) (w : σ) : Res Empty (NStr × σ) :=
  match s.formatOverride with
  | some f => f nominal w
  | none =>
    (s.tryFormat nominal w).bind fun (r, w) =>
    (unwrapReturned cfg T r).bind fun t => .ok (t, w)

/-- src/lib.rs:58-86 `NominalSystem` for `Box`, `Rc` and `Arc` of a trait object: only `try_format_nominal` is forwarded. -/
def DynNominal.boxed {σ : Type} (s : DynNominal σ) : DynNominal σ where
  tryFormat nominal w := s.tryFormat nominal w

/-- src/lib.rs:101-106 `Nominal::to_nominal`. -/
def dynToNominal {σ : Type} (cfg : Cfg) (T : IntTy) (n : Nat) (s : DynNominal σ) (w : σ) : Res Empty (NStr × σ) := s.format cfg T n w

end Nominals
