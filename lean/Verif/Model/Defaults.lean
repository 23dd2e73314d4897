import Verif.Model.Digital

/-!
# src/digital.rs — `Default` values of fallback types
-/

namespace Nominals

/-- The types that can be a `Fallback` (src/digital.rs:635 `type Fallback: DigitCollection + Default`): `NoFallback` (:611), any type that
implements `Default` itself - a user's, or a unit struct of `impl_digit_set!` (:105) -, `Chain` (:431) and `Restrict` (:473) of such types.
`OneBased` (:62), `DigitSet` (:40), `CjkHeavenlyStem` (:187) and `CjkEarthlyBranch` (:221) do not implement `Default`. -/
inductive FallbackTy where
  | noFallback
  /-- A type whose `Default` value is the given collection. -/
  | other (d : DigitSys)
  | chain (a b : FallbackTy)
  | restrict (a : FallbackTy)

/-- src/digital.rs:572 `<D::Fallback>::default()`. `Chain` derives `Default` (:431): both parts are defaults. `Restrict` derives it for its
two fields (:473-474): the wrapped collection is its default, the number of digits is `usize::default()`, that is 0. -/
def FallbackTy.default : FallbackTy → DigitSys
  | .noFallback => .noFallback
  | .other d => d
  | .chain a b => .chain a.default b.default
  | .restrict a => .restrict 0 a.default

end Nominals
