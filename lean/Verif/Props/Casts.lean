import Verif.Proofs.Casts

/-!
# C99 The contract of `as_usize`

`as_usize` truncates, and its documentation asks that it be "only invoked when it is guaranteed the value is within the range of a usize".
`Model/Casts.lean` has the formatters with a cast that panics, does not return or is undefined behaviour (`out`) when the contract is broken.
-/

namespace Nominals.Props

open Nominals Nominals.Spec

/-- C99, part 1. No named system invokes `as_usize` on a value beyond `usize`, also if the number itself is beyond. -/
theorem C99_named (s : Named) {cfg : Cfg} (out : Res Empty Nat) {T : IntTy} {n : Nat} (hn : T.Fits cfg n) :
    s.tryFormatK cfg out T n = tryToNominal cfg T n s.system := s.tryFormatK_eq hn

/-- 2¹²⁸ − 1 in Roman numerals on a target where `usize` has 16 bits. -/
example : IntTy.u128.Fits ⟨true, .w16, true⟩ (2 ^ 128 - 1) ∧ ¬ IntTy.usize.Fits ⟨true, .w16, true⟩ (2 ^ 128 - 1) := by decide

/-- C99, part 2. Neither does a digit collection of a user, with its fallbacks, whatever it answers and even if its answers change from call to
call. The only assumption is that its lengths are `usize`, as its type says. -/
theorem C99_collections {σ : Type} {cfg : Cfg} (out : Res Empty Nat) {T : IntTy} {n : Nat} (hn : T.Fits cfg n) {d : DynSys σ}
    (hd : ∀ k, UsizeLen cfg (d.level k)) (fuel depth : Nat) (w : σ) :
    dynTryFormatK cfg out T fuel depth d n w = dynTryFormat cfg T fuel depth d n w := dynTryFormatK_eq hn depth d w hd

/-- The contract is not empty: 2¹⁶ is beyond the `usize` of a 16-bit target, and there 2¹²⁸ − 1 is still written in full. -/
example : checkedUsize (ε := Error) ⟨true, .w16, true⟩ .panic 65536 = .panic ∧
    ((Named.hexLower.tryFormatK ⟨false, .w16, true⟩ .ub .u128 (2 ^ 128 - 1)).map NStr.asStr) =
      .ok (some (List.replicate 32 'f')) := ⟨rfl, by decide +kernel⟩

/-- A collection of 300 symbols on `u8`, whose numbers are all symbols: 255 is the last one. -/
example : (dynTryFormatK (σ := Nat) ⟨true, .w16, true⟩ .ub .u8 1 1 ⟨fun _ =>
    { fixed := fun w => .ok (false, w), hasZero := fun w => .ok (true, w), zeroBased := fun w => .ok (true, w), len := fun w => .ok (300, w),
      isEmpty := fun w => .ok (false, w), digit := fun i _ => .ok ('x', i), default := fun w => .ok ((), w) }⟩ 255 0).map
        (fun p => (p.1.asStr, p.2)) = .ok (some ['x'], 255) := rfl

end Nominals.Props
