import Verif.Model.LibDyn
import Verif.Spec.Strings

/-!
# Vocabulary of C93: systems of the user's own
-/

namespace Nominals.Spec

open Nominals

/-- What the compiler guarantees about a system written in safe Rust: a string it returns can only have been built through the API, and the
number in an error is of the integer type. -/
def Typed {σ : Type} (cfg : Cfg) (T : IntTy) (s : DynNominal σ) : Prop :=
  ∀ n w r w', s.tryFormat n w = .ok (r, w') →
    match r with
    | .ok t => Reachable cfg t
    | .error .noZeroSymbol => True
    | .error (.outOfMemory k) => T.Fits cfg k
    | .error (.outOfBounds k) => T.Fits cfg k

/-- The text that stands for a returned result: its own, or the number of the error in decimal. -/
def standsFor : Except Error NStr → List Char → Prop
  | .ok s, t => s.asStr = some t
  | .error .noZeroSymbol, t => t = ['0']
  | .error (.outOfMemory k), t => t = Nat.toDigits 10 k
  | .error (.outOfBounds k), t => t = Nat.toDigits 10 k

/-- The same system, writing down the numbers it is asked about before it answers. -/
def watched {σ : Type} (s : DynNominal σ) : DynNominal (σ × List Nat) where
  tryFormat n := fun (w, log) =>
    match s.tryFormat n w with
    | .ok (r, w) => .ok (r, (w, log ++ [n]))
    | .err e => .err e
    | .panic => .panic
    | .ub => .ub
    | .timeout => .timeout

/-- `numbers.map(|n| n.to_nominal(&system)).collect()`: labels one after the other. -/
def labels {σ : Type} (cfg : Cfg) (T : IntTy) (s : DynNominal σ) : List Nat → σ → Res Empty (List NStr × σ)
  | [], w => .ok ([], w)
  | n :: ns, w =>
    (dynToNominal cfg T n s w).bind fun (t, w) =>
    (labels cfg T s ns w).bind fun (ts, w) => .ok (t :: ts, w)

/-- A system that answers every question about a number in the same way (`Model/Lib.lean`), as one with state. -/
def unchanging (cfg : Cfg) (T : IntTy) (s : NominalSystem) : DynNominal Unit where
  tryFormat n w :=
    match s.tryFormat cfg T n with
    | .ok t => .ok (.ok t, w)
    | .err e => .ok (.error e, w)
    | .panic => .panic
    | .ub => .ub
    | .timeout => .timeout
  formatOverride := s.formatOverride.map fun f n w => (f cfg T n).map fun t => (t, w)

/-- A pointer to a pointer to … a system, `k` deep. -/
def pointers {σ : Type} (s : DynNominal σ) : Nat → DynNominal σ
  | 0 => s
  | k + 1 => (pointers s k).boxed

end Nominals.Spec
