import Verif.Model.DigitalDyn

/-!
# Observing a collection whose answers change
-/

namespace Nominals.Spec

/-- No method executes undefined behaviour: all that safe Rust guarantees about an implementation. -/
structure SafeColl {σ : Type} (c : DynColl σ) : Prop where
  fixed : ∀ w, c.fixed w ≠ .ub
  hasZero : ∀ w, c.hasZero w ≠ .ub
  zeroBased : ∀ w, c.zeroBased w ≠ .ub
  len : ∀ w, c.len w ≠ .ub
  isEmpty : ∀ w, c.isEmpty w ≠ .ub
  digit : ∀ i w, c.digit i w ≠ .ub
  default : ∀ w, c.default w ≠ .ub

/-- A collection that answers like the record `c` at every call. -/
def constant (c : Coll) : DynColl Unit where
  fixed w := .ok (c.fixed, w)
  hasZero w := .ok (c.hasZero, w)
  zeroBased w := .ok (c.zeroBased, w)
  len w := .ok (c.len, w)
  isEmpty w := .ok (c.len == 0, w)
  digit i w := (Res.ofIndex (c.digit i)).bind fun ch => .ok (ch, w)
  default w := .ok ((), w)

/-- A tower of such collections. -/
def constantSys (d : DigitSys) : DynSys Unit where
  level k := constant (d.level k)

/-- Keep a method's answer and the log. -/
def keepLog {σ α : Type} (f : σ → Res Empty (α × σ)) : σ × List Char → Res Empty (α × (σ × List Char)) :=
  fun (w, log) => (f w).map fun (a, w) => (a, (w, log))

/-- The same collection, with a log of the characters its `digit` has returned, the latest first. -/
def logged {σ : Type} (c : DynColl σ) : DynColl (σ × List Char) where
  fixed := keepLog c.fixed
  hasZero := keepLog c.hasZero
  zeroBased := keepLog c.zeroBased
  len := keepLog c.len
  isEmpty := keepLog c.isEmpty
  digit i := fun (w, log) => (c.digit i w).map fun (ch, w) => (ch, (w, ch :: log))
  default := keepLog c.default

/-- A tower of logged collections. -/
def loggedSys {σ : Type} (d : DynSys σ) : DynSys (σ × List Char) where
  level k := logged (d.level k)

end Nominals.Spec
