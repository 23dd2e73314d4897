import Verif.Proofs.StringRuns
import Verif.Props.Strings
import Verif.Proofs.Filled

/-!
# The strings the formatters return are built through the public API
-/

namespace Nominals

open Spec

/-! ## One operation -/

theorem Spec.Reachable.new {cfg : Cfg} : Reachable cfg NStr.new := ⟨.new, _, [], trivial, rfl, rfl⟩
theorem Spec.Reachable.newReverse {cfg : Cfg} : Reachable cfg NStr.newReverse := ⟨.newReverse, _, [], trivial, rfl, rfl⟩

theorem Spec.Reachable.call {cfg : Cfg} {s s' : NStr} (h : Reachable cfg s) {op : Op} {b : Bool} (hc : op.call cfg s = .ok (s', b)) : Reachable cfg s' := by
  obtain ⟨s2, ok, h1, h2⟩ := Props.C03_operations_are_defined h op
  rw [hc] at h1
  cases h1
  exact h2

theorem push_good {cfg : Cfg} {s : NStr} (h : Reachable cfg s) (c : Char) : (s.push cfg c).Good (Reachable cfg) := by
  intro s' e
  unfold NStr.push at e
  cases hr : s.tryPush cfg c with
  | ok a =>
    rw [hr] at e; cases e
    exact h.call (op := .push c) (b := true) (by simp only [Op.call, hr, callOutcome])
  | _ => rw [hr] at e; cases e

theorem pushStr_good {cfg : Cfg} {s : NStr} (h : Reachable cfg s) (u : List Char) : (s.pushStr cfg u).Good (Reachable cfg) := by
  intro s' e
  unfold NStr.pushStr at e
  cases hr : s.tryPushStr cfg u with
  | ok a =>
    rw [hr] at e; cases e
    exact h.call (op := .pushStr u) (b := true) (by simp only [Op.call, hr, callOutcome])
  | _ => rw [hr] at e; cases e

theorem pushFront_good {cfg : Cfg} {s : NStr} (h : Reachable cfg s) (c : Char) : (s.pushFront cfg c).Good (Reachable cfg) := by
  intro s' e
  unfold NStr.pushFront at e
  cases hr : s.tryPushFront cfg c with
  | ok a =>
    rw [hr] at e; cases e
    exact h.call (op := .pushFront c) (b := true) (by simp only [Op.call, hr, callOutcome])
  | _ => rw [hr] at e; cases e

theorem ofChar_good {ε : Type} {cfg : Cfg} (c : Char) : (NStr.ofChar (ε := ε) cfg c).Good (Reachable cfg) := by
  unfold NStr.ofChar
  split
  · next s h => exact .ok (push_good .new c s h)
  all_goals first | exact .panic | exact .ub | exact .timeout

theorem ofStr_good {ε : Type} {cfg : Cfg} (t : List Char) : (NStr.ofStr (ε := ε) cfg t).Good (Reachable cfg) := by
  intro s h
  have e : NStr.ofStr (ε := Empty) cfg t = .ok s := by
    unfold NStr.ofStr at h ⊢
    simp only at h ⊢
    split at h
    · next hc =>
      rw [if_pos hc]
      cases hz : zipWrite (List.replicate INLINE_CAPACITY none) 0 (utf8Encode t).length (utf8Encode t) with
      | none => rw [hz] at h; cases h
      | some b => rw [hz] at h; cases h; rfl
    · next hc =>
      rw [if_neg hc]
      split at h
      · next ha => rw [if_pos ha]; cases h; rfl
      · cases h
  refine ⟨.fromStr t, s, [], ?_, e, rfl⟩
  cases ha : cfg.alloc with
  | true => exact .inl rfl
  | false =>
    right
    unfold NStr.ofStr at h
    simp only [ha, Bool.false_eq_true, ↓reduceIte] at h
    split at h
    · next hc => rw [← utf8Encode_length]; exact hc.2
    · cases h

/-- `Reachable` is kept by every way of filling a string. -/
theorem reachable_fills (cfg : Cfg) : Fills cfg (Reachable cfg) (Reachable cfg) (Reachable cfg) where
  new := .new
  newReverse := .newReverse
  push := push_good
  pushStr := pushStr_good
  pushFront := pushFront_good
  ofStr := ofStr_good
  forward := id
  reverse := id

/-! ## The formatters -/

theorem digitTryFormat_good {cfg : Cfg} {T : IntTy} (fuel depth : Nat) (d : DigitSys) (n : Nat) :
    (digitTryFormat cfg T fuel depth d n).Good (Reachable cfg) := digitTryFormat_fills (reachable_fills cfg) _ _ _ _

theorem dynTryFormat_good {σ : Type} {cfg : Cfg} {T : IntTy} (fuel depth : Nat) (d : DynSys σ) (n : Nat) (w : σ) :
    (dynTryFormat cfg T fuel depth d n w).Good fun p => Reachable cfg p.1 := dynTryFormat_fills (reachable_fills cfg) _ _ _ _ _

theorem enumTryFormat_good (e : EnumSet) {cfg : Cfg} {T : IntTy} (n : Nat) : (e.tryFormat cfg T n).Good (Reachable cfg) :=
  enumTryFormat_fills (reachable_fills cfg) _ _

theorem additiveTryFormat_good (a : AdditiveSet) {cfg : Cfg} {T : IntTy} (n : Nat) : (a.tryFormat cfg T n).Good (Reachable cfg) :=
  additiveTryFormat_fills (reachable_fills cfg) _ _

theorem decimalFormat_good {cfg : Cfg} {T : IntTy} (depth n : Nat) : (decimalFormat cfg T depth n).Good (Reachable cfg) :=
  decimalFormat_fills (reachable_fills cfg) _ _

theorem unwrapOrDecimal_good {cfg : Cfg} {T : IntTy} {r : Res Error NStr} (h : r.Good (Reachable cfg)) :
    (unwrapOrDecimal cfg T r).Good (Reachable cfg) := unwrapOrDecimal_fills (reachable_fills cfg) h

end Nominals
