import Verif.Proofs.Profiles
import Verif.Props.Dyn
import Verif.Props.Built

/-!
# C89 Builds with and without overflow checks agree
-/

namespace Nominals.Props

open Nominals Nominals.Spec

/-- C89, part 1. Strings. The two builds can make the same strings, and every sequence of operations on such a string shows the same
outcomes step by step and leaves the same string. -/
theorem C89_strings {cfg : Cfg} (s : NStr) :
    (Reachable cfg.debug s ↔ Reachable cfg.release s) ∧
    (Reachable cfg.debug s → ∀ ops, run cfg.debug s ops = run cfg.release s ops ∧ runState cfg.debug s ops = runState cfg.release s ops) := by
  have call : ∀ {s : NStr}, Reachable cfg.debug s → ∀ op : Op, op.call cfg.debug s = op.call cfg.release s := by
    intro s h op
    cases op with
    | push c => simp only [Op.call, tryPush_same h]
    | pushStr u => simp only [Op.call, tryPushStr_same h]
    | pushFront c => simp only [Op.call, tryPushFront_same h]
    | edit f _ => rfl
  have runs : ∀ (ops : List Op) {s : NStr}, Reachable cfg.debug s →
      run cfg.debug s ops = run cfg.release s ops ∧ runState cfg.debug s ops = runState cfg.release s ops := by
    intro ops
    induction ops with
    | nil => exact fun _ => ⟨rfl, rfl⟩
    | cons op ops ih =>
      intro s h
      obtain ⟨s', ok, h1, h2⟩ := C03_operations_are_defined h op
      have h1' := call h op ▸ h1
      simp only [run, runState, h1, h1', Res.bind, (ih h2).1, (ih h2).2, and_self]
  have build : ∀ (i : Init), i.build cfg.debug = i.build cfg.release := by
    intro i
    cases i with
    | fromChar c => exact (ofChar_twin (cfg := cfg) c).1
    | _ => rfl
  have start : ∀ (i : Init) (s0 : NStr), i.Allowed cfg.alloc → i.build cfg.debug = .ok s0 → Reachable cfg.debug s0 :=
    fun i s0 h1 h2 => ⟨i, s0, [], h1, h2, rfl⟩
  refine ⟨⟨?_, ?_⟩, fun h ops => runs ops h⟩
  · rintro ⟨i, s0, ops, h1, h2, h3⟩
    exact ⟨i, s0, ops, h1, build i ▸ h2, (runs ops (start i s0 h1 h2)).2 ▸ h3⟩
  · rintro ⟨i, s0, ops, h1, h2, h3⟩
    have h2' := (build i).symm ▸ h2
    exact ⟨i, s0, ops, h1, h2', (runs ops (start i s0 h1 h2')).2.symm ▸ h3⟩

/-- Ten characters appended to a reverse string in either build. -/
example : run (Cfg.mk false .w16 true).debug NStr.newReverse (List.replicate 10 (.push '漢')) =
    run (Cfg.mk false .w16 true).release NStr.newReverse (List.replicate 10 (.push '漢')) :=
  ((C89_strings (cfg := ⟨false, .w16, true⟩) _).2 ⟨.newReverse, _, [], trivial, rfl, rfl⟩ _).1

/-- C89, part 2. User-defined systems: every digit collection with its fallbacks, every additive set and every enumerated set gives the
same string, error or panic in the two builds. -/
theorem C89_user_defined {cfg : Cfg} {T : IntTy} {n : Nat} :
    (∀ (d : DigitSys) fuel depth, digitTryFormat cfg.debug T fuel depth d n = digitTryFormat cfg.release T fuel depth d n) ∧
    (∀ a : AdditiveSet, a.tryFormat cfg.debug T n = a.tryFormat cfg.release T n) ∧
    (∀ e : EnumSet, e.tryFormat cfg.debug T n = e.tryFormat cfg.release T n) :=
  ⟨fun _ _ _ => (digitTryFormat_twin _ _ _ _).1, fun a => (additiveTryFormat_twin a n).1, fun e => (enumTryFormat_twin e n).1⟩

/-- A user's binary digits. -/
example : (DigitSys.digitSetNew ['o', 'i']).tryFormat ⟨true, .w64, true⟩ .u8 5 = (DigitSys.digitSetNew ['o', 'i']).tryFormat ⟨true, .w64, false⟩ .u8 5 ∧
    view ((DigitSys.digitSetNew ['o', 'i']).tryFormat ⟨true, .w64, false⟩ .u8 5) = .ok (['i', 'o', 'i'], true) := by decide +kernel

/-- C89, part 3. The named systems: `try_to_nominal` and `to_nominal`, directly and through a `Box`, `Rc` or `Arc`. -/
theorem C89_named {cfg : Cfg} {T : IntTy} (n : Nat) (s : Named) :
    tryToNominal cfg.debug T n s.system = tryToNominal cfg.release T n s.system ∧
    toNominal cfg.debug T n s.system = toNominal cfg.release T n s.system ∧
    toNominal cfg.debug T n s.system.boxed = toNominal cfg.release T n s.system.boxed := by
  have add : ∀ l, additiveTryFormat l cfg.debug T n = additiveTryFormat l cfg.release T n := by
    intro l
    unfold additiveTryFormat
    congr 1
    funext a
    exact (additiveTryFormat_twin a n).1
  have h : s.system.tryFormat cfg.debug T n = s.system.tryFormat cfg.release T n := by
    cases s with
    | circledNumber => exact (enumTryFormat_twin (T := T) _ _).1
    | doubleCircledNumber => exact (enumTryFormat_twin (T := T) _ _).1
    | romanLower => exact add romanLowerTable
    | romanUpper => exact add romanUpperTable
    | armenianUpper => exact add armenianUpperTable
    | armenianLower => exact add armenianLowerTable
    | georgian => exact add georgianTable
    | japaneseFormal => exact add japaneseFormalTable
    | japaneseInformal => exact add japaneseInformalTable
    | hangeulFormal => exact add hangeulFormalTable
    | hanjaInformal => exact add hanjaInformalTable
    | hanjaFormal => exact add hanjaFormalTable
    | hebrew => exact (hebrewTryFormat_twin n).1
    | ethiopic => exact (ethiopicTryFormat_twin (T := T) n).1
    | chinese k o => exact (formatChinese_twin _ _ _ _ _).1
    | _ => exact (digitTryFormat_twin _ _ _ _).1
  have hb : unwrapOrDecimal cfg.debug T (s.system.tryFormat cfg.debug T n) = unwrapOrDecimal cfg.release T (s.system.tryFormat cfg.release T n) := by
    rw [h, unwrapOrDecimal_profiles]
  refine ⟨h, ?_, hb⟩
  cases s <;> exact hb

/-- The largest number with the Roman system, whose thousands are counted down. -/
example : tryToNominal ⟨true, .w64, true⟩ .u16 65535 Named.romanUpper.system = tryToNominal ⟨true, .w64, false⟩ .u16 65535 Named.romanUpper.system :=
  (C89_named (cfg := ⟨true, .w64, true⟩) 65535 .romanUpper).1

/-- C89, part 4. A system of the user's own making agrees with itself in `format_nominal` when it agrees in `try_format_nominal`: the
library's part, the fallback to decimal digits, is the same in the two builds. -/
theorem C89_fallback {cfg : Cfg} {T : IntTy} (n : Nat) (f : Cfg → IntTy → Nat → Res Error NStr)
    (h : f cfg.debug T n = f cfg.release T n) :
    toNominal cfg.debug T n { tryFormat := f } = toNominal cfg.release T n { tryFormat := f } := by
  show unwrapOrDecimal _ _ (f _ _ _) = unwrapOrDecimal _ _ (f _ _ _)
  rw [h, unwrapOrDecimal_profiles]

/-- Edits at both ends of a string that grows from the back, and a user's additive set with a value that does not fit in `u8`, in both
builds. -/
example : run ⟨false, .w64, true⟩ NStr.newReverse [.pushFront 'é', .push 'x', .pushStr ['y', 'z']] =
      .ok [(['é'], false, true), (['é', 'x'], false, true), (['é', 'x', 'y', 'z'], false, true)] ∧
    run ⟨false, .w64, false⟩ NStr.newReverse [.pushFront 'é', .push 'x', .pushStr ['y', 'z']] =
      .ok [(['é'], false, true), (['é', 'x'], false, true), (['é', 'x', 'y', 'z'], false, true)] := by decide +kernel
example : ((⟨[(['m'], 1000), (['v'], 5), (['i'], 1)], none⟩ : AdditiveSet).tryFormat ⟨true, .w64, true⟩ .u8 7).map (·.asStr) =
      .ok (some ['v', 'i', 'i']) ∧
    ((⟨[(['m'], 1000), (['v'], 5), (['i'], 1)], none⟩ : AdditiveSet).tryFormat ⟨true, .w64, false⟩ .u8 7).map (·.asStr) =
      .ok (some ['v', 'i', 'i']) := by decide +kernel

/-- Where the builds do differ, the user's collection contradicts itself (C53) or is longer than a `usize` can count (C54). -/
example : ∃ (d : DynSys Bool), dynTryFormat (Cfg.mk true .w64 true).debug .u8 9 1 d 0 false ≠
    dynTryFormat (Cfg.mk true .w64 true).release .u8 9 1 d 0 false :=
  ⟨⟨fun _ => contradictory⟩, by decide +kernel⟩

end Nominals.Props
