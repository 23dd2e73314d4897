import Verif.Proofs.Built
import Verif.Props.Lib
import Verif.Props.Fallback

/-!
# C80: what can be done with a formatted nominal
-/

namespace Nominals.Props

open Nominals Nominals.Spec

/-- C80, part 1. The strings returned for user-defined systems - every digit collection with its fallbacks, every collection whose answers
change from call to call, every additive and every enumerated set - can all be obtained with the constructors and pushes of `NominalString`,
so that C03 to C08, C55 and C70 hold of them. -/
theorem C80_user_defined {cfg : Cfg} {T : IntTy} {n : Nat} :
    (∀ (d : DigitSys) fuel depth x, digitTryFormat cfg T fuel depth d n = .ok x → Reachable cfg x) ∧
    (∀ (σ : Type) (d : DynSys σ) fuel depth w x w', dynTryFormat cfg T fuel depth d n w = .ok (x, w') → Reachable cfg x) ∧
    (∀ (a : AdditiveSet) x, a.tryFormat cfg T n = .ok x → Reachable cfg x) ∧
    (∀ (e : EnumSet) x, e.tryFormat cfg T n = .ok x → Reachable cfg x) :=
  ⟨fun _ _ _ x h => digitTryFormat_good _ _ _ _ x h, fun _ _ _ _ _ x w' h => dynTryFormat_good _ _ _ _ _ (x, w') h,
    fun _ x h => additiveTryFormat_good _ _ x h, fun _ x h => enumTryFormat_good _ _ x h⟩

/-- An additive set with two symbols: 7 comes out as a string built with the public API. -/
example : ∃ x, (AdditiveSet.mk [(['V'], 5), (['I'], 1)] none).tryFormat ⟨false, .w32, true⟩ .u8 7 = .ok x ∧ x.asStr = some ['V', 'I', 'I'] ∧
    Reachable ⟨false, .w32, true⟩ x := by
  obtain ⟨x, h, ht⟩ : ∃ x, (AdditiveSet.mk [(['V'], 5), (['I'], 1)] none).tryFormat ⟨false, .w32, true⟩ .u8 7 = .ok x ∧
    x.asStr = some ['V', 'I', 'I'] := ⟨_, rfl, by decide +kernel⟩
  exact ⟨x, h, ht, C80_user_defined.2.2.1 _ x h⟩

theorem named_fills (s : Named) {cfg : Cfg} {F R P : NStr → Prop} (K : Fills cfg F R P) {T : IntTy} (n : Nat) :
    (s.system.tryFormat cfg T n).Good P := by
  have add : ∀ l, (additiveTryFormat l cfg T n).Good P := fun l => .any fun a => additiveTryFormat_fills K a n
  cases s with
  | circledNumber => exact enumTryFormat_fills K (T := T) _ _
  | doubleCircledNumber => exact enumTryFormat_fills K (T := T) _ _
  | romanLower => exact add romanLowerTable
  | romanUpper => exact add romanUpperTable
  | armenianUpper => exact add armenianUpperTable
  | armenianLower => exact add armenianLowerTable
  | georgian => exact add georgianTable
  | japaneseFormal => exact add japaneseFormalTable
  | japaneseInformal => exact add japaneseInformalTable
  | hangeulFormal => exact add hangeulFormalTable
  | hanjaInformal => exact add hanjaInformalTable
  | hanjaFormal => exact add hanjaFormalTable
  | hebrew => exact hebrewTryFormat_fills K n
  | ethiopic => exact ethiopicTryFormat_fills K (T := T) n
  | chinese k o => exact formatChinese_fills K _ _ _ _ _
  | _ => exact digitTryFormat_fills K _ _ _ _

theorem named_good (s : Named) {cfg : Cfg} {T : IntTy} (n : Nat) : (s.system.tryFormat cfg T n).Good (Reachable cfg) :=
  named_fills s (reachable_fills cfg) n

/-- C80, part 2. So are the strings `try_to_nominal` and `to_nominal` return for the named systems. -/
theorem C80_named {cfg : Cfg} {T : IntTy} {n : Nat} (s : Named) :
    (∀ x, tryToNominal cfg T n s.system = .ok x → Reachable cfg x) ∧ (∀ x, toNominal cfg T n s.system = .ok x → Reachable cfg x) := by
  refine ⟨fun x h => named_good s n x h, fun x h => ?_⟩
  have ho : s.system.formatOverride = none := by cases s <;> rfl
  have e : toNominal cfg T n s.system = unwrapOrDecimal cfg T (s.system.tryFormat cfg T n) := by
    unfold toNominal NominalSystem.format; rw [ho]
  rw [e] at h
  exact unwrapOrDecimal_good (named_good s n) x h

/-- The Hebrew 15, which is written with a special group of letters. -/
example : ∃ x, tryToNominal ⟨true, .w64, true⟩ .u8 15 Named.hebrew.system = .ok x ∧ Reachable ⟨true, .w64, true⟩ x := by
  obtain ⟨x, h⟩ : ∃ x, tryToNominal ⟨true, .w64, true⟩ .u8 15 Named.hebrew.system = .ok x := ⟨_, rfl⟩
  exact ⟨x, h, (C80_named _).1 x h⟩

/-- C80, part 3. Going on with a formatted nominal, whichever way its buffer was filled: after any pushes at either end and edits in place, the
text, `is_inline()` and the results of the pushes are those of a string started with the text the system has for the number (of the decimal
numeral where `to_nominal` falls back). -/
theorem C80_continue {cfg : Cfg} {T : IntTy} {n : Nat} (s : Named) (hn : T.Fits cfg n) (ops : List Op) :
    (∀ x, tryToNominal cfg T n s.system = .ok x → ∃ t, answer s n = .text t ∧
      run cfg x ops = .ok (absRun cfg.alloc t (decide (62 < utf8Len t)) ops)) ∧
    ∃ x t, toNominal cfg T n s.system = .ok x ∧
      (present cfg.alloc n (answer s n) = .ok (t, x.isInline) ∨
        (∃ e, present cfg.alloc n (answer s n) = .err e) ∧ t = Nat.toDigits 10 n) ∧
      run cfg x ops = .ok (absRun cfg.alloc t (decide (62 < utf8Len t)) ops) := by
  have hc := C51_catalogue (cfg := cfg) s hn
  have hp : ∀ t i, present cfg.alloc n (answer s n) = .ok (t, i) → (!i) = decide (62 < utf8Len t) := by
    intro t i h
    have h' := present_text h
    rw [h', present, deliver] at h
    split at h
    · next hl => cases h; simp; omega
    · next hl =>
      split at h
      · cases h; simp; omega
      · cases h
  have see : ∀ {ε : Type} {r : Res ε NStr} {t : List Char} {i : Bool}, r.Good (Reachable cfg) → view r = .ok (t, i) →
      ∃ x, r = .ok x ∧ x.isInline = i ∧ run cfg x ops = .ok (absRun cfg.alloc t (!i) ops) := by
    intro ε r t i hg hv
    cases r with
    | ok x =>
      simp only [view, Res.bind] at hv
      split at hv
      · next t' ht =>
        cases hv
        exact ⟨x, rfl, rfl, run_refines (reachable_text (hg x rfl) ht) ops⟩
      · cases hv
    | _ => cases hv
  refine ⟨fun x hx => ?_, ?_⟩
  · cases hpr : present cfg.alloc n (answer s n) with
    | ok p =>
      rw [hpr] at hc
      obtain ⟨x', h1, h2, h3⟩ := see (fun a h => (C80_named s).1 a h) hc
      rw [hx] at h1
      cases h1
      exact ⟨p.1, present_text hpr, by rw [h3, hp p.1 p.2 hpr]⟩
    | _ =>
      obtain ⟨t, ht, -⟩ := reachable_holds ((C80_named s).1 x hx)
      rw [hpr, hx] at hc
      simp only [view, Res.bind, ht.asStr] at hc
      cases hc
  · rcases C41_always_succeeds (cfg := cfg) (T := T) s hn with ⟨p, h1, h2⟩ | ⟨e, h1, h2⟩
    · obtain ⟨x, h3, h4, h5⟩ := see (fun a h => (C80_named s).2 a h) h2
      rw [hc] at h1
      exact ⟨x, p.1, h3, .inl (by rw [h4]; exact h1), by rw [h5, hp p.1 p.2 h1]⟩
    · obtain ⟨x, h3, h4, h5⟩ := see (fun a h => (C80_named s).2 a h) h2
      rw [hc] at h1
      have hl : ¬ 62 < utf8Len (Nat.toDigits 10 n) := by
        have h6 := C51_catalogue (cfg := cfg) .decimal hn
        have h7 := C47_decimal hn
        rw [show tryToNominal cfg T n Named.decimal.system = decimal.tryFormat cfg T n from rfl, h7] at h6
        have h8 : present cfg.alloc n (.text (Nat.toDigits 10 n)) = .ok (Nat.toDigits 10 n, true) := h6.symm
        rw [present, deliver] at h8
        split at h8
        · omega
        · split at h8 <;> cases h8
      exact ⟨x, _, h3, .inr ⟨⟨e, h1⟩, rfl⟩, by rw [h5]; simp [hl]⟩

/-- Numbering a list: `8.to_nominal(&RomanUpper)`, then `try_push_str(". ")` and `try_push_front('§')`, in a build
without `alloc`. -/
example : absRun false ['V', 'I', 'I', 'I'] false [.pushStr ['.', ' '], .pushFront '§'] =
      [(['V', 'I', 'I', 'I', '.', ' '], false, true), (['§', 'V', 'I', 'I', 'I', '.', ' '], false, true)] ∧
    answer .romanUpper 8 = .text ['V', 'I', 'I', 'I'] := by decide +kernel

end Nominals.Props
