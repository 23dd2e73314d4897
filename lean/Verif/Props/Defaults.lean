import Verif.Spec.Defaults
import Verif.Props.Collections

/-!
# Property C83: adapters as fallbacks

Vocabulary: `Verif/Spec/Defaults.lean`, `Verif/Spec/Collections.lean`.
-/

namespace Nominals.Props

open Nominals.Spec

theorem brings_hasDigits {F : FallbackTy} {al : List Char} (h : Brings F al) : HasDigits (F.default.level 0) al := by
  induction h with
  | noFallback => exact ⟨rfl, fun i hi => absurd hi (by simp)⟩
  | other d al h => exact h
  | chain a b x y _ _ ha hb => exact chain_hasDigits ha hb
  | restrict a => exact ⟨rfl, fun i hi => absurd hi (by simp)⟩

theorem leader_flags (F : FallbackTy) : (F.default.level 0).hasZero = ((leader F).level 0).hasZero ∧
    (F.default.level 0).zeroBased = ((leader F).level 0).zeroBased := by
  induction F with
  | noFallback => exact ⟨rfl, rfl⟩
  | other d => exact ⟨rfl, rfl⟩
  | chain a b ha _ => exact ha
  | restrict a ha => exact ha

/-- C83. A fallback type that brings no symbols - a `Restrict`, or a chain of such - is as good as `NoFallback`: for every collection in
front of it, every number and every budget the run is the same. -/
theorem C83_as_none {cfg : Cfg} {T : IntTy} {F : FallbackTy} (h : Brings F []) (c : Coll) (fuel depth n : Nat) :
    digitTryFormat cfg T fuel depth (.withFallback c F.default) n = digitTryFormat cfg T fuel depth (.withFallback c .noFallback) n := by
  have hl : (F.default.level 0).len = 0 := (brings_hasDigits h).1
  cases depth with
  | zero => rfl
  | succ depth =>
    have e : ∀ d : DigitSys, ((DigitSys.withFallback c d).fallback.level 0).len = (d.level 0).len := fun _ => rfl
    have e0 : ∀ d : DigitSys, (DigitSys.withFallback c d).level 0 = c := fun _ => rfl
    have en : (DigitSys.noFallback.level 0).len = 0 := rfl
    simp only [digitTryFormat, e, e0, hl, en]
    simp

/-- Two restricted fallbacks in a chain are no fallback. -/
example (n : Nat) : digitTryFormat ⟨true, .w64, true⟩ .u8 9 3
      (.withFallback ⟨true, false, true, 3, fun i => ['a', 'b', 'c'][i]?⟩ (FallbackTy.chain (.restrict (.other decimal)) (.restrict .noFallback)).default) n =
    digitTryFormat ⟨true, .w64, true⟩ .u8 9 3 (.withFallback ⟨true, false, true, 3, fun i => ['a', 'b', 'c'][i]?⟩ .noFallback) n :=
  C83_as_none (.chain _ _ [] [] (.restrict _) (.restrict _)) _ _ _ _

/-- C83. A fallback type that brings symbols writes the numbers handed over to it with them, in the order of the chain, with the zero digit
and the start of counting of its first part. (An adapter is never fixed, so it keeps every number.) -/
theorem C83_writes {cfg : Cfg} {T : IntTy} {c : Coll} {F G : FallbackTy} {al : List Char} {n : Nat} {r : Res Error (List Char × Bool)}
    (hb : Brings (.chain F G) al) (hne : al ≠ []) (hu : al.length < 2 ^ cfg.ptr.bits) (hn : T.Fits cfg n) (hh : HandsOver cfg T c n)
    (hw : Writes cfg.alloc (T.bits cfg) ((leader F).level 0).hasZero ((leader F).level 0).zeroBased al n r) :
    Ends cfg T (.withFallback c (FallbackTy.chain F G).default) n r := by
  have hd := brings_hasDigits hb
  have hl : ((FallbackTy.chain F G).default.level 0).len ≠ 0 := by
    rw [hd.1]
    exact fun h => hne (List.length_eq_zero_iff.mp h)
  have hk : ¬ HandsOver cfg T ((FallbackTy.chain F G).default.level 0) n := fun h => by
    have := h.1
    cases this
  have hw' : Writes cfg.alloc (T.bits cfg) ((FallbackTy.chain F G).default.level 0).hasZero ((FallbackTy.chain F G).default.level 0).zeroBased
      al n r := by
    have hf := leader_flags (.chain F G)
    rw [hf.1, hf.2]
    exact hw
  have hv := writes_view (cfg := cfg) (T := T) (d := (FallbackTy.chain F G).default) (fuel := n + 64) (depth := 0) hd hu hn hk (Nat.le_refl _) hw'
  refine ⟨hv.1, n + 64, 2, ?_⟩
  rw [(tryFormat_step (n + 64) 1 (DigitSys.withFallback c (FallbackTy.chain F G).default)).1 hh]
  have e1 : (DigitSys.withFallback c (FallbackTy.chain F G).default).level 1 = (FallbackTy.chain F G).default.level 0 := rfl
  rw [e1, if_neg hl]
  exact hv.2

/-- The number 26 handed over to the letters, the decimals before them being restricted: the decimals' zero digit decides. -/
example : HandsOver ⟨true, .w64, true⟩ .u8 ⟨true, false, true, 3, fun i => ['a', 'b', 'c'][i]?⟩ 26 ∧
    ((leader (.restrict (.other decimal))).level 0).hasZero = true ∧
    Brings (.chain (.restrict (.other decimal)) (.other letterUpper)) ([] ++ letterUpperDigits) ∧
    Writes true 8 true true letterUpperDigits 26 (deliver true 26 (spell letterUpperDigits [1, 0])) :=
  ⟨⟨rfl, by decide, by decide⟩, rfl, .chain _ _ _ _ (.restrict _) (.other _ _ (letterUpper_plain ⟨true, .w64, true⟩).digits),
    .numeral [1, 0] (by decide) rfl (by decide) ⟨by decide, by decide, .inr ⟨1, [0], rfl, by decide⟩⟩⟩

/-- C83. Taken as a system of its own, a default that brings no symbols cannot write any number: `NoZeroSymbol` for 0 if it counts from one,
a panic otherwise. -/
theorem C83_alone {cfg : Cfg} {T : IntTy} {F : FallbackTy} {n : Nat} (h : Brings F []) (hf : ∀ d, F = .other d → (d.level 0).fixed = false) :
    F.default.tryFormat cfg T n =
      if ((leader F).level 0).hasZero = false ∧ ((leader F).level 0).zeroBased = false ∧ n = 0 then .err .noZeroSymbol else .panic := by
  obtain ⟨h1, h2⟩ := leader_flags F
  rw [← h1, ← h2]
  refine C49_empty_collection (.inl ?_) (brings_hasDigits h).1
  cases F with
  | other d => exact hf d rfl
  | _ => rfl

/-- A fixed set of three symbols in front of `Restrict<Decimal>`, and of `Chain<Restrict<Decimal>, LetterUpper>`, whose letters count with
the zero digit of the decimals. -/
def abc : Coll := { fixed := true, hasZero := false, zeroBased := true, len := 3, digit := fun i => ['a', 'b', 'c'][i]? }

example : Brings (.restrict (.other decimal)) [] ∧ view ((DigitSys.withFallback abc (FallbackTy.restrict (.other decimal)).default).tryFormat
      ⟨true, .w64, true⟩ .u8 3) = .err (.outOfBounds 3) ∧
    view ((DigitSys.withFallback abc (FallbackTy.other decimal).default).tryFormat ⟨true, .w64, true⟩ .u8 3) = .ok (['3'], true) :=
  ⟨.restrict _, by decide +kernel, by decide +kernel⟩

example : Brings (.chain (.restrict (.other decimal)) (.other letterUpper)) ([] ++ letterUpperDigits) ∧
    view ((DigitSys.withFallback abc (FallbackTy.chain (.restrict (.other decimal)) (.other letterUpper)).default).tryFormat
      ⟨true, .w64, true⟩ .u8 26) = .ok (['B', 'A'], true) :=
  ⟨.chain _ _ _ _ (.restrict _) (.other _ _ (letterUpper_plain ⟨true, .w64, true⟩).digits), by decide +kernel⟩

example : (FallbackTy.restrict (.other decimal)).default.tryFormat ⟨true, .w64, true⟩ .u8 7 = .panic := by decide +kernel

end Nominals.Props
