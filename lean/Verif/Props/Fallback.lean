import Verif.Props.Inline
import Verif.Props.Repertoire

/-!
# Property C75: `to_nominal` writes no two numbers alike, and its decimal fallback can be told from the system's own texts

Vocabulary: `Verif/Spec/Outcome.lean`, `Verif/Spec/Catalogue.lean`.
-/

namespace Nominals.Props

open Nominals.Spec

/-- The systems whose own texts contain ASCII digits. -/
def ownsAsciiDigits : Named → Bool
  | .decimal | .hexUpper | .hexLower => true
  | _ => false

theorem repertoire_no_digit (s : Named) (hs : ownsAsciiDigits s = false) : ∀ c ∈ repertoire s, c.isDigit = false := by
  cases s with
  | chinese k o =>
    obtain ⟨sc, u⟩ := o
    cases k <;> cases u <;> cases sc <;> decide +kernel
  | decimal | hexUpper | hexLower => cases hs
  | _ => decide +kernel

theorem digitChar_isDigit {d : Nat} (h : d < 10) : (Nat.digitChar d).isDigit = true := by
  have : ∀ d, d < 10 → (Nat.digitChar d).isDigit = true := by decide
  exact this d h

theorem decimal_isDigit {n : Nat} : ∀ c ∈ Nat.toDigits 10 n, c.isDigit = true := by
  intro c hc
  obtain ⟨d, hd, rfl⟩ := toDigits_mem (by omega) hc
  exact digitChar_isDigit hd

/-- Decimal and hexadecimal never fail, so they never need the fallback. -/
theorem owns_never_fails {cfg : Cfg} {T : IntTy} {n : Nat} {s : Named} (hs : ownsAsciiDigits s = true) (hn : T.Fits cfg n) (e : Error) :
    view (tryToNominal cfg T n s.system) ≠ .err e := by
  have hf : firstLong s = none := by cases s <;> first | rfl | cases hs
  have h1 := ((C57_first_long s hn).1 (fun k hk => by rw [hf] at hk; cases hk)).1
  have ht : ∃ t, answer s n = .text t := by
    cases s <;> first | exact ⟨_, rfl⟩ | cases hs
  obtain ⟨t, ht⟩ := ht
  rw [C51_catalogue s hn, ht, present, deliver] at h1 ⊢
  split
  · simp
  · split
    · simp
    · rw [if_neg ‹_›, if_neg ‹_›] at h1
      exact absurd rfl h1

/-- C75. Whatever `to_nominal` returned, one look at the text tells whether it is the system's own or the decimal fallback: the
fallback consists of ASCII digits and the system's own texts contain none. (Decimal and hexadecimal never fall back.) -/
theorem C75_fallback_visible {cfg : Cfg} {T : IntTy} {n : Nat} (s : Named) (hn : T.Fits cfg n) {t : List Char} {i : Bool}
    (h : view (toNominal cfg T n s.system) = .ok (t, i)) :
    ((∃ c ∈ t, c.isDigit = true) ∧ s ≠ .decimal ∧ s ≠ .hexUpper ∧ s ≠ .hexLower ↔ ∃ e, view (tryToNominal cfg T n s.system) = .err e) := by
  constructor
  · rintro ⟨⟨c, hc, hd⟩, h1, h2, h3⟩
    have hs : ownsAsciiDigits s = false := by cases s <;> first | rfl | contradiction
    rcases C41_always_succeeds s hn with ⟨x, e1, e2⟩ | ⟨e, e1, _⟩
    · rw [e2] at h
      injection h with h
      subst h
      have := repertoire_no_digit s hs c (C66_repertoire s hn e1 c hc)
      rw [hd] at this
      cases this
    · exact ⟨e, e1⟩
  · rintro ⟨e, he⟩
    have ho : ownsAsciiDigits s = false := by
      cases h : ownsAsciiDigits s with
      | false => rfl
      | true => exact absurd he (owns_never_fails h hn e)
    refine ⟨?_, (by rintro rfl; cases ho), (by rintro rfl; cases ho), (by rintro rfl; cases ho)⟩
    rcases C41_always_succeeds s hn with ⟨x, e1, _⟩ | ⟨_, _, e2⟩
    · rw [he] at e1; cases e1
    · rw [e2] at h
      injection h with h
      injection h with h _
      subst h
      cases hl : Nat.toDigits 10 n with
      | nil => exact absurd hl (toDigits_ne_nil (by omega))
      | cons c l => exact ⟨c, by simp, decimal_isDigit c (by rw [hl]; simp)⟩

/-- A digit betrays the fallback of `Georgian` for 0; for 14 there is none. -/
example : view (toNominal ⟨true, .w64, true⟩ .u8 0 Named.georgian.system) = .ok (['0'], true) ∧
    view (tryToNominal ⟨true, .w64, true⟩ .u8 0 Named.georgian.system) = .err .noZeroSymbol ∧
    view (toNominal ⟨true, .w64, true⟩ .u8 14 Named.georgian.system) = .ok (['ი', 'დ'], true) ∧
    view (tryToNominal ⟨true, .w64, true⟩ .u8 14 Named.georgian.system) = .ok (['ი', 'დ'], true) := by decide +kernel

/-- C75. The infallible `to_nominal` never writes two numbers alike either: a number that the system cannot write, or a text
that does not fit, is replaced by a decimal numeral no other number has. This holds across integer types, builds and pointer
widths. -/
theorem C75_injective {cfg cfg' : Cfg} {T T' : IntTy} {n m : Nat} (s : Named) (hn : T.Fits cfg n) (hm : T'.Fits cfg' m)
    {t : List Char} {i j : Bool} (h1 : view (toNominal cfg T n s.system) = .ok (t, i))
    (h2 : view (toNominal cfg' T' m s.system) = .ok (t, j)) : n = m := by
  have v1 := C75_fallback_visible s hn h1
  have v2 := C75_fallback_visible s hm h2
  have both := v1.symm.trans v2
  rcases C41_always_succeeds s hn with ⟨x, a1, a2⟩ | ⟨e, a1, a2⟩
  · rcases C41_always_succeeds s hm with ⟨y, b1, b2⟩ | ⟨e', b1, b2⟩
    · rw [a2] at h1
      rw [b2] at h2
      injection h1 with h1
      injection h2 with h2
      subst h1 h2
      exact C56_injective s hn hm a1 b1
    · obtain ⟨e, he⟩ := both.mpr ⟨e', b1⟩
      rw [a1] at he
      cases he
  · rcases C41_always_succeeds s hm with ⟨y, b1, b2⟩ | ⟨e', b1, b2⟩
    · obtain ⟨e, he⟩ := both.mp ⟨e, a1⟩
      rw [b1] at he
      cases he
    · rw [a2] at h1
      rw [b2] at h2
      injection h1 with h1
      injection h2 with h2
      injection h1 with h1 _
      injection h2 with h2 _
      exact toDigits_map_injective (b := 10) (f := id) (by omega) (by decide) (by simp [h1, h2])

/-- Double circled 10 and 11 (the first fallback), a zero without a symbol, and a Hebrew numeral too long for the inline buffer:
without `alloc` 11,315 comes out in decimal, with `alloc` it does not. -/
example : view (toNominal ⟨true, .w64, true⟩ .u8 10 Named.doubleCircledNumber.system) = .ok (['⓾'], true) ∧
    view (toNominal ⟨true, .w64, true⟩ .u8 11 Named.doubleCircledNumber.system) = .ok (['1', '1'], true) ∧
    view (toNominal ⟨true, .w64, true⟩ .u8 0 Named.georgian.system) = .ok (['0'], true) ∧
    view (toNominal ⟨false, .w32, true⟩ .u16 11315 Named.hebrew.system) = .ok (['1', '1', '3', '1', '5'], true) ∧
    ∃ t, '1' ∉ t ∧ view (toNominal ⟨true, .w32, true⟩ .u16 11315 Named.hebrew.system) = .ok (t, false) := by
  refine ⟨by decide +kernel, by decide +kernel, by decide +kernel, ?_, ?_⟩
  · obtain ⟨t, _, hv⟩ := (C57_first_long (cfg := ⟨false, .w32, true⟩) (T := .u16) (n := 11315) .hebrew (by decide)).2 rfl
    rcases C41_always_succeeds (cfg := ⟨false, .w32, true⟩) (T := .u16) (n := 11315) .hebrew (by decide) with ⟨x, h, _⟩ | ⟨_, _, h⟩
    · rw [hv] at h; cases h
    · exact h
  · obtain ⟨t, _, hv⟩ := (C57_first_long (cfg := ⟨true, .w32, true⟩) (T := .u16) (n := 11315) .hebrew (by decide)).2 rfl
    rcases C41_always_succeeds (cfg := ⟨true, .w32, true⟩) (T := .u16) (n := 11315) .hebrew (by decide) with ⟨x, h, h'⟩ | ⟨e, h, _⟩
    · rw [hv] at h
      cases h
      exact ⟨t, fun hm => absurd (C66_repertoire .hebrew (by decide) hv '1' hm) (by decide +kernel), h'⟩
    · rw [hv] at h; cases h

end Nominals.Props
