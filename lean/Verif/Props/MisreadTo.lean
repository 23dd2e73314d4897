import Verif.Props.Misread
import Verif.Props.Fallback
import Verif.Props.Previews

/-!
C84 for `to_nominal`: the decimal fallback adds no ambiguity between two systems unless one of them is hexadecimal.
-/

namespace Nominals.Props

open Nominals.Spec

/-- The hexadecimal systems. -/
def IsHex (s : Named) : Prop := s = .hexUpper ∨ s = .hexLower

theorem misread_decimal {s : Named} (h : Misread .decimal s) : IsHex s := by
  have key : ∀ p ∈ ambiguousPairs, (p.1 = .decimal → p.2 = .hexUpper ∨ p.2 = .hexLower) ∧ p.2 ≠ .decimal := by decide
  cases h with
  | pair _ _ h => exact (key _ h).1 rfl
  | riap _ _ h => exact ((key _ h).2 rfl).elim

theorem decimal_misread {s : Named} (h : Misread s .decimal) : IsHex s := by
  have key : ∀ p ∈ ambiguousPairs, (p.1 = .decimal → p.2 = .hexUpper ∨ p.2 = .hexLower) ∧ p.2 ≠ .decimal := by decide
  cases h with
  | pair _ _ h => exact ((key _ h).2 rfl).elim
  | riap _ _ h => exact (key _ h).1 rfl

/-- What `to_nominal` writes is the system's own text or that of `Decimal`. -/
theorem own_or_decimal {cfg : Cfg} {T : IntTy} {n : Nat} (s : Named) (hn : T.Fits cfg n) {t : List Char} {i : Bool}
    (h : view (toNominal cfg T n s.system) = .ok (t, i)) :
    view (tryToNominal cfg T n s.system) = .ok (t, i) ∨
    (∃ e, view (tryToNominal cfg T n s.system) = .err e) ∧ t = Nat.toDigits 10 n ∧ answer .decimal n = .text t := by
  rcases C41_always_succeeds s hn with ⟨x, a1, a2⟩ | ⟨e, a1, a2⟩
  · rw [a2] at h
    injection h with h
    subst h
    exact .inl a1
  · rw [a2] at h
    injection h with h
    injection h with h _
    subst h
    exact .inr ⟨⟨e, a1⟩, rfl, rfl⟩

theorem hex_small {s : Named} (hs : IsHex s) {n : Nat} (hn : n < 10) : answer s n = .text (Nat.toDigits 10 n) := by
  have key : ∀ n, n < 10 → answer .hexUpper n = .text (Nat.toDigits 10 n) ∧ answer .hexLower n = .text (Nat.toDigits 10 n) := by decide +kernel
  rcases hs with rfl | rfl
  · exact (key n hn).1
  · exact (key n hn).2

theorem fallback_own {s : Named} {n m : Nat} (hn : n < 2 ^ 128) (hm : m < 2 ^ 128) (h : answer s m = .text (Nat.toDigits 10 n)) :
    n = m ∨ IsHex s ∧ 10 ≤ n := by
  by_cases hx : IsHex s
  · by_cases h10 : n < 10
    · exact .inl (answer_injective s hn hm (hex_small hx h10) h)
    · exact .inr ⟨hx, by omega⟩
  · exact .inl (answer_agree (fun h => hx (misread_decimal h)) hn hm rfl h)

/-- C84 with `to_nominal`. Apart from the listed pairs of systems, a text that `to_nominal` writes with two named systems stands for the same
number in both, whatever the integer types and builds, unless one is hexadecimal and the other falls back to decimal for a number with two or
more digits. -/
theorem C84_to_nominal {cfg cfg' : Cfg} {T T' : IntTy} {n m : Nat} {s s' : Named} (hne : ¬ Misread s s') (hn : T.Fits cfg n)
    (hm : T'.Fits cfg' m) {t : List Char} {i j : Bool} (h1 : view (toNominal cfg T n s.system) = .ok (t, i))
    (h2 : view (toNominal cfg' T' m s'.system) = .ok (t, j)) :
    n = m ∨ IsHex s ∧ 10 ≤ m ∧ (∃ e, view (tryToNominal cfg' T' m s'.system) = .err e) ∨
      IsHex s' ∧ 10 ≤ n ∧ ∃ e, view (tryToNominal cfg T n s.system) = .err e := by
  have hn' := Nominals.fits_lt hn
  have hm' := Nominals.fits_lt hm
  have own : ∀ {cfg : Cfg} {T : IntTy} {n : Nat} {s : Named} {i : Bool}, T.Fits cfg n → view (tryToNominal cfg T n s.system) = .ok (t, i) →
      answer s n = .text t := fun hn h => by
    rw [C51_catalogue _ hn] at h
    exact present_text h
  rcases own_or_decimal s hn h1 with a | ⟨ae, at_, aa⟩ <;> rcases own_or_decimal s' hm h2 with b | ⟨be, bt, ba⟩
  · exact .inl (C84_agree hne hn hm a b)
  · subst bt
    rcases fallback_own hm' hn' (own hn a) with h | ⟨h, h'⟩
    · exact .inl h.symm
    · exact .inr (.inl ⟨h, h', be⟩)
  · subst at_
    rcases fallback_own hn' hm' (own hm b) with h | ⟨h, h'⟩
    · exact .inl h
    · exact .inr (.inr ⟨h, h', ae⟩)
  · exact .inl (answer_injective .decimal hn' hm' aa ba)

/-- Circled 51 falls back to decimal, as `Decimal` writes 51 itself. -/
example : ¬ Misread .circledNumber .decimal ∧
    view (toNominal ⟨false, .w16, true⟩ .u8 51 Named.circledNumber.system) = .ok (['5', '1'], true) ∧
    view (toNominal ⟨true, .w64, true⟩ .u64 51 Named.decimal.system) = .ok (['5', '1'], true) := by
  refine ⟨?_, by decide +kernel, by decide +kernel⟩
  rintro (⟨_, _, h⟩ | ⟨_, _, h⟩) <;> revert h <;> decide

/-- The number whose hexadecimal digits are the decimal digits of `n`. -/
def asHex (n : Nat) : Nat := if n < 10 then n else 16 * asHex (n / 10) + n % 10
termination_by n

theorem asHex_digits (n : Nat) : Nat.toDigits 16 (asHex n) = Nat.toDigits 10 n := by
  induction n using asHex.induct with
  | case1 n h =>
    rw [asHex, if_pos h, Nat.toDigits_eq_if (by omega), if_pos (by omega), Nat.toDigits_eq_if (by omega), if_pos h]
  | case2 n h ih =>
    have hpos : 1 ≤ asHex (n / 10) := by
      rw [asHex]
      split
      · omega
      · have : 1 ≤ asHex (n / 10 / 10) ∨ asHex (n / 10 / 10) = 0 := by omega
        rcases this with h | h
        · omega
        · exfalso
          rename_i h'
          have e : ∀ k, asHex k = 0 → k = 0 := fun k => by
            induction k using asHex.induct with
            | case1 k hk => rw [asHex, if_pos hk]; exact id
            | case2 k hk ihk =>
              rw [asHex, if_neg hk]
              intro h0
              have := ihk (by omega)
              omega
          have := e _ h
          omega
    rw [asHex, if_neg h, Nat.toDigits_eq_if (by omega), if_neg (by omega), Nat.toDigits_eq_if (b := 10) (n := n) (by omega), if_neg h]
    congr 1
    · rw [← ih]
      congr 1
      omega
    · congr 2
      omega

theorem asHex_gt {n : Nat} (h : 10 ≤ n) : n < asHex n := by
  have ge : ∀ k, k ≤ asHex k := fun k => by
    induction k using asHex.induct with
    | case1 k hk => rw [asHex, if_pos hk]; exact Nat.le_refl _
    | case2 k hk ihk => rw [asHex, if_neg hk]; omega
  rw [asHex, if_neg (by omega)]
  have := ge (n / 10)
  omega

theorem asHex_lt : ∀ (k n : Nat), n < 10 ^ k → asHex n < 16 ^ k
  | 0, n, h => by
    rw [asHex, if_pos (by omega)]
    exact h
  | k + 1, n, h => by
    rw [asHex]
    have h16 : 1 ≤ 16 ^ k := Nat.pow_pos (by omega)
    rw [Nat.pow_succ] at h ⊢
    split
    · omega
    · have := asHex_lt k (n / 10) (by omega)
      omega

/-- C84 with `to_nominal`. Whenever a system falls back to decimal for a number of two to 32 digits, a hexadecimal system writes a greater
number with the same text, in every build. -/
theorem C84_hex_fallback {cfg : Cfg} {T : IntTy} {m : Nat} {s s' : Named} (hs : IsHex s) (hm : T.Fits cfg m) (h10 : 10 ≤ m) (h32 : m < 10 ^ 32)
    {e : Error} (he : view (tryToNominal cfg T m s'.system) = .err e) :
    ∃ n t, m < n ∧ n < 2 ^ 128 ∧ view (toNominal cfg T m s'.system) = .ok (t, true) ∧
      ∀ cfg', view (toNominal cfg' .u128 n s.system) = .ok (t, true) := by
  have hlt : asHex m < 2 ^ 128 := by
    have := asHex_lt 32 m h32
    exact Nat.lt_of_lt_of_le this (by decide)
  refine ⟨asHex m, Nat.toDigits 10 m, asHex_gt h10, hlt, ?_, fun cfg' => ?_⟩
  · rcases C41_always_succeeds s' hm with ⟨x, a1, _⟩ | ⟨_, _, a2⟩
    · rw [a1] at he
      cases he
    · exact a2
  · have hu : (Nat.toDigits 10 m).map Char.toUpper = Nat.toDigits 10 m := by
      rw [List.map_congr_left (g := id), List.map_id]
      intro c hc
      obtain ⟨d, hd, rfl⟩ := toDigits_mem (by omega) hc
      have : ∀ d, d < 10 → (Nat.digitChar d).toUpper = id (Nat.digitChar d) := by decide
      exact this d hd
    have ha : answer s (asHex m) = .text (Nat.toDigits 10 m) := by
      rcases hs with rfl | rfl
      · show Answer.text ((Nat.toDigits 16 (asHex m)).map Char.toUpper) = _
        rw [asHex_digits, hu]
      · show Answer.text (Nat.toDigits 16 (asHex m)) = _
        rw [asHex_digits]
    have hl : utf8Len (Nat.toDigits 10 m) ≤ 62 := by
      have h16 := digits16_short hlt
      rw [asHex_digits] at h16
      rw [decimal_utf8]
      exact h16
    have hv := short_view hlt ha hl cfg'
    rcases C41_always_succeeds s (show IntTy.u128.Fits cfg' (asHex m) from hlt) with ⟨x, a1, a2⟩ | ⟨_, a1, _⟩
    · rw [a1] at hv
      injection hv with hv
      rw [a2, hv]
    · rw [a1] at hv
      cases hv

/-- Circled 51 and hexadecimal 81. -/
example : view (toNominal ⟨true, .w64, true⟩ .u8 51 Named.circledNumber.system) = .ok (['5', '1'], true) ∧
    view (toNominal ⟨true, .w64, true⟩ .u8 81 Named.hexUpper.system) = .ok (['5', '1'], true) ∧
    view (tryToNominal ⟨true, .w64, true⟩ .u8 51 Named.circledNumber.system) = .err (.outOfBounds 51) := by decide +kernel

end Nominals.Props
