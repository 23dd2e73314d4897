import Verif.Spec.Parse
import Verif.Props.AsciiCase
import Verif.Props.Sorting

/-!
# Property C90: labels read with the standard library's number parsers

Vocabulary: `Verif/Spec/Parse.lean`.
-/

namespace Nominals.Props

open Nominals Nominals.Spec

theorem parseLoop_snoc (radix limit : Nat) (b : UInt8) : ∀ (bs : List UInt8) (acc : Nat),
    parseLoop radix limit acc (bs ++ [b]) = (match parseLoop radix limit acc bs with | .error e => .error e | .ok a => parseStep radix limit a b)
  | [], acc => by
    simp only [List.nil_append, parseLoop]
    cases parseStep radix limit acc b <;> rfl
  | c :: bs, acc => by
    simp only [List.cons_append, parseLoop]
    cases parseStep radix limit acc c with
    | error e => rfl
    | ok a => exact parseLoop_snoc radix limit b bs a

/-- A character of the numeral: one byte, which is a digit of the right value and no sign. -/
def DigitBytes (radix : Nat) (f : Char → Char) : Prop := ∀ d, d < radix → ∃ b, String.utf8EncodeChar (f (Nat.digitChar d)) = [b] ∧
  byteDigit radix b = some d

theorem digitBytes_ten : DigitBytes 10 id := by
  have : ∀ d, d < 10 → ((String.utf8EncodeChar (id (Nat.digitChar d))).map (byteDigit 10)) = [some d] := by decide
  intro d hd
  have h := this d hd
  obtain ⟨b, e, h'⟩ := List.map_eq_singleton_iff.mp h
  exact ⟨b, e, h'⟩

theorem digitBytes_lower : DigitBytes 16 id := by
  have : ∀ d, d < 16 → ((String.utf8EncodeChar (id (Nat.digitChar d))).map (byteDigit 16)) = [some d] := by decide
  intro d hd
  have h := this d hd
  obtain ⟨b, e, h'⟩ := List.map_eq_singleton_iff.mp h
  exact ⟨b, e, h'⟩

theorem digitBytes_upper : DigitBytes 16 Char.toUpper := by
  have : ∀ d, d < 16 → ((String.utf8EncodeChar (Char.toUpper (Nat.digitChar d))).map (byteDigit 16)) = [some d] := by decide +kernel
  intro d hd
  have h := this d hd
  obtain ⟨b, e, h'⟩ := List.map_eq_singleton_iff.mp h
  exact ⟨b, e, h'⟩

theorem parseLoop_numeral {b limit : Nat} {f : Char → Char} (hb : 2 ≤ b) (hf : DigitBytes b f) (n : Nat) :
    parseLoop b limit 0 (utf8Encode ((Nat.toDigits b n).map f)) = if n < limit then .ok n else .error .posOverflow := by
  induction n using Nat.strongRecOn with
  | ind n ih =>
    rw [Nat.toDigits_eq_if (by omega)]
    split
    · rename_i h
      obtain ⟨x, e1, e2⟩ := hf n h
      simp only [List.map_cons, List.map_nil, utf8Encode, List.flatMap_cons, List.flatMap_nil, List.append_nil, e1, parseLoop, parseStep, e2, Nat.zero_mul, Nat.zero_add]
      by_cases hl : n < limit
      · rw [if_pos ⟨by omega, hl⟩, if_pos hl]
      · rw [if_neg (by omega), if_neg hl]
    · rename_i h
      obtain ⟨x, e1, e2⟩ := hf (n % b) (Nat.mod_lt _ (by omega))
      have hd := Nat.div_add_mod n b
      have hm : n / b * b = b * (n / b) := Nat.mul_comm _ _
      have hlt : n / b < n := Nat.div_lt_self (by omega) hb
      have he : utf8Encode (List.map f (Nat.toDigits b (n / b) ++ [Nat.digitChar (n % b)])) = utf8Encode (List.map f (Nat.toDigits b (n / b))) ++ [x] := by
        simp [utf8Encode, e1]
      rw [he, parseLoop_snoc, ih _ hlt]
      by_cases h1 : n / b < limit
      · simp only [if_pos h1, parseStep, e2]
        by_cases hl : n < limit
        · rw [if_pos ⟨by omega, by omega⟩, if_pos hl, hm, hd]
        · rw [if_neg (by omega), if_neg hl]
      · rw [if_neg h1, if_neg (by omega)]

theorem byteDigit_sign (radix : Nat) : byteDigit radix 43 = none ∧ byteDigit radix 45 = none := by
  constructor <;> rfl

theorem parseBytes_of_digit {radix limit : Nat} {b : UInt8} {bs : List UInt8} (h : byteDigit radix b ≠ none) :
    parseBytes radix limit (b :: bs) = parseLoop radix limit 0 (b :: bs) := by
  have h1 : b ≠ 43 := by rintro rfl; exact h (byteDigit_sign radix).1
  have h2 : b ≠ 45 := by rintro rfl; exact h (byteDigit_sign radix).2
  cases bs with
  | nil => simp [parseBytes, h1, h2]
  | cons c cs => simp [parseBytes, h1]

theorem parseBytes_bad {radix limit : Nat} {b : UInt8} {bs : List UInt8} (h : byteDigit radix b = none) (h1 : b ≠ 43) :
    parseBytes radix limit (b :: bs) = .error .invalidDigit := by
  cases bs with
  | nil => simp [parseBytes, h1, parseLoop, parseStep, h]
  | cons c cs => simp [parseBytes, h1, parseLoop, parseStep, h]

theorem parseBytes_numeral {b limit : Nat} {f : Char → Char} (hb : 2 ≤ b) (hf : DigitBytes b f) (n : Nat) :
    parseBytes b limit (utf8Encode ((Nat.toDigits b n).map f)) = if n < limit then .ok n else .error .posOverflow := by
  rw [← parseLoop_numeral hb hf n]
  cases hl : Nat.toDigits b n with
  | nil => exact absurd hl (toDigits_ne_nil hb)
  | cons c l =>
    obtain ⟨d, hd, rfl⟩ := toDigits_mem hb (c := c) (n := n) (by rw [hl]; simp)
    obtain ⟨x, e1, e2⟩ := hf d hd
    simp only [List.map_cons, utf8Encode, List.flatMap_cons, e1, List.cons_append, List.nil_append]
    exact parseBytes_of_digit (by rw [e2]; simp)

/-- The first byte of a character: the code point itself in ASCII, otherwise at least 0x80. -/
theorem first_byte (c : Char) : ∃ b bs, String.utf8EncodeChar c = b :: bs ∧ (c.toNat < 0x80 → b.toNat = c.toNat) ∧ (0x80 ≤ c.toNat → 0x80 ≤ b.toNat) := by
  have hlt : c.val.toNat < 0x110000 := by rcases char_valid c with h | h <;> omega
  have hc : c.toNat = c.val.toNat := rfl
  unfold String.utf8EncodeChar
  rw [hc]
  generalize c.val.toNat = v at *
  dsimp only
  split
  · exact ⟨_, _, rfl, fun _ => by simp; omega, fun _ => by omega⟩
  · split
    · exact ⟨_, _, rfl, fun _ => by omega, fun _ => by simp; omega⟩
    · split
      · exact ⟨_, _, rfl, fun _ => by omega, fun _ => by simp; omega⟩
      · exact ⟨_, _, rfl, fun _ => by omega, fun _ => by simp; omega⟩

theorem byteDigit_ten {b : UInt8} (h : ¬ (48 ≤ b.toNat ∧ b.toNat ≤ 57)) : byteDigit 10 b = none := by
  simp only [byteDigit, if_neg h]
  repeat' split
  all_goals first | rfl | omega | skip
  all_goals (rename_i h1 h2; split at h1 <;> (try split at h1) <;> simp at h1 <;> omega)

/-- A text that does not begin with a decimal digit or a plus sign is no number. -/
theorem parseBytes_text {limit : Nat} {c : Char} {t : List Char} (hd : c.isDigit = false) (hp : c ≠ '+') :
    parseBytes 10 limit (utf8Encode (c :: t)) = .error .invalidDigit := by
  obtain ⟨b, bs, e, h1, h2⟩ := first_byte c
  have hdig : ¬ (48 ≤ c.toNat ∧ c.toNat ≤ 57) := by
    intro h
    have : c.isDigit = true := by
      simp only [Char.isDigit, ge_iff_le, Bool.and_eq_true, decide_eq_true_eq]
      exact ⟨UInt32.le_iff_toNat_le.mpr h.1, UInt32.le_iff_toNat_le.mpr h.2⟩
    rw [hd] at this; cases this
  have hplus : c.toNat ≠ 43 := fun h => hp (Char.ext (UInt32.toNat_inj.mp h))
  simp only [utf8Encode, List.flatMap_cons, e, List.cons_append]
  rcases Nat.lt_or_ge c.toNat 0x80 with hc | hc
  · have := h1 hc
    refine parseBytes_bad (byteDigit_ten (by omega)) ?_
    rintro rfl
    exact hplus this.symm
  · have := h2 hc
    refine parseBytes_bad (byteDigit_ten (by omega)) ?_
    rintro rfl
    have h43 : (43 : UInt8).toNat = 43 := rfl
    omega

/-- C90, part 1. `label.parse::<U>()` on the label of any system, read into any integer type. Decimal labels, and the decimal
numerals that `to_nominal` falls back to, read back as the number (or overflow if `U` is too small). Every other label is
rejected for an invalid digit, in particular the other scripts' digits. Hexadecimal labels are the subject of part 2. -/
theorem C90_parse {cfg cfg' : Cfg} {T U : IntTy} {n : Nat} (s : Named) (hn : T.Fits cfg n) (h1 : s ≠ .hexUpper) (h2 : s ≠ .hexLower)
    {x : NStr} (h : toNominal cfg T n s.system = .ok x) :
    ((s = .decimal ∨ ∃ e, view (tryToNominal cfg T n s.system) = .err e) → parse cfg' U x = some (numeralReads cfg' U n)) ∧
    (¬ (s = .decimal ∨ ∃ e, view (tryToNominal cfg T n s.system) = .err e) → parse cfg' U x = some (.error .invalidDigit)) := by
  have numeral : ∀ {i : Bool}, view (toNominal cfg T n s.system) = .ok (Nat.toDigits 10 n, i) → parse cfg' U x = some (numeralReads cfg' U n) := by
    intro i hv
    obtain ⟨y, e, ht⟩ := view_text hv
    rw [h] at e
    injection e with e
    subst e
    have := parseBytes_numeral (limit := 2 ^ U.bits cfg') (by omega) digitBytes_ten n
    rw [List.map_id] at this
    rw [parse, fromStrRadix, strBytes_of_asStr ht, Option.map_some, this]
    rfl
  rcases C41_always_succeeds s hn with ⟨⟨t, i⟩, a1, a2⟩ | ⟨e, a1, a2⟩
  · refine ⟨?_, ?_⟩
    · rintro (rfl | ⟨e, he⟩)
      · rw [C51_catalogue .decimal hn] at a1
        have ht := present_text a1
        injection ht with ht
        subst ht
        exact numeral a2
      · rw [he] at a1; cases a1
    · intro hne
      have hs : ownsAsciiDigits s = false := by
        cases s <;> first | rfl | exact absurd rfl h1 | exact absurd rfl h2 | exact absurd (Or.inl rfl) hne
      obtain ⟨y, e, ht⟩ := view_text a2
      rw [h] at e
      injection e with e
      subst e
      rw [parse, fromStrRadix, strBytes_of_asStr ht, Option.map_some]
      cases t with
      | nil => exact absurd rfl ((C65_never_empty s hn).2 a2)
      | cons c t =>
        rw [parseBytes_text]
        · exact repertoire_no_digit s hs c (C66_repertoire s hn a1 c (by simp))
        · rintro rfl
          exact neutral_not_mem hn a2 (c := '+') (by decide) (fun h => absurd h (by decide)) (by simp)
  · refine ⟨fun _ => numeral a2, fun hne => absurd (Or.inr ⟨e, a1⟩) hne⟩

/-- A Thai label is no number for `parse`; the fallback of a system without text is. -/
example : ∃ x y, toNominal ⟨true, .w64, true⟩ .u16 300 Named.thai.system = .ok x ∧ parse ⟨false, .w16, false⟩ .u32 x = some (.error .invalidDigit) ∧
    toNominal ⟨true, .w64, true⟩ .u16 300 Named.circledNumber.system = .ok y ∧ parse ⟨false, .w16, false⟩ .u8 y = some (.error .posOverflow) ∧
    parse ⟨false, .w16, false⟩ .u16 y = some (.ok 300) := ⟨_, _, rfl, by rfl, rfl, by rfl, by rfl⟩

/-- C90, part 2. Hexadecimal labels of either case read back with `U::from_str_radix(&label, 16)`. -/
theorem C90_hex {cfg cfg' : Cfg} {T U : IntTy} {n : Nat} (s : Named) (hn : T.Fits cfg n) (hs : s = .hexUpper ∨ s = .hexLower)
    {x : NStr} (h : toNominal cfg T n s.system = .ok x) : fromStrRadix cfg' U 16 x = some (numeralReads cfg' U n) := by
  have ho : ownsAsciiDigits s = true := by rcases hs with rfl | rfl <;> rfl
  rcases C41_always_succeeds s hn with ⟨⟨t, i⟩, a1, a2⟩ | ⟨e, a1, _⟩
  · obtain ⟨y, e, ht⟩ := view_text a2
    rw [h] at e
    injection e with e
    subst e
    rw [C51_catalogue s hn] at a1
    have ha := present_text a1
    rw [fromStrRadix, strBytes_of_asStr ht, Option.map_some]
    rcases hs with rfl | rfl <;> (injection ha with ha; subst ha)
    · rw [parseBytes_numeral (by omega) digitBytes_upper]
      rfl
    · have := parseBytes_numeral (limit := 2 ^ U.bits cfg') (by omega) digitBytes_lower n
      rw [List.map_id] at this
      rw [this]
      rfl
  · exact absurd a1 (owns_never_fails ho hn e)

/-- 0xBEEF, read back as `u16` and too large for `u8`. -/
example : ∃ x, toNominal ⟨true, .w64, true⟩ .u16 0xbeef Named.hexUpper.system = .ok x ∧ x.asStr = some ['B', 'E', 'E', 'F'] ∧
    fromStrRadix ⟨true, .w64, true⟩ .u16 16 x = some (.ok 0xbeef) ∧ fromStrRadix ⟨true, .w64, true⟩ .u8 16 x = some (.error .posOverflow) :=
  ⟨_, rfl, by rfl, by rfl, by rfl⟩

/-- C90, part 3. So `parse` never misreads a label: whatever number it finds is the number the label was made from. Only hexadecimal
labels, which look decimal at times, have to be read with their own radix. -/
theorem C90_never_misread {cfg cfg' : Cfg} {T U : IntTy} {n m : Nat} (s : Named) (hn : T.Fits cfg n) (h1 : s ≠ .hexUpper) (h2 : s ≠ .hexLower)
    {x : NStr} (h : toNominal cfg T n s.system = .ok x) (hp : parse cfg' U x = some (.ok m)) : m = n := by
  obtain ⟨p1, p2⟩ := C90_parse (cfg' := cfg') (U := U) s hn h1 h2 h
  by_cases hc : s = .decimal ∨ ∃ e, view (tryToNominal cfg T n s.system) = .err e
  · rw [p1 hc, numeralReads] at hp
    split at hp
    · injection hp with hp
      injection hp with hp
      exact hp.symm
    · cases hp
  · rw [p2 hc] at hp
    cases hp

/-- 300 in decimal is 300 as `u16` and too large for `u8`; 16 in hexadecimal is `10`, which `parse` takes for ten and `from_str_radix` for
sixteen; Thai digits and Roman numerals are rejected; a double circled 11 is the fallback `11`. -/
example : ∃ a b c d e, toNominal ⟨true, .w64, true⟩ .u16 300 Named.decimal.system = .ok a ∧
    toNominal ⟨true, .w64, true⟩ .u8 16 Named.hexLower.system = .ok b ∧ toNominal ⟨true, .w64, true⟩ .u8 12 Named.thai.system = .ok c ∧
    toNominal ⟨true, .w64, true⟩ .u8 12 Named.romanUpper.system = .ok d ∧
    toNominal ⟨true, .w64, true⟩ .u8 11 Named.doubleCircledNumber.system = .ok e ∧
    parse ⟨true, .w64, true⟩ .u16 a = some (.ok 300) ∧ parse ⟨true, .w64, true⟩ .u8 a = some (.error .posOverflow) ∧
    parse ⟨true, .w64, true⟩ .u8 b = some (.ok 10) ∧ fromStrRadix ⟨true, .w64, true⟩ .u8 16 b = some (.ok 16) ∧
    parse ⟨true, .w64, true⟩ .u8 c = some (.error .invalidDigit) ∧ parse ⟨true, .w64, true⟩ .u8 d = some (.error .invalidDigit) ∧
    parse ⟨true, .w64, true⟩ .u8 e = some (.ok 11) :=
  ⟨_, _, _, _, _, rfl, rfl, rfl, rfl, rfl, by rfl, by rfl, by rfl, by rfl, by rfl, by rfl, by rfl⟩

end Nominals.Props
