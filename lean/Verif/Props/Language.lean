import Verif.Proofs.Language
import Verif.Props.Shape
import Verif.Props.Hebrew
import Verif.Props.Ethiopic

/-!
# Property C68: exactly which texts are numerals

Vocabulary: `Verif/Spec/Outcome.lean`, `Verif/Spec/Language.lean`.

Each theorem describes, for one kind of system, the set of all texts the system returns for the positive numbers below a bound,
as the non-empty texts of a regular expression. One direction says that nothing malformed is ever returned, the other that every
well-formed text is the text of some number. The bound is any multiple of the value of the largest symbol that the integer type
can hold.
-/

namespace Nominals.Props

open Nominals.Spec Nominals.Language

/-- A text a build can hold: any text with `alloc`, at most 62 bytes without. -/
def Holds (cfg : Cfg) (t : List Char) : Prop := cfg.alloc = true ∨ utf8Len t ≤ 62

/-- `t` is the text of some positive number below `bound`. -/
def TextBelow (cfg : Cfg) (T : IntTy) (f : Cfg → IntTy → Nat → Res Error NStr) (bound : Nat) (t : List Char) : Prop :=
  ∃ n i, n ≠ 0 ∧ n < bound ∧ view (f cfg T n) = .ok (t, i)

theorem deliver_ok_iff {cfg : Cfg} {n : Nat} {x t : List Char} :
    (∃ i, deliver cfg.alloc n x = .ok (t, i)) ↔ t = x ∧ Holds cfg t := by
  unfold deliver Holds
  constructor
  · rintro ⟨i, h⟩
    split at h
    · next hl => cases h; exact ⟨rfl, .inr hl⟩
    · split at h
      · next ha => cases h; exact ⟨rfl, .inl ha⟩
      · cases h
  · rintro ⟨rfl, h⟩
    by_cases hl : utf8Len t ≤ 62
    · exact ⟨true, by rw [if_pos hl]⟩
    · exact ⟨false, by rw [if_neg hl, if_pos (h.resolve_right hl)]⟩

/-- A system with known texts: its texts below a bound are the texts of the positive numbers below the bound. -/
theorem textBelow_iff {cfg : Cfg} {T : IntTy} {f : Cfg → IntTy → Nat → Res Error NStr} {g : Nat → List Char} {bound : Nat}
    (hb : bound ≤ 2 ^ T.bits cfg) (hf : ∀ n, n ≠ 0 → T.Fits cfg n → view (f cfg T n) = deliver cfg.alloc n (g n)) {t : List Char} :
    TextBelow cfg T f bound t ↔ (∃ n, n ≠ 0 ∧ n < bound ∧ t = g n) ∧ Holds cfg t := by
  constructor
  · rintro ⟨n, i, h0, hn, h⟩
    rw [hf n h0 (Nat.lt_of_lt_of_le hn hb)] at h
    obtain ⟨e, hh⟩ := deliver_ok_iff.mp ⟨i, h⟩
    exact ⟨⟨n, h0, hn, e⟩, hh⟩
  · rintro ⟨⟨n, h0, hn, e⟩, hh⟩
    obtain ⟨i, h⟩ := deliver_ok_iff (n := n).mpr ⟨e, hh⟩
    exact ⟨n, i, h0, hn, by rw [hf n h0 (Nat.lt_of_lt_of_le hn hb), h]⟩

theorem romanText_nonempty {n : Nat} (h0 : n ≠ 0) : romanText n ≠ [] := by
  intro hr
  have := romanText_read n
  rw [hr] at this
  exact h0 this.symm

theorem romanText_zero : romanText 0 = [] := by decide

/-- C68. Upper-case Roman numerals of the numbers below `10^6 (k+1)`. -/
theorem C68_roman {cfg : Cfg} {T : IntTy} {k : Nat} (hk : 10 ^ 6 * (k + 1) ≤ 2 ^ T.bits cfg) {t : List Char} :
    TextBelow cfg T romanUpperTryFormat (10 ^ 6 * (k + 1)) t ↔ t ≠ [] ∧ (romanLong k).Matches t ∧ Holds cfg t := by
  rw [textBelow_iff (g := romanText) hk fun n h0 hn => by rw [(C25_roman hn).1, if_neg h0], romanLong_iff]
  constructor
  · rintro ⟨⟨n, h0, hn, rfl⟩, hh⟩; exact ⟨romanText_nonempty h0, ⟨n, hn, rfl⟩, hh⟩
  · rintro ⟨ht, ⟨n, hn, rfl⟩, hh⟩; exact ⟨⟨n, fun e => ht (by rw [e, romanText_zero]), hn, rfl⟩, hh⟩

/-- 4,002: an overlined IV and II. -/
example : TextBelow ⟨false, .w16, true⟩ .u32 romanUpperTryFormat (10 ^ 6 * (0 + 1)) ['I', '\u0305', 'V', '\u0305', 'I', 'I'] ∧
    (romanLong 0).Matches ['I', '\u0305', 'V', '\u0305', 'I', 'I'] := by
  have h : TextBelow ⟨false, .w16, true⟩ .u32 romanUpperTryFormat (10 ^ 6 * (0 + 1)) ['I', '\u0305', 'V', '\u0305', 'I', 'I'] :=
    ⟨4002, true, by decide, by decide, (C25_roman (by decide)).1.trans (by decide +kernel)⟩
  exact ⟨h, ((C68_roman (by decide)).mp h).2.1⟩

/-- C68. Lower-case Roman numerals: the same texts with small letters. -/
theorem C68_roman_lower {cfg : Cfg} {T : IntTy} {k : Nat} (hk : 10 ^ 6 * (k + 1) ≤ 2 ^ T.bits cfg) {t : List Char} :
    TextBelow cfg T romanLowerTryFormat (10 ^ 6 * (k + 1)) t ↔
      ∃ p, p ≠ [] ∧ (romanLong k).Matches p ∧ t = p.map Char.toLower ∧ Holds cfg t := by
  rw [textBelow_iff (g := fun n => (romanText n).map Char.toLower) hk fun n h0 hn => by rw [(C25_roman hn).2, if_neg h0]]
  constructor
  · rintro ⟨⟨n, h0, hn, rfl⟩, hh⟩; exact ⟨_, romanText_nonempty h0, romanLong_iff.mpr ⟨n, hn, rfl⟩, rfl, hh⟩
  · rintro ⟨p, hp, hm, rfl, hh⟩
    obtain ⟨n, hn, rfl⟩ := romanLong_iff.mp hm
    exact ⟨⟨n, fun e => hp (by rw [e, romanText_zero]), hn, rfl⟩, hh⟩

/-- The lower case letters of a capital numeral. -/
example : ∃ p, (romanLong 0).Matches p ∧ ['x', 'l', 'i', 'x'] = p.map Char.toLower := by
  have h : TextBelow ⟨false, .w16, true⟩ .u32 romanLowerTryFormat (10 ^ 6 * (0 + 1)) ['x', 'l', 'i', 'x'] :=
    ⟨49, true, by decide, by decide, by decide +kernel⟩
  obtain ⟨p, _, hp, ht, _⟩ := (C68_roman_lower (by decide)).mp h
  exact ⟨p, hp, ht⟩

/-- C68. Below 4000 the upper-case Roman numerals are the non-empty texts of the familiar expression
`M{0,3}(CM|CD|D?C{0,3})(XC|XL|L?X{0,3})(IX|IV|V?I{0,3})`. -/
theorem C68_roman_classic {cfg : Cfg} {T : IntTy} (hk : 4000 ≤ 2 ^ T.bits cfg) {t : List Char} :
    TextBelow cfg T romanUpperTryFormat 4000 t ↔ t ≠ [] ∧ romanClassic.Matches t ∧ Holds cfg t := by
  rw [textBelow_iff (g := romanText) hk fun n h0 hn => by rw [(C25_roman hn).1, if_neg h0], romanClassic_iff]
  constructor
  · rintro ⟨⟨n, h0, hn, rfl⟩, hh⟩; exact ⟨romanText_nonempty h0, ⟨n, hn, rfl⟩, hh⟩
  · rintro ⟨ht, ⟨n, hn, rfl⟩, hh⟩; exact ⟨⟨n, fun e => ht (by rw [e, romanText_zero]), hn, rfl⟩, hh⟩

/-- MCMXCIV is a numeral in the smallest build, IIII is not a numeral. -/
example : TextBelow ⟨false, .w16, true⟩ .u16 romanUpperTryFormat 4000 ['M', 'C', 'M', 'X', 'C', 'I', 'V'] :=
  ⟨1994, true, by decide, by decide, (C25_roman (by decide)).1.trans (by decide +kernel)⟩

example : ¬ romanClassic.Matches ['I', 'I', 'I', 'I'] := by
  intro h
  obtain ⟨n, _, h⟩ := romanClassic_iff.mp h
  have := romanText_read n
  rw [← h] at this
  have hn : n = 4 := by rw [← this]; decide +kernel
  subst hn
  revert h; decide

theorem place_nonempty {p : (Cfg → IntTy → Nat → Res Error NStr) × Nat × List Char × (Nat → Nat → List Char)} (hp : p ∈ placeSystems)
    {cfg : Cfg} {T : IntTy} {n : Nat} (hn : T.Fits cfg n) {i : Bool} (h : view (p.1 cfg T n) = .ok ([], i)) : n = 0 := by
  have key : ∃ q ∈ readableSystems, p.1 = q.1 := by
    simp only [placeSystems, List.mem_cons, List.not_mem_nil, or_false] at hp
    rcases hp with h | h | h | h | h | h | h | h <;> subst h <;> simp [readableSystems]
  obtain ⟨q, hq, e⟩ := key
  have h0 : ∀ q ∈ readableSystems, q.2 [] = 0 := by decide
  rw [e] at h
  rw [← C29_read_back hn q hq [] i h, h0 q hq]

/-- C68. Armenian (both cases), Georgian, Japanese (both) and Korean (all three): at most `k` top symbols, then at most one symbol
per decimal place. -/
theorem C68_places {cfg : Cfg} {T : IntTy} {k : Nat} {t : List Char} : ∀ p ∈ placeSystems, p.2.1 * (k + 1) ≤ 2 ^ T.bits cfg →
    (TextBelow cfg T p.1 (p.2.1 * (k + 1)) t ↔
      t ≠ [] ∧ (placeShape p.2.2.1 p.2.2.2 (p.2.1 / 1000 - 1) k).Matches t ∧ Holds cfg t) := by
  intro p hp hk
  have hm : ∃ m, m ≤ 9 ∧ p.2.1 = 1000 * (m + 1) := by
    simp only [placeSystems, List.mem_cons, List.not_mem_nil, or_false] at hp
    rcases hp with h | h | h | h | h | h | h | h <;> subst h <;> first | exact ⟨8, by decide, rfl⟩ | exact ⟨9, by decide, rfl⟩
  obtain ⟨m, hm9, hm⟩ := hm
  have hz : repeatedTop p.2.1 p.2.2.1 p.2.2.2 0 = [] := by simp [repeatedTop, digitwise]
  have hf : ∀ n, n ≠ 0 → T.Fits cfg n → view (p.1 cfg T n) = deliver cfg.alloc n (repeatedTop p.2.1 p.2.2.1 p.2.2.2 n) :=
    fun n h0 hn => C28_repeated_top hn h0 p hp
  have hs : p.2.1 / 1000 - 1 = m := by omega
  rw [textBelow_iff hk hf, hs, placeShape_iff hm9, ← hm]
  constructor
  · rintro ⟨⟨n, h0, hn, rfl⟩, hh⟩
    refine ⟨fun e => h0 ?_, ⟨n, hn, rfl⟩, hh⟩
    have hn' : T.Fits cfg n := Nat.lt_of_lt_of_le hn hk
    exact place_nonempty hp hn' (i := true) (by rw [hf n h0 hn', e]; rfl)
  · rintro ⟨ht, ⟨n, hn, rfl⟩, hh⟩
    exact ⟨⟨n, fun e => ht (by rw [e, hz]), hn, rfl⟩, hh⟩

/-- The expression for informal Japanese accepts 九千九千二十一 (18021). -/
example : (placeShape ['九', '千'] japaneseInformalScript.sym 8 3).Matches ['九', '千', '九', '千', '二', '十', '一'] :=
  (placeShape_iff (by decide)).mpr ⟨18021, by decide, by decide⟩

theorem hebrewText_marked (n : Nat) : hebrewText n = hebrewMarked (hebrewPlain n) := rfl

theorem hebrewPlain_nonempty {n : Nat} (h0 : n ≠ 0) : hebrewPlain n ≠ [] := by
  intro h
  have := hebrewText_sum n
  rw [hebrewText_marked, h] at this
  exact h0 this.symm

/-- C68. Hebrew numerals of the numbers below `400 (k+1)`, with the marks around single letters. -/
theorem C68_hebrew {cfg : Cfg} {T : IntTy} {k : Nat} (hk : 400 * (k + 1) ≤ 2 ^ T.bits cfg) {t : List Char} :
    TextBelow cfg T hebrewTryFormat (400 * (k + 1)) t ↔ ∃ p, p ≠ [] ∧ (hebrewShape k).Matches p ∧ t = hebrewMarked p ∧ Holds cfg t := by
  rw [textBelow_iff (g := hebrewText) hk fun n h0 hn => by rw [C31_text hn, if_neg h0]]
  constructor
  · rintro ⟨⟨n, h0, hn, rfl⟩, hh⟩; exact ⟨_, hebrewPlain_nonempty h0, hebrewShape_iff.mpr ⟨n, hn, rfl⟩, rfl, hh⟩
  · rintro ⟨p, hp, hm, rfl, hh⟩
    obtain ⟨n, hn, rfl⟩ := hebrewShape_iff.mp hm
    exact ⟨⟨n, fun e => hp (by rw [e]; rfl), hn, rfl⟩, hh⟩

/-- 1215 = 400·3 + 15. -/
example : (hebrewShape 3).Matches ['ת', 'ת', 'ת', 'ט', '״', 'ו'] := hebrewShape_iff.mpr ⟨1215, by decide, by decide +kernel⟩

/-- C68. Ethiopic numerals of at most `4 (k+1)` decimal digits. -/
theorem C68_ethiopic {cfg : Cfg} {T : IntTy} {k : Nat} (hk : 10000 ^ (k + 1) ≤ 2 ^ T.bits cfg) {t : List Char} :
    TextBelow cfg T ethiopicTryFormat (10000 ^ (k + 1)) t ↔ t ≠ [] ∧ (ethShape k).Matches t ∧ Holds cfg t := by
  rw [textBelow_iff (g := ethiopicText) hk fun n h0 _ => by rw [C34_css, if_neg h0], ← ethShape_iff, and_assoc]

/-- 78,010,092. -/
example : (ethShape 1).Matches ['፸', '፰', '፻', '፩', '፼', '፺', '፪'] :=
  (ethShape_iff.mpr ⟨78010092, by decide, by decide, by decide +kernel⟩).2

end Nominals.Props
