import Verif.Props.Shape
import Verif.Proofs.TextLength

/-!
# Property C66: the characters each system writes

Vocabulary: `Verif/Spec/Outcome.lean`, `Verif/Spec/Catalogue.lean`.
-/

namespace Nominals.Props

open Nominals.Spec

/-- `count` characters from the code point `first` on. -/
def block (first count : Nat) : List Char := (List.range count).map fun i => Char.ofNat (first + i)

/-- The characters a digit-and-place script uses, with its zero. -/
def scriptCharacters (zero : Char) (s : DigitPlace) : List Char := zero :: s.digits ++ s.places

def cjkDigits : List Char := ['〇', '一', '二', '三', '四', '五', '六', '七', '八', '九']

/-- The characters of each named system. -/
def repertoire : Named → List Char
  | .decimal => block 0x30 10
  | .easternArabic => block 0x660 10
  | .persian => block 0x6f0 10
  | .bengali => block 0x9e6 10
  | .cambodian => block 0x17e0 10
  | .cjkDecimal => cjkDigits
  | .devanagari => block 0x966 10
  | .gujarati => block 0xae6 10
  | .gurmukhi => block 0xa66 10
  | .kannada => block 0xce6 10
  | .lao => block 0xed0 10
  | .malayalam => block 0xd66 10
  | .mongolian => block 0x1810 10
  | .myanmar => block 0x1040 10
  | .oriya => block 0xb66 10
  | .tamil => block 0xbe6 10
  | .telugu => block 0xc66 10
  | .thai => block 0xe50 10
  | .tibetan => block 0xf20 10
  | .letterUpper => block 0x41 26
  | .letterLower => block 0x61 26
  | .greekUpper => block 0x391 17 ++ block 0x3a3 7
  | .greekLower => block 0x3b1 17 ++ block 0x3c3 7
  | .hiragana => gojuon
  | .hiraganaIroha => iroha
  | .katakana => gojuon.map toKatakana
  | .katakanaIroha => iroha.map toKatakana
  | .hangeulJamo => jamo
  | .hangeulSyllable => syllablesWithA
  | .cjkHeavenlyStem => ['甲', '乙', '丙', '丁', '戊', '己', '庚', '辛', '壬', '癸'] ++ cjkDigits
  | .cjkEarthlyBranch => ['子', '丑', '寅', '卯', '辰', '巳', '午', '未', '申', '酉', '戌', '亥'] ++ cjkDigits
  | .hexUpper => block 0x30 10 ++ block 0x41 6
  | .hexLower => block 0x30 10 ++ block 0x61 6
  | .circledNumber => [Char.ofNat 0x24ea] ++ block 0x2460 20 ++ block 0x3251 15 ++ block 0x32b1 15
  | .doubleCircledNumber => block 0x24f5 10
  | .romanLower => ['n', 'i', 'v', 'x', 'l', 'c', 'd', 'm', '\u0305']
  | .romanUpper => ['N', 'I', 'V', 'X', 'L', 'C', 'D', 'M', '\u0305']
  | .armenianUpper => block 0x531 36 ++ [' ']
  | .armenianLower => block 0x561 36
  | .georgian => georgianLetters
  | .japaneseFormal => scriptCharacters '零' japaneseFormalScript
  | .japaneseInformal => scriptCharacters '〇' japaneseInformalScript
  | .hangeulFormal => scriptCharacters '영' hangeulFormalScript
  | .hanjaInformal => scriptCharacters '零' hanjaInformalScript
  | .hanjaFormal => scriptCharacters '零' hanjaFormalScript
  | .hebrew => hebrewLetters ++ ['׳', '״']
  | .ethiopic => block 0x1369 20
  | .chinese k o => '零' :: (if o.usage = .financial then
        (if isTraditional k then ['壹', '貳', '參', '肆', '伍', '陸', '柒', '捌', '玖'] else ['壹', '贰', '叁', '肆', '伍', '陆', '柒', '捌', '玖']) ++
          ['拾', '佰', '仟']
      else ['一', '二', '三', '四', '五', '六', '七', '八', '九', '十', '百', '千']) ++
      (if isTraditional k then ['萬', '億', '兆', '京', '垓', '秭', '穰', '溝', '澗', '正', '載']
      else ['万', '亿', '兆', '京', '垓', '秭', '穰', '沟', '涧', '正', '载']).take
        (match o.scale with | .short => 11 | .myriad => 9 | .mid => 5 | .long => 4)

theorem toDigits_mem {b n : Nat} (hb : 2 ≤ b) {c : Char} (h : c ∈ Nat.toDigits b n) : ∃ d, d < b ∧ c = Nat.digitChar d := by
  have hn : IsNumeral b n _ := loop_numeral hb
  rw [numeral_toDigits hb hn] at h
  obtain ⟨d, hd, e⟩ := List.mem_map.mp h
  exact ⟨d, hn.digits d hd, e.symm⟩

theorem toDigits_map_mem {b n : Nat} (hb : 2 ≤ b) {f : Char → Char} {al : List Char} (h : ∀ d, d < b → f (Nat.digitChar d) ∈ al) {c : Char}
    (hc : c ∈ (Nat.toDigits b n).map f) : c ∈ al := by
  obtain ⟨a, ha, rfl⟩ := List.mem_map.mp hc
  obtain ⟨d, hd, rfl⟩ := toDigits_mem hb ha
  exact h d hd

theorem columnName_mem {al : List Char} (hb : 1 ≤ al.length) {n : Nat} {t : List Char} (h : columnName al n = .text t) : ∀ c ∈ t, c ∈ al := by
  injection h with h
  subst h
  intro c hc
  obtain ⟨d, hd, rfl⟩ := List.mem_map.mp hc
  have := column_lt hb n d hd
  exact getD_mem this

theorem series_mem {al : List Char} {n : Nat} {t : List Char} (h : series al n = .text t) : ∀ c ∈ t, c ∈ al ++ cjkDigits := by
  unfold series at h
  split at h
  · cases h
  · injection h with h
    subst h
    intro c hc
    split at hc
    · have hl : n - 1 < al.length := by omega
      rw [List.mem_singleton.mp hc]
      exact List.mem_append_left _ (getD_mem hl)
    · exact List.mem_append_right _ (toDigits_map_mem (by omega) (by decide) hc)

theorem additive_mem {al : List Char} {z : Answer} {top : Nat} {topSym : List Char} {sym : Nat → Nat → List Char} {n : Nat} {t : List Char}
    (hz : ∀ u, z = .text u → ∀ c ∈ u, c ∈ al) (ht : ∀ c ∈ topSym, c ∈ al) (hs : ∀ k, k < 4 → ∀ d, d < 9 → ∀ c ∈ sym k (d + 1), c ∈ al) (h : additiveAnswer z top topSym sym n = .text t) : ∀ c ∈ t, c ∈ al := by
  unfold additiveAnswer at h
  split at h
  · exact hz t h
  · injection h with h
    subst h
    intro c hc
    unfold repeatedTop digitwise at hc
    simp only [List.mem_append, List.mem_flatten, List.mem_replicate] at hc
    have one : ∀ k, k < 4 → ∀ d, d < 10 → c ∈ (if d = 0 then [] else sym k d) → c ∈ al := by
      intro k hk d hd hm
      split at hm
      · cases hm
      · next h0 =>
        obtain ⟨d, rfl⟩ := Nat.exists_eq_succ_of_ne_zero h0
        exact hs k hk d (by omega) c hm
    rcases hc with ⟨l, ⟨_, rfl⟩, hc⟩ | ((hc | hc) | hc) | hc
    · exact ht c hc
    · exact one 3 (by omega) _ (by omega) hc
    · exact one 2 (by omega) _ (by omega) hc
    · exact one 1 (by omega) _ (by omega) hc
    · exact one 0 (by omega) _ (by omega) hc

theorem roman_mem (lower : Bool) (n : Nat) :
    ∀ c ∈ (romanText n).map (letterCase lower), c ∈ repertoire (if lower then .romanLower else .romanUpper) := by
  have p6 : ∀ lower : Bool, ∀ c ∈ (bar 'M').map (letterCase lower), c ∈ repertoire (if lower then .romanLower else .romanUpper) := by
    decide +kernel
  have p5 : ∀ lower : Bool, ∀ d, d < 10 → ∀ c ∈ (romanGroup (bar 'C') (bar 'C' ++ bar 'D') (bar 'D') (bar 'D' ++ bar 'M') d).map
      (letterCase lower), c ∈ repertoire (if lower then .romanLower else .romanUpper) := by decide +kernel
  have p4 : ∀ lower : Bool, ∀ d, d < 10 → ∀ c ∈ (romanGroup (bar 'X') (bar 'X' ++ bar 'L') (bar 'L') (bar 'L' ++ bar 'C') d).map
      (letterCase lower), c ∈ repertoire (if lower then .romanLower else .romanUpper) := by decide +kernel
  have p3 : ∀ lower : Bool, ∀ d, d < 10 → ∀ c ∈ (romanGroup ['M'] (bar 'I' ++ bar 'V') (bar 'V') (bar 'I' ++ bar 'X') d).map
      (letterCase lower), c ∈ repertoire (if lower then .romanLower else .romanUpper) := by decide +kernel
  have p2 : ∀ lower : Bool, ∀ d, d < 10 → ∀ c ∈ (romanGroup ['C'] ['C', 'D'] ['D'] ['C', 'M'] d).map (letterCase lower),
      c ∈ repertoire (if lower then .romanLower else .romanUpper) := by decide +kernel
  have p1 : ∀ lower : Bool, ∀ d, d < 10 → ∀ c ∈ (romanGroup ['X'] ['X', 'L'] ['L'] ['X', 'C'] d).map (letterCase lower),
      c ∈ repertoire (if lower then .romanLower else .romanUpper) := by decide +kernel
  have p0 : ∀ lower : Bool, ∀ d, d < 10 → ∀ c ∈ (romanGroup ['I'] ['I', 'V'] ['V'] ['I', 'X'] d).map (letterCase lower),
      c ∈ repertoire (if lower then .romanLower else .romanUpper) := by decide +kernel
  intro c hc
  unfold romanText at hc
  simp only [List.map_append, List.mem_append] at hc
  rcases hc with (((((hc | hc) | hc) | hc) | hc) | hc) | hc
  · obtain ⟨a, ha, rfl⟩ := List.mem_map.mp hc
    obtain ⟨l, hl, ha⟩ := List.mem_flatten.mp ha
    rw [(List.mem_replicate.mp hl).2] at ha
    exact p6 lower _ (List.mem_map.mpr ⟨a, ha, rfl⟩)
  · exact p5 lower _ (by omega) c hc
  · exact p4 lower _ (by omega) c hc
  · exact p3 lower _ (by omega) c hc
  · exact p2 lower _ (by omega) c hc
  · exact p1 lower _ (by omega) c hc
  · exact p0 lower _ (by omega) c hc

theorem hebrew_mem (n : Nat) : ∀ c ∈ hebrewText n, c ∈ repertoire .hebrew := by
  have p2 : ∀ d, d < 4 → ∀ c ∈ hebrewDigit 2 d, c ∈ repertoire .hebrew := by decide +kernel
  have p0 : ∀ d, d < 100 → ∀ c ∈ hebrewBelow100 d, c ∈ repertoire .hebrew := by decide +kernel
  have plain : ∀ c ∈ hebrewPlain n, c ∈ repertoire .hebrew := by
    intro c hc
    unfold hebrewPlain at hc
    simp only [List.mem_append, List.mem_replicate] at hc
    rcases hc with (⟨_, rfl⟩ | hc) | hc
    · decide
    · exact p2 _ (by omega) c hc
    · exact p0 _ (by omega) c hc
  intro c hc
  unfold hebrewText at hc
  split at hc
  · simp only [List.cons_append, List.mem_cons, List.mem_append, List.not_mem_nil, or_false] at hc
    rcases hc with rfl | hc | rfl
    · decide
    · exact plain c hc
    · decide
  · exact plain c hc

theorem ethGroups_lt (n : Nat) : ∀ g ∈ ethGroups n, g < 100 := by
  induction n using ethGroups.induct with
  | case1 => intro g hg; rw [ethGroups] at hg; simp at hg
  | case2 n h ih =>
    intro g hg
    rw [ethGroups, dif_neg h] at hg
    rcases List.mem_cons.mp hg with rfl | hg
    · omega
    · exact ih g hg

theorem ethiopic_mem (n : Nat) : ∀ c ∈ ethiopicText n, c ∈ repertoire .ethiopic := by
  have p : ∀ g, g < 100 → ∀ c ∈ ethDigits g, c ∈ repertoire .ethiopic := by decide +kernel
  intro c hc
  unfold ethiopicText at hc
  split at hc
  · rw [List.mem_singleton.mp hc]; decide
  · simp only [List.mem_flatten, List.mem_reverse, List.mem_map] at hc
    obtain ⟨l, ⟨⟨g, i⟩, hg, rfl⟩, hc⟩ := hc
    have hlt : g < 100 := ethGroups_lt n g (List.fst_mem_of_mem_zipIdx hg)
    simp only [ethGroupText, List.mem_append] at hc
    rcases hc with hc | hc
    · split at hc
      · cases hc
      · exact p g hlt c hc
    · have h1 : ethHundred ∈ repertoire .ethiopic := by decide
      have h2 : ethMyriad ∈ repertoire .ethiopic := by decide
      split at hc <;> split at hc
      · cases hc
      · rwa [List.mem_singleton.mp hc]
      · cases hc
      · rwa [List.mem_singleton.mp hc]

theorem spellWith_units (z : Nat → Nat → Bool) : ∀ (us : Units) (n : Nat), ∀ t ∈ spellWith z us n,
    t = .zero ∨ (∃ d, t = .num d) ∨ ∃ p ∈ us, p.2 = t := by
  intro us
  induction us with
  | nil =>
    intro n t ht
    unfold spellWith at ht
    split at ht
    · cases ht
    · exact .inr (.inl ⟨n, List.mem_singleton.mp ht⟩)
  | cons q us ih =>
    intro n t ht
    have lift : (t = .zero ∨ (∃ d, t = .num d) ∨ ∃ p ∈ us, p.2 = t) → t = .zero ∨ (∃ d, t = .num d) ∨ ∃ p ∈ q :: us, p.2 = t := by
      rintro (h | h | ⟨p, hp, h⟩)
      · exact .inl h
      · exact .inr (.inl h)
      · exact .inr (.inr ⟨p, List.mem_cons_of_mem _ hp, h⟩)
    unfold spellWith at ht
    split at ht
    · exact lift (ih _ t ht)
    · simp only [List.mem_append, List.mem_cons] at ht
      rcases ht with ht | ht | ht | ht
      · exact lift (ih _ t ht)
      · exact .inr (.inr ⟨q, List.mem_cons_self, ht.symm⟩)
      · split at ht
        · exact .inl (List.mem_singleton.mp ht)
        · cases ht
      · exact lift (ih _ t ht)

theorem dropLeadingOne_sub (ts : List CTok) : ∀ t ∈ dropLeadingOne ts, t ∈ ts := by
  intro t ht
  unfold dropLeadingOne at ht
  split at ht
  · exact List.mem_cons_of_mem _ ht
  · exact ht

theorem chinese_mem (k : ChineseKind) (o : ChineseOptions) {n : Nat} (h : inRange o.scale n) :
    ∀ c ∈ chineseText k o n, c ∈ repertoire (.chinese k o) := by
  intro c hc
  obtain ⟨t, ht, rfl⟩ := List.mem_map.mp hc
  have hv := tokens_valid (isFormal k) h t ht
  have hu : t = .zero ∨ (∃ d, t = .num d) ∨ ∃ p ∈ scaleUnits o.scale, p.2 = t := by
    unfold chineseTokens at ht
    split at ht
    · exact .inl (List.mem_singleton.mp ht)
    · dsimp only at ht
      split at ht
      · exact spellWith_units _ _ _ t ht
      · exact spellWith_units _ _ _ t (dropLeadingOne_sub _ t ht)
  clear hc ht
  obtain ⟨us, sc⟩ := o
  rcases hu with rfl | ⟨d, rfl⟩ | ⟨p, hp, rfl⟩
  · cases k <;> cases us <;> cases sc <;> decide
  · obtain ⟨h1, h2⟩ := hv
    revert d
    have : ∀ d, d < 10 → 1 ≤ d → chineseGlyph (isTraditional k) (us = .financial) (.num d) ∈ repertoire (.chinese k ⟨us, sc⟩) := by
      cases k <;> cases us <;> cases sc <;> decide
    exact fun d h1 h2 => this d h2 h1
  · have : ∀ p ∈ scaleUnits sc, chineseGlyph (isTraditional k) (us = .financial) p.2 ∈ repertoire (.chinese k ⟨us, sc⟩) := by
      cases k <;> cases us <;> cases sc <;> decide +kernel
    exact this p hp

theorem answer_mem (s : Named) {n : Nat} (hn : n < 2 ^ 128) {t : List Char} (h : answer s n = .text t) : ∀ c ∈ t, c ∈ repertoire s := by
  have dec : ∀ {f : Nat} {al : List Char}, decimalFrom f n = .text t → (∀ d, d < 10 → Char.ofNat (f + ((Nat.digitChar d).toNat - '0'.toNat)) ∈ al) →
      ∀ c ∈ t, c ∈ al := by
    intro f al h ha c hc
    injection h with h
    subst h
    exact toDigits_map_mem (b := 10) (by omega) ha hc
  cases s with
  | decimal =>
    injection h with h
    subst h
    intro c hc
    exact toDigits_map_mem (b := 10) (f := id) (by omega) (by decide) (by rwa [List.map_id])
  | hexLower =>
    injection h with h
    subst h
    intro c hc
    exact toDigits_map_mem (b := 16) (f := id) (by omega) (by decide) (by rwa [List.map_id])
  | hexUpper =>
    injection h with h
    subst h
    intro c hc
    exact toDigits_map_mem (b := 16) (by omega) (by decide) hc
  | cjkDecimal =>
    injection h with h
    subst h
    intro c hc
    exact toDigits_map_mem (b := 10) (by omega) (by decide) hc
  | easternArabic | persian | bengali | cambodian | devanagari | gujarati | gurmukhi | kannada | lao | malayalam | mongolian | myanmar
  | oriya | tamil | telugu | thai | tibetan => exact dec h (by decide +kernel)
  | letterUpper | letterLower | hiragana | hiraganaIroha | katakana | katakanaIroha | hangeulJamo
  | hangeulSyllable => exact columnName_mem (by decide) h
  | greekUpper | greekLower =>
    intro c hc
    have := columnName_mem (by decide) h c hc
    clear hc
    revert c
    clear h
    decide +kernel
  | cjkHeavenlyStem | cjkEarthlyBranch => exact series_mem h
  | circledNumber =>
    have key : ∀ n, n ≤ 50 → Char.ofNat (circled n) ∈ repertoire .circledNumber := by decide +kernel
    simp only [answer] at h
    split at h
    · next h1 =>
      injection h with h
      subst h
      intro c hc
      rw [List.mem_singleton.mp hc]
      exact key n h1
    · cases h
  | doubleCircledNumber =>
    have key : ∀ n, n ≤ 10 → n ≠ 0 → Char.ofNat (0x24f5 + (n - 1)) ∈ repertoire .doubleCircledNumber := by decide +kernel
    simp only [answer] at h
    split at h
    · cases h
    · split at h
      · next h0 h1 =>
        injection h with h
        subst h
        intro c hc
        rw [List.mem_singleton.mp hc]
        exact key n h1 h0
      · cases h
  | romanLower =>
    injection h with h
    subst h
    split
    · decide
    · exact roman_mem true n
  | romanUpper =>
    injection h with h
    subst h
    split
    · decide
    · have := roman_mem false n
      rwa [show letterCase false = id from rfl, List.map_id] at this
  | armenianUpper | armenianLower | georgian => exact additive_mem (by simp) (by decide +kernel) (by decide +kernel) h
  | japaneseFormal | japaneseInformal | hangeulFormal | hanjaInformal | hanjaFormal =>
    refine additive_mem ?_ (by decide +kernel) (by decide +kernel) h
    intro u hu
    injection hu with hu
    subst hu
    decide
  | hebrew =>
    simp only [answer] at h
    split at h
    · cases h
    · injection h with h
      subst h
      exact hebrew_mem n
  | ethiopic =>
    simp only [answer] at h
    split at h
    · cases h
    · injection h with h
      subst h
      exact ethiopic_mem n
  | chinese k o =>
    simp only [answer] at h
    split at h
    · cases h
    · next h0 =>
      injection h with h
      subst h
      exact chinese_mem k o ⟨hn, fun hs => by
        exact Nat.lt_of_not_le fun hh => h0 ⟨hs, hh⟩⟩

/-- C66. Every text of a named system consists of characters of its repertoire. -/
theorem C66_repertoire {cfg : Cfg} {T : IntTy} {n : Nat} (s : Named) (hn : T.Fits cfg n) {t : List Char} {i : Bool}
    (h : view (tryToNominal cfg T n s.system) = .ok (t, i)) : ∀ c ∈ t, c ∈ repertoire s := by
  rw [C51_catalogue s hn] at h
  exact answer_mem s (Nominals.fits_lt hn) (present_text h)

/-- The characters of a formal Japanese numeral. -/
example : view (tryToNominal ⟨true, .w64, true⟩ .u16 1203 Named.japaneseFormal.system) = .ok (['壱', '阡', '弐', '百', '参'], true) ∧
    ∀ c ∈ ['壱', '阡', '弐', '百', '参'], c ∈ repertoire .japaneseFormal := by decide +kernel

/-- C66. Texts can be embedded in markup, file names and comma- or space-separated lists: apart from ASCII letters and
digits every character is outside ASCII. The only exception is the space after the Armenian capital letter for 1. -/
theorem C66_no_punctuation {cfg : Cfg} {T : IntTy} {n : Nat} (s : Named) (hn : T.Fits cfg n) {t : List Char} {i : Bool}
    (h : view (toNominal cfg T n s.system) = .ok (t, i)) :
    ∀ c ∈ t, c.isAlphanum = true ∨ 0x80 ≤ c.toNat ∨ s = .armenianUpper ∧ c = ' ' := by
  have key : ∀ c ∈ repertoire s, c.isAlphanum = true ∨ 0x80 ≤ c.toNat ∨ s = .armenianUpper ∧ c = ' ' := by
    have widen : (∀ c ∈ repertoire s, c.isAlphanum = true ∨ 0x80 ≤ c.toNat) →
        ∀ c ∈ repertoire s, c.isAlphanum = true ∨ 0x80 ≤ c.toNat ∨ s = .armenianUpper ∧ c = ' ' := by
      intro h c hc
      rcases h c hc with h | h
      · exact .inl h
      · exact .inr (.inl h)
    cases s with
    | armenianUpper =>
      have : ∀ c ∈ repertoire .armenianUpper, 0x80 ≤ c.toNat ∨ c = ' ' := by decide +kernel
      intro c hc
      rcases this c hc with h | h
      · exact .inr (.inl h)
      · exact .inr (.inr ⟨rfl, h⟩)
    | chinese k o =>
      obtain ⟨us, sc⟩ := o
      exact widen (by cases k <;> cases us <;> cases sc <;> decide +kernel)
    | _ => exact widen (by decide +kernel)
  rcases C41_always_succeeds s hn with ⟨x, h1, h2⟩ | ⟨e, h1, h2⟩
  · rw [h2] at h
    injection h with h
    subst h
    exact fun c hc => key c (C66_repertoire s hn h1 c hc)
  · rw [h2] at h
    injection h with h
    injection h with h _
    subst h
    intro c hc
    obtain ⟨d, hd, rfl⟩ := toDigits_mem (by omega) hc
    have : ∀ d, d < 10 → (Nat.digitChar d).isAlphanum = true := by decide
    exact .inl (this d hd)

/-- The exception is real. -/
example : view (toNominal ⟨true, .w64, true⟩ .u8 21 Named.armenianUpper.system) = .ok (['Ի', 'Ա', ' '], true) := by decide +kernel

/-- Numbers whose texts between them contain all characters of a system: small ones, single digits times powers of ten. -/
def probes : Named → List Nat
  | .hebrew => (List.range 3).flatMap fun k => (List.range 10).map fun d => d * 10 ^ k
  | .chinese _ o => List.range 10 ++ (scaleUnits o.scale).map fun p => 2 * p.1
  | .romanLower | .romanUpper => [0, 1, 5, 10, 50, 100, 500, 1000, 4000]
  | .armenianUpper | .armenianLower | .georgian | .japaneseFormal | .japaneseInformal | .hangeulFormal | .hanjaInformal | .hanjaFormal =>
    10000 :: (List.range 4).flatMap fun k => (List.range 10).map fun d => d * 10 ^ k
  | _ => List.range 60

def textOf : Answer → List Char
  | .text t => t
  | _ => []

def Covered (s : Named) : Prop := (∀ n ∈ probes s, n < 2 ^ 128) ∧
  ∀ c ∈ repertoire s, ∃ n ∈ probes s, c ∈ textOf (answer s n) ∧ utf8Len (textOf (answer s n)) ≤ 62

instance (s : Named) : Decidable (Covered s) := by unfold Covered; infer_instance

/-- C66. No repertoire is larger than necessary: every character of it occurs in the text of some 128-bit number, short enough for every
build. -/
theorem C66_repertoire_used (s : Named) : ∀ c ∈ repertoire s, ∃ n t, n < 2 ^ 128 ∧ c ∈ t ∧
    ∀ cfg, view (tryToNominal cfg .u128 n s.system) = .ok (t, true) := by
  have key : (∀ c ∈ repertoire s, ∃ n, n < 2 ^ 128 ∧ ∃ t, answer s n = .text t ∧ c ∈ t ∧ utf8Len t ≤ 62) →
      ∀ c ∈ repertoire s, ∃ n t, n < 2 ^ 128 ∧ c ∈ t ∧ ∀ cfg, view (tryToNominal cfg .u128 n s.system) = .ok (t, true) := by
    intro h c hc
    obtain ⟨n, hn, t, ht, hm, hl⟩ := h c hc
    refine ⟨n, t, hn, hm, fun cfg => ?_⟩
    rw [C51_catalogue s (show IntTy.u128.Fits cfg n from hn), ht, present, deliver, if_pos hl]
  have covered : Covered s →
      ∀ c ∈ repertoire s, ∃ n, n < 2 ^ 128 ∧ ∃ t, answer s n = .text t ∧ c ∈ t ∧ utf8Len t ≤ 62 := by
    rintro ⟨hns, h⟩ c hc
    obtain ⟨n, hn, hm, hl⟩ := h c hc
    refine ⟨n, hns n hn, ?_⟩
    unfold textOf at hm hl
    split at hm
    · next t ht =>
      rw [ht] at hl
      exact ⟨t, ht, hm, hl⟩
    · cases hm
  apply key
  cases s with
  | ethiopic =>
    have small : ∀ n, 1 < n → n < 100 → answer .ethiopic n = .text (ethGroupText 0 n true) := by
      intro n h1 h2
      have e : ethGroups n = [n] := by
        rw [ethGroups, dif_neg (by omega), ethGroups, dif_pos (by omega), Nat.mod_eq_of_lt h2]
      simp only [answer, ethiopicText, e]
      rw [if_neg (by omega), if_neg (by omega)]
      simp
    have h1 : answer .ethiopic 1 = .text ['፩'] := rfl
    have h100 : answer .ethiopic 100 = .text ['፻'] := by
      simp [answer, ethiopicText, ethGroups, ethGroupText, ethHundred]
    have h10000 : answer .ethiopic 10000 = .text ['፼'] := by
      simp [answer, ethiopicText, ethGroups, ethGroupText, ethMyriad]
    have cover : ∀ c ∈ repertoire .ethiopic, c = '፩' ∨ c = '፻' ∨ c = '፼' ∨
        ∃ n, n < 100 ∧ 1 < n ∧ c ∈ ethGroupText 0 n true ∧ utf8Len (ethGroupText 0 n true) ≤ 62 := by
      decide +kernel
    intro c hc
    rcases cover c hc with rfl | rfl | rfl | ⟨n, hn, hn1, hm, hl⟩
    · exact ⟨1, by omega, _, h1, by simp, by decide⟩
    · exact ⟨100, by omega, _, h100, by simp, by decide⟩
    · exact ⟨10000, by omega, _, h10000, by simp, by decide⟩
    · exact ⟨n, by omega, _, small n hn1 hn, hm, hl⟩
  | chinese k o =>
    obtain ⟨us, sc⟩ := o
    exact covered (by cases k <;> cases us <;> cases sc <;> decide +kernel)
  | _ => exact covered (by decide +kernel)

/-- The financial five of simplified Chinese is used, for instance in five hundred. -/
example : ∃ n t, n < 2 ^ 128 ∧ '伍' ∈ t ∧ ∀ cfg,
    view (tryToNominal cfg .u128 n (Named.chinese .simplifiedFormal ⟨.financial, .myriad⟩).system) = .ok (t, true) :=
  C66_repertoire_used _ '伍' (by decide)

end Nominals.Props
