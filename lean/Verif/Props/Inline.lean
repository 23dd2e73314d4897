import Verif.Props.Lib
import Verif.Spec.Inline
import Verif.Proofs.ChineseLength

/-!
# Property C57: up to which number every named system stays within the inline buffer

Vocabulary: `Verif/Spec/Outcome.lean`, `Verif/Spec/Catalogue.lean`, `Verif/Spec/Inline.lean`.
-/

namespace Nominals.Props

open Nominals.Spec

theorem toLower_size (c : Char) : c.toLower.utf8Size = c.utf8Size := by
  unfold Char.toLower
  split
  · next h =>
    have h1 : c.utf8Size = 1 := by
      rw [Char.utf8Size_eq_one_iff]
      exact UInt32.le_trans h.2 (by decide)
    rw [h1, Char.utf8Size_eq_one_iff]
    have := h.1
    have := h.2
    simp only [UInt32.le_iff_toNat_le] at *
    simp [UInt32.toNat_add] at *
    omega
  · rfl

theorem toLower_len (t : List Char) : utf8Len (t.map Char.toLower) = utf8Len t := by
  induction t with
  | nil => rfl
  | cons c t ih => rw [List.map_cons, utf8Len_cons, utf8Len_cons, toLower_size, ih]

theorem from_short_iff {w K first : Nat} (hf : ∀ i, i < 10 → (Char.ofNat (first + ((Nat.digitChar i).toNat - '0'.toNat))).utf8Size = w) (hK : 1 ≤ K)
    (h1 : w * K ≤ 62) (h2 : 62 < w * (K + 1)) (n : Nat) : ∃ t, decimalFrom first n = .text t ∧ (utf8Len t ≤ 62 ↔ n < 10 ^ K) :=
  ⟨_, rfl, decimal_short_iff hf hK h1 h2 n⟩

theorem columnName_short_iff {w K b : Nat} {al : List Char} (h : ∀ c ∈ al, c.utf8Size = w) (hl : al.length = b) (hb : 1 ≤ b) (h1 : w * K ≤ 62)
    (h2 : 62 < w * (K + 1)) (n : Nat) : ∃ t, columnName al n = .text t ∧ (utf8Len t ≤ 62 ↔ n < wordsUpTo b K) := by
  subst hl
  exact ⟨_, rfl, column_short_iff h hb h1 h2 n⟩

theorem cjk_short_iff (n : Nat) : utf8Len (decimalWith ['〇', '一', '二', '三', '四', '五', '六', '七', '八', '九'] n) ≤ 62 ↔ n < 10 ^ 20 :=
  decimal_short_iff (w := 3) (K := 20) (by decide) (by omega) (by omega) (by omega) n

theorem series_short_iff {al : List Char} (hl : al.length ≤ 12) {n : Nat} {t : List Char} (h : series al n = .text t) :
    utf8Len t ≤ 62 ↔ n < 10 ^ 20 := by
  unfold series at h
  split at h
  · cases h
  · injection h with h
    subst h
    split
    · have := utf8Size_le (al.getD (n - 1) '?')
      simp only [utf8Len_cons, utf8Len_nil]
      omega
    · exact cjk_short_iff n

/-- Where the digit systems stop fitting, exactly. -/
theorem digits_short_iff {s : Named} {n k : Nat} (hs : ofDigits s = true) (hk : firstLong s = some k) {t : List Char} (h : answer s n = .text t) :
    utf8Len t ≤ 62 ↔ n < k := by
  have fin : ∀ {a : Answer} {k' : Nat} (k : Nat), some k' = some k → (∃ t, a = .text t ∧ (utf8Len t ≤ 62 ↔ n < k')) → a = .text t →
      (utf8Len t ≤ 62 ↔ n < k) := by
    intro a k' k hk ⟨t', h1, h2⟩ h
    rw [h1] at h
    cases h
    cases hk
    exact h2
  cases s with
  | easternArabic => exact fin k hk (from_short_iff (w := 2) (K := 31) (by decide) (by omega) (by omega) (by omega) n) h
  | persian => exact fin k hk (from_short_iff (w := 2) (K := 31) (by decide) (by omega) (by omega) (by omega) n) h
  | bengali => exact fin k hk (from_short_iff (w := 3) (K := 20) (by decide) (by omega) (by omega) (by omega) n) h
  | cambodian => exact fin k hk (from_short_iff (w := 3) (K := 20) (by decide) (by omega) (by omega) (by omega) n) h
  | devanagari => exact fin k hk (from_short_iff (w := 3) (K := 20) (by decide) (by omega) (by omega) (by omega) n) h
  | gujarati => exact fin k hk (from_short_iff (w := 3) (K := 20) (by decide) (by omega) (by omega) (by omega) n) h
  | gurmukhi => exact fin k hk (from_short_iff (w := 3) (K := 20) (by decide) (by omega) (by omega) (by omega) n) h
  | kannada => exact fin k hk (from_short_iff (w := 3) (K := 20) (by decide) (by omega) (by omega) (by omega) n) h
  | lao => exact fin k hk (from_short_iff (w := 3) (K := 20) (by decide) (by omega) (by omega) (by omega) n) h
  | malayalam => exact fin k hk (from_short_iff (w := 3) (K := 20) (by decide) (by omega) (by omega) (by omega) n) h
  | mongolian => exact fin k hk (from_short_iff (w := 3) (K := 20) (by decide) (by omega) (by omega) (by omega) n) h
  | myanmar => exact fin k hk (from_short_iff (w := 3) (K := 20) (by decide) (by omega) (by omega) (by omega) n) h
  | oriya => exact fin k hk (from_short_iff (w := 3) (K := 20) (by decide) (by omega) (by omega) (by omega) n) h
  | tamil => exact fin k hk (from_short_iff (w := 3) (K := 20) (by decide) (by omega) (by omega) (by omega) n) h
  | telugu => exact fin k hk (from_short_iff (w := 3) (K := 20) (by decide) (by omega) (by omega) (by omega) n) h
  | thai => exact fin k hk (from_short_iff (w := 3) (K := 20) (by decide) (by omega) (by omega) (by omega) n) h
  | tibetan => exact fin k hk (from_short_iff (w := 3) (K := 20) (by decide) (by omega) (by omega) (by omega) n) h
  | hiragana =>
    rw [firstLong] at hk
    exact fin k hk (columnName_short_iff (w := 3) (K := 20) (b := 46) (by decide) (by decide) (by omega) (by omega) (by omega) n) h
  | katakana =>
    rw [firstLong] at hk
    exact fin k hk (columnName_short_iff (w := 3) (K := 20) (b := 46) (by decide) (by decide) (by omega) (by omega) (by omega) n) h
  | hiraganaIroha =>
    rw [firstLong] at hk
    exact fin k hk (columnName_short_iff (w := 3) (K := 20) (b := 47) (by decide) (by decide) (by omega) (by omega) (by omega) n) h
  | katakanaIroha =>
    rw [firstLong] at hk
    exact fin k hk (columnName_short_iff (w := 3) (K := 20) (b := 47) (by decide) (by decide) (by omega) (by omega) (by omega) n) h
  | hangeulJamo =>
    rw [firstLong] at hk
    exact fin k hk (columnName_short_iff (w := 3) (K := 20) (b := 14) (by decide) (by decide) (by omega) (by omega) (by omega) n) h
  | hangeulSyllable =>
    rw [firstLong] at hk
    exact fin k hk (columnName_short_iff (w := 3) (K := 20) (b := 14) (by decide) (by decide) (by omega) (by omega) (by omega) n) h
  | cjkDecimal =>
    rw [answer] at h
    rw [firstLong] at hk
    injection h with h
    injection hk with hk
    rw [← h, ← hk]
    exact cjk_short_iff n
  | cjkHeavenlyStem =>
    rw [answer] at h
    rw [firstLong] at hk
    injection hk with hk
    rw [← hk]
    exact series_short_iff (by decide) h
  | cjkEarthlyBranch =>
    rw [answer] at h
    rw [firstLong] at hk
    injection hk with hk
    rw [← hk]
    exact series_short_iff (by decide) h
  | decimal => cases hk
  | hexUpper => cases hk
  | hexLower => cases hk
  | letterUpper => cases hk
  | letterLower => cases hk
  | greekUpper => cases hk
  | greekLower => cases hk
  | _ => cases hs

theorem column_always {al : List Char} {n : Nat} (hn : n < 2 ^ 128) (h : ∀ c ∈ al, c.utf8Size ≤ 2) (hb : 24 ≤ al.length) (hb' : al.length ≤ 26)
    {t : List Char} (ht : columnName al n = .text t) : utf8Len t ≤ 62 := by
  cases ht
  have hle : (column al.length n).length ≤ 31 := by
    refine (column_length (by omega) n).2.2 31 ?_
    have h3 : al.length = 24 ∨ al.length = 25 ∨ al.length = 26 := by omega
    rcases h3 with h3 | h3 | h3 <;> rw [h3] <;> exact Nat.lt_of_lt_of_le hn (by decide)
  have : ∀ ds : List Nat, (∀ d ∈ ds, d < al.length) → utf8Len (spell al ds) ≤ 2 * ds.length := by
    intro ds
    induction ds with
    | nil => intro _; simp [spell]
    | cons d ds ih =>
      intro hd
      have h1 := h _ (getD_mem (hd d (by simp)))
      have h2 := ih fun d hd' => hd d (by simp [hd'])
      simp only [spell, List.map_cons, utf8Len_cons, List.length_cons] at h2 ⊢
      omega
  have := this _ (column_lt (by omega) n)
  omega

/-- Below the first long number every text fits. -/
theorem answer_short {s : Named} {n : Nat} (hn : n < 2 ^ 128) (hk : ∀ k, firstLong s = some k → n < k) {t : List Char} (h : answer s n = .text t) :
    utf8Len t ≤ 62 := by
  have additive : ∀ {z : Answer} {top : Nat} {ts : List Char} {sym : Nat → Nat → List Char}, (∀ u, z = .text u → utf8Len u ≤ 62) →
      utf8Len (repeatedTop top ts sym n) ≤ 62 → additiveAnswer z top ts sym n = .text t → utf8Len t ≤ 62 := by
    intro z top ts sym h1 h2 h
    unfold additiveAnswer at h
    split at h
    · exact h1 _ h
    · cases h; exact h2
  by_cases hd : ofDigits s = true ∧ ∃ k, firstLong s = some k
  · obtain ⟨hd, k, hk'⟩ := hd
    exact (digits_short_iff hd hk' h).mpr (hk k hk')
  cases s with
  | decimal =>
    cases h
    have := decimal_short_iff (w := 1) (K := 62) (f := id) (by decide) (by omega) (by omega) (by omega) n
    rw [List.map_id] at this
    exact this.mpr (Nat.lt_of_lt_of_le hn (by decide))
  | hexUpper =>
    cases h
    rw [utf8Len_uniform (w := 1), List.length_map]
    · have := digits16_short hn; omega
    · intro c hc
      obtain ⟨d, hd, rfl⟩ := List.mem_map.mp hc
      exact (hex_ascii d hd).2
  | hexLower =>
    cases h
    rw [utf8Len_uniform (w := 1) fun c hc => (hex_ascii c hc).1]
    have := digits16_short hn
    omega
  | letterUpper => exact column_always hn (by decide) (by decide) (by decide) h
  | letterLower => exact column_always hn (by decide) (by decide) (by decide) h
  | greekUpper => exact column_always hn (by decide) (by decide) (by decide) h
  | greekLower => exact column_always hn (by decide) (by decide) (by decide) h
  | circledNumber =>
    rw [answer] at h
    split at h
    · cases h
      have := utf8Size_le (Char.ofNat (circled n))
      simp only [utf8Len_cons, utf8Len_nil]
      omega
    · cases h
  | doubleCircledNumber =>
    rw [answer] at h
    split at h
    · cases h
    · split at h
      · cases h
        have := utf8Size_le (Char.ofNat (0x24f5 + (n - 1)))
        simp only [utf8Len_cons, utf8Len_nil]
        omega
      · cases h
  | romanLower =>
    cases h
    split
    · decide
    · rw [toLower_len]; exact roman_short (hk _ rfl)
  | romanUpper =>
    cases h
    split
    · decide
    · exact roman_short (hk _ rfl)
  | armenianUpper => exact additive (by intro u h; cases h) (armenianUpper_short (hk _ rfl)) h
  | armenianLower => exact additive (by intro u h; cases h) (armenianLower_short (hk _ rfl)) h
  | georgian => exact additive (by intro u h; cases h) (georgian_short (hk _ rfl)) h
  | japaneseFormal => exact additive (by intro u h; cases h; decide) (formalPlace_short (by decide) (by decide +kernel) (hk _ rfl)) h
  | hangeulFormal => exact additive (by intro u h; cases h; decide) (formalPlace_short (by decide) (by decide +kernel) (hk _ rfl)) h
  | hanjaFormal => exact additive (by intro u h; cases h; decide) (formalPlace_short (by decide) (by decide +kernel) (hk _ rfl)) h
  | japaneseInformal => exact additive (by intro u h; cases h; decide) (informalPlace_short (by decide) (by decide +kernel) (hk _ rfl)) h
  | hanjaInformal => exact additive (by intro u h; cases h; decide) (informalPlace_short (by decide) (by decide +kernel) (hk _ rfl)) h
  | hebrew =>
    rw [answer] at h
    split at h
    · cases h
    · cases h; exact hebrew_short (hk _ rfl)
  | ethiopic =>
    rw [answer] at h
    split at h
    · cases h
    · cases h; exact ethiopic_short (hk _ rfl)
  | chinese k o =>
    rw [answer] at h
    split at h
    · cases h
    · cases h; exact chinese_short k o (hk _ rfl)
  | _ => exact absurd ⟨rfl, _, rfl⟩ hd

/-- The first long number is long. -/
theorem answer_long {s : Named} {k : Nat} (hk : firstLong s = some k) : ∃ t, answer s k = .text t ∧ 62 < utf8Len t := by
  by_cases hd : ofDigits s = true
  · have he : ∃ t, answer s k = .text t := by
      cases s with
      | cjkHeavenlyStem => cases hk; exact ⟨_, rfl⟩
      | cjkEarthlyBranch => cases hk; exact ⟨_, rfl⟩
      | _ => first | exact ⟨_, rfl⟩ | cases hd
    obtain ⟨t, ht⟩ := he
    refine ⟨t, ht, ?_⟩
    have := digits_short_iff hd hk ht
    omega
  cases s with
  | romanLower => cases hk; refine ⟨_, rfl, ?_⟩; decide +kernel
  | romanUpper => cases hk; refine ⟨_, rfl, ?_⟩; decide +kernel
  | armenianUpper => cases hk; refine ⟨_, rfl, ?_⟩; decide +kernel
  | armenianLower => cases hk; refine ⟨_, rfl, ?_⟩; decide +kernel
  | georgian => cases hk; refine ⟨_, rfl, ?_⟩; decide +kernel
  | japaneseFormal => cases hk; refine ⟨_, rfl, ?_⟩; decide +kernel
  | hangeulFormal => cases hk; refine ⟨_, rfl, ?_⟩; decide +kernel
  | hanjaFormal => cases hk; refine ⟨_, rfl, ?_⟩; decide +kernel
  | japaneseInformal => cases hk; refine ⟨_, rfl, ?_⟩; decide +kernel
  | hanjaInformal => cases hk; refine ⟨_, rfl, ?_⟩; decide +kernel
  | hebrew => cases hk; refine ⟨_, rfl, ?_⟩; decide +kernel
  | ethiopic =>
    cases hk
    refine ⟨_, rfl, ?_⟩
    rw [ethiopicText_eq (by omega), utf8Len_uniform (ethFrom_size _ 0)]
    simp [ethFrom, ethGroupText, ethDigits]
  | chinese c o =>
    cases hk
    refine ⟨_, ?_, chinese_long c o⟩
    rw [answer, if_neg (by omega)]
  | _ => first | exact absurd rfl hd | cases hk

/-- C57. Below its first long number a named system never runs out of memory and never allocates: whatever text it gives is
inline, in every build and for every integer type; the first long number itself is returned on the heap with `alloc` and refused
with `OutOfMemory` without. -/
theorem C57_first_long {cfg : Cfg} {T : IntTy} {n : Nat} (s : Named) (hn : T.Fits cfg n) :
    ((∀ k, firstLong s = some k → n < k) →
      view (tryToNominal cfg T n s.system) ≠ .err (.outOfMemory n) ∧
      ∀ t i, view (tryToNominal cfg T n s.system) = .ok (t, i) → i = true) ∧
    (firstLong s = some n →
      ∃ t, 62 < utf8Len t ∧ view (tryToNominal cfg T n s.system) = if cfg.alloc then .ok (t, false) else .err (.outOfMemory n)) := by
  rw [C51_catalogue s hn]
  constructor
  · intro hk
    cases h : answer s n with
    | text t =>
      rw [present, deliver, if_pos (answer_short (Nominals.fits_lt hn) hk h)]
      exact ⟨by simp, by rintro t i ⟨⟩; rfl⟩
    | noZero => exact ⟨by simp [present], by intro t i h; cases h⟩
    | outOfBounds => exact ⟨by simp [present], by intro t i h; cases h⟩
  · intro hk
    obtain ⟨t, h1, h2⟩ := answer_long hk
    exact ⟨t, h2, by rw [h1, present, deliver, if_neg (by omega)]⟩

/-- A build without `alloc`, 16-bit numbers: Hebrew writes 11,314 inline, and refuses 11,315. -/
example : (∃ t, view (tryToNominal ⟨false, .w32, true⟩ .u16 11314 Named.hebrew.system) = .ok (t, true)) ∧
    view (tryToNominal ⟨false, .w32, true⟩ .u16 11315 Named.hebrew.system) = .err (.outOfMemory 11315) :=
  ⟨⟨List.replicate 28 'ת' ++ ['ק', 'י', 'ד'], by decide +kernel⟩, by decide +kernel⟩

/-- C57. The digit systems: exactly the numbers below the first long one are inline. -/
theorem C57_digits_exact {cfg : Cfg} {T : IntTy} {n k : Nat} (s : Named) (hn : T.Fits cfg n) (hs : ofDigits s = true)
    (hk : firstLong s = some k) {t : List Char} {i : Bool} (h : view (tryToNominal cfg T n s.system) = .ok (t, i)) :
    i = decide (n < k) := by
  rw [C51_catalogue s hn] at h
  cases ha : answer s n with
  | text u =>
    rw [ha, present, deliver] at h
    have := digits_short_iff hs hk ha
    split at h
    · cases h; exact (decide_eq_true (this.mp ‹_›)).symm
    · split at h
      · cases h; exact (decide_eq_false (fun h => ‹¬ _› (this.mpr h))).symm
      · cases h
  | noZero => rw [ha] at h; cases h
  | outOfBounds => rw [ha] at h; cases h

/-- Twenty Thai digits are inline; twenty-one are not. -/
example : let c : Cfg := ⟨true, .w64, true⟩
    (∃ t, view (tryToNominal c .u128 (10 ^ 20 - 1) Named.thai.system) = .ok (t, true)) ∧
    (∃ t, view (tryToNominal c .u128 (10 ^ 20) Named.thai.system) = .ok (t, false)) :=
  ⟨⟨List.replicate 20 '๙', by decide +kernel⟩, ⟨'๑' :: List.replicate 20 '๐', by decide +kernel⟩⟩

/-- C57. No named system ever runs out of memory on a `u8`, and none written with digits on a `u64`. -/
theorem C57_small_types {cfg : Cfg} {T : IntTy} {n : Nat} (s : Named) (hn : T.Fits cfg n)
    (h : n < 2 ^ 8 ∨ (ofDigits s = true ∧ n < 2 ^ 64)) : view (tryToNominal cfg T n s.system) ≠ .err (.outOfMemory n) := by
  refine ((C57_first_long s hn).1 fun k hk => ?_).1
  cases s with
  | hiragana | katakana | hiraganaIroha | katakanaIroha | hangeulJamo | hangeulSyllable =>
    rw [firstLong] at hk
    injection hk with hk
    rw [← hk]
    have : n < 2 ^ 64 := by omega
    exact Nat.lt_of_lt_of_le this (by decide)
  | _ =>
    rw [firstLong] at hk
    first
      | cases hk
        done
      | injection hk with hk
        simp only [ofDigits, Bool.false_eq_true, false_and, or_false, true_and] at h
        omega

/-- The largest numbers concerned: 255 in the longest additive script, `u64::MAX` in hiragana, in a build without `alloc`. -/
example : let c : Cfg := ⟨false, .w64, true⟩
    view (tryToNominal c .u8 255 Named.hanjaFormal.system) = .ok (['貳', '百', '五', '拾', '五'], true) ∧
    view (tryToNominal c .u64 (2 ^ 64 - 1) Named.hiragana.system) =
      .ok (['け', 'と', 'ら', 'く', 'ま', 'ゆ', 'ら', 'う', 'い', 'し', 'も', 'か'], true) := by decide +kernel

end Nominals.Props
