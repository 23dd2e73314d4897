import Verif.Props.Lib

/-!
# Property C56: no named system writes two numbers alike

Vocabulary: `Verif/Spec/Outcome.lean`, `Verif/Spec/Catalogue.lean`.
-/

namespace Nominals.Props

open Nominals.Spec

/-- Texts of positional systems over distinct digits. -/
theorem positional_injective {cfg cfg' : Cfg} {T T' : IntTy} {al : List Char} {n m : Nat} (hl : 2 ≤ al.length) (hl' : al.length < 256)
    (hd : al.Nodup) (hn : T.Fits cfg n) (hm : T'.Fits cfg' m) {t : List Char} {i j : Bool}
    (h1 : view ((DigitSys.named (.digitSetNew al)).tryFormat cfg T n) = .ok (t, i))
    (h2 : view ((DigitSys.named (.digitSetNew al)).tryFormat cfg' T' m) = .ok (t, j)) : n = m := by
  have hp : ∀ c, Plain c (.named (.digitSetNew al)) al := fun c =>
    ⟨rfl, named_hasDigits (digitSetNew_hasDigits _), by have := ptr_ge c; omega⟩
  exact C13_distinct_positional (hp cfg) (hp cfg') rfl hl hd hn hm h1 h2

/-- Column names over distinct letters. -/
theorem columns_injective {cfg cfg' : Cfg} {T T' : IntTy} {al : List Char} {n m : Nat} (hl : 1 ≤ al.length) (hl' : al.length < 256)
    (hd : al.Nodup) (hn : T.Fits cfg n) (hm : T'.Fits cfg' m) {t : List Char} {i j : Bool}
    (h1 : view ((DigitSys.named (.digitSetZeroless al)).tryFormat cfg T n) = .ok (t, i))
    (h2 : view ((DigitSys.named (.digitSetZeroless al)).tryFormat cfg' T' m) = .ok (t, j)) : n = m := by
  have hp : ∀ c, Plain c (.named (.digitSetZeroless al)) al := fun c =>
    ⟨rfl, named_hasDigits (digitSetZeroless_hasDigits _), by have := ptr_ge c; omega⟩
  exact C13_distinct_columns (hp cfg) (hp cfg') rfl rfl hl hd hn hm h1 h2

/-- Ordinary decimal numerals are different for different numbers, also with other digits, if these are distinct. -/
theorem toDigits_map_injective {b : Nat} {f : Char → Char} (hb : 2 ≤ b)
    (hf : ∀ i, i < b → ∀ j, j < b → f (Nat.digitChar i) = f (Nat.digitChar j) → i = j) {n m : Nat}
    (h : (Nat.toDigits b n).map f = (Nat.toDigits b m).map f) : n = m := by
  have hn : IsNumeral b n _ := loop_numeral hb
  have hm : IsNumeral b m _ := loop_numeral hb
  rw [numeral_toDigits hb hn, numeral_toDigits hb hm, List.map_map, List.map_map] at h
  have key : ∀ (x y : List Nat), (∀ d ∈ x, d < b) → (∀ d ∈ y, d < b) → x.map (f ∘ Nat.digitChar) = y.map (f ∘ Nat.digitChar) → x = y := by
    intro x
    induction x with
    | nil => intro y _ _ h; cases y with
      | nil => rfl
      | cons => simp at h
    | cons a x ih =>
      intro y hx hy h
      cases y with
      | nil => simp at h
      | cons c y =>
        simp only [List.map_cons, List.cons.injEq, Function.comp] at h
        rw [hf a (hx a (by simp)) c (hy c (by simp)) h.1, ih y (fun d hd => hx d (by simp [hd])) (fun d hd => hy d (by simp [hd])) h.2]
  have e := key _ _ hn.digits hm.digits h
  rw [← hn.value, ← hm.value, e]

/-- A fixed series with CJK decimals beyond: different numbers, different texts, as long as the symbols are distinct and none of
them is a CJK digit. -/
theorem series_injective {al : List Char} (hd : al.Nodup)
    (hx : ∀ c ∈ al, c ∉ ['〇', '一', '二', '三', '四', '五', '六', '七', '八', '九']) {n m : Nat} {t : List Char}
    (h1 : series al n = .text t) (h2 : series al m = .text t) : n = m := by
  have hin : ∀ k, ∀ c ∈ decimalWith ['〇', '一', '二', '三', '四', '五', '六', '七', '八', '九'] k,
      c ∈ ['〇', '一', '二', '三', '四', '五', '六', '七', '八', '九'] := by
    intro k c hc
    have hk : IsNumeral 10 k _ := loop_numeral (by omega)
    rw [decimalWith, numeral_toDigits (by omega) hk, List.map_map] at hc
    obtain ⟨i, hi, rfl⟩ := List.mem_map.mp hc
    have key : ∀ i, i < 10 → ['〇', '一', '二', '三', '四', '五', '六', '七', '八', '九'].getD ((Nat.digitChar i).toNat - '0'.toNat) '?' ∈
      ['〇', '一', '二', '三', '四', '五', '六', '七', '八', '九'] := by decide
    exact key i (hk.digits i hi)
  have hget : ∀ k, k ≠ 0 → k ≤ al.length → al.getD (k - 1) '?' ∈ al := by
    intro k h0 hk
    rw [List.getD_eq_getElem?_getD, List.getElem?_eq_getElem (by omega)]
    exact List.getElem_mem _
  unfold series at h1 h2
  by_cases hn : n = 0
  · rw [if_pos hn] at h1; cases h1
  by_cases hm : m = 0
  · rw [if_pos hm] at h2; cases h2
  rw [if_neg hn] at h1
  rw [if_neg hm] at h2
  injection h1 with h1
  injection h2 with h2
  have h : _ = _ := h1.trans h2.symm
  clear h1 h2
  by_cases hn' : n ≤ al.length <;> by_cases hm' : m ≤ al.length
  · rw [if_pos hn', if_pos hm'] at h
    injection h with h _
    rw [List.getD_eq_getElem?_getD, List.getElem?_eq_getElem (by omega), List.getD_eq_getElem?_getD, List.getElem?_eq_getElem (by omega)] at h
    have := (List.getElem_inj (h₀ := by omega) (h₁ := by omega) hd).mp h
    omega
  · rw [if_pos hn', if_neg hm'] at h
    exact absurd (hin m _ (by rw [← h]; simp)) (hx _ (hget n hn hn'))
  · rw [if_neg hn', if_pos hm'] at h
    exact absurd (hin n _ (by rw [h]; simp)) (hx _ (hget m hm hm'))
  · rw [if_neg hn', if_neg hm'] at h
    exact toDigits_map_injective (by omega) (by decide) h

theorem present_text {alloc : Bool} {n : Nat} {a : Answer} {t : List Char} {i : Bool} (h : present alloc n a = .ok (t, i)) : a = .text t := by
  cases a with
  | text u =>
    rw [present, deliver] at h
    split at h
    · cases h; rfl
    · split at h <;> cases h; rfl
  | noZero => cases h
  | outOfBounds => cases h

theorem answer_view {s : Named} {n : Nat} (hn : n < 2 ^ 128) {t : List Char} (h : answer s n = .text t) :
    ∃ i, view (tryToNominal ⟨true, .w64, true⟩ .u128 n s.system) = .ok (t, i) := by
  rw [C51_catalogue s (show IntTy.u128.Fits ⟨true, .w64, true⟩ n from hn), h, present]
  unfold deliver
  split
  · exact ⟨_, rfl⟩
  · exact ⟨_, rfl⟩

/-- The catalogue never gives one text to two numbers. -/
theorem answer_injective (s : Named) {n m : Nat} (hn : n < 2 ^ 128) (hm : m < 2 ^ 128) {t : List Char} (h1 : answer s n = .text t)
    (h2 : answer s m = .text t) : n = m := by
  have fn : IntTy.u128.Fits ⟨true, .w64, true⟩ n := hn
  have fm : IntTy.u128.Fits ⟨true, .w64, true⟩ m := hm
  obtain ⟨i, v1⟩ := answer_view hn h1
  obtain ⟨j, v2⟩ := answer_view hm h2
  have add : ∀ p ∈ readableSystems, view (p.1 ⟨true, .w64, true⟩ .u128 n) = .ok (t, i) → view (p.1 ⟨true, .w64, true⟩ .u128 m) = .ok (t, j) → n = m :=
    fun p hp => C29_distinct fn fm p hp t i j
  cases s with
  | decimal => exact positional_injective (al := decimalDigits) (by decide) (by decide) (by decide) fn fm v1 v2
  | easternArabic => exact positional_injective (al := easternArabicDigits) (by decide) (by decide) (by decide) fn fm v1 v2
  | persian => exact positional_injective (al := persianDigits) (by decide) (by decide) (by decide) fn fm v1 v2
  | bengali => exact positional_injective (al := bengaliDigits) (by decide) (by decide) (by decide) fn fm v1 v2
  | cambodian => exact positional_injective (al := cambodianDigits) (by decide) (by decide) (by decide) fn fm v1 v2
  | cjkDecimal => exact positional_injective (al := cjkDecimalDigits) (by decide) (by decide) (by decide) fn fm v1 v2
  | devanagari => exact positional_injective (al := devanagariDigits) (by decide) (by decide) (by decide) fn fm v1 v2
  | gujarati => exact positional_injective (al := gujaratiDigits) (by decide) (by decide) (by decide) fn fm v1 v2
  | gurmukhi => exact positional_injective (al := gurmukhiDigits) (by decide) (by decide) (by decide) fn fm v1 v2
  | kannada => exact positional_injective (al := kannadaDigits) (by decide) (by decide) (by decide) fn fm v1 v2
  | lao => exact positional_injective (al := laoDigits) (by decide) (by decide) (by decide) fn fm v1 v2
  | malayalam => exact positional_injective (al := malayalamDigits) (by decide) (by decide) (by decide) fn fm v1 v2
  | mongolian => exact positional_injective (al := mongolianDigits) (by decide) (by decide) (by decide) fn fm v1 v2
  | myanmar => exact positional_injective (al := myanmarDigits) (by decide) (by decide) (by decide) fn fm v1 v2
  | oriya => exact positional_injective (al := oriyaDigits) (by decide) (by decide) (by decide) fn fm v1 v2
  | tamil => exact positional_injective (al := tamilDigits) (by decide) (by decide) (by decide) fn fm v1 v2
  | telugu => exact positional_injective (al := teluguDigits) (by decide) (by decide) (by decide) fn fm v1 v2
  | thai => exact positional_injective (al := thaiDigits) (by decide) (by decide) (by decide) fn fm v1 v2
  | tibetan => exact positional_injective (al := tibetanDigits) (by decide) (by decide) (by decide) fn fm v1 v2
  | letterUpper => exact columns_injective (al := letterUpperDigits) (by decide) (by decide) (by decide +kernel) fn fm v1 v2
  | letterLower => exact columns_injective (al := letterLowerDigits) (by decide) (by decide) (by decide +kernel) fn fm v1 v2
  | greekUpper => exact columns_injective (al := greekUpperDigits) (by decide) (by decide) (by decide +kernel) fn fm v1 v2
  | greekLower => exact columns_injective (al := greekLowerDigits) (by decide) (by decide) (by decide +kernel) fn fm v1 v2
  | hiragana => exact columns_injective (al := hiraganaDigits) (by decide) (by decide) (by decide +kernel) fn fm v1 v2
  | hiraganaIroha => exact columns_injective (al := hiraganaIrohaDigits) (by decide) (by decide) (by decide +kernel) fn fm v1 v2
  | katakana => exact columns_injective (al := katakanaDigits) (by decide) (by decide) (by decide +kernel) fn fm v1 v2
  | katakanaIroha => exact columns_injective (al := katakanaIrohaDigits) (by decide) (by decide) (by decide +kernel) fn fm v1 v2
  | hangeulJamo => exact columns_injective (al := hangeulJamoDigits) (by decide) (by decide) (by decide +kernel) fn fm v1 v2
  | hangeulSyllable => exact columns_injective (al := hangeulSyllableDigits) (by decide) (by decide) (by decide +kernel) fn fm v1 v2
  | cjkHeavenlyStem | cjkEarthlyBranch => exact series_injective (by decide) (by decide) h1 h2
  | hexUpper =>
    injection h1.trans h2.symm with h
    exact toDigits_map_injective (by omega) (by decide) h
  | hexLower =>
    injection h1.trans h2.symm with h
    exact toDigits_map_injective (b := 16) (f := id) (by omega) (by decide) (by simpa using h)
  | circledNumber =>
    have key : ∀ n, n ≤ 50 → ∀ m, m ≤ 50 → Char.ofNat (circled n) = Char.ofNat (circled m) → n = m := by decide +kernel
    have h := h1.trans h2.symm
    simp only [answer] at h h1 h2
    split at h1
    · split at h2
      · rename_i a b
        rw [if_pos a, if_pos b] at h
        exact key n a m b (by simpa using h)
      · cases h2
    · cases h1
  | doubleCircledNumber =>
    have key : ∀ n, n ≤ 10 → ∀ m, m ≤ 10 → n ≠ 0 → m ≠ 0 → Char.ofNat (0x24f5 + (n - 1)) = Char.ofNat (0x24f5 + (m - 1)) → n = m := by
      decide +kernel
    have h := h1.trans h2.symm
    simp only [answer] at h h1 h2
    by_cases a : n = 0
    · rw [if_pos a] at h1; cases h1
    by_cases b : m = 0
    · rw [if_pos b] at h2; cases h2
    rw [if_neg a] at h1 h
    rw [if_neg b] at h2 h
    by_cases a' : n ≤ 10
    · by_cases b' : m ≤ 10
      · rw [if_pos a', if_pos b'] at h
        exact key n a' m b' a b (by simpa using h)
      · rw [if_neg b'] at h2; cases h2
    · rw [if_neg a'] at h1; cases h1
  | romanLower => exact (C26_roman_distinct fn fm).2 v1 v2
  | romanUpper => exact (C26_roman_distinct fn fm).1 v1 v2
  | armenianUpper => exact add (armenianUpperTryFormat, letterSum armenianValue) (by simp [readableSystems]) v1 v2
  | armenianLower => exact add (armenianLowerTryFormat, letterSum armenianValue) (by simp [readableSystems]) v1 v2
  | georgian => exact add (georgianTryFormat, letterSum georgianValue) (by simp [readableSystems]) v1 v2
  | japaneseFormal => exact add (japaneseFormalTryFormat, japaneseFormalScript.read) (by simp [readableSystems]) v1 v2
  | japaneseInformal => exact add (japaneseInformalTryFormat, japaneseInformalScript.read) (by simp [readableSystems]) v1 v2
  | hangeulFormal => exact add (hangeulFormalTryFormat, hangeulFormalScript.read) (by simp [readableSystems]) v1 v2
  | hanjaInformal => exact add (hanjaInformalTryFormat, hanjaInformalScript.read) (by simp [readableSystems]) v1 v2
  | hanjaFormal => exact add (hanjaFormalTryFormat, hanjaFormalScript.read) (by simp [readableSystems]) v1 v2
  | hebrew => exact C31_distinct fn fm v1 v2
  | ethiopic => exact C35_distinct (T := .u128) (T' := .u128) v1 v2
  | chinese k o => exact C37_distinct fn fm rfl v1 v2

/-- C56. In every named system different numbers have different texts, across integer types, builds and pointer widths. -/
theorem C56_injective {cfg cfg' : Cfg} {T T' : IntTy} {n m : Nat} (s : Named) (hn : T.Fits cfg n) (hm : T'.Fits cfg' m) {t : List Char}
    {i j : Bool} (h1 : view (tryToNominal cfg T n s.system) = .ok (t, i)) (h2 : view (tryToNominal cfg' T' m s.system) = .ok (t, j)) :
    n = m := by
  rw [C51_catalogue s hn] at h1
  rw [C51_catalogue s hm] at h2
  exact answer_injective s (Nominals.fits_lt hn) (Nominals.fits_lt hm) (present_text h1) (present_text h2)

/-- The texts of 90,000 and 150,000 consist of the same letters (in a different order); equal texts from different types. -/
example :
    view (tryToNominal ⟨true, .w64, true⟩ .u32 90000 Named.romanUpper.system) = .ok (['L', '\u0305', 'C', '\u0305'], true) ∧
    view (tryToNominal ⟨true, .w64, true⟩ .u32 150000 Named.romanUpper.system) = .ok (['C', '\u0305', 'L', '\u0305'], true) ∧
    view (tryToNominal ⟨true, .w64, true⟩ .u8 200 Named.romanUpper.system) = .ok (['C', 'C'], true) ∧
    view (tryToNominal ⟨false, .w16, true⟩ .u128 200 Named.romanUpper.system) = .ok (['C', 'C'], true) := by
  refine ⟨?_, ?_, ?_, ?_⟩
  · rw [C51_catalogue _ (by decide)]; decide +kernel
  · rw [C51_catalogue _ (by decide)]; decide +kernel
  · rw [C51_catalogue _ (by decide)]; decide +kernel
  · rw [C51_catalogue _ (by decide)]; decide +kernel

end Nominals.Props
