import Verif.Spec.Catalogue
import Verif.Props.Digits
import Verif.Props.Additive
import Verif.Props.Hebrew
import Verif.Props.Ethiopic
import Verif.Props.Chinese

/-!
# The catalogue theorem (C51) and what follows from it for every named system: C20, C43, C46

Vocabulary: `Verif/Spec/Outcome.lean`, `Verif/Spec/Catalogue.lean`.
-/

namespace Nominals.Props

open Nominals.Spec

/-! ## Enumerated sets (C45) -/

/-- C45. An enumerated set, for every table and every number: zero has no symbol in a zeroless set; the symbol of `n` is the
`n`-th of the table (counting from 0, or from 1 if zeroless); beyond the table the answer is `OutOfBounds(n)`, also for
numbers exceeding `usize`. In builds without `alloc` a symbol of more than 62 bytes panics. (The length of a table is a
`usize`.) -/
theorem C45_enumerated {cfg : Cfg} {T : IntTy} {n : Nat} (e : EnumSet) (hl : e.symbols.length < 2 ^ cfg.ptr.bits) :
    view (e.tryFormat cfg T n) =
      if e.hasZero = false ∧ n = 0 then .err .noZeroSymbol
      else match e.symbols[if e.hasZero then n else n - 1]? with
        | some t => if utf8Len t ≤ 62 then .ok (t, true) else if cfg.alloc then .ok (t, false) else .panic
        | none => .err (.outOfBounds n) := by
  have hstr : ∀ t : List Char, view (NStr.ofStr (ε := Error) cfg t) =
      if utf8Len t ≤ 62 then .ok (t, true) else if cfg.alloc then .ok (t, false) else .panic := by
    intro t
    by_cases h : cfg.alloc = true ∨ utf8Len t ≤ 62
    · obtain ⟨s, h1, h2⟩ := ofStr_is (ε := Error) cfg t h
      rw [h1]
      simp only [view, Res.bind, h2.1.asStr, h2.2]
      by_cases hl : utf8Len t ≤ 62
      · simp [hl]
      · rcases h with h | h
        · simp [hl, h]
        · exact absurd h hl
    · have h1 : ¬ cfg.alloc = true := fun h' => h (.inl h')
      have h2 : ¬ utf8Len t ≤ 62 := fun h' => h (.inr h')
      simp [NStr.ofStr, utf8Encode_length, INLINE_CAPACITY, h1, h2, view, Res.bind]
  unfold EnumSet.tryFormat tryIntoUsize
  by_cases hn : n < 2 ^ cfg.ptr.bits
  · rw [if_pos hn]
    simp only
    by_cases hz : e.hasZero = false ∧ n = 0
    · rw [if_pos hz]
      simp [hz.1, hz.2, view, Res.bind]
    · rw [if_neg hz]
      have hz' : (!e.hasZero && n == 0) = false := by
        cases h : e.hasZero <;> simp_all
      rw [hz']
      simp only [Bool.false_eq_true, ↓reduceIte]
      have hsub : (subT cfg .usize n (if e.hasZero = true then 0 else 1) : Res Error Nat) = .ok (if e.hasZero then n else n - 1) := by
        unfold subT
        cases h : e.hasZero
        · have : n ≠ 0 := fun h0 => hz ⟨h, h0⟩
          simp only [Bool.false_eq_true, ↓reduceIte]
          rw [if_pos (by omega)]
        · simp
      rw [hsub, Res.bind_ok]
      cases e.symbols[if e.hasZero then n else n - 1]? with
      | some t => exact hstr t
      | none => rfl
  · rw [if_neg hn]
    have h0 : n ≠ 0 := by have := ptr_ge cfg; omega
    have hne : ¬ (e.hasZero = false ∧ n = 0) := fun h => h0 h.2
    simp only [hne, ↓reduceIte]
    have : e.symbols[if e.hasZero = true then n else n - 1]? = none := by
      rw [List.getElem?_eq_none_iff]
      split <;> omega
    rw [this]
    rfl

/-- Both ends of a zeroless table, a number beyond `usize`, and a symbol too long for a build without `alloc`. -/
example : let e : EnumSet := ⟨false, [['x'], ['y', 'z'], List.replicate 63 'w']⟩
    view (e.tryFormat ⟨true, .w16, true⟩ .u32 2) = .ok (['y', 'z'], true) ∧ view (e.tryFormat ⟨true, .w16, true⟩ .u32 4) = .err (.outOfBounds 4) ∧
    view (e.tryFormat ⟨true, .w16, true⟩ .u32 65537) = .err (.outOfBounds 65537) ∧ view (e.tryFormat ⟨false, .w16, true⟩ .u32 3) = .panic := by
  decide +kernel

/-! ## C51: the catalogue -/

theorem numeric_answer {cfg : Cfg} {T : IntTy} {n : Nat} (hn : T.Fits cfg n) {d : DigitSys} {al : List Char} {first : Nat}
    (hm : (d, al) ∈ numericTables) (hal : ∀ i, i < 10 → al.getD i '?' = Char.ofNat (first + i)) :
    view (d.tryFormat cfg T n) = present cfg.alloc n (decimalFrom first n) := by
  rw [numeric_tables hn _ hm, decimalFrom, present]
  congr 1
  have hnum : IsNumeral 10 n _ := loop_numeral (b := 10) (n := n) (by omega)
  have hc : ∀ i, i < 10 → (Nat.digitChar i).toNat - '0'.toNat = i := by decide
  rw [numeral_toDigits (by omega) hnum, List.map_map, List.map_map]
  refine List.map_congr_left fun i hi => ?_
  simp only [Function.comp, hc i (hnum.digits i hi), hal i (hnum.digits i hi)]

theorem column_answer {cfg : Cfg} {T : IntTy} {n : Nat} (hn : T.Fits cfg n) {al al' : List Char} (h : al = al') (h1 : 1 ≤ al.length)
    (h2 : al.length < 256) :
    view ((DigitSys.named (.digitSetZeroless al)).tryFormat cfg T n) = present cfg.alloc n (columnName al' n) := by
  subst h
  have hp : Plain cfg (.named (.digitSetZeroless al)) al :=
    ⟨rfl, named_hasDigits (digitSetZeroless_hasDigits _), by have := ptr_ge cfg; omega⟩
  exact C10_columns hp rfl rfl h1 hn

theorem series_answer {cfg : Cfg} {T : IntTy} {n : Nat} (hn : T.Fits cfg n) {d : DigitSys} {al : List Char} (h : StemsSpec d al) :
    view (d.tryFormat cfg T n) = present cfg.alloc n (series al n) := by
  obtain ⟨h1, h2, h3⟩ := h cfg T n hn
  unfold series
  by_cases h0 : n = 0
  · rw [h1 h0, if_pos h0]; rfl
  · rw [if_neg h0, present]
    by_cases hl : n ≤ al.length
    · rw [h2 (by omega) hl, if_pos hl]
      have e : al.getD (n - 1) '?' = al[n - 1]'(by omega) := by
        rw [List.getD_eq_getElem?_getD, List.getElem?_eq_getElem (by omega)]; rfl
      have := utf8Size_le (al[n - 1]'(by omega))
      rw [e, deliver, if_pos (by simp only [utf8Len_cons, utf8Len_nil]; omega)]
    · rw [h3 (by omega), if_neg hl, numeric_tables hn (cjkDecimal, cjkDecimalDigits) (by simp [numericTables])]
      rfl

theorem additive_answer {cfg : Cfg} {T : IntTy} {n : Nat} (hn : T.Fits cfg n) {table : List (List Char × Nat)} {z : Answer} {top : Nat}
    {ts : List Char} {sym : Nat → Nat → List Char} (hm : (additiveTryFormat table, top, ts, sym) ∈ placeSystems)
    (hz : view (additiveTryFormat table cfg T 0) = present cfg.alloc 0 z) :
    view (additiveTryFormat table cfg T n) = present cfg.alloc n (additiveAnswer z top ts sym n) := by
  unfold additiveAnswer
  by_cases h0 : n = 0
  · subst h0; rw [if_pos rfl, hz]
  · rw [if_neg h0]; exact C28_repeated_top hn h0 _ hm

theorem char_inline (alloc : Bool) (n : Nat) (c : Char) : deliver alloc n [c] = .ok ([c], true) := by
  have := utf8Size_le c
  rw [deliver, if_pos (by simp only [utf8Len_cons, utf8Len_nil]; omega)]

theorem digits16_short {n : Nat} (hn : n < 2 ^ 128) : (Nat.toDigits 16 n).length ≤ 62 := by
  have hnum : IsNumeral 16 n _ := loop_numeral (b := 16) (n := n) (by omega)
  rw [numeral_toDigits (by omega) hnum, List.length_map]
  have := (numeral_length hnum).2.2 32 (by omega) (Nat.lt_of_lt_of_le hn (by decide))
  omega

theorem hex_ascii {n : Nat} : ∀ c ∈ Nat.toDigits 16 n, c.utf8Size = 1 ∧ c.toUpper.utf8Size = 1 := by
  have hnum : IsNumeral 16 n _ := loop_numeral (b := 16) (n := n) (by omega)
  have h16 : ∀ i, i < 16 → (Nat.digitChar i).utf8Size = 1 ∧ (Nat.digitChar i).toUpper.utf8Size = 1 := by decide
  rw [numeral_toDigits (by omega) hnum]
  intro c hc
  obtain ⟨i, hi, rfl⟩ := List.mem_map.mp hc
  exact h16 i (hnum.digits i hi)

/-- C51. Every named system, every number of every integer type, every build and pointer width: `try_format_nominal` presents
the catalogue's answer. -/
theorem C51_catalogue {cfg : Cfg} {T : IntTy} {n : Nat} (s : Named) (hn : T.Fits cfg n) :
    view (tryToNominal cfg T n s.system) = present cfg.alloc n (answer s n) := by
  have hptr := ptr_ge cfg
  have h128 := Nominals.fits_lt hn
  cases s with
  | decimal =>
    have := decimal_del hn (n + 64) 7 (by omega)
    exact this.1.view
  | easternArabic => exact numeric_answer (al := easternArabicDigits) hn (by simp [numericTables]) (by decide)
  | persian => exact numeric_answer (al := persianDigits) hn (by simp [numericTables]) (by decide)
  | bengali => exact numeric_answer (al := bengaliDigits) hn (by simp [numericTables]) (by decide)
  | cambodian => exact numeric_answer (al := cambodianDigits) hn (by simp [numericTables]) (by decide)
  | cjkDecimal => exact numeric_tables hn (cjkDecimal, cjkDecimalDigits) (by simp [numericTables])
  | devanagari => exact numeric_answer (al := devanagariDigits) hn (by simp [numericTables]) (by decide)
  | gujarati => exact numeric_answer (al := gujaratiDigits) hn (by simp [numericTables]) (by decide)
  | gurmukhi => exact numeric_answer (al := gurmukhiDigits) hn (by simp [numericTables]) (by decide)
  | kannada => exact numeric_answer (al := kannadaDigits) hn (by simp [numericTables]) (by decide)
  | lao => exact numeric_answer (al := laoDigits) hn (by simp [numericTables]) (by decide)
  | malayalam => exact numeric_answer (al := malayalamDigits) hn (by simp [numericTables]) (by decide)
  | mongolian => exact numeric_answer (al := mongolianDigits) hn (by simp [numericTables]) (by decide)
  | myanmar => exact numeric_answer (al := myanmarDigits) hn (by simp [numericTables]) (by decide)
  | oriya => exact numeric_answer (al := oriyaDigits) hn (by simp [numericTables]) (by decide)
  | tamil => exact numeric_answer (al := tamilDigits) hn (by simp [numericTables]) (by decide)
  | telugu => exact numeric_answer (al := teluguDigits) hn (by simp [numericTables]) (by decide)
  | thai => exact numeric_answer (al := thaiDigits) hn (by simp [numericTables]) (by decide)
  | tibetan => exact numeric_answer (al := tibetanDigits) hn (by simp [numericTables]) (by decide)
  | letterUpper => exact column_answer (al := letterUpperDigits) hn (by decide +kernel) (by decide) (by decide)
  | letterLower => exact column_answer (al := letterLowerDigits) hn (by decide +kernel) (by decide) (by decide)
  | greekUpper => exact column_answer (al := greekUpperDigits) hn (by decide +kernel) (by decide) (by decide)
  | greekLower => exact column_answer (al := greekLowerDigits) hn (by decide +kernel) (by decide) (by decide)
  | hiragana => exact column_answer (al := hiraganaDigits) hn (by decide +kernel) (by decide) (by decide)
  | hiraganaIroha => exact column_answer (al := hiraganaIrohaDigits) hn (by decide +kernel) (by decide) (by decide)
  | katakana => exact column_answer (al := katakanaDigits) hn (by decide +kernel) (by decide) (by decide)
  | katakanaIroha => exact column_answer (al := katakanaIrohaDigits) hn (by decide +kernel) (by decide) (by decide)
  | hangeulJamo => exact column_answer (al := hangeulJamoDigits) hn (by decide +kernel) (by decide) (by decide)
  | hangeulSyllable => exact column_answer (al := hangeulSyllableDigits) hn (by decide +kernel) (by decide) (by decide)
  | cjkHeavenlyStem => exact series_answer hn C15_heavenly_stems
  | cjkEarthlyBranch => exact series_answer hn C15_earthly_branches
  | hexUpper =>
    refine (C18_hex hn).2.1.trans ?_
    rw [answer, present, deliver, if_pos]
    rw [utf8Len_ascii, List.length_map]
    · exact digits16_short h128
    · intro c hc
      obtain ⟨c', hc', rfl⟩ := List.mem_map.mp hc
      exact (hex_ascii c' hc').2
  | hexLower =>
    refine (C18_hex hn).1.trans ?_
    rw [answer, present, deliver, if_pos]
    rw [utf8Len_ascii fun c hc => (hex_ascii c hc).1]
    exact digits16_short h128
  | circledNumber =>
    refine (C45_enumerated (T := T) circledNumber (show 51 < _ by omega)).trans ?_
    rw [answer]
    by_cases h : n ≤ 50
    · have key : ∀ n, n ≤ 50 → circledNumber.symbols[n]? = some [Char.ofNat (circled n)] := by decide +kernel
      rw [if_neg (by simp [circledNumber]), if_pos h, present, char_inline]
      simp only [show circledNumber.hasZero = true from rfl, ↓reduceIte, key n h]
      have := utf8Size_le (Char.ofNat (circled n))
      rw [if_pos (by simp only [utf8Len_cons, utf8Len_nil]; omega)]
    · rw [if_neg (by simp [circledNumber]), if_neg h, present]
      have : circledNumber.symbols[n]? = none := by
        rw [List.getElem?_eq_none_iff]
        show 51 ≤ n
        omega
      simp only [show circledNumber.hasZero = true from rfl, ↓reduceIte, this]
  | doubleCircledNumber =>
    refine (C45_enumerated (T := T) doubleCircledNumber (show 10 < _ by omega)).trans ?_
    rw [answer]
    by_cases h0 : n = 0
    · rw [if_pos ⟨rfl, h0⟩, if_pos h0]; rfl
    · rw [if_neg (fun h => h0 h.2), if_neg h0]
      by_cases h : n ≤ 10
      · have key : ∀ n, n ≤ 10 → n ≠ 0 → doubleCircledNumber.symbols[n - 1]? = some [Char.ofNat (0x24f5 + (n - 1))] := by decide +kernel
        rw [if_pos h, present, char_inline]
        simp only [show doubleCircledNumber.hasZero = false from rfl, Bool.false_eq_true, ↓reduceIte, key n h h0]
        have := utf8Size_le (Char.ofNat (0x24f5 + (n - 1)))
        rw [if_pos (by simp only [utf8Len_cons, utf8Len_nil]; omega)]
      · rw [if_neg h, present]
        have : doubleCircledNumber.symbols[n - 1]? = none := by
          rw [List.getElem?_eq_none_iff]
          show 10 ≤ n - 1
          omega
        simp only [show doubleCircledNumber.hasZero = false from rfl, Bool.false_eq_true, ↓reduceIte, this]
  | romanLower => exact (C25_roman hn).2
  | romanUpper => exact (C25_roman hn).1
  | armenianUpper =>
    refine additive_answer (table := armenianUpperTable) hn (by simp [placeSystems, armenianUpperTryFormat]) ?_
    rw [named_no_zero (by decide) (by intro z; simp [armenianUpperTable])]; rfl
  | armenianLower =>
    refine additive_answer (table := armenianLowerTable) hn (by simp [placeSystems, armenianLowerTryFormat]) ?_
    rw [named_no_zero (by decide) (by intro z; simp [armenianLowerTable])]; rfl
  | georgian =>
    refine additive_answer (table := georgianTable) hn (by simp [placeSystems, georgianTryFormat]) ?_
    rw [named_no_zero (by decide) (by intro z; simp [georgianTable])]; rfl
  | japaneseFormal =>
    exact additive_answer (table := japaneseFormalTable) hn (by simp [placeSystems, japaneseFormalTryFormat])
      (named_zero (c := '零') (by decide) (by decide)).view
  | japaneseInformal =>
    exact additive_answer (table := japaneseInformalTable) hn (by simp [placeSystems, japaneseInformalTryFormat])
      (named_zero (c := '〇') (by decide) (by decide)).view
  | hangeulFormal =>
    exact additive_answer (table := hangeulFormalTable) hn (by simp [placeSystems, hangeulFormalTryFormat])
      (named_zero (c := '영') (by decide) (by decide)).view
  | hanjaInformal =>
    exact additive_answer (table := hanjaInformalTable) hn (by simp [placeSystems, hanjaInformalTryFormat])
      (named_zero (c := '零') (by decide) (by decide)).view
  | hanjaFormal =>
    exact additive_answer (table := hanjaFormalTable) hn (by simp [placeSystems, hanjaFormalTryFormat])
      (named_zero (c := '零') (by decide) (by decide)).view
  | hebrew =>
    refine (C31_text hn).trans ?_
    rw [answer]
    split <;> rfl
  | ethiopic =>
    refine (C34_css (T := T) n).trans ?_
    rw [answer]
    split <;> rfl
  | chinese k o =>
    refine (C36_exact_range k o hn).trans ?_
    rw [answer]
    split <;> rfl

/-- Four different kinds of answers. -/
example : answer .hebrew 15 = .text ['ט', '״', 'ו'] ∧ answer .hebrew 0 = .noZero ∧ answer .circledNumber 51 = .outOfBounds ∧
    view (tryToNominal ⟨true, .w64, true⟩ .u8 15 Named.hebrew.system) = .ok (['ט', '״', 'ו'], true) := by decide +kernel

end Nominals.Props
