import Verif.Proofs.Css
import Verif.Props.Additive
import Verif.Props.ChineseDigits

/-!
# Property C78: CSS Counter Styles

Vocabulary: `Verif/Spec/Css.lean`.
-/

namespace Nominals.Props

open Nominals.Spec

/-! ## The kinds of systems -/

/-- C78, numeric. A digit collection with a zero digit writes what the `numeric` algorithm writes. -/
theorem C78_numeric {cfg : Cfg} {T : IntTy} {d : DigitSys} {al : List Char} {n : Nat} (hp : Plain cfg d al)
    (hz : (d.level 0).hasZero = true) (hb : 2 ≤ al.length) (hn : T.Fits cfg n) :
    ∃ t, (CounterSystem.numeric al).represent n = some t ∧ view (d.tryFormat cfg T n) = deliver cfg.alloc n t := by
  obtain ⟨ds, hds, hv⟩ := positional hp hz hb hn
  exact ⟨_, represent_numeric hb hds, hv⟩

/-- 3905 in decimal digits. -/
example : (CounterSystem.numeric decimalDigits).represent 3905 = some ['3', '9', '0', '5'] ∧
    view (decimal.tryFormat ⟨true, .w64, true⟩ .u16 3905) = .ok (['3', '9', '0', '5'], true) := by decide +kernel

/-- C78, alphabetic. A digit collection without zero digit that counts from 0 writes for `n` what the `alphabetic` algorithm writes for
`n + 1`; with `one_based()` it writes what the algorithm writes for `n`, which has nothing for 0. -/
theorem C78_alphabetic {cfg : Cfg} {T : IntTy} {d : DigitSys} {al : List Char} {n : Nat} (hp : Plain cfg d al)
    (hz : (d.level 0).hasZero = false) (h0 : (d.level 0).zeroBased = true) (hb : 1 ≤ al.length) (hn : T.Fits cfg n) :
    (∃ t, (CounterSystem.alphabetic al).represent (n + 1) = some t ∧ view (d.tryFormat cfg T n) = deliver cfg.alloc n t) ∧
    (al.length < 2 ^ T.bits cfg → view (d.oneBased.tryFormat cfg T n) =
      match (CounterSystem.alphabetic al).represent n with
      | some t => deliver cfg.alloc n t
      | none => .err .noZeroSymbol) := by
  refine ⟨⟨_, represent_alphabetic hb n, C10_columns hp hz h0 hb hn⟩, fun hT => ?_⟩
  obtain ⟨hzero, hpos⟩ := C11_one_based hp hz h0 hb hT
  cases n with
  | zero => rw [hzero]; rfl
  | succ n =>
    have hn' : T.Fits cfg n := Nat.lt_of_succ_lt hn
    rw [represent_alphabetic hb n]
    exact (format_one (n := n + 1) (n + 1 + 64) 7 (oneBased_plain hp) hz rfl hb hT (by omega) (by omega)).view

/-- 28 is AB in CSS, which counts from 1, and 27 is AB for `LetterUpper`; the one-based letters count as CSS does and have nothing for 0. -/
example : (CounterSystem.alphabetic letterUpperDigits).represent 28 = some ['A', 'B'] ∧
    view (letterUpper.tryFormat ⟨true, .w64, true⟩ .u8 27) = .ok (['A', 'B'], true) ∧
    view (letterUpper.oneBased.tryFormat ⟨true, .w64, true⟩ .u8 28) = .ok (['A', 'B'], true) ∧
    view (letterUpper.oneBased.tryFormat ⟨true, .w64, true⟩ .u8 0) = .err .noZeroSymbol := by decide +kernel

/-- C78, additive. An accepted `AdditiveSet` writes what the `additive` algorithm writes, wherever it writes something; where it does not,
0 is `NoZeroSymbol` (and any other number is written without what is left of it, C22). -/
theorem C78_additive {ε : Type} {cfg : Cfg} {T : IntTy} {table : List (List Char × Nat)} {a : AdditiveSet} {n : Nat}
    (ha : AdditiveSet.new (ε := ε) table = .ok a) (hn : T.Fits cfg n) :
    (∀ t, (CounterSystem.additive table).represent n = some t → cfg.alloc = true ∨ utf8Len t ≤ 62 →
      view (a.tryFormat cfg T n) = deliver cfg.alloc n t) ∧
    ((CounterSystem.additive table).represent n = none → n = 0 → a.tryFormat cfg T n = .err .noZeroSymbol) := by
  obtain ⟨hd, hs, hz⟩ := new_ok ha
  obtain ⟨z1, z2, z3⟩ := C23_zero (cfg := cfg) (T := T) ha
  have hrep : (CounterSystem.additive table).represent 0 = (table.find? (·.2 = 0)).map (·.1) := by simp [CounterSystem.represent]
  refine ⟨fun t ht hlen => ?_, fun hnone h0 => ?_⟩
  · by_cases h0 : n = 0
    · subst h0
      rw [hrep, find_zero hd] at ht
      have hl : table.getLast? = some (t, 0) := by
        split at ht
        · next e => rw [e, Option.some.inj ht]
        · cases ht
      rw [z1 t hl]
      unfold deliver
      split
      · rfl
      · next hlt => rcases hlen with h | h
                    · simp [h]
                    · exact absurd h hlt
    · rw [represent_additive hd h0] at ht
      split at ht
      · rw [← Option.some.inj ht, ← hs]
        exact (additive_del hn h0).view
      · cases ht
  · subst h0
    apply z2
    intro p hp hp0
    obtain ⟨z, hl⟩ := z3 ⟨p, hp, hp0⟩
    rw [hrep, find_zero hd, hl] at hnone
    cases hnone

/-- A set of dice: 6 and 1. -/
example : ∃ a, AdditiveSet.new (ε := Unit) [(['⚅'], 6), (['⚀'], 1)] = .ok a ∧
    view (a.tryFormat ⟨false, .w16, true⟩ .u8 14) = .ok (['⚅', '⚅', '⚀', '⚀'], true) ∧
    a.tryFormat ⟨false, .w16, true⟩ .u8 0 = .err .noZeroSymbol := by
  obtain ⟨a, h⟩ : ∃ a, AdditiveSet.new (ε := Unit) [(['⚅'], 6), (['⚀'], 1)] = .ok a := ⟨_, rfl⟩
  exact ⟨a, h, ((C78_additive (cfg := ⟨false, .w16, true⟩) (T := .u8) (n := 14) h (by decide)).1 ['⚅', '⚅', '⚀', '⚀'] (by decide +kernel)
    (.inr (by decide))).trans (by decide +kernel), (C78_additive h (by decide)).2 (by decide +kernel) rfl⟩

/-- C78, fixed. An `EnumeratedSet` writes what the `fixed` algorithm writes, with first value 0 if it has a zero symbol and 1 otherwise; the
other numbers are errors. -/
theorem C78_fixed {cfg : Cfg} {T : IntTy} {n : Nat} (e : EnumSet) (hl : e.symbols.length < 2 ^ cfg.ptr.bits) :
    match (CounterSystem.fixed (if e.hasZero then 0 else 1) e.symbols).represent n with
    | some t => cfg.alloc = true ∨ utf8Len t ≤ 62 → view (e.tryFormat cfg T n) = deliver cfg.alloc n t
    | none => view (e.tryFormat cfg T n) = .err (if n = 0 ∧ e.hasZero = false then .noZeroSymbol else .outOfBounds n) := by
  have hv := C45_enumerated (cfg := cfg) (T := T) (n := n) e hl
  have hdel : ∀ t, cfg.alloc = true ∨ utf8Len t ≤ 62 →
      (if utf8Len t ≤ 62 then Res.ok (t, true) else if cfg.alloc then .ok (t, false) else .panic) = deliver cfg.alloc n t := by
    intro t ht
    unfold deliver
    split
    · rfl
    · next h => rcases ht with h' | h'
                · simp [h']
                · exact absurd h' h
  unfold CounterSystem.represent
  cases hz : e.hasZero with
  | true =>
    simp only [hz, Bool.true_eq_false, false_and, and_false, ↓reduceIte, Nat.not_lt_zero, Nat.sub_zero] at hv ⊢
    cases hs : e.symbols[n]? with
    | none => rw [hv, hs]
    | some t => intro ht; rw [hv, hs]; exact hdel t ht
  | false =>
    simp only [hz, Bool.false_eq_true, true_and, ↓reduceIte, and_true] at hv ⊢
    by_cases h0 : n = 0
    · subst h0
      simpa using hv
    · rw [if_neg h0] at hv
      rw [if_neg (by omega : ¬ n < 1)]
      cases hs : e.symbols[n - 1]? with
      | none => simp only [h0, ↓reduceIte]; rw [hv, hs]
      | some t => intro ht; rw [hv, hs]; exact hdel t ht

/-- Three footnote marks, counted from 1. -/
example : (CounterSystem.fixed 1 [['*'], ['†'], ['‡']]).represent 2 = some ['†'] ∧
    view ((EnumSet.mk false [['*'], ['†'], ['‡']]).tryFormat ⟨true, .w64, true⟩ .u8 2) = .ok (['†'], true) ∧
    (CounterSystem.fixed 1 [['*'], ['†'], ['‡']]).represent 4 = none ∧
    view ((EnumSet.mk false [['*'], ['†'], ['‡']]).tryFormat ⟨true, .w64, true⟩ .u8 4) = .err (.outOfBounds 4) ∧
    view ((EnumSet.mk false [['*'], ['†'], ['‡']]).tryFormat ⟨true, .w64, true⟩ .u8 0) = .err .noZeroSymbol := by decide +kernel

/-! ## The predefined styles -/

theorem numeric_decimal {al : List Char} (hl : al.length = 10) (n : Nat) :
    (CounterSystem.numeric al).represent n = some (decimalWith al n) := by
  have hb : 2 ≤ al.length := by omega
  have hds := loop_numeral (n := n) hb
  rw [represent_numeric hb hds]
  rw [hl] at hds ⊢
  unfold decimalWith
  rw [numeral_toDigits (by omega) hds, List.map_map]
  congr 1
  refine spell_eq_map (b := 10) (fun i hi => ?_) hds.digits
  have : ∀ i, i < 10 → (Nat.digitChar i).toNat - '0'.toNat = i := by decide
  simp only [Function.comp, this i hi]

theorem style_text {s : CounterStyle} {v : Nat} {t : List Char} (hr : s.InRange v) (h : s.system.represent v = some t) : s.text v = some t := by
  unfold CounterStyle.text
  rw [if_pos hr, h]

theorem digit_style (first n : Nat) : (CounterSystem.numeric ((List.range 10).map fun i => Char.ofNat (first + i))).represent n =
    some ((Nat.toDigits 10 n).map fun c => Char.ofNat (first + (c.toNat - '0'.toNat))) := by
  rw [numeric_decimal (by simp)]
  have hds := loop_numeral (b := 10) (n := n) (by omega)
  unfold decimalWith
  rw [numeral_toDigits (by omega) hds]
  simp only [List.map_map]
  congr 1
  refine List.map_congr_left fun i hi => ?_
  have hi := hds.digits i hi
  have : ∀ i, i < 10 → (Nat.digitChar i).toNat - '0'.toNat = i := by decide
  simp only [Function.comp, this i hi]
  rw [List.getD_eq_getElem?_getD, List.getElem?_map, List.getElem?_range hi]
  rfl

theorem additive_style {table css : List (List Char × Nat)} (hd : Descending css) (hu : ∃ s, (s, 1) ∈ css) {n : Nat} (h0 : n ≠ 0)
    (hp : picks table n = picks css n) : (CounterSystem.additive css).represent n = some (written (picks table n)) := by
  rw [represent_additive hd h0, hp, if_pos (greedy_total hu (picks_greedy hd n))]

theorem descending_of {table : List (List Char × Nat)} (h : strictlyDescending table = true) : Descending table :=
  (strictlyDescending_iff table).mp h

theorem series_style {symbols : List Char} {n : Nat} (h0 : n ≠ 0) :
    ∃ t, (stemStyle symbols).text n = some t ∧ series symbols n = .text t := by
  unfold series
  rw [if_neg h0]
  have hr : (stemStyle symbols).InRange n := ⟨Nat.zero_le _, by simp [stemStyle]⟩
  by_cases hn : n ≤ symbols.length
  · refine ⟨[symbols.getD (n - 1) '?'], style_text hr ?_, by rw [if_pos hn]⟩
    simp only [stemStyle, CounterSystem.represent]
    rw [if_neg (by omega), List.getElem?_map, List.getD_eq_getElem?_getD, List.getElem?_eq_getElem (by omega)]
    rfl
  · refine ⟨_, ?_, by rw [if_neg hn]⟩
    unfold CounterStyle.text
    rw [if_pos hr]
    simp only [stemStyle, CounterSystem.represent]
    rw [if_neg (by omega), List.getElem?_map, List.getElem?_eq_none (by omega)]
    exact numeric_decimal rfl n

theorem place_style {sym : Nat → Nat → List Char} {zero : Char} {table : List (List Char × Nat)} {top : Nat} {z : List Char} {n : Nat}
    (ht : table = placeTuples sym ++ [([zero], 0)]) (hd : strictlyDescending table = true)
    (hw : written (picks table n) = repeatedTop top z sym n) :
    ∃ t, (CounterSystem.additive (placeTuples sym ++ [([zero], 0)])).represent n = some t ∧
      additiveAnswer (.text [zero]) top z sym n = .text t := by
  rw [← ht]
  unfold additiveAnswer
  by_cases h0 : n = 0
  · subst h0
    refine ⟨[zero], ?_, by rw [if_pos rfl]⟩
    simp only [CounterSystem.represent, ↓reduceIte]
    rw [find_zero (descending_of hd), ht]
    simp
  · refine ⟨_, additive_style (descending_of hd) ?_ h0 rfl, by rw [if_neg h0, hw]⟩
    rw [ht]
    exact ⟨sym 0 1, by simp [placeTuples]⟩

theorem styles_answer {s : Named} {style : CounterStyle} {shift n : Nat} (hs : styleOf s = some (style, shift))
    (hr : style.InRange (n + shift)) (hz : s = .cjkHeavenlyStem ∨ s = .cjkEarthlyBranch → n ≠ 0) (hn : n < 2 ^ 128) :
    ∃ t, style.text (n + shift) = some t ∧ answer s n = .text t := by
  obtain ⟨e1, e2, e3, e4, e5, e6, e7, e8⟩ := place_aux n
  cases s with
  | decimal =>
    cases hs
    refine ⟨_, style_text hr (digit_style 0x30 n), ?_⟩
    simp only [answer]
    congr 1
    rw [numeral_toDigits (by omega) (loop_numeral (b := 10) (n := n) (by omega)), List.map_map]
    refine List.map_congr_left fun i hi => ?_
    have hi := (loop_numeral (b := 10) (n := n) (by omega)).digits i hi
    have : ∀ i, i < 10 → Nat.digitChar i = Char.ofNat (0x30 + ((Nat.digitChar i).toNat - '0'.toNat)) := by decide
    exact this i hi
  | easternArabic => cases hs; exact ⟨_, style_text hr (digit_style _ n), rfl⟩
  | persian => cases hs; exact ⟨_, style_text hr (digit_style _ n), rfl⟩
  | bengali => cases hs; exact ⟨_, style_text hr (digit_style _ n), rfl⟩
  | cambodian => cases hs; exact ⟨_, style_text hr (digit_style _ n), rfl⟩
  | cjkDecimal => cases hs; exact ⟨_, style_text hr (numeric_decimal rfl n), rfl⟩
  | devanagari => cases hs; exact ⟨_, style_text hr (digit_style _ n), rfl⟩
  | gujarati => cases hs; exact ⟨_, style_text hr (digit_style _ n), rfl⟩
  | gurmukhi => cases hs; exact ⟨_, style_text hr (digit_style _ n), rfl⟩
  | kannada => cases hs; exact ⟨_, style_text hr (digit_style _ n), rfl⟩
  | lao => cases hs; exact ⟨_, style_text hr (digit_style _ n), rfl⟩
  | malayalam => cases hs; exact ⟨_, style_text hr (digit_style _ n), rfl⟩
  | mongolian => cases hs; exact ⟨_, style_text hr (digit_style _ n), rfl⟩
  | myanmar => cases hs; exact ⟨_, style_text hr (digit_style _ n), rfl⟩
  | oriya => cases hs; exact ⟨_, style_text hr (digit_style _ n), rfl⟩
  | tamil => cases hs; exact ⟨_, style_text hr (digit_style _ n), rfl⟩
  | telugu => cases hs; exact ⟨_, style_text hr (digit_style _ n), rfl⟩
  | thai => cases hs; exact ⟨_, style_text hr (digit_style _ n), rfl⟩
  | tibetan => cases hs; exact ⟨_, style_text hr (digit_style _ n), rfl⟩
  | letterUpper => cases hs; exact ⟨_, style_text hr (represent_alphabetic (by simp) n), rfl⟩
  | letterLower => cases hs; exact ⟨_, style_text hr (represent_alphabetic (by simp) n), rfl⟩
  | greekLower => cases hs; exact ⟨_, style_text hr (represent_alphabetic (by simp) n), rfl⟩
  | hiraganaIroha => cases hs; exact ⟨_, style_text hr (represent_alphabetic (by decide) n), rfl⟩
  | katakanaIroha => cases hs; exact ⟨_, style_text hr (represent_alphabetic (by decide) n), rfl⟩
  | cjkHeavenlyStem => cases hs; exact series_style (hz (.inl rfl))
  | cjkEarthlyBranch => cases hs; exact series_style (hz (.inr rfl))
  | romanLower =>
    cases hs
    have hle : n ≤ 3999 := hr.2 _ rfl
    have h0 : n ≠ 0 := by have : 1 ≤ n := hr.1; omega
    refine ⟨_, style_text hr (additive_style (table := romanLowerTable) (descending_of (by decide)) ⟨['i'], by simp⟩ h0 ?_), ?_⟩
    · refine Eq.trans ?_ ((picks_skip (romanLowerTable.take 12) _ n ?_).trans (picks_zero _ ['n'] n))
      · rfl
      · simp only [romanLowerTable, List.take_succ_cons, List.take_zero, List.mem_cons, List.not_mem_nil, or_false]
        rintro p (rfl | rfl | rfl | rfl | rfl | rfl | rfl | rfl | rfl | rfl | rfl | rfl) <;> simp only <;> omega
    · simp only [answer, h0, ↓reduceIte, romanLower_written, Nat.add_zero]
  | romanUpper =>
    cases hs
    have hle : n ≤ 3999 := hr.2 _ rfl
    have h0 : n ≠ 0 := by have : 1 ≤ n := hr.1; omega
    refine ⟨_, style_text hr (additive_style (table := romanUpperTable) (descending_of (by decide)) ⟨['I'], by simp⟩ h0 ?_), ?_⟩
    · refine Eq.trans ?_ ((picks_skip (romanUpperTable.take 12) _ n ?_).trans (picks_zero _ ['N'] n))
      · rfl
      · simp only [romanUpperTable, List.take_succ_cons, List.take_zero, List.mem_cons, List.not_mem_nil, or_false]
        rintro p (rfl | rfl | rfl | rfl | rfl | rfl | rfl | rfl | rfl | rfl | rfl | rfl) <;> simp only <;> omega
    · simp only [answer, h0, ↓reduceIte, roman_written, Nat.add_zero]
  | armenianLower =>
    cases hs
    have h0 : n ≠ 0 := by have : 1 ≤ n := hr.1; omega
    have ht : placeTuples armenianLowerSym = armenianLowerTable := by decide +kernel
    refine ⟨_, style_text hr (additive_style (table := armenianLowerTable) ?_ ?_ h0 (by rw [ht])), ?_⟩
    · rw [ht]; exact descending_of (by decide)
    · rw [ht]; exact ⟨['ա'], by decide⟩
    · simp only [answer, additiveAnswer, h0, ↓reduceIte, e2, Nat.add_zero]
  | georgian =>
    cases hs
    have h0 : n ≠ 0 := by have : 1 ≤ n := hr.1; omega
    have ht : (['ჵ'], 10000) :: placeTuples georgianSym = georgianTable := by decide +kernel
    refine ⟨_, style_text hr (additive_style (table := georgianTable) ?_ ?_ h0 (by rw [ht])), ?_⟩
    · rw [ht]; exact descending_of (by decide)
    · rw [ht]; exact ⟨['ა'], by decide⟩
    · simp only [answer, additiveAnswer, h0, ↓reduceIte, e3, Nat.add_zero]
  | japaneseFormal =>
    cases hs
    obtain ⟨t, h1, h2⟩ := place_style (zero := '零') (table := japaneseFormalTable) (by decide +kernel) (by decide) e4
    exact ⟨t, style_text hr h1, h2⟩
  | japaneseInformal =>
    cases hs
    obtain ⟨t, h1, h2⟩ := place_style (zero := '〇') (table := japaneseInformalTable) (by decide +kernel) (by decide) e5
    exact ⟨t, style_text hr h1, h2⟩
  | hangeulFormal =>
    cases hs
    obtain ⟨t, h1, h2⟩ := place_style (zero := '영') (table := hangeulFormalTable) (by decide +kernel) (by decide) e6
    exact ⟨t, style_text hr h1, h2⟩
  | hanjaInformal =>
    cases hs
    obtain ⟨t, h1, h2⟩ := place_style (zero := '零') (table := hanjaInformalTable) (by decide +kernel) (by decide) e7
    exact ⟨t, style_text hr h1, h2⟩
  | hanjaFormal =>
    cases hs
    obtain ⟨t, h1, h2⟩ := place_style (zero := '零') (table := hanjaFormalTable) (by decide +kernel) (by decide) e8
    exact ⟨t, style_text hr h1, h2⟩
  | ethiopic =>
    cases hs
    have h0 : n ≠ 0 := by have : 1 ≤ n := hr.1; omega
    refine ⟨ethiopicText n, style_text hr ?_, by simp only [answer, h0, ↓reduceIte]⟩
    simp only [ethiopicStyle, CounterSystem.represent, Nat.add_zero, h0, ↓reduceIte]
  | chinese k o =>
    cases hs
    have hle : n ≤ 9999 := hr.2 _ rfl
    have hin : inRange o.scale n := ⟨hn, fun _ => by omega⟩
    refine ⟨chineseText k o n, style_text hr ?_, ?_⟩
    · have := longhand_eq (!isFormal k) (isTraditional k) (o.usage = .financial) (n := n) (by omega) o.scale (fun h0 => by
        rw [tokens_flat hin h0]
        cases isFormal k <;> rfl)
      rw [Bool.not_not] at this
      simp only [chineseStyle, CounterSystem.represent, Nat.add_zero, if_pos hle, this]
      rfl
    · simp only [answer]
      rw [if_neg (by omega)]
  | _ => cases hs

/-- C78. Every named system that is one of the predefined styles of the standard writes every number of the range of the style as the style
does, in every build and for every integer type. For the two series this excludes 0 (see below). -/
theorem C78_styles {cfg : Cfg} {T : IntTy} {s : Named} {style : CounterStyle} {shift n : Nat} (hs : styleOf s = some (style, shift))
    (hr : style.InRange (n + shift)) (hz : s = .cjkHeavenlyStem ∨ s = .cjkEarthlyBranch → n ≠ 0) (hn : T.Fits cfg n) :
    ∃ t, style.text (n + shift) = some t ∧ view (tryToNominal cfg T n s.system) = deliver cfg.alloc n t := by
  obtain ⟨t, h1, h2⟩ := styles_answer hs hr hz (fits_lt hn)
  exact ⟨t, h1, by rw [C51_catalogue s hn, h2]; rfl⟩

/-- 1994 in `upper-roman`. -/
example : styleOf .romanUpper = some (upperRomanStyle, 0) ∧ upperRomanStyle.InRange 1994 ∧
    upperRomanStyle.text 1994 = some ['M', 'C', 'M', 'X', 'C', 'I', 'V'] ∧
    view (tryToNominal ⟨true, .w64, true⟩ .u16 1994 Named.romanUpper.system) = .ok (['M', 'C', 'M', 'X', 'C', 'I', 'V'], true) :=
  ⟨rfl, by decide +kernel, by decide +kernel, by decide +kernel⟩

/-- C78, a deviation. The standard falls back to `cjk-decimal` for 0 as well; the crate has no symbol for it. -/
theorem C78_series_zero {cfg : Cfg} {T : IntTy} {s : Named} (hs : s = .cjkHeavenlyStem ∨ s = .cjkEarthlyBranch) :
    (∃ style, styleOf s = some (style, 0) ∧ style.text 0 = some ['〇']) ∧ view (tryToNominal cfg T 0 s.system) = .err .noZeroSymbol := by
  have hn : T.Fits cfg 0 := Nat.pow_pos (by omega)
  rw [C51_catalogue s hn]
  rcases hs with rfl | rfl <;> exact ⟨⟨_, rfl, by decide⟩, rfl⟩

/-- The stem number 0. -/
example : view (tryToNominal ⟨true, .w64, true⟩ .u8 0 Named.cjkHeavenlyStem.system) = .err .noZeroSymbol :=
  (C78_series_zero (.inl rfl)).2

/-- C78, a deviation. `ArmenianUpper` writes the style's letters, but with spaces after Ա: it agrees exactly unless the last decimal digit
is 1. -/
theorem C78_upper_armenian {cfg : Cfg} {T : IntTy} {n : Nat} (hr : upperArmenianStyle.InRange n) (hn : T.Fits cfg n) :
    ∃ css t, upperArmenianStyle.text n = some css ∧ view (tryToNominal cfg T n Named.armenianUpper.system) = deliver cfg.alloc n t ∧
      t.filter (· ≠ ' ') = css ∧ (t = css ↔ n % 10 ≠ 1) := by
  have h0 : n ≠ 0 := by have : 1 ≤ n := hr.1; omega
  have ht : placeTuples armenianCapital = armenianUpperTable.map fun p => (p.1.filter (· ≠ ' '), p.2) := by decide +kernel
  have hcss : (CounterSystem.additive (placeTuples armenianCapital)).represent n =
      some ((written (picks armenianUpperTable n)).filter (· ≠ ' ')) := by
    rw [additive_style (table := placeTuples armenianCapital) (descending_of (by decide +kernel)) ⟨['Ա'], by decide +kernel⟩ h0 rfl, ht,
      picks_map fun l => l.filter (· ≠ ' ')]
    simp [written, List.flatMap_map, List.filter_flatMap]
  refine ⟨_, _, style_text hr hcss, (named_del (table := armenianUpperTable) (by decide) hn h0).view, rfl, ?_⟩
  have hsp := armenian_space n
  have hm : n % 9000 % 10 = n % 10 := Nat.mod_mod_of_dvd n ⟨900, rfl⟩
  rw [hm] at hsp
  rw [Ne, ← hsp]
  constructor
  · intro h hmem
    rw [h] at hmem
    simp at hmem
  · intro h
    rw [eq_comm, List.filter_eq_self]
    intro c hc
    simp only [decide_eq_true_eq]
    rintro rfl
    exact h hc

/-- 21 gets a blank that CSS does not have, 22 does not. -/
example : upperArmenianStyle.text 21 = some ['Ի', 'Ա'] ∧
    view (tryToNominal ⟨true, .w64, true⟩ .u8 21 Named.armenianUpper.system) = .ok (['Ի', 'Ա', ' '], true) ∧
    view (tryToNominal ⟨true, .w64, true⟩ .u8 22 Named.armenianUpper.system) = .ok (['Ի', 'Բ'], true) := by decide +kernel

theorem hebrew_below : ∀ n, n < 1000 → n ≠ 0 →
    hebrewOnly (written (picks hebrewTuples n)) = hebrewOnly (hebrewText n) := by decide +kernel

/-- C78, a deviation. `Hebrew` writes the letters of the style, apart from the marks, exactly for the numbers below 1000. -/
theorem C78_hebrew {cfg : Cfg} {T : IntTy} {n : Nat} (hr : hebrewStyle.InRange n) (hn : T.Fits cfg n) :
    ∃ css t, hebrewStyle.text n = some css ∧ view (tryToNominal cfg T n Named.hebrew.system) = deliver cfg.alloc n t ∧
      (hebrewOnly t = hebrewOnly css ↔ n < 1000) := by
  have h0 : n ≠ 0 := by have : 1 ≤ n := hr.1; omega
  have hd : Descending hebrewTuples := descending_of (by decide +kernel)
  refine ⟨_, hebrewText n, style_text hr (additive_style (table := hebrewTuples) hd ⟨['א'], by decide +kernel⟩ h0 rfl), ?_, ?_⟩
  · rw [C51_catalogue _ hn]
    simp only [answer, if_neg h0]
    rfl
  · constructor
    · intro h
      refine Nat.lt_of_not_le fun hle => ?_
      have hg := picks_greedy hd n
      have hbig : ∀ p ∈ hebrewTuples, 1000 ≤ p.2 → ∃ c, p.1 = [c, '׳'] ∧ c ∈ hebrewLetters ∧ c ≠ 'ת' := by
        have : ∀ p ∈ hebrewTuples, 1000 ≤ p.2 → p.1.drop 1 = ['׳'] ∧ p.1.headD '?' ∈ hebrewLetters ∧ p.1.headD '?' ≠ 'ת' := by decide +kernel
        intro p hp hw
        have := this p hp hw
        match h : p.1, this with
        | [], ⟨a, _⟩ => simp at a
        | c :: r, ⟨a, b, d⟩ => exact ⟨c, by simpa using a, by simpa using b, by simpa using d⟩
      generalize hps : picks hebrewTuples n = ps at h hg
      cases hg with
      | stop _ hst =>
        have := hst (['א', '׳'], 1000) (by decide +kernel) (by simp)
        simp only at this
        omega
      | take _ p ps' hm hp0 hpn hmax _ =>
        have h1000 := hmax (['א', '׳'], 1000) (by decide +kernel) hle
        obtain ⟨c, hc, hcl, hct⟩ := hbig p hm h1000
        have htext : hebrewText n = 'ת' :: (List.replicate (n / 400 - 1) 'ת' ++ hebrewDigit 2 (n % 400 / 100) ++ hebrewBelow100 (n % 100)) := by
          have hq : n / 400 = (n / 400 - 1) + 1 := by omega
          have hpl : hebrewPlain n = 'ת' :: (List.replicate (n / 400 - 1) 'ת' ++ hebrewDigit 2 (n % 400 / 100) ++ hebrewBelow100 (n % 100)) := by
            unfold hebrewPlain
            rw [hq, List.replicate_succ]
            simp
          unfold hebrewText
          rw [if_neg, hpl]
          intro hlen
          have := hebrewPlain_single hlen
          omega
        rw [htext] at h
        have e1 : hebrewOnly ('ת' :: (List.replicate (n / 400 - 1) 'ת' ++ hebrewDigit 2 (n % 400 / 100) ++ hebrewBelow100 (n % 100))) =
            'ת' :: hebrewOnly (List.replicate (n / 400 - 1) 'ת' ++ hebrewDigit 2 (n % 400 / 100) ++ hebrewBelow100 (n % 100)) := by
          unfold hebrewOnly
          rw [List.filter_cons_of_pos (by decide)]
        have e2 : hebrewOnly (written (p :: ps')) = c :: hebrewOnly ('׳' :: written ps') := by
          unfold hebrewOnly
          rw [← List.filter_cons_of_pos (by simpa using hcl)]
          simp [written, hc]
        rw [e1, e2] at h
        exact hct (List.cons.inj h).1.symm
    · intro h
      exact (hebrew_below n h h0).symm

/-! ## Cases -/

/-- 3,905 in a few styles, and 27 in `lower-alpha`, which is 26 in the crate. -/
example : upperRomanStyle.text 3905 = some ['M', 'M', 'M', 'C', 'M', 'V'] ∧ upperRomanStyle.text 4000 = none ∧
    georgianStyle.text 13905 = some ['ჵ', 'ძ', 'შ', 'ე'] ∧ (longhandStyle japaneseFormalScript '零').text 3905 = some ['参', '阡', '九', '百', '伍'] ∧
    (digitStyle 0x966).text 3905 = some ['३', '९', '०', '५'] ∧
    (letterStyle ((List.range 26).map fun i => Char.ofNat (0x61 + i))).text 27 = some ['a', 'a'] ∧
    view (tryToNominal ⟨true, .w64, true⟩ .u16 26 Named.letterLower.system) = .ok (['a', 'a'], true) := by decide +kernel

/-- Zeros in `simp-chinese-informal` and `trad-chinese-formal`. -/
example : (chineseStyle true false false).text 17 = some ['十', '七'] ∧ (chineseStyle true false false).text 117 = some ['一', '百', '一', '十', '七'] ∧
    (chineseStyle false true true).text 6005 = some ['陸', '仟', '零', '伍'] ∧ (chineseStyle false true true).text 6050 = some ['陸', '仟', '零', '伍', '拾'] ∧
    (chineseStyle false true true).text 6500 = some ['陸', '仟', '伍', '佰'] := by decide +kernel

/-- The fallback of the stems. -/
example : (stemStyle ['甲', '乙', '丙']).text 3 = some ['丙'] ∧ (stemStyle ['甲', '乙', '丙']).text 4 = some ['四'] := by decide +kernel

/-- A set with letters for 4 and 1 and the algorithm; without the 1 it has nothing for 7. -/
example : (CounterSystem.additive [(['q'], 4), (['i'], 1)]).represent 7 = some ['q', 'i', 'i', 'i'] ∧
    (CounterSystem.additive [(['q'], 4)]).represent 7 = none ∧
    AdditiveSet.new (ε := Unit) [(['q'], 4), (['i'], 1)] = .ok ⟨[(['q'], 4), (['i'], 1)], none⟩ :=
  ⟨by decide +kernel, by decide +kernel, rfl⟩

/-- 1,991 in `upper-armenian` and 15 and 1,015 in `hebrew`. -/
example : upperArmenianStyle.text 1991 = some ['Ռ', 'Ջ', 'Ղ', 'Ա'] ∧ hebrewStyle.text 15 = some ['ט', 'ו'] ∧
    hebrewStyle.text 1015 = some ['א', '׳', 'ט', 'ו'] ∧ hebrewStyle.InRange 1015 := by decide +kernel

end Nominals.Props
