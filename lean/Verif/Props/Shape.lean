import Verif.Props.Injective

/-!
# Properties C64 and C65: Roman numerals are conventional, and no text is empty

Vocabulary: `Verif/Spec/Outcome.lean`, `Verif/Spec/Additive.lean`, `Verif/Spec/Catalogue.lean`.
-/

namespace Nominals.Props

open Nominals.Spec

/-! ## C64 -/

/-- What a reader perceives as one sign: a letter together with the overline after it. -/
def signs : List Char → List (List Char)
  | c :: d :: rest => if d = '\u0305' then [c, d] :: signs rest else [c] :: signs (d :: rest)
  | [c] => [[c]]
  | [] => []

/-- Four equal signs in a row. -/
def FourInARow (t : List Char) : Prop := ∃ s, [s, s, s, s] <:+: signs t

/-- A text that starts with a letter and whose signs are read off letter by letter. -/
def Clean : List Char → Prop
  | [] => True
  | c :: _ => c ≠ '\u0305'

instance (t : List Char) : Decidable (Clean t) := by unfold Clean; split <;> infer_instance

theorem signs_append : ∀ (t u : List Char), Clean u → signs (t ++ u) = signs t ++ signs u
  | [], u, _ => rfl
  | [c], u, h => by
    cases u with
    | nil => rfl
    | cons d rest =>
      have : d ≠ '\u0305' := h
      simp only [List.cons_append, List.nil_append, signs, if_neg this]
  | c :: d :: rest, u, h => by
    simp only [List.cons_append, signs]
    split
    · rw [signs_append rest u h]; rfl
    · have := signs_append (d :: rest) u h
      rw [List.cons_append] at this
      rw [this]; rfl

theorem four_append {x y : List (List Char)} {s : List Char} (hx : ¬ [s, s, s, s] <:+: x) (hy : ¬ [s, s, s, s] <:+: y)
    (h : ∀ c ∈ y.head?, c ∉ x) : ¬ [s, s, s, s] <:+: x ++ y := by
  intro hi
  rcases List.infix_append_iff_ne_nil.mp hi with h1 | h1 | ⟨l1, l2, n1, n2, he, hs, hp⟩
  · exact hx h1
  · exact hy h1
  · have m1 : ∀ c ∈ l1, c = s := fun c hc => by
      have : c ∈ [s, s, s, s] := by rw [he]; exact List.mem_append_left _ hc
      simpa using this
    have m2 : ∀ c ∈ l2, c = s := fun c hc => by
      have : c ∈ [s, s, s, s] := by rw [he]; exact List.mem_append_right _ hc
      simpa using this
    cases l1 with
    | nil => exact n1 rfl
    | cons a l1 =>
      cases l2 with
      | nil => exact n2 rfl
      | cons b l2 =>
        have ha := m1 a (by simp)
        have hb := m2 b (by simp)
        subst ha hb
        obtain ⟨r, hr⟩ := hp
        refine h b ?_ (hs.subset (by simp))
        rw [← hr]; rfl

/-- Texts of one decimal place: made of the signs `S`, starting with one of `H`, without four in a row. -/
def Place (S H : List (List Char)) (t : List Char) : Prop :=
  Clean t ∧ (∀ c ∈ signs t, c ∈ S) ∧ (∀ c ∈ (signs t).head?.toList, c ∈ H) ∧ ∀ s ∈ S, ¬ [s, s, s, s] <:+: signs t

instance (S H : List (List Char)) (t : List Char) : Decidable (Place S H t) := by unfold Place; infer_instance

theorem four_of_place {S H : List (List Char)} {t : List Char} (h : Place S H t) (s : List Char) : ¬ [s, s, s, s] <:+: signs t := by
  intro hi
  exact h.2.2.2 s (h.2.1 s (hi.subset (by simp))) hi

/-- A prefix made of signs outside `H'`, followed by a place starting in `H'`. -/
theorem place_append {S S' H H' : List (List Char)} {t u : List Char} (h : Place S H t) (h' : Place S' H' u) (hd : ∀ c ∈ H', c ∉ S) :
    Place (S ++ S') (H ++ H') (t ++ u) := by
  have e := signs_append t u h'.1
  refine ⟨?_, ?_, ?_, ?_⟩
  · cases t with
    | nil => exact h'.1
    | cons c t => exact h.1
  · rw [e]
    intro c hc
    rcases List.mem_append.mp hc with hc | hc
    · exact List.mem_append_left _ (h.2.1 c hc)
    · exact List.mem_append_right _ (h'.2.1 c hc)
  · rw [e]
    intro c hc
    cases hs : signs t with
    | nil =>
      rw [hs] at hc
      exact List.mem_append_right _ (h'.2.2.1 c hc)
    | cons d r =>
      rw [hs] at hc
      exact List.mem_append_left _ (h.2.2.1 c (by rw [hs]; exact hc))
  · rw [e]
    intro s _
    refine four_append (four_of_place h s) (four_of_place h' s) fun c hc hm => hd c (h'.2.2.1 c ?_) (h.2.1 c hm)
    rw [Option.mem_def] at hc
    rw [hc]; simp

/-- Upper or lower case. -/
def letterCase (lower : Bool) (c : Char) : Char := if lower then c.toLower else c

def signsIn (lower : Bool) (ss : List (List Char)) : List (List Char) := ss.map (·.map (letterCase lower))

theorem roman_place {n : Nat} (lower : Bool) (h : n < 4 * 10 ^ 6) : ∃ S H, Place S H ((romanText n).map (letterCase lower)) := by
  have p6 : ∀ lower : Bool, ∀ d, d < 4 → Place (signsIn lower [bar 'M']) (signsIn lower [bar 'M'])
      ((List.replicate d (bar 'M')).flatten.map (letterCase lower)) := by decide +kernel
  have p5 : ∀ lower : Bool, ∀ d, d < 10 → Place (signsIn lower [bar 'C', bar 'D', bar 'M']) (signsIn lower [bar 'C', bar 'D'])
      ((romanGroup (bar 'C') (bar 'C' ++ bar 'D') (bar 'D') (bar 'D' ++ bar 'M') d).map (letterCase lower)) := by decide +kernel
  have p4 : ∀ lower : Bool, ∀ d, d < 10 → Place (signsIn lower [bar 'X', bar 'L', bar 'C']) (signsIn lower [bar 'X', bar 'L'])
      ((romanGroup (bar 'X') (bar 'X' ++ bar 'L') (bar 'L') (bar 'L' ++ bar 'C') d).map (letterCase lower)) := by decide +kernel
  have p3 : ∀ lower : Bool, ∀ d, d < 10 → Place (signsIn lower [['M'], bar 'I', bar 'V', bar 'X']) (signsIn lower [['M'], bar 'I', bar 'V'])
      ((romanGroup ['M'] (bar 'I' ++ bar 'V') (bar 'V') (bar 'I' ++ bar 'X') d).map (letterCase lower)) := by decide +kernel
  have p2 : ∀ lower : Bool, ∀ d, d < 10 → Place (signsIn lower [['C'], ['D'], ['M']]) (signsIn lower [['C'], ['D']])
      ((romanGroup ['C'] ['C', 'D'] ['D'] ['C', 'M'] d).map (letterCase lower)) := by decide +kernel
  have p1 : ∀ lower : Bool, ∀ d, d < 10 → Place (signsIn lower [['X'], ['L'], ['C']]) (signsIn lower [['X'], ['L']])
      ((romanGroup ['X'] ['X', 'L'] ['L'] ['X', 'C'] d).map (letterCase lower)) := by decide +kernel
  have p0 : ∀ lower : Bool, ∀ d, d < 10 → Place (signsIn lower [['I'], ['V'], ['X']]) (signsIn lower [['I'], ['V']])
      ((romanGroup ['I'] ['I', 'V'] ['V'] ['I', 'X'] d).map (letterCase lower)) := by decide +kernel
  unfold romanText
  simp only [List.map_append]
  refine ⟨_, _, place_append (place_append (place_append (place_append (place_append (place_append (p6 lower _ ?_) (p5 lower _ ?_) ?_) (p4 lower _ ?_) ?_)
    (p3 lower _ ?_) ?_) (p2 lower _ ?_) ?_) (p1 lower _ ?_) ?_) (p0 lower _ ?_) ?_⟩
  all_goals first | omega | (cases lower <;> decide +kernel)

theorem signs_top (lower : Bool) : ∀ k, signs ((List.replicate k (bar 'M')).flatten.map (letterCase lower)) =
    List.replicate k ((bar 'M').map (letterCase lower)) := by
  intro k
  induction k with
  | zero => rfl
  | succ k ih =>
    rw [List.replicate_succ, List.flatten_cons, List.map_append, List.replicate_succ, ← ih]
    cases lower <;> rfl

theorem clean_group (lower : Bool) {n : Nat} : Clean ((romanText (n % 10 ^ 6)).map (letterCase lower)) := by
  obtain ⟨S, H, h⟩ := roman_place lower (n := n % 10 ^ 6) (by omega)
  exact h.1

theorem romanText_split (n : Nat) : romanText n = (List.replicate (n / 10 ^ 6) (bar 'M')).flatten ++ romanText (n % 10 ^ 6) := by
  unfold romanText
  rw [Nat.div_eq_of_lt (a := n % 10 ^ 6) (by omega)]
  have e5 : n % 10 ^ 6 / 10 ^ 5 % 10 = n / 10 ^ 5 % 10 := by omega
  have e4 : n % 10 ^ 6 / 10 ^ 4 % 10 = n / 10 ^ 4 % 10 := by omega
  have e3 : n % 10 ^ 6 / 10 ^ 3 % 10 = n / 10 ^ 3 % 10 := by omega
  have e2 : n % 10 ^ 6 / 10 ^ 2 % 10 = n / 10 ^ 2 % 10 := by omega
  have e1 : n % 10 ^ 6 / 10 % 10 = n / 10 % 10 := by omega
  have e0 : n % 10 ^ 6 % 10 = n % 10 := by omega
  rw [e5, e4, e3, e2, e1, e0]
  simp [List.append_assoc]

theorem roman_four (lower : Bool) (n : Nat) : FourInARow ((romanText n).map (letterCase lower)) ↔ 4 * 10 ^ 6 ≤ n := by
  constructor
  · rintro ⟨s, hs⟩
    refine Nat.le_of_not_lt fun h => ?_
    obtain ⟨S, H, hp⟩ := roman_place lower h
    exact four_of_place hp s hs
  · intro h
    refine ⟨(bar 'M').map (letterCase lower), ?_⟩
    rw [romanText_split, List.map_append, signs_append _ _ (clean_group lower), signs_top]
    obtain ⟨k, hk⟩ : ∃ k, n / 10 ^ 6 = k + 4 := ⟨n / 10 ^ 6 - 4, by omega⟩
    rw [hk]
    exact ⟨[], List.replicate k _ ++ _, rfl⟩

/-- C64. Roman numerals repeat no sign four times in a row, exactly up to 3,999,999; from four million on they do. -/
theorem C64_roman_four_in_a_row {cfg : Cfg} {T : IntTy} {n : Nat} (hn : T.Fits cfg n) {t : List Char} {i : Bool} :
    (view (romanUpperTryFormat cfg T n) = .ok (t, i) → (FourInARow t ↔ 4 * 10 ^ 6 ≤ n)) ∧
    (view (romanLowerTryFormat cfg T n) = .ok (t, i) → (FourInARow t ↔ 4 * 10 ^ 6 ≤ n)) := by
  have single : ∀ c : Char, ¬ FourInARow [c] := by
    rintro c ⟨s, a, b, h⟩
    have := congrArg List.length h
    simp [signs] at this
    omega
  obtain ⟨h1, h2⟩ := C25_roman (cfg := cfg) (T := T) hn
  rw [h1, h2]
  constructor <;> intro h <;> rw [← deliver_ok h] <;> split
  · next h0 => subst h0; simp [single]
  · have := roman_four false n
    rwa [show letterCase false = id from rfl, List.map_id] at this
  · next h0 => subst h0; simp [single]
  · exact roman_four true n

/-- The largest numeral without four in a row; with a plain reading of characters M̅M̅M̅ would count as alternating. -/
example : signs (romanText 3999999) = [bar 'M', bar 'M', bar 'M', bar 'D', bar 'M', bar 'L', bar 'C', bar 'I', bar 'X', ['C'], ['M'], ['X'], ['C'], ['I'], ['X']] ∧
    FourInARow (romanText 4000000) ∧ ¬ FourInARow (romanText 3888888) := by
  refine ⟨by decide +kernel, ⟨bar 'M', by decide +kernel⟩, ?_⟩
  intro h
  have := (roman_four false 3888888).mp (by rwa [show letterCase false = id from rfl, List.map_id])
  omega

/-! ## C65 -/

theorem toDigits_ne_nil {b n : Nat} (hb : 2 ≤ b) : Nat.toDigits b n ≠ [] := by
  have hn : IsNumeral b n _ := loop_numeral hb
  rw [numeral_toDigits hb hn]
  simp

theorem decimalFrom_ne_nil {f n : Nat} : decimalFrom f n ≠ .text [] := by
  intro h
  injection h with h
  exact toDigits_ne_nil (by omega) (List.map_eq_nil_iff.mp h)

theorem columnName_ne_nil {al : List Char} (hb : 1 ≤ al.length) {n : Nat} : columnName al n ≠ .text [] := by
  intro h
  injection h with h
  have := (column_length hb n).1
  rw [List.map_eq_nil_iff.mp h] at this
  cases this

theorem series_ne_nil {al : List Char} {n : Nat} : series al n ≠ .text [] := by
  intro h
  unfold series at h
  split at h
  · cases h
  · injection h with h
    split at h
    · cases h
    · exact toDigits_ne_nil (by omega) (List.map_eq_nil_iff.mp h)

theorem answer_ne_nil (s : Named) {n : Nat} (hn : n < 2 ^ 128) : answer s n ≠ .text [] := by
  intro h
  have fn : IntTy.u128.Fits ⟨true, .w64, true⟩ n := hn
  obtain ⟨i, v⟩ := answer_view hn h
  have add : ∀ p ∈ readableSystems, view (p.1 ⟨true, .w64, true⟩ .u128 n) = .ok ([], i) → n = 0 := by
    intro p hp hv
    have h0 : ∀ q ∈ readableSystems, q.2 [] = 0 := by decide
    rw [← C29_read_back fn p hp [] i hv, h0 p hp]
  have zero : ∀ z, n = 0 → z ≠ .text [] → ∀ top sym f, additiveAnswer z top sym f n ≠ .text [] := by
    intro z h0 hz top sym f hh
    unfold additiveAnswer at hh
    rw [if_pos h0] at hh
    exact hz hh
  have roman : n ≠ 0 → romanText n ≠ [] := by
    intro h0 hr
    have := romanText_read n
    rw [hr] at this
    exact h0 this.symm
  cases s with
  | decimal | hexLower => injection h with h; exact toDigits_ne_nil (by omega) h
  | hexUpper => injection h with h; exact toDigits_ne_nil (b := 16) (by omega) (List.map_eq_nil_iff.mp h)
  | cjkDecimal => injection h with h; exact toDigits_ne_nil (b := 10) (by omega) (List.map_eq_nil_iff.mp h)
  | easternArabic | persian | bengali | cambodian | devanagari | gujarati | gurmukhi | kannada | lao | malayalam | mongolian | myanmar
  | oriya | tamil | telugu | thai | tibetan => exact decimalFrom_ne_nil h
  | letterUpper | letterLower | greekUpper | greekLower | hiragana | hiraganaIroha | katakana | katakanaIroha | hangeulJamo
  | hangeulSyllable => exact columnName_ne_nil (by decide) h
  | cjkHeavenlyStem | cjkEarthlyBranch => exact series_ne_nil h
  | circledNumber => simp only [answer] at h; split at h <;> cases h
  | doubleCircledNumber =>
    simp only [answer] at h
    split at h
    · cases h
    · split at h <;> cases h
  | romanLower =>
    injection h with h
    split at h
    · cases h
    · exact roman (by assumption) (List.map_eq_nil_iff.mp h)
  | romanUpper =>
    injection h with h
    split at h
    · cases h
    · exact roman (by assumption) h
  | armenianUpper => exact zero _ (add (armenianUpperTryFormat, letterSum armenianValue) (by simp [readableSystems]) v) (by simp) _ _ _ h
  | armenianLower => exact zero _ (add (armenianLowerTryFormat, letterSum armenianValue) (by simp [readableSystems]) v) (by simp) _ _ _ h
  | georgian => exact zero _ (add (georgianTryFormat, letterSum georgianValue) (by simp [readableSystems]) v) (by simp) _ _ _ h
  | japaneseFormal => exact zero _ (add (japaneseFormalTryFormat, japaneseFormalScript.read) (by simp [readableSystems]) v) (by simp) _ _ _ h
  | japaneseInformal => exact zero _ (add (japaneseInformalTryFormat, japaneseInformalScript.read) (by simp [readableSystems]) v) (by simp) _ _ _ h
  | hangeulFormal => exact zero _ (add (hangeulFormalTryFormat, hangeulFormalScript.read) (by simp [readableSystems]) v) (by simp) _ _ _ h
  | hanjaInformal => exact zero _ (add (hanjaInformalTryFormat, hanjaInformalScript.read) (by simp [readableSystems]) v) (by simp) _ _ _ h
  | hanjaFormal => exact zero _ (add (hanjaFormalTryFormat, hanjaFormalScript.read) (by simp [readableSystems]) v) (by simp) _ _ _ h
  | hebrew =>
    have := hebrewText_sum n
    simp only [answer] at h
    split at h
    · cases h
    · next h0 => injection h with h; rw [h] at this; exact h0 this.symm
  | ethiopic =>
    have := C35_read_back (T := .u128) (cfg := ⟨true, .w64, true⟩) v
    simp only [answer] at h
    split at h
    · cases h
    · next h0 => exact h0 (this.symm.trans (by decide))
  | chinese k o =>
    by_cases h0 : n = 0
    · subst h0
      have := (C38_zero (cfg := ⟨true, .w64, true⟩) (T := .u128) k o).symm.trans v
      exact absurd (deliver_ok this) (by simp)
    · exact (C38_zero_hygiene fn h0 v).1 rfl

/-- C65. No named system ever writes a number as the empty text, whether by `try_to_nominal` or by `to_nominal`. -/
theorem C65_never_empty {cfg : Cfg} {T : IntTy} {n : Nat} (s : Named) (hn : T.Fits cfg n) {t : List Char} {i : Bool} :
    (view (tryToNominal cfg T n s.system) = .ok (t, i) → t ≠ []) ∧ (view (toNominal cfg T n s.system) = .ok (t, i) → t ≠ []) := by
  have key : ∀ {t i}, view (tryToNominal cfg T n s.system) = .ok (t, i) → t ≠ [] := by
    rintro t i h rfl
    rw [C51_catalogue s hn] at h
    exact answer_ne_nil s (Nominals.fits_lt hn) (present_text h)
  refine ⟨key, fun h => ?_⟩
  rcases C41_always_succeeds s hn with ⟨x, h1, h2⟩ | ⟨e, h1, h2⟩
  · rw [h2] at h
    injection h with h
    subst h
    exact key h1
  · rw [h2] at h
    injection h with h
    injection h with h _
    subst h
    exact toDigits_ne_nil (by omega)

/-- The zero is where an additive system could easily answer nothing: Roman writes `n`, Japanese 〇, Armenian reports an error. -/
example : view (tryToNominal ⟨true, .w64, true⟩ .u8 0 Named.romanLower.system) = .ok (['n'], true) ∧
    view (tryToNominal ⟨true, .w64, true⟩ .u8 0 Named.japaneseInformal.system) = .ok (['〇'], true) ∧
    view (tryToNominal ⟨true, .w64, true⟩ .u8 0 Named.armenianLower.system) = .err .noZeroSymbol ∧
    view (toNominal ⟨true, .w64, true⟩ .u8 0 Named.armenianLower.system) = .ok (['0'], true) := by
  refine ⟨?_, ?_, ?_, ?_⟩
  · exact (C51_catalogue .romanLower (by decide)).trans (by decide)
  · exact (C51_catalogue .japaneseInformal (by decide)).trans (by decide)
  · exact (C51_catalogue .armenianLower (by decide)).trans (by decide)
  · decide +kernel

end Nominals.Props
