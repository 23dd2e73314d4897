import Verif.Proofs.ChineseDigits
import Verif.Props.Injective

/-!
# Property C71: Chinese numerals read off the decimal digits

Vocabulary: `Verif/Spec/ChineseDigits.lean`.
-/

namespace Nominals.Props

open Nominals.Spec

theorem chinese_named {cfg : Cfg} {T : IntTy} {n : Nat} {k : ChineseKind} {o : ChineseOptions} (hn : T.Fits cfg n) {t : List Char}
    {i : Bool} (h : view (tryToNominal cfg T n (Named.chinese k o).system) = .ok (t, i)) : t = chineseText k o n ∧ inRange o.scale n := by
  rw [C51_catalogue _ hn] at h
  have h := present_text h
  change (if o.scale = .short ∧ 10 ^ 15 ≤ n then Answer.outOfBounds else .text (chineseText k o n)) = _ at h
  split at h
  · cases h
  · next hh => exact ⟨(Answer.text.inj h).symm, fits_lt hn, fun hs => Nat.lt_of_not_le fun h' => hh ⟨hs, h'⟩⟩

theorem tokens_flat {formal : Bool} {scale : ChineseScale} {n : Nat} (hr : inRange scale n) (h0 : n ≠ 0) :
    chineseTokens formal scale n = if formal then flatTokens scale n else dropLeadingOne (flatTokens scale n) := by
  unfold chineseTokens
  rw [if_neg h0, spell_flat hr]

/-- C71, part 1. The numeral of every positive number in range, in every variant, written by one pass over its digits (short
scale) or groups of four digits (the other scales). -/
theorem C71_numeral {cfg : Cfg} {T : IntTy} {n : Nat} {k : ChineseKind} {o : ChineseOptions} (hn : T.Fits cfg n) (h0 : n ≠ 0)
    {t : List Char} {i : Bool} (h : view (tryToNominal cfg T n (Named.chinese k o).system) = .ok (t, i)) :
    t = (if isFormal k then flatTokens o.scale n else dropLeadingOne (flatTokens o.scale n)).map
      (chineseGlyph (isTraditional k) (o.usage = .financial)) := by
  obtain ⟨rfl, hr⟩ := chinese_named hn h
  rw [chineseText, tokens_flat hr h0]

/-- The four scales at one number, 10203004 000506 in groups 10 2030 0400 0506. -/
example : flatTokens .short 10203004000506 =
      [.num 1, .large 9, .zero, .num 2, .large 7, .zero, .num 3, .large 5, .zero, .num 4, .large 2, .zero, .num 5, .hundred, .zero, .num 6] ∧
    flatTokens .myriad 10203004000506 =
      [.num 1, .ten, .large 2, .num 2, .thousand, .zero, .num 3, .ten, .large 1, .zero, .num 4, .hundred, .large 0, .zero, .num 5, .hundred,
        .zero, .num 6] ∧
    flatTokens .mid 10203004000506 =
      [.num 1, .ten, .large 0, .num 2, .thousand, .zero, .num 3, .ten, .large 1, .zero, .num 4, .hundred, .large 0, .zero, .num 5, .hundred,
        .zero, .num 6] ∧
    flatTokens .long (10203004000506 * 10 ^ 8) =
      [.num 1, .ten, .large 0, .num 2, .thousand, .zero, .num 3, .ten, .large 2, .zero, .num 4, .hundred, .large 0, .zero, .num 5, .hundred,
        .zero, .num 6, .large 1] := by decide +kernel

theorem digit_glyphs {trad fin : Bool} : ∀ {ts : List CTok}, (∀ t ∈ ts, t.Valid) →
    (ts.map (chineseGlyph trad fin)).filterMap chineseDigit = ts.filterMap tokDigit := by
  intro ts h
  induction ts with
  | nil => rfl
  | cons t ts ih =>
    have e : chineseDigit (chineseGlyph trad fin t) = tokDigit t := by
      unfold chineseDigit
      rw [tokenOf_glyph trad fin (h t (by simp))]
      cases t <;> rfl
    rw [List.map_cons, List.filterMap_cons, List.filterMap_cons, e, ih fun t ht => h t (by simp [ht])]

theorem ten_glyph {trad fin : Bool} {t : CTok} (h : t.Valid) : chineseGlyph trad fin t ∈ ['十', '拾'] ↔ t = .ten := by
  constructor
  · intro hm
    have h1 := tokenOf_glyph trad fin h
    have h2 : ∀ c ∈ ['十', '拾'], tokenOf c = some .ten := by decide
    rw [h2 _ hm] at h1
    exact (Option.some.inj h1).symm
  · rintro rfl
    cases trad <;> cases fin <;> decide

/-- The text starts with ten. -/
def StartsWithTen (t : List Char) : Prop := ∃ c r, t = c :: r ∧ c ∈ ['十', '拾']

theorem drop_cases (ts : List CTok) : (∃ r, ts = .num 1 :: .ten :: r ∧ dropLeadingOne ts = .ten :: r) ∨
    ((∀ r, ts ≠ .num 1 :: .ten :: r) ∧ dropLeadingOne ts = ts) := by
  unfold dropLeadingOne
  split
  · exact .inl ⟨_, rfl, rfl⟩
  · next h => exact .inr ⟨fun r e => h r e, rfl⟩

theorem flat_first {scale : ChineseScale} {n : Nat} (hr : inRange scale n) (h0 : n ≠ 0) : ∀ r, flatTokens scale n ≠ .ten :: r := by
  obtain ⟨j, q, r, -, -, -, -, -, h, -⟩ := flat_lead hr h0
  intro r' e
  rw [h] at e
  cases e

theorem starts_glyph {trad fin : Bool} {ts : List CTok} (hv : ∀ t ∈ ts, t.Valid) :
    StartsWithTen (ts.map (chineseGlyph trad fin)) ↔ ∃ r, ts = .ten :: r := by
  cases ts with
  | nil => simp [StartsWithTen]
  | cons t ts =>
    have := ten_glyph (trad := trad) (fin := fin) (hv t (by simp))
    constructor
    · rintro ⟨c, r, e, hc⟩
      rw [List.map_cons, List.cons.injEq] at e
      rw [← e.1, this] at hc
      exact ⟨ts, by rw [hc]⟩
    · rintro ⟨r, e⟩
      cases e
      exact ⟨_, _, rfl, this.mpr rfl⟩

/-- C71, part 2. The digit characters of a formal numeral are the decimal digits other than zero, in order, in all scales. An
informal numeral lacks the leading one exactly when it starts with ten. -/
theorem C71_digits {cfg : Cfg} {T : IntTy} {n : Nat} {k : ChineseKind} {o : ChineseOptions} (hn : T.Fits cfg n) {t d : List Char}
    {i i' : Bool} (h : view (tryToNominal cfg T n (Named.chinese k o).system) = .ok (t, i))
    (hd : view (tryToNominal cfg T n Named.decimal.system) = .ok (d, i')) :
    let shown := t.filterMap chineseDigit
    let digits := (d.filter (· ≠ '0')).map fun c => c.toNat - '0'.toNat
    (isFormal k = true → shown = digits ∧ ¬ StartsWithTen t) ∧
    (isFormal k = false → ¬ StartsWithTen t → shown = digits) ∧
    (isFormal k = false → StartsWithTen t → 1 :: shown = digits) := by
  intro shown digits
  rw [C51_catalogue _ hn] at hd
  have hd := present_text hd
  have hd : d = Nat.toDigits 10 n := (Answer.text.inj hd).symm
  obtain ⟨rfl, hr⟩ := chinese_named hn h
  have hdig : digits = nonzeroDigits n := by subst hd; rfl
  have hv := tokens_valid (isFormal k) hr
  have hvt := tokens_valid true hr
  have hsh : shown = (chineseTokens (isFormal k) o.scale n).filterMap tokDigit := digit_glyphs hv
  have hst : StartsWithTen (chineseText k o n) ↔ ∃ r, chineseTokens (isFormal k) o.scale n = .ten :: r := starts_glyph hv
  rw [hst, hsh, hdig]
  by_cases h0 : n = 0
  · subst h0
    have e : nonzeroDigits 0 = [] := by rw [nonzero_small (by omega)]; rfl
    rw [e]
    simp [chineseTokens, tokDigit]
  · have hsp := spell_digits (z := needsZero o.scale) (scaleUnits o.scale) (units_digits o.scale) n (by
      simpa [chineseTokens, h0] using hvt)
    rw [spell_flat hr] at hsp
    have hff := flat_first hr h0
    rw [tokens_flat hr h0]
    refine ⟨fun hf => ?_, fun hf => ?_, fun hf => ?_⟩ <;> rw [hf] <;> simp only [if_true, Bool.false_eq_true, if_false]
    · exact ⟨hsp, fun ⟨r, e⟩ => hff r e⟩
    · rcases drop_cases (flatTokens o.scale n) with ⟨r, e1, e2⟩ | ⟨e1, e2⟩
      · exact fun hne => absurd ⟨r, e2⟩ hne
      · rw [e2]; exact fun _ => hsp
    · rcases drop_cases (flatTokens o.scale n) with ⟨r, e1, e2⟩ | ⟨e1, e2⟩
      · intro _
        rw [e2, ← hsp, e1]
        rfl
      · rw [e2]; exact fun ⟨r, e⟩ => absurd e (hff r)

/-- 160,305: the formal text shows 1, 6, 3 and 5, the informal one leaves out the 1. -/
example : ['一', '十', '六', '萬', '零', '三', '百', '零', '五'].filterMap chineseDigit = [1, 6, 3, 5] ∧
    ['十', '六', '萬', '零', '三', '百', '零', '五'].filterMap chineseDigit = [6, 3, 5] ∧
    view (tryToNominal ⟨true, .w64, true⟩ .u32 160305 (Named.chinese .traditionalInformal {}).system) =
      .ok (['十', '六', '萬', '零', '三', '百', '零', '五'], true) := by decide +kernel

/-- C71, part 3. An informal numeral starts with ten exactly if the number, cut to its leading group of four digits (in the short
scale: the number itself), is between 10 and 19. -/
theorem C71_leading_ten {cfg : Cfg} {T : IntTy} {n : Nat} {k : ChineseKind} {o : ChineseOptions} (hn : T.Fits cfg n)
    (hk : isFormal k = false) {t : List Char} {i : Bool}
    (h : view (tryToNominal cfg T n (Named.chinese k o).system) = .ok (t, i)) :
    StartsWithTen t ↔ ∃ j, 10 * 10000 ^ j ≤ n ∧ n < 20 * 10000 ^ j ∧ (o.scale = .short → j = 0) := by
  obtain ⟨rfl, hr⟩ := chinese_named hn h
  have hst : StartsWithTen (chineseText k o n) ↔ ∃ r, chineseTokens (isFormal k) o.scale n = .ten :: r :=
    starts_glyph (tokens_valid (isFormal k) hr)
  rw [hst, hk]
  by_cases h0 : n = 0
  · subst h0
    constructor
    · rintro ⟨r, e⟩; simp [chineseTokens] at e
    · rintro ⟨j, e, _⟩
      have : 0 < 10000 ^ j := Nat.pow_pos (by omega)
      omega
  · rw [tokens_flat hr h0, ← flat_head hr h0]
    simp only [Bool.false_eq_true, if_false]
    rcases drop_cases (flatTokens o.scale n) with ⟨r, e1, e2⟩ | ⟨e1, e2⟩
    · rw [e2]; exact ⟨fun _ => ⟨r, e1⟩, fun _ => ⟨r, rfl⟩⟩
    · rw [e2]; exact ⟨fun ⟨r, e⟩ => absurd e (flat_first hr h0 r), fun ⟨r, e⟩ => absurd e (e1 r)⟩

/-- 150000 starts with 十五萬; in the short scale it is 一億五萬. -/
example : (chineseText .traditionalInformal {} 150000).head? = some '十' ∧
    (chineseText .traditionalInformal { scale := .short } 150000) = ['一', '億', '五', '萬'] ∧
    10 * 10000 ^ 1 ≤ 150000 ∧ 150000 < 20 * 10000 ^ 1 := by decide +kernel

end Nominals.Props
