import Verif.Proofs.ChineseRead

/-!
# Properties C36–C40: Chinese numerals

Vocabulary: `Verif/Spec/Outcome.lean`, `Verif/Spec/Chinese.lean`.
-/

namespace Nominals.Props

open Nominals.Spec

/-- Evaluates the specification at concrete numbers, for the examples below. -/
local macro "spell" : tactic =>
  `(tactic| simp [chineseText, chineseTokens, spellWith, scaleUnits, unitsOf, sectionUnits, needsZero, topPlace, chineseGlyph,
    isFormal, isTraditional, dropLeadingOne])

/-- C36. Formatting never panics. In the short scale numbers from 10^15 on are out of bounds; every other number of every
integer type, in every scale and variant, gives the numeral `chineseText`. -/
theorem C36_exact_range {cfg : Cfg} {T : IntTy} {n : Nat} (k : ChineseKind) (o : ChineseOptions) (hn : T.Fits cfg n) :
    view (chineseTryFormat k o cfg T n) =
      if o.scale = .short ∧ 10 ^ 15 ≤ n then .err (.outOfBounds n) else deliver cfg.alloc n (chineseText k o n) := by
  split
  · next h => rw [chinese_out_of_bounds k o hn h.1 h.2]; rfl
  · next h => exact (chinese_del k o hn fun hs => Nat.lt_of_not_le fun h' => h ⟨hs, h'⟩).view

/-- Numerals of the four scales. -/
example : chineseText .traditionalFormal { scale := .myriad } 100001000 = ['一', '億', '一', '千'] ∧
    chineseText .traditionalFormal { scale := .myriad } 100010001 = ['一', '億', '零', '一', '萬', '零', '一'] ∧
    chineseText .traditionalFormal { scale := .short } 100001000 = ['一', '垓', '零', '一', '千'] ∧
    chineseText .simplifiedInformal { scale := .mid } (16 * 10 ^ 16 + 5) = ['十', '六', '兆', '零', '五'] ∧
    chineseText .simplifiedFormal { usage := .financial, scale := .long } (3 * 10 ^ 32) = ['叁', '京'] := by spell

/-- Range of an integer type, as a bound. -/
theorem fits_lt {cfg : Cfg} {T : IntTy} {n : Nat} (hn : T.Fits cfg n) : n < 2 ^ 128 := by
  have h : n < 2 ^ T.bits cfg := hn
  exact Nat.lt_of_lt_of_le h (Nat.pow_le_pow_right (by omega) (by rcases bits_cases cfg T with h | h | h | h | h <;> omega))

/-- C36, C37. A text that is returned is the numeral, and the number is in range. -/
theorem chinese_ok {cfg : Cfg} {T : IntTy} {n : Nat} {k : ChineseKind} {o : ChineseOptions} (hn : T.Fits cfg n) {t : List Char}
    {b : Bool} (h : view (chineseTryFormat k o cfg T n) = .ok (t, b)) : t = chineseText k o n ∧ inRange o.scale n := by
  rw [C36_exact_range k o hn] at h
  split at h
  · cases h
  · next hh => exact ⟨(deliver_ok h).symm, fits_lt hn, fun hs => Nat.lt_of_not_le fun h' => hh ⟨hs, h'⟩⟩

/-- C37. The usual way of reading gives the number back, in every scale, formality and character set. -/
theorem C37_read_back {cfg : Cfg} {T : IntTy} {n : Nat} {k : ChineseKind} {o : ChineseOptions} (hn : T.Fits cfg n) {t : List Char}
    {b : Bool} (h : view (chineseTryFormat k o cfg T n) = .ok (t, b)) : readChinese o.scale t = n := by
  obtain ⟨rfl, hr⟩ := chinese_ok hn h
  exact read_chineseText k o hr

example : view (chineseTryFormat .traditionalFormal ⟨.ordinary, .myriad⟩ ⟨true, .w64, true⟩ .u32 105020) =
      .ok (['一', '十', '萬', '五', '千', '零', '二', '十'], true) ∧
    readChinese .myriad ['一', '十', '萬', '五', '千', '零', '二', '十'] = 105020 := by decide +kernel

/-- C37. No two numbers share a text, even across variants, integer types and builds, as long as the scale is the same. -/
theorem C37_distinct {cfg cfg' : Cfg} {T T' : IntTy} {n m : Nat} {k k' : ChineseKind} {o o' : ChineseOptions} (hn : T.Fits cfg n)
    (hm : T'.Fits cfg' m) (hs : o.scale = o'.scale) {t : List Char} {b b' : Bool}
    (h : view (chineseTryFormat k o cfg T n) = .ok (t, b)) (h' : view (chineseTryFormat k' o' cfg' T' m) = .ok (t, b')) : n = m := by
  rw [← C37_read_back hn h, ← C37_read_back hm h', hs]

/-- Across scales the same text may stand for different numbers, so the hypothesis on the scale is needed. -/
example : chineseText .traditionalFormal { scale := .myriad } (10 ^ 12) = ['一', '兆'] ∧
    chineseText .traditionalFormal { scale := .mid } (10 ^ 16) = ['一', '兆'] ∧
    chineseText .traditionalFormal { scale := .short } (10 ^ 6) = ['一', '兆'] := by decide +kernel

/-- C38. For a positive number 零 is not at the start, not at the end, and not doubled. -/
theorem C38_zero_hygiene {cfg : Cfg} {T : IntTy} {n : Nat} {k : ChineseKind} {o : ChineseOptions} (hn : T.Fits cfg n) (h0 : n ≠ 0)
    {t : List Char} {b : Bool} (h : view (chineseTryFormat k o cfg T n) = .ok (t, b)) :
    t ≠ [] ∧ (∀ r, t ≠ '零' :: r) ∧ (∀ r, t ≠ r ++ ['零']) ∧ ¬ ['零', '零'] <:+: t := by
  obtain ⟨rfl, hr⟩ := chinese_ok hn h
  have hz : tokenOf '零' = some .zero := by decide
  have hfm := filterMap_glyphs (isTraditional k) (o.usage = .financial) (tokens_valid (isFormal k) hr)
  have hok := tokens_okZ (isFormal k) o.scale h0
  have ⟨s1, s2, s3⟩ := okZ_spec hok
  change (chineseText k o n).filterMap tokenOf = _ at hfm
  generalize chineseText k o n = t at hfm
  rw [← hfm] at s1 s2 s3 hok
  refine ⟨?_, ?_, ?_, ?_⟩
  · rintro rfl
    simp [okZ] at hok
  · rintro r rfl
    exact s1 rfl _ (by rw [List.filterMap_cons, hz])
  · rintro r rfl
    exact s2 _ (by rw [List.filterMap_append, List.filterMap_cons, hz]; rfl)
  · intro hi
    have := hi.filterMap tokenOf
    rw [List.filterMap_cons, hz] at this
    exact s3 (by simpa [hz] using this)

/-- A run of zeros in the middle is one 零. -/
example : view (chineseTryFormat .traditionalFormal ⟨.ordinary, .myriad⟩ ⟨true, .w64, true⟩ .u32 70000003) =
    .ok (['七', '千', '萬', '零', '三'], true) := by decide +kernel

/-- C38. Zero is exactly 零 in every variant. -/
theorem C38_zero {cfg : Cfg} {T : IntTy} (k : ChineseKind) (o : ChineseOptions) :
    view (chineseTryFormat k o cfg T 0) = deliver cfg.alloc 0 ['零'] := by
  rw [C36_exact_range k o (show 0 < 2 ^ T.bits cfg from Nat.pow_pos (by omega)), if_neg (by rintro ⟨_, h⟩; omega)]
  rfl

/-- 零 does occur inside numerals. -/
example : chineseText .simplifiedInformal {} 10010 = ['一', '万', '零', '一', '十'] := by spell

/-- The formal and the informal type with the same script. -/
inductive SameScript : ChineseKind → ChineseKind → Prop
  | simplified : SameScript .simplifiedFormal .simplifiedInformal
  | traditional : SameScript .traditionalFormal .traditionalInformal

/-- The informal numeral is the formal one, except that it omits a leading one before ten. -/
theorem informal_text {f i : ChineseKind} (hs : SameScript f i) (o : ChineseOptions) {n : Nat} (hr : inRange o.scale n) :
    let one := if o.usage = .financial then '壹' else '一'
    let ten := if o.usage = .financial then '拾' else '十'
    (∀ rest, chineseText f o n = one :: ten :: rest → chineseText i o n = ten :: rest) ∧
    ((∀ rest, chineseText f o n ≠ one :: ten :: rest) → chineseText i o n = chineseText f o n) := by
  intro one ten
  have hfm := filterMap_glyphs (isTraditional f) (o.usage = .financial) (tokens_valid (isFormal f) hr)
  change (chineseText f o n).filterMap tokenOf = _ at hfm
  have hF : isFormal f = true := by cases hs <;> rfl
  have hI : isFormal i = false := by cases hs <;> rfl
  have hT : isTraditional i = isTraditional f := by cases hs <;> rfl
  have hti : chineseText i o n = (dropLeadingOne (chineseTokens true o.scale n)).map (chineseGlyph (isTraditional f) (o.usage = .financial)) := by
    unfold chineseText chineseTokens
    rw [hI, hT]
    split
    · rfl
    · rfl
  have h1 : tokenOf one = some (.num 1) := by simp only [one]; split <;> decide
  have h2 : tokenOf ten = some .ten := by simp only [ten]; split <;> decide
  have g1 : chineseGlyph (isTraditional f) (o.usage = .financial) (.num 1) = one := by
    cases o with | mk u s => cases u <;> cases hs <;> rfl
  have g2 : chineseGlyph (isTraditional f) (o.usage = .financial) .ten = ten := by
    cases o with | mk u s => cases u <;> cases hs <;> rfl
  rw [hF] at hfm
  have htf : chineseText f o n = (chineseTokens true o.scale n).map (chineseGlyph (isTraditional f) (o.usage = .financial)) := by
    rw [chineseText, hF]
  refine ⟨?_, ?_⟩
  · intro rest e
    rw [e, List.filterMap_cons, h1, List.filterMap_cons, h2] at hfm
    simp only at hfm
    rw [← hfm] at hti htf
    rw [hti, dropLeadingOne]
    rw [e] at htf
    simp only [List.map_cons, g1, g2, List.cons.injEq, true_and] at htf ⊢
    exact htf.symm
  · intro h
    rw [hti, htf]
    unfold dropLeadingOne
    split
    · next rest e =>
      rw [e] at htf
      simp only [List.map_cons, g1, g2] at htf
      exact absurd htf (h _)
    · rfl

/-- 12 and 112: only the former begins with ten. -/
example : SameScript .traditionalFormal .traditionalInformal ∧
    chineseText .traditionalFormal ⟨.ordinary, .myriad⟩ 12 = ['一', '十', '二'] ∧
    chineseText .traditionalInformal ⟨.ordinary, .myriad⟩ 12 = ['十', '二'] ∧
    chineseText .traditionalInformal ⟨.ordinary, .myriad⟩ 112 = ['一', '百', '一', '十', '二'] := by
  refine ⟨.traditional, ?_, ?_, ?_⟩ <;> decide +kernel

/-- C39. Both types are out of bounds for the same numbers; otherwise the number has two texts, the formal one `t` and the informal one
`t'`, which are what is delivered for every integer type and in every build, and `t'` is `t` without a leading one before ten. -/
theorem C39_formal_informal {n : Nat} (hn : n < 2 ^ 128) {f i : ChineseKind} (hs : SameScript f i) (o : ChineseOptions) :
    let one := if o.usage = .financial then '壹' else '一'
    let ten := if o.usage = .financial then '拾' else '十'
    (∀ cfg T, IntTy.Fits cfg T n → view (chineseTryFormat f o cfg T n) = .err (.outOfBounds n) ∧
      view (chineseTryFormat i o cfg T n) = .err (.outOfBounds n)) ∨
    ∃ t t', (∀ cfg T, IntTy.Fits cfg T n → view (chineseTryFormat f o cfg T n) = deliver cfg.alloc n t ∧
        view (chineseTryFormat i o cfg T n) = deliver cfg.alloc n t') ∧
      (∀ rest, t = one :: ten :: rest → t' = ten :: rest) ∧ ((∀ rest, t ≠ one :: ten :: rest) → t' = t) := by
  intro one ten
  by_cases h : o.scale = .short ∧ 10 ^ 15 ≤ n
  · exact .inl fun cfg T hf => ⟨by rw [C36_exact_range f o hf, if_pos h], by rw [C36_exact_range i o hf, if_pos h]⟩
  · refine .inr ⟨chineseText f o n, chineseText i o n, fun cfg T hf => ⟨?_, ?_⟩, ?_⟩
    · rw [C36_exact_range f o hf, if_neg h]
    · rw [C36_exact_range i o hf, if_neg h]
    · exact informal_text hs o ⟨hn, fun e => Nat.lt_of_not_le fun h' => h ⟨e, h'⟩⟩

/-- Both cases occur; 一十 elsewhere is kept. -/
example : chineseText .simplifiedFormal {} 100012 = ['一', '十', '万', '零', '一', '十', '二'] ∧
    chineseText .simplifiedInformal {} 100012 = ['十', '万', '零', '一', '十', '二'] ∧
    chineseText .simplifiedInformal {} 20012 = ['二', '万', '零', '一', '十', '二'] := by spell

theorem glyph_size (trad fin : Bool) {t : CTok} (h : t.Valid) : (chineseGlyph trad fin t).utf8Size = 3 := by
  cases t with
  | zero | ten | hundred | thousand => cases fin <;> rfl
  | num d =>
    have : ∀ d, d < 10 → ∀ tr fi, (chineseGlyph tr fi (.num d)).utf8Size = 3 := by decide +kernel
    exact this d h.2 trad fin
  | large i =>
    have : ∀ d, d < 11 → ∀ tr fi, (chineseGlyph tr fi (.large d)).utf8Size = 3 := by decide +kernel
    exact this i h trad fin

/-- C40. Changing the character set replaces each character by its counterpart: the outcomes for the same formality and scale are
obtained from one another by the substitution `recast`, including where the string is stored and which error is returned. -/
theorem C40_substitution {cfg : Cfg} {T : IntTy} {n : Nat} {k k' : ChineseKind} {o o' : ChineseOptions}
    (hk : isFormal k = isFormal k') (hs : o.scale = o'.scale) (hn : T.Fits cfg n) :
    view (chineseTryFormat k' o' cfg T n) =
      (view (chineseTryFormat k o cfg T n)).map fun x => (x.1.map (recast (isTraditional k') (o'.usage = .financial)), x.2) := by
  rw [C36_exact_range k' o' hn, C36_exact_range k o hn, ← hs]
  split
  · rfl
  · next h =>
    have hv := tokens_valid (isFormal k) (scale := o.scale) (n := n) ⟨fits_lt hn, fun e => Nat.lt_of_not_le fun h' => h ⟨e, h'⟩⟩
    have ht : chineseText k' o' n = (chineseText k o n).map (recast (isTraditional k') (o'.usage = .financial)) := by
      unfold chineseText
      rw [List.map_map, ← hs, ← hk]
      apply List.map_congr_left
      intro tok htok
      simp only [Function.comp_apply, recast, tokenOf_glyph _ _ (hv tok htok)]
    have hl : ∀ tr fi (ts : List CTok), (∀ t ∈ ts, t.Valid) → utf8Len (ts.map (chineseGlyph tr fi)) = 3 * ts.length := by
      intro tr fi ts h
      induction ts with
      | nil => rfl
      | cons t ts ih =>
        have := ih fun x hx => h x (List.mem_cons_of_mem _ hx)
        have h3 := glyph_size tr fi (h t (List.mem_cons_self ..))
        simp only [List.map_cons, utf8Len, List.sum_cons, List.length_cons] at this ⊢
        omega
    have e1 : utf8Len (chineseText k' o' n) = utf8Len (chineseText k o n) := by
      unfold chineseText
      rw [← hs, ← hk, hl _ _ _ hv, hl _ _ _ hv]
    rw [deliver, deliver, e1, ht]
    split
    · rfl
    · split <;> rfl

example : ['一', '万', '零', '二', '十'].map (recast true true) = ['壹', '萬', '零', '貳', '拾'] := by decide +kernel

/-- C40. The options after any sequence of builder calls on a default value: financial iff it was ever selected; the scale is
the one selected last, or myriad. In particular the two kinds of call commute. -/
theorem C40_options (calls : List Setting) :
    calls.foldl Setting.run {} =
      { usage := if .financial ∈ calls then .financial else .ordinary,
        scale := (calls.filterMap Setting.scale?).getLast?.getD .myriad } := by
  have key : ∀ (calls : List Setting) (o : ChineseOptions), calls.foldl Setting.run o =
      { usage := if .financial ∈ calls then .financial else o.usage,
        scale := (calls.filterMap Setting.scale?).getLast?.getD o.scale } := by
    intro calls
    induction calls with
    | nil => intro o; rfl
    | cons c cs ih =>
      intro o
      rw [List.foldl_cons, ih]
      cases c
      case financial => simp [Setting.run, ChineseOptions.financial, Setting.scale?]
      all_goals
        simp only [Setting.run, ChineseOptions.shortScale, ChineseOptions.midScale, ChineseOptions.longScale, List.filterMap_cons,
          Setting.scale?, List.mem_cons, reduceCtorEq, false_or, ChineseOptions.mk.injEq, true_and]
        rw [List.getLast?_cons]
        rfl
  exact key calls {}

example : [Setting.shortScale, .financial, .longScale].foldl Setting.run {} = { usage := .financial, scale := .long } := rfl

end Nominals.Props
