import Verif.Spec.Alike
import Verif.Props.Catalogue
import Verif.Props.Scales

/-!
# Property C82: no two named systems are the same

Vocabulary: `Verif/Spec/Alike.lean`, `Verif/Spec/Outcome.lean`.
-/

namespace Nominals.Props

open Nominals.Spec

/-- One system of each class that small numbers tell apart. -/
def samples : List Named :=
  [.decimal, .easternArabic, .persian, .bengali, .cambodian, .cjkDecimal, .devanagari, .gujarati, .gurmukhi, .kannada, .lao, .malayalam,
   .mongolian, .myanmar, .oriya, .tamil, .telugu, .thai, .tibetan, .letterUpper, .letterLower, .greekUpper, .greekLower, .hiragana,
   .hiraganaIroha, .katakana, .katakanaIroha, .hangeulJamo, .hangeulSyllable, .cjkHeavenlyStem, .cjkEarthlyBranch, .hexUpper, .hexLower,
   .circledNumber, .doubleCircledNumber, .romanLower, .romanUpper, .armenianUpper, .armenianLower, .georgian, .japaneseFormal,
   .japaneseInformal, .hangeulFormal, .hanjaInformal, .hanjaFormal, .hebrew, .ethiopic,
   .chinese .simplifiedFormal ⟨.ordinary, .myriad⟩, .chinese .simplifiedInformal ⟨.ordinary, .myriad⟩,
   .chinese .simplifiedFormal ⟨.financial, .myriad⟩, .chinese .simplifiedInformal ⟨.financial, .myriad⟩,
   .chinese .traditionalFormal ⟨.financial, .myriad⟩, .chinese .traditionalInformal ⟨.financial, .myriad⟩]

/-- The class of a system. -/
def sampleOf : Named → Nat
  | .decimal => 0 | .easternArabic => 1 | .persian => 2 | .bengali => 3 | .cambodian => 4 | .cjkDecimal => 5 | .devanagari => 6
  | .gujarati => 7 | .gurmukhi => 8 | .kannada => 9 | .lao => 10 | .malayalam => 11 | .mongolian => 12 | .myanmar => 13 | .oriya => 14
  | .tamil => 15 | .telugu => 16 | .thai => 17 | .tibetan => 18 | .letterUpper => 19 | .letterLower => 20 | .greekUpper => 21
  | .greekLower => 22 | .hiragana => 23 | .hiraganaIroha => 24 | .katakana => 25 | .katakanaIroha => 26 | .hangeulJamo => 27
  | .hangeulSyllable => 28 | .cjkHeavenlyStem => 29 | .cjkEarthlyBranch => 30 | .hexUpper => 31 | .hexLower => 32 | .circledNumber => 33
  | .doubleCircledNumber => 34 | .romanLower => 35 | .romanUpper => 36 | .armenianUpper => 37 | .armenianLower => 38 | .georgian => 39
  | .japaneseFormal => 40 | .japaneseInformal => 41 | .hangeulFormal => 42 | .hanjaInformal => 43 | .hanjaFormal => 44 | .hebrew => 45
  | .ethiopic => 46
  | .chinese k ⟨.ordinary, _⟩ => if isFormal k then 47 else 48
  | .chinese k ⟨.financial, _⟩ => (if isFormal k then 49 else 50) + if isTraditional k then 2 else 0

/-- What a system answers to five small numbers. -/
def probe (alloc : Bool) (s : Named) : List (Res Error (List Char × Bool)) := [0, 1, 2, 10, 100].map fun n => present alloc n (answer s n)

theorem probes_nodup : ∀ alloc : Bool, (samples.map (probe alloc)).Nodup := by decide +kernel

theorem probe_sample (alloc : Bool) (s : Named) : (samples.map (probe alloc))[sampleOf s]? = some (probe alloc s) := by
  cases s with
  | chinese k o =>
    obtain ⟨u, a⟩ := o
    revert alloc
    cases u <;> cases k <;> cases a <;> decide +kernel
  | _ => rfl

theorem probe_class {alloc : Bool} {s s' : Named} (h : probe alloc s = probe alloc s') : sampleOf s = sampleOf s' := by
  have h1 := probe_sample alloc s
  have h2 := probe_sample alloc s'
  rw [← h] at h2
  exact (List.getElem?_inj (List.getElem?_eq_some_iff.mp h1).1 (probes_nodup alloc)).mp (h1.trans h2.symm)

theorem sampleOf_simple {s : Named} (h : sampleOf s < 47) : samples[sampleOf s]? = some s := by
  cases s with
  | chinese k o =>
    obtain ⟨u, a⟩ := o
    revert h
    cases u <;> cases k <;> simp [sampleOf, isFormal, isTraditional]
  | _ => rfl

theorem sampleOf_chinese {s : Named} (h : ¬ sampleOf s < 47) : ∃ k u a, s = .chinese k ⟨u, a⟩ := by
  cases s with
  | chinese k o => exact ⟨k, o.usage, o.scale, rfl⟩
  | _ => exact absurd (by decide) h

theorem agreement_eq {a b : ChineseScale} (h : a ≠ b) : agreement a b = scalesPart a b := by
  cases a <;> cases b <;> first | exact absurd rfl h | rfl

/-- Tokens of a number below 10^4 name no large unit. -/
theorem no_large {formal : Bool} {scale : ChineseScale} {n i : Nat} (hn : n < 10 ^ 4) : CTok.large i ∉ chineseTokens formal scale n := by
  intro h
  by_cases h0 : n = 0
  · subst h0
    simp [chineseTokens] at h
  · rw [large_mem_tokens h0] at h
    have key : ∀ (e : Nat → Nat) K, scaleUnits scale = unitsOf e K → (∀ i, 4 ≤ e i) → False := by
      intro e K hs he
      rw [hs] at h
      have h1 := (spell_large_sound K n h).2
      have h2 : 10 ^ 4 ≤ 10 ^ e i := Nat.pow_le_pow_right (by omega) (he i)
      omega
    cases scale with
    | short => exact key (fun i => 4 + i) 11 rfl fun i => by omega
    | myriad => exact key (fun i => 4 * (i + 1)) 9 rfl fun i => by omega
    | mid => exact key (fun i => if i = 0 then 4 else 8 * i) 5 rfl fun i => by split <;> omega
    | long =>
      refine key (fun i => 4 * 2 ^ i) 4 rfl fun i => ?_
      have : 0 < 2 ^ i := Nat.pow_pos (by omega)
      omega

/-- Ordinary characters up to 9999 are the same in both scripts. -/
theorem scripts_agree {k l : ChineseKind} {a : ChineseScale} {n : Nat} (hf : isFormal k = isFormal l) (hn : n < 10 ^ 4) :
    chineseText k ⟨.ordinary, a⟩ n = chineseText l ⟨.ordinary, a⟩ n := by
  unfold chineseText
  rw [hf]
  refine List.map_congr_left fun t ht => ?_
  cases t with
  | large i => exact absurd ht (no_large hn)
  | _ => simp [chineseGlyph]

theorem chinese_differ (alloc : Bool) : (∀ k u a b, a ≠ b → present alloc (scalesPart a b) (answer (.chinese k ⟨u, a⟩) (scalesPart a b)) ≠
      present alloc (scalesPart a b) (answer (.chinese k ⟨u, b⟩) (scalesPart a b))) ∧
    ∀ k l a b, isFormal k = isFormal l → k ≠ l → present alloc (10 ^ 4) (answer (.chinese k ⟨.ordinary, a⟩) (10 ^ 4)) ≠
      present alloc (10 ^ 4) (answer (.chinese l ⟨.ordinary, b⟩) (10 ^ 4)) := by
  constructor
  · intro k u a b
    revert alloc
    cases k <;> cases u <;> cases a <;> cases b <;> decide +kernel
  · intro k l a b
    revert alloc
    cases k <;> cases l <;> cases a <;> cases b <;> decide +kernel

/-- C82. Two named systems give the same outcome for every value of an integer type exactly if they are the same system, or Chinese systems
that part only at a number the type cannot hold. -/
theorem C82_alike {cfg : Cfg} {T : IntTy} (s s' : Named) :
    (∀ n, T.Fits cfg n → view (tryToNominal cfg T n s.system) = view (tryToNominal cfg T n s'.system)) ↔ Alike (2 ^ T.bits cfg) s s' := by
  have h256 := bits_ge cfg T
  constructor
  · intro h
    have hp : ∀ n, T.Fits cfg n → present cfg.alloc n (answer s n) = present cfg.alloc n (answer s' n) := fun n hn => by
      rw [← C51_catalogue s hn, ← C51_catalogue s' hn, h n hn]
    have hc : sampleOf s = sampleOf s' := by
      refine probe_class (alloc := cfg.alloc) ?_
      refine List.map_congr_left fun n hn => hp n ?_
      have : n ≤ 100 := by
        revert n; decide
      show n < 2 ^ T.bits cfg
      omega
    by_cases hs : sampleOf s < 47
    · have h1 := sampleOf_simple hs
      have h2 := sampleOf_simple (hc ▸ hs)
      rw [hc] at h1
      cases Option.some.inj (h1.symm.trans h2)
      exact .same s
    · obtain ⟨k, u, a, rfl⟩ := sampleOf_chinese hs
      obtain ⟨l, v, b, rfl⟩ := sampleOf_chinese (hc ▸ hs)
      have huv : u = v ∧ isFormal k = isFormal l ∧ (u = .financial → k = l) := by
        revert hc
        cases u <;> cases v <;> cases k <;> cases l <;> simp [sampleOf, isFormal, isTraditional]
      obtain ⟨rfl, hf, hk⟩ := huv
      by_cases hkl : k = l
      · subst hkl
        by_cases hab : a = b
        · subst hab
          exact .same _
        · refine .scales k u a b (Nat.le_of_not_lt fun hlt => ?_)
          exact (chinese_differ cfg.alloc).1 k u a b hab (hp _ hlt)
      · cases u with
        | financial => exact absurd (hk rfl) hkl
        | ordinary =>
          refine .scripts k l a b hf (Nat.le_of_not_lt fun hlt => ?_)
          exact (chinese_differ cfg.alloc).2 k l a b hf hkl (hp _ hlt)
  · intro h n hn
    have hlt : n < 2 ^ T.bits cfg := hn
    have sc : ∀ (k : ChineseKind) (u : ChineseUsage) (a b : ChineseScale), n < scalesPart a b →
        view (tryToNominal cfg T n (Named.chinese k ⟨u, a⟩).system) = view (tryToNominal cfg T n (Named.chinese k ⟨u, b⟩).system) := by
      intro k u a b hm
      by_cases hab : a = b
      · rw [hab]
      · exact (C63_outcomes k u hab hn).1 (by rw [agreement_eq hab]; exact hm)
    cases h with
    | same => rfl
    | scales k u a b hm => exact sc k u a b (by omega)
    | scripts k l a b hf hm =>
      have h4 : n < 10 ^ 4 := by omega
      rw [sc k .ordinary a b (by unfold scalesPart; split <;> (try split) <;> omega), C51_catalogue _ hn, C51_catalogue _ hn]
      simp only [answer, scripts_agree hf h4]

/-- On `u8` the long scale of Chinese numerals cannot be told from the short one: no number reaches ten thousand. -/
example (n : Nat) (h : IntTy.u8.Fits ⟨true, .w64, true⟩ n) :
    view (tryToNominal ⟨true, .w64, true⟩ .u8 n (Named.chinese .simplifiedFormal ⟨.ordinary, .long⟩).system) =
      view (tryToNominal ⟨true, .w64, true⟩ .u8 n (Named.chinese .simplifiedFormal ⟨.ordinary, .short⟩).system) :=
  (C82_alike _ _).mpr (.scales _ _ _ _ (by show 2 ^ 8 ≤ _; decide)) n h

/-- C82. Every pair of different named systems is told apart by some `u128`. -/
theorem C82_distinct {cfg : Cfg} {s s' : Named} (h : s ≠ s') :
    ∃ n, IntTy.u128.Fits cfg n ∧ view (tryToNominal cfg .u128 n s.system) ≠ view (tryToNominal cfg .u128 n s'.system) := by
  refine Classical.byContradiction fun hc => ?_
  have hall : ∀ n, IntTy.u128.Fits cfg n → view (tryToNominal cfg .u128 n s.system) = view (tryToNominal cfg .u128 n s'.system) :=
    fun n hn => Classical.byContradiction fun hne => hc ⟨n, hn, hne⟩
  have hb : 2 ^ IntTy.u128.bits cfg = 2 ^ 128 := rfl
  cases (C82_alike s s').mp hall with
  | same => exact h rfl
  | scales k u a b hm =>
    rw [hb] at hm
    unfold scalesPart at hm
    revert hm
    split <;> (try split) <;> decide
  | scripts k l a b hf hm => rw [hb] at hm; revert hm; decide

/-- The long and the mid scale write some 128-bit number differently. -/
example : ∃ n, IntTy.u128.Fits ⟨true, .w64, true⟩ n ∧
    view (tryToNominal ⟨true, .w64, true⟩ .u128 n (Named.chinese .simplifiedFormal ⟨.ordinary, .long⟩).system) ≠
      view (tryToNominal ⟨true, .w64, true⟩ .u128 n (Named.chinese .simplifiedFormal ⟨.ordinary, .mid⟩).system) :=
  C82_distinct (by simp)

/-- C82. The derived `==` of a Chinese system is sameness of behaviour: two settings are equal exactly if they write every `u128` alike. -/
theorem C82_options {cfg : Cfg} (k : ChineseKind) (o o' : ChineseOptions) :
    o = o' ↔ ∀ n, IntTy.u128.Fits cfg n → view (chineseTryFormat k o cfg .u128 n) = view (chineseTryFormat k o' cfg .u128 n) := by
  constructor
  · rintro rfl n _
    rfl
  · intro h
    refine Classical.byContradiction fun hne => ?_
    obtain ⟨n, hn, hd⟩ := C82_distinct (cfg := cfg) (s := .chinese k o) (s' := .chinese k o') (by simpa using hne)
    exact hd (h n hn)

/-- `u8` cannot tell the scripts apart, `u64` cannot tell the mid from the long scale. -/
example (cfg : Cfg) : Alike (2 ^ IntTy.u8.bits cfg) (.chinese .simplifiedFormal {}) (.chinese .traditionalFormal {}) :=
  .scripts _ _ _ _ rfl (by show 2 ^ 8 ≤ _; decide)

example (cfg : Cfg) : Alike (2 ^ IntTy.u64.bits cfg) (.chinese .simplifiedFormal ⟨.financial, .mid⟩) (.chinese .simplifiedFormal ⟨.financial, .long⟩) :=
  .scales _ _ _ _ (by show 2 ^ 64 ≤ _; decide)

example : view (tryToNominal ⟨true, .w64, true⟩ .u16 10000 (Named.chinese .simplifiedFormal {}).system) = .ok (['一', '万'], true) ∧
    view (tryToNominal ⟨true, .w64, true⟩ .u16 10000 (Named.chinese .traditionalFormal {}).system) = .ok (['一', '萬'], true) := by decide +kernel

end Nominals.Props
