import Verif.Spec.Misread
import Verif.Props.Repertoire
import Verif.Props.Shape
import Verif.Props.Alike

/-!
# Property C84: when one label stands for two numbers

Vocabulary: `Verif/Spec/Misread.lean`, `Verif/Spec/Outcome.lean`.
-/

namespace Nominals.Props

open Nominals.Spec

deriving instance DecidableEq for Named

/-! ## Systems without a character in common -/

/-- Parts of Unicode that the systems keep apart. -/
def zone (c : Char) : Nat :=
  let n := c.toNat
  if n < 0x30 then 0 else if n < 0x40 then 1 else if n < 0x60 then 2 else if n < 0x80 then 3 else if n < 0x390 then 4
  else if n < 0x3b0 then 5 else if n < 0x500 then 6 else if n < 0x560 then 7 else if n < 0x590 then 8 else if n < 0x600 then 9
  else if n < 0x6e0 then 10 else if n < 0x700 then 11 else if n < 0x980 then 12 else if n < 0xa00 then 13 else if n < 0xa80 then 14
  else if n < 0xb00 then 15 else if n < 0xb80 then 16 else if n < 0xc00 then 17 else if n < 0xc80 then 18 else if n < 0xd00 then 19
  else if n < 0xd80 then 20 else if n < 0xe80 then 21 else if n < 0xf00 then 22 else if n < 0x1000 then 23 else if n < 0x10a0 then 24
  else if n < 0x1100 then 25 else if n < 0x1400 then 26 else if n < 0x1800 then 27 else if n < 0x2000 then 28 else if n < 0x24f5 then 29
  else if n < 0x2500 then 30 else if n < 0x3040 then 31 else if n < 0x30a0 then 32 else if n < 0x3100 then 33 else if n < 0x3200 then 34
  else if n < 0x3300 then 29 else if n < 0xac00 then 31 else 35

/-- The systems, other than Chinese ones, with characters in a part. -/
def owners : Nat → List Named
  | 0 => [.armenianUpper] | 1 => [.decimal, .hexUpper, .hexLower] | 2 => [.letterUpper, .hexUpper, .romanUpper]
  | 3 => [.letterLower, .hexLower, .romanLower] | 4 => [.romanUpper, .romanLower] | 5 => [.greekUpper] | 6 => [.greekLower]
  | 7 => [.armenianUpper] | 8 => [.armenianLower] | 9 => [.hebrew] | 10 => [.easternArabic] | 11 => [.persian] | 12 => [.devanagari]
  | 13 => [.bengali] | 14 => [.gurmukhi] | 15 => [.gujarati] | 16 => [.oriya] | 17 => [.tamil] | 18 => [.telugu] | 19 => [.kannada]
  | 20 => [.malayalam] | 21 => [.thai] | 22 => [.lao] | 23 => [.tibetan] | 24 => [.myanmar] | 25 => [.georgian] | 26 => [.ethiopic]
  | 27 => [.cambodian] | 28 => [.mongolian] | 29 => [.circledNumber] | 30 => [.doubleCircledNumber]
  | 31 => [.cjkDecimal, .cjkHeavenlyStem, .cjkEarthlyBranch, .japaneseFormal, .japaneseInformal, .hanjaInformal, .hanjaFormal]
  | 32 => [.hiragana, .hiraganaIroha] | 33 => [.katakana, .katakanaIroha] | 34 => [.hangeulJamo]
  | 35 => [.hangeulSyllable, .hangeulFormal]
  | _ => []

theorem zone_owner (s : Named) : ∀ c ∈ repertoire s, zone c < 36 ∧ (s ∈ owners (zone c) ∨ zone c = 31 ∧ ∃ k o, s = .chinese k o) := by
  have plain : (∀ c ∈ repertoire s, zone c < 36 ∧ s ∈ owners (zone c)) →
      ∀ c ∈ repertoire s, zone c < 36 ∧ (s ∈ owners (zone c) ∨ zone c = 31 ∧ ∃ k o, s = .chinese k o) :=
    fun h c hc => ⟨(h c hc).1, .inl (h c hc).2⟩
  cases s with
  | chinese k o =>
    have key : ∀ c ∈ repertoire (.chinese k o), zone c = 31 := by
      obtain ⟨u, a⟩ := o
      cases k <;> cases u <;> cases a <;> decide +kernel
    intro c hc
    exact ⟨by rw [key c hc]; decide, .inr ⟨key c hc, k, o, rfl⟩⟩
  | _ => exact plain (by decide +kernel)

/-- Systems that have a part in common, other than the CJK characters. -/
theorem owners_pairs : ∀ z, z < 36 → z ≠ 31 → ∀ s ∈ owners z, ∀ s' ∈ owners z, s = s' ∨ (s, s') ∈ ambiguousPairs ∨ (s', s) ∈ ambiguousPairs ∨
    (s, s') ∈ [(Named.hexUpper, Named.hexLower), (.hexLower, .hexUpper), (.romanUpper, .romanLower), (.romanLower, .romanUpper)] := by
  have key : ∀ z, z < 36 → z ≠ 31 → ((owners z).all fun s => (owners z).all fun s' => decide (s = s') || ambiguousPairs.contains (s, s') ||
      ambiguousPairs.contains (s', s) || [(Named.hexUpper, Named.hexLower), (.hexLower, .hexUpper), (.romanUpper, .romanLower),
        (.romanLower, .romanUpper)].contains (s, s')) = true := by decide +kernel
  intro z hz h31 s hs s' hs'
  have := List.all_eq_true.mp (List.all_eq_true.mp (key z hz h31) s hs) s' hs'
  simpa [or_assoc] using this

/-! ## Reading digits and units -/

/-- The meaning of the characters of all digit-and-unit systems. -/
def unitToken (c : Char) : Option CTok :=
  if c = '〇' then some .zero else if c = '壱' then some (.num 1) else if c = '弐' then some (.num 2) else if c = '参' then some (.num 3)
  else if c = '阡' then some .thousand else tokenOf c

/-- Reading: a unit multiplies the digit before it. -/
def readRun : (total pending : Nat) → List CTok → Nat
  | tot, p, [] => tot + p
  | tot, p, .ten :: t => readRun (tot + (if p = 0 then 1 else p) * 10) 0 t
  | tot, p, .hundred :: t => readRun (tot + (if p = 0 then 1 else p) * 100) 0 t
  | tot, p, .thousand :: t => readRun (tot + (if p = 0 then 1 else p) * 1000) 0 t
  | tot, p, .num d :: t => readRun (tot + p) d t
  | tot, p, .zero :: t => readRun tot p t
  | tot, p, .large _ :: t => readRun tot p t

def readUnits (t : List Char) : Nat := readRun 0 0 (t.filterMap unitToken)

/-- What a script makes of a character. -/
def scriptToken (s : DigitPlace) (c : Char) : CTok :=
  if c ∈ s.places then [CTok.ten, .hundred, .thousand].getD (s.places.idxOf c) .zero
  else if c ∈ s.digits then .num (s.digits.idxOf c + 1) else .zero

theorem readFrom_run {s : DigitPlace} {al : List Char} (hp : s.places.length = 3) (h : ∀ c ∈ al, unitToken c = some (scriptToken s c)) :
    ∀ (t : List Char) (tot p : Nat), (∀ c ∈ t, c ∈ al) → s.readFrom tot p t = readRun tot p (t.filterMap unitToken) := by
  intro t
  induction t with
  | nil => intro tot p _; rfl
  | cons c t ih =>
    intro tot p ht
    rw [List.filterMap_cons, h c (ht c (by simp)), DigitPlace.readFrom]
    have it := fun tot p => ih tot p fun c hc => ht c (by simp [hc])
    by_cases h1 : c ∈ s.places
    · have hi : s.places.idxOf c < 3 := by rw [← hp]; exact List.idxOf_lt_length_of_mem h1
      simp only [scriptToken, if_pos h1]
      have : s.places.idxOf c = 0 ∨ s.places.idxOf c = 1 ∨ s.places.idxOf c = 2 := by omega
      rcases this with e | e | e <;> rw [e, it] <;> rfl
    · by_cases h2 : c ∈ s.digits
      · simp only [scriptToken, if_neg h1, if_pos h2]
        rw [it]; rfl
      · simp only [scriptToken, if_neg h1, if_neg h2]
        rw [it]; rfl

/-- The Japanese and Korean systems with CJK characters. -/
def hanSystems : List Named := [.japaneseFormal, .japaneseInformal, .hanjaInformal, .hanjaFormal]

theorem han_read {s : Named} (hs : s ∈ hanSystems) {n : Nat} (hn : n < 2 ^ 128) {t : List Char} (h : answer s n = .text t) : readUnits t = n := by
  have hm := answer_mem s hn h
  obtain ⟨i, v⟩ := answer_view hn h
  have fn : IntTy.u128.Fits ⟨true, .w64, true⟩ n := hn
  simp only [hanSystems, List.mem_cons, List.not_mem_nil, or_false] at hs
  rcases hs with rfl | rfl | rfl | rfl
  · rw [← C29_read_back fn (japaneseFormalTryFormat, japaneseFormalScript.read) (by simp [readableSystems]) t i v]
    exact (readFrom_run (al := repertoire .japaneseFormal) rfl (by decide +kernel) t 0 0 hm).symm
  · rw [← C29_read_back fn (japaneseInformalTryFormat, japaneseInformalScript.read) (by simp [readableSystems]) t i v]
    exact (readFrom_run (al := repertoire .japaneseInformal) rfl (by decide +kernel) t 0 0 hm).symm
  · rw [← C29_read_back fn (hanjaInformalTryFormat, hanjaInformalScript.read) (by simp [readableSystems]) t i v]
    exact (readFrom_run (al := repertoire .hanjaInformal) rfl (by decide +kernel) t 0 0 hm).symm
  · rw [← C29_read_back fn (hanjaFormalTryFormat, hanjaFormalScript.read) (by simp [readableSystems]) t i v]
    exact (readFrom_run (al := repertoire .hanjaFormal) rfl (by decide +kernel) t 0 0 hm).symm

/-! ## Chinese numerals -/

theorem chinese_text {k : ChineseKind} {o : ChineseOptions} {n : Nat} (hn : n < 2 ^ 128) {t : List Char} (h : answer (.chinese k o) n = .text t) :
    inRange o.scale n ∧ t = chineseText k o n := by
  simp only [answer] at h
  split at h
  · cases h
  · next hs =>
    injection h with h
    exact ⟨⟨hn, fun e => Nat.lt_of_not_le fun hl => hs ⟨e, hl⟩⟩, h.symm⟩

theorem unitToken_of {c : Char} {u : CTok} (h : tokenOf c = some u) : unitToken c = some u := by
  have key : ∀ c ∈ ['〇', '壱', '弐', '参', '阡'], tokenOf c = none := by decide +kernel
  have hne : ∀ d ∈ ['〇', '壱', '弐', '参', '阡'], c ≠ d := by
    rintro d hd rfl
    rw [key _ hd] at h
    cases h
  unfold unitToken
  rw [if_neg (hne _ (by simp)), if_neg (hne _ (by simp)), if_neg (hne _ (by simp)), if_neg (hne _ (by simp)), if_neg (hne _ (by simp)), h]

theorem filterMap_unitToken (tr fin : Bool) {ts : List CTok} (h : ∀ t ∈ ts, t.Valid) : (ts.map (chineseGlyph tr fin)).filterMap unitToken = ts := by
  induction ts with
  | nil => rfl
  | cons t ts ih =>
    rw [List.map_cons, List.filterMap_cons, unitToken_of (tokenOf_glyph tr fin (h t (by simp))), ih fun u hu => h u (by simp [hu])]

theorem run_secTok (a b c d : Nat) : readRun 0 0 (secTok a b c d) = a * 1000 + b * 100 + c * 10 + d := by
  by_cases ha : a = 0 <;> by_cases hb : b = 0 <;> by_cases hc : c = 0 <;> by_cases hd : d = 0 <;>
    simp [secTok, readRun, ha, hb, hc, hd]

theorem run_drop (ts : List CTok) : readRun 0 0 (dropLeadingOne ts) = readRun 0 0 ts := by
  unfold dropLeadingOne
  split
  · rfl
  · rfl

theorem chinese_small {k : ChineseKind} {o : ChineseOptions} {n : Nat} (hr : inRange o.scale n) (hn : n < 10000) :
    readUnits (chineseText k o n) = n := by
  unfold readUnits chineseText
  rw [filterMap_unitToken _ _ (tokens_valid (isFormal k) hr)]
  by_cases h0 : n = 0
  · subst h0; rfl
  · have e : readRun 0 0 (spellWith (needsZero o.scale) (scaleUnits o.scale) n) = n := by
      rw [scaleUnits_small _ _ hn, spell_section (sectionRule o.scale) hn, run_secTok]
      omega
    unfold chineseTokens
    rw [if_neg h0]
    dsimp only
    split
    · exact e
    · rw [run_drop, e]

/-- From 10^4 on there is a large unit. -/
theorem chinese_large {k : ChineseKind} {o : ChineseOptions} {n : Nat} (hn : 10000 ≤ n) :
    ∃ i, CTok.large i ∈ chineseTokens (isFormal k) o.scale n := by
  have key : ∀ (e : Nat → Nat) K, scaleUnits o.scale = unitsOf e K → 0 < K → e 0 = 4 → ∃ i, CTok.large i ∈ chineseTokens (isFormal k) o.scale n := by
    intro e K hs hK he
    obtain ⟨i, -, -, h, -⟩ := spell_large_top (z := needsZero o.scale) (e := e) (j := 0) (n := n) K hK (by rw [he]; omega)
    exact ⟨i, by rw [large_mem_tokens (by omega), hs]; exact h⟩
  cases hs : o.scale with
  | short => exact hs ▸ key (fun i => 4 + i) 11 (by rw [hs]; rfl) (by omega) rfl
  | myriad => exact hs ▸ key (fun i => 4 * (i + 1)) 9 (by rw [hs]; rfl) (by omega) rfl
  | mid => exact hs ▸ key (fun i => if i = 0 then 4 else 8 * i) 5 (by rw [hs]; rfl) (by omega) rfl
  | long => exact hs ▸ key (fun i => 4 * 2 ^ i) 4 (by rw [hs]; rfl) (by omega) rfl

theorem spell_unit (z : Nat → Nat → Bool) : ∀ (us : Units) (n s : Nat) (u : CTok), (s, u) ∈ us → s ≤ n → ∃ p ∈ us, p.2 ∈ spellWith z us n := by
  intro us
  induction us with
  | nil => intro n s u h; cases h
  | cons q us ih =>
    intro n s u h hn
    obtain ⟨s', u'⟩ := q
    rw [spellWith]
    split
    · next hlt =>
      rcases List.mem_cons.mp h with h | h
      · cases h; omega
      · obtain ⟨p, hp, hm⟩ := ih n s u h hn
        exact ⟨p, List.mem_cons_of_mem _ hp, hm⟩
    · exact ⟨(s', u'), List.mem_cons_self, by simp⟩

/-- From 10 on there is a unit. -/
theorem chinese_unit {k : ChineseKind} {o : ChineseOptions} {n : Nat} (hn : 10 ≤ n) :
    ∃ p ∈ scaleUnits o.scale, p.2 ∈ chineseTokens (isFormal k) o.scale n := by
  have h10 : ∀ a, ((10, CTok.ten) : Nat × CTok) ∈ scaleUnits a := by intro a; cases a <;> decide
  have hu : ∀ a, ∀ p ∈ scaleUnits a, p.2 ≠ .num 1 := by intro a; cases a <;> decide
  obtain ⟨p, hp, hm⟩ := spell_unit (needsZero o.scale) _ n 10 .ten (h10 o.scale) hn
  refine ⟨p, hp, ?_⟩
  unfold chineseTokens
  rw [if_neg (by omega)]
  dsimp only
  split
  · exact hm
  · unfold dropLeadingOne
    split
    · next e =>
      rw [e] at hm
      rcases List.mem_cons.mp hm with h | h
      · exact absurd h (hu _ p hp)
      · exact h
    · exact hm

/-- A numeral other than zero starts with a digit or with ten. -/
theorem spell_head (z : Nat → Nat → Bool) : ∀ (us : Units) (n : Nat), (∀ p ∈ us, 0 < p.1) → n ≠ 0 → ∃ d r, spellWith z us n = .num d :: r := by
  intro us
  induction us with
  | nil => intro n _ h; exact ⟨n, [], by rw [spellWith, if_neg h]⟩
  | cons q us ih =>
    intro n hp hn
    obtain ⟨s, u⟩ := q
    rw [spellWith]
    have hs : 0 < s := hp (s, u) (by simp)
    split
    · exact ih n (fun p h => hp p (by simp [h])) hn
    · next hlt =>
      have : 0 < n / s := Nat.div_pos (by omega) hs
      obtain ⟨d, r, e⟩ := ih (n / s) (fun p h => hp p (by simp [h])) (by omega)
      rw [e]
      exact ⟨d, _, rfl⟩

theorem chinese_head {formal : Bool} {a : ChineseScale} {n : Nat} (h0 : n ≠ 0) :
    ∃ u r, chineseTokens formal a n = u :: r ∧ (u = .ten ∨ ∃ d, u = .num d) := by
  have hp : ∀ p ∈ scaleUnits a, 0 < p.1 := by cases a <;> decide
  obtain ⟨d, r, e⟩ := spell_head (needsZero a) _ n hp h0
  unfold chineseTokens
  rw [if_neg h0]
  dsimp only
  split
  · exact ⟨_, r, e, .inr ⟨d, rfl⟩⟩
  · unfold dropLeadingOne
    split
    · exact ⟨_, _, rfl, .inl rfl⟩
    · exact ⟨_, r, e, .inr ⟨d, rfl⟩⟩

/-- Financial and ordinary numerals have nothing but zero in common. -/
theorem usages_apart {k k' : ChineseKind} {a b : ChineseScale} {n m : Nat} (hn : inRange a n) (hm : inRange b m)
    (h : chineseText k ⟨.financial, a⟩ n = chineseText k' ⟨.ordinary, b⟩ m) : n = 0 ∧ m = 0 := by
  have hz : ∀ k u a, chineseText k ⟨u, a⟩ 0 = ['零'] := by intro k u a; cases u <;> rfl
  have apart : ∀ tr tr', ∀ x ∈ CTok.ten :: (List.range 9).map fun i => CTok.num (i + 1), ∀ y ∈ CTok.ten :: (List.range 9).map fun i => CTok.num (i + 1),
      chineseGlyph tr true x ≠ chineseGlyph tr' false y := by decide +kernel
  have mem : ∀ {u : CTok}, (u = .ten ∨ ∃ d, u = .num d) → u.Valid → u ∈ CTok.ten :: (List.range 9).map fun i => CTok.num (i + 1) := by
    rintro u (rfl | ⟨d, rfl⟩) hv
    · exact List.mem_cons_self
    · obtain ⟨h1, h2⟩ := hv
      exact List.mem_cons_of_mem _ (List.mem_map.mpr ⟨d - 1, List.mem_range.mpr (by omega), by congr; omega⟩)
  have nz : ∀ x ∈ CTok.ten :: (List.range 9).map fun i => CTok.num (i + 1), ∀ tr fin, chineseGlyph tr fin x ≠ '零' := by decide +kernel
  have head : ∀ {k u a n}, inRange a n → n ≠ 0 → ∃ x ∈ CTok.ten :: (List.range 9).map fun i => CTok.num (i + 1), ∃ r,
      chineseText k ⟨u, a⟩ n = chineseGlyph (isTraditional k) (u = .financial) x :: r := by
    intro k u a n hr h0
    obtain ⟨x, r, e, hx⟩ := chinese_head (formal := isFormal k) (a := a) h0
    have hv := tokens_valid (isFormal k) hr x (by rw [e]; simp)
    exact ⟨x, mem hx hv, r.map (chineseGlyph (isTraditional k) (u = .financial)), by unfold chineseText; dsimp only; rw [e]; rfl⟩
  by_cases n0 : n = 0 <;> by_cases m0 : m = 0
  · exact ⟨n0, m0⟩
  · obtain ⟨x, hx, r, e⟩ := head (k := k') (u := .ordinary) hm m0
    rw [n0, hz, e] at h
    injection h with h
    exact absurd h.symm (nz x hx _ _)
  · obtain ⟨x, hx, r, e⟩ := head (k := k) (u := .financial) hn n0
    rw [m0, hz, e] at h
    injection h with h
    exact absurd h (nz x hx _ _)
  · obtain ⟨x, hx, r, e⟩ := head (k := k) (u := .financial) hn n0
    obtain ⟨y, hy, r', e'⟩ := head (k := k') (u := .ordinary) hm m0
    rw [e, e'] at h
    injection h with h
    exact absurd h (apart _ _ x hx y hy)

/-! ## Texts of CJK digits -/

theorem han_unit {s : DigitPlace} {g : Char} {p : Char} (hp : s.places.length = 3) (hg : p ∈ s.places) {n : Nat} (hn : 10 ≤ n) :
    ∃ c ∈ repeatedTop 9000 [g, p] s.sym n, c ∈ s.places := by
  unfold repeatedTop
  by_cases h : 9000 ≤ n
  · refine ⟨p, List.mem_append_left _ ?_, hg⟩
    have : n / 9000 ≠ 0 := by omega
    exact List.mem_flatten.mpr ⟨[g, p], by simp [List.mem_replicate, this], by simp⟩
  · rw [Nat.mod_eq_of_lt (by omega)]
    have sym : ∀ k d, 1 ≤ k → k ≤ 3 → ∃ c ∈ s.sym k d, c ∈ s.places := by
      intro k d h1 h3
      have e : s.places.getD (k - 1) '?' ∈ s.places := by
        rw [List.getD_eq_getElem?_getD, List.getElem?_eq_getElem (by omega)]
        exact List.getElem_mem _
      refine ⟨_, ?_, e⟩
      unfold DigitPlace.sym
      rw [if_neg (by omega)]
      split <;> simp
    have place : ∀ k d, 1 ≤ k → k ≤ 3 → d ≠ 0 → ∃ c ∈ (if d = 0 then [] else s.sym k d), c ∈ s.places := by
      intro k d h1 h3 hd
      rw [if_neg hd]
      exact sym k d h1 h3
    unfold digitwise
    dsimp only
    by_cases h1 : n / 1000 % 10 ≠ 0
    · obtain ⟨c, hc, hc'⟩ := place 3 _ (by omega) (by omega) h1
      exact ⟨c, by simp only [List.mem_append]; exact .inr (.inl (.inl (.inl hc))), hc'⟩
    · by_cases h2 : n / 100 % 10 ≠ 0
      · obtain ⟨c, hc, hc'⟩ := place 2 _ (by omega) (by omega) h2
        exact ⟨c, by simp only [List.mem_append]; exact .inr (.inl (.inl (.inr hc))), hc'⟩
      · obtain ⟨c, hc, hc'⟩ := place 1 (n / 10 % 10) (by omega) (by omega) (by omega)
        exact ⟨c, by simp only [List.mem_append]; exact .inr (.inl (.inr hc)), hc'⟩

theorem han_digits {s : Named} (hs : s ∈ hanSystems) {n : Nat} {t : List Char} (h : answer s n = .text t) (hc : ∀ c ∈ t, c ∈ cjkDigits) :
    n < 10 ∧ t = decimalWith cjkDigits n := by
  have key : ∀ (sc : DigitPlace) (g p : Char) (z : List Char), sc.places.length = 3 → p ∈ sc.places → (∀ c ∈ sc.places, c ∉ cjkDigits) →
      (∀ n, n < 10 → ∀ t, additiveAnswer (.text z) 9000 [g, p] sc.sym n = .text t → (∀ c ∈ t, c ∈ cjkDigits) → t = decimalWith cjkDigits n) →
      additiveAnswer (.text z) 9000 [g, p] sc.sym n = .text t → n < 10 ∧ t = decimalWith cjkDigits n := by
    intro sc g p z hp hg hn hsmall h
    by_cases h10 : n < 10
    · exact ⟨h10, hsmall n h10 t h hc⟩
    · unfold additiveAnswer at h
      rw [if_neg (by omega)] at h
      injection h with h
      obtain ⟨c, h1, h2⟩ := han_unit (s := sc) (g := g) hp hg (n := n) (by omega)
      exact absurd (hc c (h ▸ h1)) (hn c h2)
  have small : ∀ (sc : DigitPlace) (g p : Char) (z : List Char),
      (∀ n, n < 10 → ((if n = 0 then z else repeatedTop 9000 [g, p] sc.sym n).all fun c => decide (c ∈ cjkDigits)) = true →
        (if n = 0 then z else repeatedTop 9000 [g, p] sc.sym n) = decimalWith cjkDigits n) →
      ∀ n, n < 10 → ∀ t, additiveAnswer (.text z) 9000 [g, p] sc.sym n = .text t → (∀ c ∈ t, c ∈ cjkDigits) → t = decimalWith cjkDigits n := by
    intro sc g p z hk n hn t ht hc
    have e : t = if n = 0 then z else repeatedTop 9000 [g, p] sc.sym n := by
      unfold additiveAnswer at ht
      by_cases h0 : n = 0
      · rw [if_pos h0] at ht ⊢; injection ht with ht; exact ht.symm
      · rw [if_neg h0] at ht ⊢; injection ht with ht; exact ht.symm
    rw [e]
    refine hk n hn ?_
    rw [← e, List.all_eq_true]
    exact fun c h => decide_eq_true (hc c h)
  simp only [hanSystems, List.mem_cons, List.not_mem_nil, or_false] at hs
  rcases hs with rfl | rfl | rfl | rfl
  · exact key japaneseFormalScript '九' '阡' ['零'] rfl (by decide) (by decide) (small _ _ _ _ (by decide +kernel)) h
  · exact key japaneseInformalScript '九' '千' ['〇'] rfl (by decide) (by decide) (small _ _ _ _ (by decide +kernel)) h
  · exact key hanjaInformalScript '九' '千' ['零'] rfl (by decide) (by decide) (small _ _ _ _ (by decide +kernel)) h
  · exact key hanjaFormalScript '九' '仟' ['零'] rfl (by decide) (by decide) (small _ _ _ _ (by decide +kernel)) h

theorem chinese_digits {k : ChineseKind} {o : ChineseOptions} {n : Nat} (hr : inRange o.scale n) (hc : ∀ c ∈ chineseText k o n, c ∈ cjkDigits) :
    n < 10 ∧ chineseText k o n = decimalWith cjkDigits n := by
  by_cases h10 : n < 10
  · refine ⟨h10, ?_⟩
    have key : ∀ n, n < 10 → (chineseText k o n).all (fun c => decide (c ∈ cjkDigits)) = true → chineseText k o n = decimalWith cjkDigits n := by
      obtain ⟨u, a⟩ := o
      cases k <;> cases u <;> cases a <;> decide +kernel
    refine key n h10 ?_
    rw [List.all_eq_true]
    exact fun c h => decide_eq_true (hc c h)
  · obtain ⟨p, hp, hm⟩ := chinese_unit (k := k) (o := o) (n := n) (by omega)
    have key : ∀ p ∈ scaleUnits o.scale, chineseGlyph (isTraditional k) (o.usage = .financial) p.2 ∉ cjkDigits := by
      obtain ⟨u, a⟩ := o
      cases k <;> cases u <;> cases a <;> decide +kernel
    exact absurd (hc _ (List.mem_map_of_mem hm)) (key p hp)

/-- The symbols of the two fixed series. -/
def cycleSymbols : List Char :=
  ['甲', '乙', '丙', '丁', '戊', '己', '庚', '辛', '壬', '癸'] ++ ['子', '丑', '寅', '卯', '辰', '巳', '午', '未', '申', '酉', '戌', '亥']

theorem positional_text {s : Named} (hs : s ∈ cjkPositional) {n : Nat} {t : List Char} (h : answer s n = .text t) :
    (t = decimalWith cjkDigits n ∧ (s ≠ .cjkDecimal → 10 ≤ n)) ∨ n ≠ 0 ∧ ∃ c, t = [c] ∧ c ∈ cycleSymbols ∧ c ∈ repertoire s := by
  have ser : ∀ {al : List Char}, al.length ≥ 10 → (∀ c ∈ al, c ∈ cycleSymbols ∧ c ∈ repertoire s) → series al n = .text t →
      (t = decimalWith cjkDigits n ∧ (s ≠ .cjkDecimal → 10 ≤ n)) ∨ n ≠ 0 ∧ ∃ c, t = [c] ∧ c ∈ cycleSymbols ∧ c ∈ repertoire s := by
    intro al hl ha h
    unfold series at h
    by_cases h0 : n = 0
    · rw [if_pos h0] at h; cases h
    rw [if_neg h0] at h
    injection h with h
    by_cases hle : n ≤ al.length
    · rw [if_pos hle] at h
      have e : al.getD (n - 1) '?' ∈ al := by
        rw [List.getD_eq_getElem?_getD, List.getElem?_eq_getElem (by omega)]
        exact List.getElem_mem _
      exact .inr ⟨h0, _, h.symm, ha _ e⟩
    · rw [if_neg hle] at h
      exact .inl ⟨h.symm, fun _ => by omega⟩
  simp only [cjkPositional, List.mem_cons, List.not_mem_nil, or_false] at hs
  rcases hs with rfl | rfl | rfl
  · injection h with h
    exact .inl ⟨h.symm, fun e => absurd rfl e⟩
  · exact ser (al := ['甲', '乙', '丙', '丁', '戊', '己', '庚', '辛', '壬', '癸']) (by decide) (by decide) h
  · exact ser (al := ['子', '丑', '寅', '卯', '辰', '巳', '午', '未', '申', '酉', '戌', '亥']) (by decide) (by decide) h

theorem decimal_mem (n : Nat) : ∀ c ∈ decimalWith cjkDigits n, c ∈ cjkDigits :=
  fun _ hc => toDigits_map_mem (b := 10) (by omega) (by decide) hc

theorem decimal_inj {n m : Nat} (h : decimalWith cjkDigits n = decimalWith cjkDigits m) : n = m :=
  toDigits_map_injective (b := 10) (by omega) (by decide) h

/-- The systems that write with digits and units. -/
def Unitary (s : Named) : Prop := s ∈ hanSystems ∨ ∃ k o, s = .chinese k o

theorem unitary_digits {s : Named} (hs : Unitary s) {n : Nat} (hn : n < 2 ^ 128) {t : List Char} (h : answer s n = .text t)
    (hc : ∀ c ∈ t, c ∈ cjkDigits) : n < 10 ∧ t = decimalWith cjkDigits n := by
  rcases hs with hs | ⟨k, o, rfl⟩
  · exact han_digits hs h hc
  · obtain ⟨hr, rfl⟩ := chinese_text hn h
    exact chinese_digits hr hc

theorem unitary_cycle {s : Named} (hs : Unitary s) : ∀ c ∈ cycleSymbols, c ∉ repertoire s := by
  rcases hs with hs | ⟨k, o, rfl⟩
  · simp only [hanSystems, List.mem_cons, List.not_mem_nil, or_false] at hs
    rcases hs with rfl | rfl | rfl | rfl <;> decide +kernel
  · obtain ⟨u, a⟩ := o
    cases k <;> cases u <;> cases a <;> decide +kernel

theorem cjk_class {s : Named} (h : s ∈ owners 31 ∨ ∃ k o, s = .chinese k o) : s ∈ cjkPositional ∨ Unitary s := by
  rcases h with h | h
  · have key : ∀ s ∈ owners 31, s ∈ cjkPositional ∨ s ∈ hanSystems := by decide
    rcases key s h with h | h
    · exact .inl h
    · exact .inr (.inl h)
  · exact .inr (.inr h)

/-- A text that two positional systems share. -/
theorem positional_agree {s s' : Named} (hs : s ∈ cjkPositional) (hs' : s' ∈ cjkPositional) {n m : Nat} (hn : n < 2 ^ 128) (hm : m < 2 ^ 128)
    {t : List Char} (h : answer s n = .text t) (h' : answer s' m = .text t) : n = m := by
  have hx : ∀ c ∈ cycleSymbols, c ∉ cjkDigits := by decide +kernel
  rcases positional_text hs h with ⟨e, -⟩ | ⟨-, c, e, hc, hr⟩ <;> rcases positional_text hs' h' with ⟨e', -⟩ | ⟨-, c', e', hc', hr'⟩
  · exact decimal_inj (e.symm.trans e')
  · exact absurd (decimal_mem n c' (by rw [← e, e']; simp)) (hx c' hc')
  · exact absurd (decimal_mem m c (by rw [← e', e]; simp)) (hx c hc)
  · have : c = c' := by rw [e] at e'; injection e'
    subst this
    have key : ∀ s ∈ cjkPositional, ∀ s' ∈ cjkPositional, ∀ c ∈ cycleSymbols, (decide (c ∈ repertoire s) && decide (c ∈ repertoire s')) = true → s = s' := by
      decide +kernel
    have := key s hs s' hs' c hc (by simp [hr, hr'])
    subst this
    exact answer_injective s hn hm h h'

/-- A text that a positional system shares with one that uses units: a digit of `CjkDecimal`. -/
theorem mixed_agree {s s' : Named} (hs : s ∈ cjkPositional) (hs' : Unitary s') {n m : Nat} (hm : m < 2 ^ 128)
    {t : List Char} (h : answer s n = .text t) (h' : answer s' m = .text t) : n = m ∧ s = .cjkDecimal ∧ t = decimalWith cjkDigits m := by
  rcases positional_text hs h with ⟨e, hp⟩ | ⟨-, c, e, hc, hr⟩
  · obtain ⟨h10, e'⟩ := unitary_digits hs' hm h' (by rw [e]; exact decimal_mem n)
    have hnm := decimal_inj (e.symm.trans e')
    refine ⟨hnm, Classical.byContradiction fun hne => ?_, e'⟩
    have := hp hne
    omega
  · exact absurd (answer_mem s' hm h' c (by rw [e]; simp)) (unitary_cycle hs' c hc)

/-- A text that two systems with units share. -/
theorem unitary_agree {s s' : Named} (hs : Unitary s) (hs' : Unitary s') (hne : ¬ Misread s s') {n m : Nat} (hn : n < 2 ^ 128) (hm : m < 2 ^ 128)
    {t : List Char} (h : answer s n = .text t) (h' : answer s' m = .text t) : n = m := by
  have mixed : ∀ {s k o n m}, s ∈ hanSystems → n < 2 ^ 128 → m < 2 ^ 128 → answer s n = .text t → answer (.chinese k o) m = .text t → n = m := by
    intro s k o n m hs hn hm h h'
    obtain ⟨hr, e⟩ := chinese_text hm h'
    have hlt : m < 10000 := Nat.lt_of_not_le fun hle => by
      obtain ⟨i, hi⟩ := chinese_large (k := k) (o := o) hle
      have hv := tokens_valid (isFormal k) hr _ hi
      have hi' : i < 11 := hv
      have hmem := answer_mem s hn h _ (by rw [e]; exact List.mem_map_of_mem hi)
      have key : ∀ i, i < 11 → ∀ tr fin, ∀ s ∈ hanSystems, chineseGlyph tr fin (.large i) ∉ repertoire s := by decide +kernel
      exact key i hi' _ _ s hs hmem
    rw [← han_read hs hn h, e, chinese_small hr hlt]
  rcases hs with hs | ⟨k, o, rfl⟩ <;> rcases hs' with hs' | ⟨k', o', rfl⟩
  · rw [← han_read hs hn h, han_read hs' hm h']
  · exact mixed hs hn hm h h'
  · exact (mixed hs' hm hn h' h).symm
  · obtain ⟨hr, e⟩ := chinese_text hn h
    obtain ⟨hr', e'⟩ := chinese_text hm h'
    obtain ⟨u, a⟩ := o
    obtain ⟨u', b⟩ := o'
    cases u <;> cases u'
    case financial.ordinary =>
      obtain ⟨rfl, rfl⟩ := usages_apart hr hr' (e.symm.trans e')
      rfl
    case ordinary.financial =>
      obtain ⟨rfl, rfl⟩ := usages_apart hr' hr (e'.symm.trans e)
      rfl
    all_goals
      by_cases hab : a = b
      · subst hab
        have r1 := read_chineseText k _ hr
        have r2 := read_chineseText k' _ hr'
        rw [← e] at r1
        rw [← e'] at r2
        exact r1.symm.trans r2
      · exact absurd (Misread.chinese k k' _ a b hab) hne

/-! ## Roman numerals in two cases -/

/-- Empty, or with a capital Roman letter. -/
def Lettered (t : List Char) : Prop := t = [] ∨ ∃ c ∈ t, c ∈ ['I', 'V', 'X', 'L', 'C', 'D', 'M']

theorem Lettered.append {t u : List Char} (h : Lettered t) (h' : Lettered u) : Lettered (t ++ u) := by
  rcases h with rfl | ⟨c, hc, hl⟩
  · simpa using h'
  · exact .inr ⟨c, List.mem_append_left _ hc, hl⟩

instance (t : List Char) : Decidable (Lettered t) := inferInstanceAs (Decidable (_ ∨ _))

theorem romanText_lettered (n : Nat) : Lettered (romanText n) := by
  unfold romanText
  refine ((((((?_ : Lettered _).append ?_).append ?_).append ?_).append ?_).append ?_).append ?_
  · cases n / 10 ^ 6 with
    | zero => exact .inl rfl
    | succ k => exact .inr ⟨'M', by simp [List.replicate_succ, bar], by decide⟩
  all_goals
    generalize hd : (_ % 10 : Nat) = d
    have hlt : d < 10 := by omega
    clear hd
    revert d
    decide +kernel

theorem roman_apart {n m : Nat} (hn : n < 2 ^ 128) (hm : m < 2 ^ 128) {t : List Char} (h : answer .romanUpper n = .text t)
    (h' : answer .romanLower m = .text t) : False := by
  have hx : ∀ c ∈ 'N' :: ['I', 'V', 'X', 'L', 'C', 'D', 'M'], c ∉ repertoire .romanLower := by decide +kernel
  have hm' := answer_mem _ hm h'
  have hne : t ≠ [] := fun e => answer_ne_nil _ hn (by rw [h, e])
  injection h with h
  subst h
  split at hm'
  · exact hx 'N' (by simp) (hm' 'N' (by simp))
  · next h0 =>
    rw [if_neg h0] at hne
    rcases romanText_lettered n with e | ⟨c, hc, hl⟩
    · exact hne e
    · exact hx c (List.mem_cons_of_mem _ hl) (hm' c hc)

/-! ## The property -/

/-- What a common text says about two systems. -/
theorem common_cases {s s' : Named} {n m : Nat} (hn : n < 2 ^ 128) (hm : m < 2 ^ 128) {t : List Char} (h : answer s n = .text t)
    (h' : answer s' m = .text t) :
    s = s' ∨ Misread s s' ∨ (s, s') ∈ [(Named.hexUpper, Named.hexLower), (.hexLower, .hexUpper)] ∨
      (s ∈ cjkPositional ∨ Unitary s) ∧ (s' ∈ cjkPositional ∨ Unitary s') := by
  have hne : t ≠ [] := fun e => answer_ne_nil s hn (by rw [h, e])
  obtain ⟨c, hc⟩ := List.exists_mem_of_ne_nil t hne
  obtain ⟨hz, ho⟩ := zone_owner s c (answer_mem s hn h c hc)
  obtain ⟨-, ho'⟩ := zone_owner s' c (answer_mem s' hm h' c hc)
  by_cases h31 : zone c = 31
  · refine .inr (.inr (.inr ⟨cjk_class ?_, cjk_class ?_⟩))
    · exact ho.imp (fun h => h31 ▸ h) fun h => h.2
    · exact ho'.imp (fun h => h31 ▸ h) fun h => h.2
  · have o1 := ho.resolve_right fun h => h31 h.1
    have o2 := ho'.resolve_right fun h => h31 h.1
    rcases owners_pairs _ hz h31 s o1 s' o2 with e | e | e | e
    · exact .inl e
    · exact .inr (.inl (.pair _ _ e))
    · exact .inr (.inl (.riap _ _ e))
    · simp only [List.mem_cons, Prod.mk.injEq, List.not_mem_nil, or_false] at e
      rcases e with e | e | ⟨rfl, rfl⟩ | ⟨rfl, rfl⟩
      · exact .inr (.inr (.inl (by simp [e.1, e.2])))
      · exact .inr (.inr (.inl (by simp [e.1, e.2])))
      · exact (roman_apart hn hm h h').elim
      · exact (roman_apart hm hn h' h).elim

theorem hex_agree {n m : Nat} {t : List Char} (h : answer .hexUpper n = .text t) (h' : answer .hexLower m = .text t) : n = m := by
  injection h with h
  injection h' with h'
  have e : (Nat.toDigits 16 n).map Char.toUpper = (Nat.toDigits 16 m).map Char.toUpper := by
    rw [h', ← h, List.map_map]
    refine List.map_congr_left fun c hc => ?_
    obtain ⟨d, hd, rfl⟩ := toDigits_mem (by omega) hc
    have key : ∀ d, d < 16 → (Nat.digitChar d).toUpper = (Nat.digitChar d).toUpper.toUpper := by decide +kernel
    exact key d hd
  exact toDigits_map_injective (by omega) (by decide) e

theorem answer_agree {s s' : Named} (hne : ¬ Misread s s') {n m : Nat} (hn : n < 2 ^ 128) (hm : m < 2 ^ 128) {t : List Char}
    (h : answer s n = .text t) (h' : answer s' m = .text t) : n = m := by
  rcases common_cases hn hm h h' with rfl | e | e | ⟨e | e, e' | e'⟩
  · exact answer_injective s hn hm h h'
  · exact absurd e hne
  · simp only [List.mem_cons, Prod.mk.injEq, List.not_mem_nil, or_false] at e
    rcases e with ⟨rfl, rfl⟩ | ⟨rfl, rfl⟩
    · exact hex_agree h h'
    · exact (hex_agree h' h).symm
  · exact positional_agree e e' hn hm h h'
  · exact (mixed_agree e e' hm h h').1
  · exact (mixed_agree e' e hn h' h).1.symm
  · exact unitary_agree e e' hne hn hm h h'

/-- C84. Apart from the listed pairs of systems, a text that two named systems can both return stands for the same number in both, across
integer types, builds and pointer widths. -/
theorem C84_agree {cfg cfg' : Cfg} {T T' : IntTy} {n m : Nat} {s s' : Named} (hne : ¬ Misread s s') (hn : T.Fits cfg n) (hm : T'.Fits cfg' m)
    {t : List Char} {i j : Bool} (h1 : view (tryToNominal cfg T n s.system) = .ok (t, i))
    (h2 : view (tryToNominal cfg' T' m s'.system) = .ok (t, j)) : n = m := by
  rw [C51_catalogue s hn] at h1
  rw [C51_catalogue s' hm] at h2
  exact answer_agree hne (Nominals.fits_lt hn) (Nominals.fits_lt hm) (present_text h1) (present_text h2)

/-- 二千 in Hanja and in Traditional Chinese: not a pair that can be misread, and both write 2000 so. -/
example : ¬ Misread .japaneseFormal .cjkDecimal ∧ ¬ Misread .hanjaInformal (.chinese .traditionalInformal ⟨.ordinary, .long⟩) ∧
    answer .hanjaInformal 2000 = .text ['二', '千'] ∧ answer (.chinese .traditionalInformal ⟨.ordinary, .long⟩) 2000 = .text ['二', '千'] := by
  refine ⟨?_, ?_, by decide +kernel, by decide +kernel⟩ <;> rintro (⟨_, _, h⟩ | ⟨_, _, h⟩) <;> revert h <;> decide

/-- A text of at most 62 bytes is returned by every build. -/
theorem short_view {s : Named} {n : Nat} (hn : n < 2 ^ 128) {t : List Char} (h : answer s n = .text t) (hl : utf8Len t ≤ 62) (cfg : Cfg) :
    view (tryToNominal cfg .u128 n s.system) = .ok (t, true) := by
  rw [C51_catalogue s (show IntTy.u128.Fits cfg n from hn), h, present, deliver, if_pos hl]

/-- Two numbers and the text they share, for each of the pairs. -/
def misreadings : List (Named × Named × Nat × Nat × List Char) :=
  [(.decimal, .hexUpper, 10, 16, ['1', '0']), (.decimal, .hexLower, 10, 16, ['1', '0']), (.letterUpper, .hexUpper, 2, 12, ['C']),
   (.letterUpper, .romanUpper, 2, 100, ['C']), (.hexUpper, .romanUpper, 12, 100, ['C']), (.letterLower, .hexLower, 2, 12, ['c']),
   (.letterLower, .romanLower, 2, 100, ['c']), (.hexLower, .romanLower, 12, 100, ['c']), (.hiragana, .hiraganaIroha, 1, 0, ['い']),
   (.katakana, .katakanaIroha, 1, 0, ['イ']), (.hangeulFormal, .hangeulSyllable, 4, 6, ['사'])]

/-- The number written 一兆 (壹兆) in a scale, and the one written 一京 (壹京). -/
def oneZhao : ChineseScale → Nat
  | .short => 10 ^ 6 | .myriad => 10 ^ 12 | .mid | .long => 10 ^ 16
def oneJing : ChineseScale → Nat
  | .short => 10 ^ 7 | .myriad => 10 ^ 16 | .mid => 10 ^ 24 | .long => 10 ^ 32

/-- C84. In each of the listed pairs some text stands for different 128-bit numbers. -/
theorem C84_misread {s s' : Named} (h : Misread s s') : ∃ n m t, n ≠ m ∧ n < 2 ^ 128 ∧ m < 2 ^ 128 ∧ ∀ cfg : Cfg,
    view (tryToNominal cfg .u128 n s.system) = .ok (t, true) ∧ view (tryToNominal cfg .u128 m s'.system) = .ok (t, true) := by
  have sym : ∀ p ∈ misreadings, answer p.1 p.2.2.1 = .text p.2.2.2.2 ∧ answer p.2.1 p.2.2.2.1 = .text p.2.2.2.2 ∧ p.2.2.1 ≠ p.2.2.2.1 ∧
      p.2.2.1 < 2 ^ 128 ∧ p.2.2.2.1 < 2 ^ 128 ∧ utf8Len p.2.2.2.2 ≤ 62 := by decide +kernel
  have all : ∀ p ∈ ambiguousPairs, ∃ q ∈ misreadings, p = (q.1, q.2.1) := by decide +kernel
  cases h with
  | pair s s' hp =>
    obtain ⟨q, hq, e⟩ := all _ hp
    injection e with e1 e2
    subst e1; subst e2
    obtain ⟨a1, a2, a3, a4, a5, a6⟩ := sym q hq
    exact ⟨_, _, _, a3, a4, a5, fun cfg => ⟨short_view a4 a1 a6 cfg, short_view a5 a2 a6 cfg⟩⟩
  | riap s s' hp =>
    obtain ⟨q, hq, e⟩ := all _ hp
    injection e with e1 e2
    subst e1; subst e2
    obtain ⟨a1, a2, a3, a4, a5, a6⟩ := sym q hq
    exact ⟨_, _, _, a3.symm, a5, a4, fun cfg => ⟨short_view a5 a2 a6 cfg, short_view a4 a1 a6 cfg⟩⟩
  | chinese k k' u a b hab =>
    have z : ∀ k u a, answer (.chinese k ⟨u, a⟩) (oneZhao a) = .text [if u = .financial then '壹' else '一', '兆'] := by
      intro k u a; cases k <;> cases u <;> cases a <;> decide +kernel
    have j : ∀ k u a, answer (.chinese k ⟨u, a⟩) (oneJing a) = .text [if u = .financial then '壹' else '一', '京'] := by
      intro k u a; cases k <;> cases u <;> cases a <;> decide +kernel
    have lz : ∀ a, oneZhao a < 2 ^ 128 ∧ oneJing a < 2 ^ 128 := by intro a; cases a <;> decide
    have len : ∀ c ∈ ['兆', '京'], utf8Len [if u = .financial then '壹' else '一', c] ≤ 62 := by cases u <;> decide
    by_cases hz : oneZhao a = oneZhao b
    · have hj : oneJing a ≠ oneJing b := by
        revert hz hab
        cases a <;> cases b <;> decide
      exact ⟨_, _, _, hj, (lz a).2, (lz b).2, fun cfg => ⟨short_view (lz a).2 (j k u a) (len _ (by simp)) cfg,
        short_view (lz b).2 (j k' u b) (len _ (by simp)) cfg⟩⟩
    · exact ⟨_, _, _, hz, (lz a).1, (lz b).1, fun cfg => ⟨short_view (lz a).1 (z k u a) (len _ (by simp)) cfg,
        short_view (lz b).1 (z k' u b) (len _ (by simp)) cfg⟩⟩

/-- A scale misread: 一兆 is a million in the short scale and 10^16 in the long one, whatever the characters. -/
example : Misread (.chinese .simplifiedFormal ⟨.ordinary, .short⟩) (.chinese .traditionalInformal ⟨.ordinary, .long⟩) ∧
    answer (.chinese .simplifiedFormal ⟨.ordinary, .short⟩) (10 ^ 6) = .text ['一', '兆'] ∧
    answer (.chinese .traditionalInformal ⟨.ordinary, .long⟩) (10 ^ 16) = .text ['一', '兆'] :=
  ⟨.chinese _ _ _ _ _ (by decide), by decide +kernel, by decide +kernel⟩

theorem units_four {s : Named} (h : cjkUnits s = true) : answer s 4 = .text ['四'] := by
  cases s with
  | chinese k o =>
    obtain ⟨u, a⟩ := o
    revert h
    cases u <;> cases k <;> cases a <;> decide +kernel
  | japaneseFormal | japaneseInformal | hanjaInformal | hanjaFormal => decide +kernel
  | _ => cases h

theorem ling_zero {s : Named} (h : zeroLing s = true) : answer s 0 = .text ['零'] := by
  cases s with
  | chinese k o =>
    obtain ⟨u, a⟩ := o
    revert h
    cases u <;> cases k <;> cases a <;> decide +kernel
  | japaneseFormal | hanjaInformal | hanjaFormal => decide +kernel
  | _ => cases h

/-- C84. Which systems have a text in common at all: those of the listed pairs, and a few in which common texts stand for the same number -
the two hexadecimal ones, and systems written with CJK characters. -/
theorem C84_common {s s' : Named} (hne : s ≠ s') (cfg : Cfg) :
    (∃ n m t i j, n < 2 ^ 128 ∧ m < 2 ^ 128 ∧ view (tryToNominal cfg .u128 n s.system) = .ok (t, i) ∧
      view (tryToNominal cfg .u128 m s'.system) = .ok (t, j)) ↔ Misread s s' ∨ Common s s' := by
  constructor
  · rintro ⟨n, m, t, i, j, hn, hm, h1, h2⟩
    rw [C51_catalogue s (show IntTy.u128.Fits cfg n from hn)] at h1
    rw [C51_catalogue s' (show IntTy.u128.Fits cfg m from hm)] at h2
    have h1 := present_text h1
    have h2 := present_text h2
    have ling : ∀ {s}, Unitary s → s = .japaneseInformal ∨ zeroLing s = true := by
      rintro s (hs | ⟨k, o, rfl⟩)
      · simp only [hanSystems, List.mem_cons, List.not_mem_nil, or_false] at hs
        rcases hs with rfl | rfl | rfl | rfl
        · exact .inr rfl
        · exact .inl rfl
        · exact .inr rfl
        · exact .inr rfl
      · exact .inr rfl
    have fin : ∀ {s}, Unitary s → cjkUnits s = true ∨ ∃ k a, s = .chinese k ⟨.financial, a⟩ := by
      rintro s (hs | ⟨k, o, rfl⟩)
      · simp only [hanSystems, List.mem_cons, List.not_mem_nil, or_false] at hs
        rcases hs with rfl | rfl | rfl | rfl <;> exact .inl rfl
      · obtain ⟨u, a⟩ := o
        cases u
        · exact .inr ⟨k, a, rfl⟩
        · exact .inl rfl
    have apart : ∀ k a, ∀ c ∈ repertoire .japaneseInformal, c ∉ repertoire (.chinese k ⟨.financial, a⟩) := by
      intro k a
      cases k <;> cases a <;> decide +kernel
    have mixed : ∀ {s s' : Named} {n m : Nat}, m < 2 ^ 128 → s ∈ cjkPositional → Unitary s' → answer s n = .text t → answer s' m = .text t →
        s = .cjkDecimal ∧ cjkUnits s' = true := by
      intro s s' n m hm e e' h1 h2
      obtain ⟨-, e1, e2⟩ := mixed_agree e e' hm h1 h2
      refine ⟨e1, (fin e').resolve_right ?_⟩
      rintro ⟨k, a, rfl⟩
      have hx : ∀ c ∈ cjkDigits, c ∉ repertoire (.chinese k ⟨.financial, a⟩) := by cases k <;> cases a <;> decide +kernel
      obtain ⟨c, hc⟩ := List.exists_mem_of_ne_nil t fun e => answer_ne_nil _ hm (by rw [h2, e])
      exact hx c (decimal_mem m c (e2 ▸ hc)) (answer_mem _ hm h2 c hc)
    rcases common_cases hn hm h1 h2 with e | e | e | ⟨e | e, e' | e'⟩
    · exact absurd e hne
    · exact .inl e
    · simp only [List.mem_cons, Prod.mk.injEq, List.not_mem_nil, or_false] at e
      rcases e with ⟨rfl, rfl⟩ | ⟨rfl, rfl⟩
      · exact .inr .hex
      · exact .inr .xeh
    · exact .inr (.positional _ _ e e')
    · obtain ⟨rfl, hu⟩ := mixed hm e e' h1 h2
      exact .inr (.digits _ hu)
    · obtain ⟨rfl, hu⟩ := mixed hn e' e h2 h1
      exact .inr (.stigid _ hu)
    · obtain ⟨c, hc⟩ := List.exists_mem_of_ne_nil t fun e => answer_ne_nil _ hm (by rw [h2, e])
      rcases fin e with f | ⟨k, a, rfl⟩ <;> rcases fin e' with f' | ⟨k', b, rfl⟩
      · exact .inr (.units _ _ f f')
      · refine .inr (.zero _ _ ((ling e).resolve_left ?_) rfl)
        rintro rfl
        exact apart k' b c (answer_mem _ hn h1 c hc) (answer_mem _ hm h2 c hc)
      · refine .inr (.zero _ _ rfl ((ling e').resolve_left ?_))
        rintro rfl
        exact apart k a c (answer_mem _ hm h2 c hc) (answer_mem _ hn h1 c hc)
      · exact .inr (.zero _ _ rfl rfl)
  · have wit : ∀ {n t}, n < 2 ^ 128 → utf8Len t ≤ 62 → answer s n = .text t → answer s' n = .text t →
        ∃ n m t i j, n < 2 ^ 128 ∧ m < 2 ^ 128 ∧ view (tryToNominal cfg .u128 n s.system) = .ok (t, i) ∧
          view (tryToNominal cfg .u128 m s'.system) = .ok (t, j) :=
      fun hn hl h h' => ⟨_, _, _, _, _, hn, hn, short_view hn h hl cfg, short_view hn h' hl cfg⟩
    rintro (h | h)
    · obtain ⟨n, m, t, -, hn, hm, h⟩ := C84_misread h
      exact ⟨n, m, t, _, _, hn, hm, (h cfg).1, (h cfg).2⟩
    · cases h with
      | hex => exact wit (n := 0) (t := ['0']) (by decide) (by decide) (by decide +kernel) (by decide +kernel)
      | xeh => exact wit (n := 0) (t := ['0']) (by decide) (by decide) (by decide +kernel) (by decide +kernel)
      | positional _ _ h h' =>
        have key : ∀ s ∈ cjkPositional, answer s 13 = .text ['一', '三'] := by decide +kernel
        exact wit (by decide) (by decide) (key _ h) (key _ h')
      | digits _ h => exact wit (n := 4) (t := ['四']) (by decide) (by decide) (by decide +kernel) (units_four h)
      | stigid _ h => exact wit (n := 4) (t := ['四']) (by decide) (by decide) (units_four h) (by decide +kernel)
      | units _ _ h h' => exact wit (n := 4) (t := ['四']) (by decide) (by decide) (units_four h) (units_four h')
      | zero _ _ h h' => exact wit (n := 0) (t := ['零']) (by decide) (by decide) (ling_zero h) (ling_zero h')

/-- Greek and Latin capitals look alike but share no text; `HexUpper` and `HexLower` share 100, for 256. -/
example : ¬ (Misread .greekUpper .letterUpper ∨ Common .greekUpper .letterUpper) ∧ Common .hexUpper .hexLower ∧
    answer .hexUpper 256 = .text ['1', '0', '0'] ∧ answer .hexLower 256 = .text ['1', '0', '0'] := by
  refine ⟨?_, .hex, by decide +kernel, by decide +kernel⟩
  rintro ((⟨_, _, h⟩ | ⟨_, _, h⟩) | h)
  · revert h; decide
  · revert h; decide
  · cases h with
    | positional _ _ h => revert h; decide
    | units _ _ h => cases h
    | zero _ _ h => cases h

end Nominals.Props
