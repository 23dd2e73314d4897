import Verif.Props.ChineseDigits
import Verif.Proofs.TextWidth

/-!
# Property C72: the length of the longest text

Vocabulary: `Verif/Spec/Outcome.lean`, `Verif/Spec/Catalogue.lean`, `Verif/Spec/Width.lean`.
-/

namespace Nominals.Props

open Nominals.Spec

/-- One of the widths of the integer types. -/
def IsWidth (b : Nat) : Prop := b = 8 ∨ b = 16 ∨ b = 32 ∨ b = 64 ∨ b = 128

/-- `f` gives texts of at most `w b` characters to numbers below `2 ^ b`, and one of exactly `w b` to `at_ b`. -/
def Longest (f : Nat → Answer) (w at_ : Nat → Nat) : Prop :=
  ∀ b, IsWidth b → (∀ n t, n < 2 ^ b → f n = .text t → t.length ≤ w b) ∧ at_ b < 2 ^ b ∧ ∃ t, f (at_ b) = .text t ∧ t.length = w b

theorem toDigits_longest {b : Nat} (hb : 2 ≤ b) (g : Char → Char) {w : Nat → Nat}
    (h : ∀ k, IsWidth k → 1 ≤ w k ∧ 2 ^ k ≤ b ^ w k ∧ b ^ (w k - 1) ≤ 2 ^ k - 1) :
    Longest (fun n => .text ((Nat.toDigits b n).map g)) w fun k => 2 ^ k - 1 := by
  intro k hk
  obtain ⟨h1, h2, h3⟩ := h k hk
  have hp : 0 < 2 ^ k := Nat.pow_pos (by omega)
  refine ⟨?_, Nat.sub_lt hp (by omega), _, rfl, ?_⟩
  · intro n t hn ht
    cases ht
    rw [List.length_map]
    exact (toDigits_width hb).1 h1 (by omega)
  · rw [List.length_map]
    change (Nat.toDigits b (2 ^ k - 1)).length = w k
    have a := (toDigits_width hb (k := w k) (n := 2 ^ k - 1)).1 h1 (by omega)
    have a' := (toDigits_width hb (k := w k - 1) (n := 2 ^ k - 1)).2 h3
    omega

theorem decimal_fits : ∀ k, IsWidth k → 1 ≤ byBits 3 5 10 20 39 k ∧ 2 ^ k ≤ 10 ^ byBits 3 5 10 20 39 k ∧
    10 ^ (byBits 3 5 10 20 39 k - 1) ≤ 2 ^ k - 1 := by
  rintro k (rfl | rfl | rfl | rfl | rfl) <;> decide

theorem decimal_longest (g : Char → Char) :
    Longest (fun n => .text ((Nat.toDigits 10 n).map g)) (byBits 3 5 10 20 39) fun k => 2 ^ k - 1 :=
  toDigits_longest (by omega) g decimal_fits

theorem hex_longest (g : Char → Char) : Longest (fun n => .text ((Nat.toDigits 16 n).map g)) (byBits 2 4 8 16 32) fun k => 2 ^ k - 1 :=
  toDigits_longest (by omega) g (by rintro k (rfl | rfl | rfl | rfl | rfl) <;> decide)

theorem column_longest {al : List Char} {w : Nat → Nat} (b : Nat) (hl : al.length = b) (hb : 1 ≤ b)
    (h : ∀ k, IsWidth k → 1 ≤ w k ∧ 2 ^ k ≤ wordsUpTo b (w k) ∧ wordsUpTo b (w k - 1) ≤ 2 ^ k - 1) :
    Longest (columnName al) w fun k => 2 ^ k - 1 := by
  subst hl
  intro k hk
  obtain ⟨h1, h2, h3⟩ := h k hk
  have hp : 0 < 2 ^ k := Nat.pow_pos (by omega)
  refine ⟨?_, Nat.sub_lt hp (by omega), _, rfl, ?_⟩
  · intro n t hn ht
    cases ht
    rw [spell, List.length_map]
    exact (column_width hb).1 (by omega)
  · rw [spell, List.length_map]
    change (column al.length (2 ^ k - 1)).length = w k
    have a := (column_width hb (k := w k) (n := 2 ^ k - 1)).1 (by omega)
    have a' := (column_width hb (k := w k - 1) (n := 2 ^ k - 1)).2 h3
    omega

theorem series_longest {al : List Char} (hl : al.length ≤ 12) : Longest (series al) (byBits 3 5 10 20 39) fun k => 2 ^ k - 1 := by
  intro k hk
  have hd := decimal_longest (fun c => ['〇', '一', '二', '三', '四', '五', '六', '七', '八', '九'].getD (c.toNat - '0'.toNat) '?') k hk
  have hk8 : 2 ^ 8 ≤ 2 ^ k := Nat.pow_le_pow_right (by omega) (by rcases hk with h | h | h | h | h <;> omega)
  refine ⟨?_, hd.2.1, ?_⟩
  · intro n t hn ht
    unfold series at ht
    split at ht
    · cases ht
    · cases ht
      split
      · have := (decimal_fits k hk).1
        exact this
      · exact hd.1 n _ hn rfl
  · obtain ⟨t, h1, h2⟩ := hd.2.2
    refine ⟨t, ?_, h2⟩
    change series al (2 ^ k - 1) = _
    unfold series
    rw [if_neg (by omega), if_neg (by omega)]
    exact h1

theorem linear_longest {f : Nat → Answer} {text : Nat → List Char} {z : Answer} {top c K : Nat} {g : Nat → Nat → Nat} {w at_ : Nat → Nat}
    (hf : ∀ n, f n = if n = 0 then z else .text (text n)) (hz : ∀ t, z = .text t → t.length = 1)
    (hl : ∀ n, (text n).length = linLen top c g K n) (ht : 0 < top) (hK : top ≤ 10 ^ K)
    (h : ∀ b, IsWidth b → 1 ≤ w b ∧ linMax top c g K (2 ^ b - 1) = w b ∧ at_ b < 2 ^ b ∧ at_ b ≠ 0 ∧ linLen top c g K (at_ b) = w b) :
    Longest f w at_ := by
  intro b hb
  obtain ⟨h1, h2, h3, h4, h5⟩ := h b hb
  refine ⟨?_, h3, text (at_ b), by rw [hf, if_neg h4], by rw [hl, h5]⟩
  intro n t hn htx
  rw [hf] at htx
  split at htx
  · rw [hz t htx]; exact h1
  · cases htx
    rw [hl, ← h2]
    exact linLen_le ht hK (by omega)

theorem additive_longest {z : Answer} {top : Nat} {ts : List Char} {sym : Nat → Nat → List Char} {w at_ : Nat → Nat}
    (hz : ∀ t, z = .text t → t.length = 1) (ht : 0 < top) (hK : top ≤ 10 ^ 4)
    (h : ∀ b, IsWidth b → 1 ≤ w b ∧ linMax top ts.length (symWidth sym) 4 (2 ^ b - 1) = w b ∧ at_ b < 2 ^ b ∧ at_ b ≠ 0 ∧
      linLen top ts.length (symWidth sym) 4 (at_ b) = w b) :
    Longest (additiveAnswer z top ts sym) w at_ :=
  linear_longest (fun _ => rfl) hz (repeatedTop_width top ts sym) ht hK h

theorem hebrew_longest : Longest (answer .hebrew) (maxChars .hebrew) (widest .hebrew) := by
  intro b hb
  constructor
  · intro n t hn ht
    rw [answer] at ht
    split at ht
    · cases ht
    · cases ht
      obtain ⟨h1, h2⟩ := hebrew_rest (n % 400) (by omega)
      rw [hebrewText_width, hebrew_width]
      generalize (hebrewDigit 2 (n % 400 / 100) ++ hebrewBelow100 (n % 400 % 100)).length = x at h1 h2
      rcases hb with rfl | rfl | rfl | rfl | rfl <;> simp only [maxChars, byBits, Nat.reduceEqDiff, ↓reduceIte] <;> split <;> omega
  · rcases hb with rfl | rfl | rfl | rfl | rfl <;>
      refine ⟨by decide, _, by simp only [widest, byBits, answer, Nat.reduceEqDiff, ↓reduceIte]; rfl, ?_⟩ <;>
      rw [hebrewText_width, hebrew_width] <;> decide +kernel

theorem ethiopic_longest : Longest (answer .ethiopic) (maxChars .ethiopic) (widest .ethiopic) := by
  intro b hb
  constructor
  · intro n t hn ht
    rw [answer] at ht
    split at ht
    · cases ht
    · cases ht
      have key : ∀ D, 1 ≤ D → 2 ^ b ≤ 10 ^ D → (ethiopicText n).length + 1 ≤ D + (D + 1) / 2 :=
        fun D h1 h2 => ethiopic_width h1 (by omega)
      rcases hb with rfl | rfl | rfl | rfl | rfl
      · exact Nat.le_of_succ_le_succ (key 3 (by decide) (by decide))
      · exact Nat.le_of_succ_le_succ (key 5 (by decide) (by decide))
      · exact Nat.le_of_succ_le_succ (key 10 (by decide) (by decide))
      · exact Nat.le_of_succ_le_succ (key 20 (by decide) (by decide))
      · exact Nat.le_of_succ_le_succ (key 39 (by decide) (by decide))
  · rcases hb with rfl | rfl | rfl | rfl | rfl <;>
      refine ⟨by decide, _, by simp only [widest, byBits, answer, Nat.reduceEqDiff, ↓reduceIte]; rfl, ?_⟩ <;>
      rw [ethiopicText_eq (by omega)] <;> simp [ethFrom, ethGroupText, ethDigits, maxChars, byBits]

theorem chinese_longest (k : ChineseKind) (o : ChineseOptions) :
    Longest (answer (.chinese k o)) (maxChars (.chinese k o)) (widest (.chinese k o)) := by
  intro b hb
  have hb128 : 2 ^ b ≤ 2 ^ 128 := Nat.pow_le_pow_right (by omega) (by rcases hb with h | h | h | h | h <;> omega)
  have e2 : maxChars (.chinese k o) b = if o.scale = .short then byBits 5 9 19 29 29 b else byBits 5 9 19 39 77 b := by
    rw [maxChars]; split <;> rfl
  constructor
  · intro n t hn ht
    rw [answer] at ht
    split at ht
    · cases ht
    · next hs =>
      cases ht
      have hr : inRange o.scale n := ⟨by omega, fun h => Nat.lt_of_not_le fun h' => hs ⟨h, h'⟩⟩
      rw [chineseText, List.length_map]
      have hw : (chineseTokens (isFormal k) o.scale n).length ≤ max 1 (flatTokens o.scale n).length := by
        by_cases h0 : n = 0
        · rw [h0, chineseTokens, if_pos rfl]; simp; omega
        · rw [tokens_flat hr h0]
          split
          · omega
          · have := drop_width (flatTokens o.scale n); omega
      have key : ∀ D, 2 ^ b ≤ 10 ^ D → (flatTokens o.scale n).length ≤ 2 * D - 1 ∧ (o.scale = .short → (flatTokens o.scale n).length ≤ 29) :=
        fun D h => flat_width (by omega) hr
      rw [e2]
      rcases hb with rfl | rfl | rfl | rfl | rfl
      · have := key 3 (by decide); simp only [byBits, ↓reduceIte, ite_self]; omega
      · have := key 5 (by decide); simp only [byBits, Nat.reduceEqDiff, ↓reduceIte, ite_self]; omega
      · have := key 10 (by decide); simp only [byBits, Nat.reduceEqDiff, ↓reduceIte, ite_self]; omega
      · have := key 20 (by decide)
        simp only [byBits, Nat.reduceEqDiff, ↓reduceIte]
        split
        · next h => have := this.2 h; omega
        · omega
      · have := key 39 (by decide)
        simp only [byBits, Nat.reduceEqDiff, ↓reduceIte]
        split
        · next h => have := this.2 h; omega
        · omega
  · have key : ∀ f : Bool, ∀ s : ChineseScale, ∀ b ∈ [8, 16, 32, 64, 128],
        let n := if s = .short then byBits 111 11111 2111111111 111111111111111 111111111111111 b
          else byBits 111 11111 2111111111 11111111111111111111 111111111111111111111111111111111111111 b
        (if f then flatTokens s n else dropLeadingOne (flatTokens s n)).length = (if s = .short then byBits 5 9 19 29 29 b else byBits 5 9 19 39 77 b) ∧
          n ≠ 0 ∧ n < 2 ^ b ∧ (s = .short → n < 10 ^ 15) := by
      intro f s
      cases f <;> cases s <;> decide +kernel
    have hb' : b ∈ [8, 16, 32, 64, 128] := by rcases hb with rfl | rfl | rfl | rfl | rfl <;> simp
    have e1 : widest (.chinese k o) b = if o.scale = .short then byBits 111 11111 2111111111 111111111111111 111111111111111 b
        else byBits 111 11111 2111111111 11111111111111111111 111111111111111111111111111111111111111 b := by
      rw [widest]; split <;> rfl
    have key := key (isFormal k) o.scale b hb'
    rw [← e1, ← e2] at key
    obtain ⟨k1, k2, k3, k4⟩ := key
    refine ⟨k3, chineseText k o (widest (.chinese k o) b), ?_, ?_⟩
    · rw [answer, if_neg fun h => Nat.not_le_of_lt (k4 h.1) h.2]
    · rw [chineseText, List.length_map, tokens_flat ⟨by omega, k4⟩ k2]
      exact k1

theorem one_longest {f : Nat → Answer} (h : ∀ n t, f n = .text t → t.length = 1) (h1 : ∃ t, f 1 = .text t) :
    Longest f (byBits 1 1 1 1 1) (byBits 1 1 1 1 1) := by
  have e : ∀ b, byBits 1 1 1 1 1 b = 1 := by intro b; unfold byBits; split <;> (try split) <;> (try split) <;> (try split) <;> rfl
  intro b hb
  rw [e]
  refine ⟨fun n t _ ht => by rw [h n t ht]; exact Nat.le_refl _, ?_, ?_⟩
  · rcases hb with rfl | rfl | rfl | rfl | rfl <;> decide
  · obtain ⟨t, ht⟩ := h1
    exact ⟨t, ht, h 1 t ht⟩

/-- Every named system. -/
theorem named_longest (s : Named) : Longest (answer s) (maxChars s) (widest s) := by
  have id10 := decimal_longest id
  have id16 := hex_longest id
  simp only [List.map_id] at id10 id16
  cases s with
  | decimal => exact id10
  | hexLower => exact id16
  | hexUpper => exact hex_longest _
  | cjkHeavenlyStem => exact series_longest (by decide)
  | cjkEarthlyBranch => exact series_longest (by decide)
  | letterUpper | letterLower => exact column_longest 26 (by decide) (by omega) (by rintro k (rfl | rfl | rfl | rfl | rfl) <;> decide)
  | greekUpper | greekLower => exact column_longest 24 (by decide) (by omega) (by rintro k (rfl | rfl | rfl | rfl | rfl) <;> decide)
  | hiragana | katakana => exact column_longest 46 (by decide) (by omega) (by rintro k (rfl | rfl | rfl | rfl | rfl) <;> decide)
  | hiraganaIroha | katakanaIroha => exact column_longest 47 (by decide) (by omega) (by rintro k (rfl | rfl | rfl | rfl | rfl) <;> decide)
  | hangeulJamo | hangeulSyllable => exact column_longest 14 (by decide) (by omega) (by rintro k (rfl | rfl | rfl | rfl | rfl) <;> decide)
  | circledNumber =>
    refine one_longest ?_ ⟨_, rfl⟩
    intro n t h
    rw [answer] at h
    split at h
    · cases h; rfl
    · cases h
  | doubleCircledNumber =>
    refine one_longest ?_ ⟨_, rfl⟩
    intro n t h
    rw [answer] at h
    split at h
    · cases h
    · split at h
      · cases h; rfl
      · cases h
  | romanUpper =>
    refine linear_longest (z := .text ['N']) (text := romanText) (fun n => ?_) (by rintro t ⟨⟩; rfl) roman_width (by omega) (by omega)
      (by rintro k (rfl | rfl | rfl | rfl | rfl) <;> decide +kernel)
    rw [answer]; split <;> rfl
  | romanLower =>
    refine linear_longest (z := .text ['n']) (text := fun n => (romanText n).map Char.toLower) (fun n => ?_) (by rintro t ⟨⟩; rfl)
      (fun n => by rw [List.length_map]; exact roman_width n) (by omega) (by omega) (by rintro k (rfl | rfl | rfl | rfl | rfl) <;> decide +kernel)
    rw [answer]; split <;> rfl
  | armenianUpper | armenianLower | georgian =>
    exact additive_longest (by rintro t ⟨⟩) (by omega) (by omega) (by rintro k (rfl | rfl | rfl | rfl | rfl) <;> decide +kernel)
  | japaneseFormal | japaneseInformal | hangeulFormal | hanjaInformal | hanjaFormal =>
    exact additive_longest (by rintro t ⟨⟩; rfl) (by omega) (by omega) (by rintro k (rfl | rfl | rfl | rfl | rfl) <;> decide +kernel)
  | hebrew => exact hebrew_longest
  | ethiopic => exact ethiopic_longest
  | chinese k o => exact chinese_longest k o
  | _ => exact decimal_longest _

theorem bits_width (cfg : Cfg) (T : IntTy) : IsWidth (T.bits cfg) := by
  rcases bits_cases cfg T with h | h | h | h | h <;> simp [IsWidth, h]

/-- C72, part 1. No text of a value of a type has more characters than `maxChars` says for the width of the type. -/
theorem C72_at_most {cfg : Cfg} {T : IntTy} {n : Nat} (s : Named) (hn : T.Fits cfg n) {t : List Char} {i : Bool}
    (h : view (tryToNominal cfg T n s.system) = .ok (t, i)) : t.length ≤ maxChars s (T.bits cfg) := by
  rw [C51_catalogue s hn] at h
  exact (named_longest s _ (bits_width cfg T)).1 n t hn (present_text h)

/-- A byte in Roman numerals has at most 9 characters, and 188 has as many. -/
example : maxChars .romanUpper 8 = 9 ∧ view (tryToNominal ⟨true, .w64, true⟩ .u8 188 Named.romanUpper.system) =
    .ok (['C', 'L', 'X', 'X', 'X', 'V', 'I', 'I', 'I'], true) := by decide +kernel

/-- C72, part 2. One value of the type, `widest`, has a text of exactly that many characters: in a build with `alloc` it is
returned, and in a build without if it has at most 62 bytes. -/
theorem C72_attained {cfg : Cfg} {T : IntTy} (s : Named) : T.Fits cfg (widest s (T.bits cfg)) ∧
    ∃ t, t.length = maxChars s (T.bits cfg) ∧
      (cfg.alloc = true ∨ utf8Len t ≤ 62 →
        view (tryToNominal cfg T (widest s (T.bits cfg)) s.system) = .ok (t, decide (utf8Len t ≤ 62))) := by
  obtain ⟨_, h1, t, h2, h3⟩ := named_longest s _ (bits_width cfg T)
  refine ⟨h1, t, h3, fun h => ?_⟩
  rw [C51_catalogue s h1, h2, present, deliver]
  split
  · next hl => rw [decide_eq_true hl]
  · next hl =>
    rw [decide_eq_false hl, if_pos]
    rcases h with h | h
    · exact h
    · exact absurd h hl

/-- The longest texts of `u8`: a Roman numeral of nine letters; and of `u32` in the myriad scale: nineteen characters. -/
example : let c : Cfg := ⟨true, .w64, true⟩
    view (tryToNominal c .u8 238 Named.romanUpper.system) = .ok (['C', 'C', 'X', 'X', 'X', 'V', 'I', 'I', 'I'], true) ∧
    maxChars .romanUpper 8 = 9 ∧
    view (tryToNominal c .u32 2111111111 (Named.chinese .traditionalInformal {}).system) =
      .ok (['二', '十', '一', '億', '一', '千', '一', '百', '一', '十', '一', '萬', '一', '千', '一', '百', '一', '十', '一'], true) ∧
    maxChars (.chinese .traditionalInformal {}) 32 = 19 := by decide +kernel

/-- C72, part 3. Chinese numerals have, in every variant, at most two characters per decimal digit, less one; Ethiopic numerals
have at most one per digit and one for every two digits, less one. -/
theorem C72_per_digit {cfg : Cfg} {T : IntTy} {n : Nat} (hn : T.Fits cfg n) {t : List Char} {i : Bool} :
    (∀ k o, view (tryToNominal cfg T n (Named.chinese k o).system) = .ok (t, i) → t.length ≤ 2 * (Nat.toDigits 10 n).length - 1) ∧
    (view (tryToNominal cfg T n Named.ethiopic.system) = .ok (t, i) →
      t.length ≤ (Nat.toDigits 10 n).length + ((Nat.toDigits 10 n).length + 1) / 2 - 1) := by
  obtain ⟨_, hlt, _⟩ := decimal_len (w := 1) (f := id) (by decide) n
  have hpos : 1 ≤ (Nat.toDigits 10 n).length := by
    rcases Nat.eq_zero_or_pos (Nat.toDigits 10 n).length with h | h
    · rw [h] at hlt
      have : n = 0 := by omega
      subst this
      exact absurd h (by decide)
    · exact h
  constructor
  · intro k o h
    obtain ⟨rfl, hr⟩ := chinese_named hn h
    rw [chineseText, List.length_map]
    by_cases h0 : n = 0
    · subst h0
      rw [chineseTokens, if_pos rfl]
      exact Nat.le_refl _
    · rw [tokens_flat hr h0]
      have h1 := (flat_width hlt hr).1
      have h2 := drop_width (flatTokens o.scale n)
      split <;> omega
  · intro h
    rw [C51_catalogue _ hn] at h
    have h := present_text h
    rw [answer] at h
    split at h
    · cases h
    · cases h
      have := ethiopic_width hpos hlt
      omega

/-- Four digits: at most 7 and at most 5 characters. -/
example : let c : Cfg := ⟨true, .w64, true⟩
    view (tryToNominal c .u16 4271 (Named.chinese .traditionalFormal {}).system) = .ok (['四', '千', '二', '百', '七', '十', '一'], true) ∧
    view (tryToNominal c .u16 4271 Named.ethiopic.system) = .ok (['፵', '፪', '፻', '፸', '፩'], true) := by decide +kernel

end Nominals.Props
