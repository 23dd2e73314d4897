import Verif.Proofs.TextLength
import Verif.Proofs.ChineseRead

/-! # Lengths of Chinese numerals -/

namespace Nominals

open Nominals.Spec

theorem section_length {z : Nat → Nat → Bool} (hz : SectionRule z) {x : Nat} (hx : x < 10000) :
    (spellWith z sectionUnits x).length ≤ 7 ∧ (x < 1111 → (spellWith z sectionUnits x).length ≤ 6) ∧
    (x < 1000 → (spellWith z sectionUnits x).length ≤ 5) ∧ (x < 111 → (spellWith z sectionUnits x).length ≤ 4) := by
  rw [spell_section hz hx, secTok]
  have k3 : x < 1111 → x / 1000 = 0 ∨ x / 100 % 10 = 0 ∨ x / 10 % 10 = 0 ∨ x % 10 = 0 := by omega
  have k2 : x < 1000 → x / 1000 = 0 := by omega
  have k1 : x < 111 → x / 1000 = 0 ∧ (x / 100 % 10 = 0 ∨ x / 10 % 10 = 0 ∨ x % 10 = 0) := by omega
  by_cases h3 : x / 1000 = 0 <;> by_cases h2 : x / 100 % 10 = 0 <;> by_cases h1 : x / 10 % 10 = 0 <;> by_cases h0 : x % 10 = 0 <;>
    simp only [h3, h2, h1, h0, ↓reduceIte, List.length_append, List.length_cons, List.length_nil, ne_eq, not_true_eq_false, not_false_eq_true,
      and_true, true_and, and_false, false_and, or_true, true_or, or_false, false_or] at k3 k2 k1 ⊢ <;> omega

/-! ## The myriad, mid and long scales -/

theorem gap_section {z : Nat → Nat → Bool} (hz : GroupRule z) {s lo : Nat} (hs : 1000 < s) (hlo : lo < 10000) :
    (if z s lo then [CTok.zero] else []).length + (spellWith z sectionUnits lo).length ≤ 7 ∧
    (lo < 1111 → (if z s lo then [CTok.zero] else []).length + (spellWith z sectionUnits lo).length ≤ 6) := by
  obtain ⟨h1, h2, h3, _⟩ := section_length hz.sec hlo
  by_cases h0 : lo = 0
  · subst h0
    rw [hz.zero]
    simp only [Bool.false_eq_true, ↓reduceIte, List.length_nil]
    exact ⟨by omega, fun h => by have := h2 h; omega⟩
  · rw [hz.large s lo hs h0, gapTok]
    have := topPlace_group hlo
    by_cases h : 1000 ≤ lo
    · rw [if_pos (this.mpr h)]
      simp only [List.length_nil]
      exact ⟨by omega, fun h => by have := h2 h; omega⟩
    · have h3' := h3 (by omega)
      rw [if_neg (fun h' => h (this.mp h'))]
      simp only [List.length_cons, List.length_nil]
      omega

/-- A number below 10^8, after a larger unit. -/
theorem gap_double {z : Nat → Nat → Bool} (hz : GroupRule z) {s lo : Nat} (hs : 1000 < s) (hlo : lo < 10 ^ 8) :
    (if z s lo then [CTok.zero] else []).length + (spellWith z ((10 ^ 4, .large 0) :: sectionUnits) lo).length ≤ 15 ∧
    (lo < 11111111 → (if z s lo then [CTok.zero] else []).length + (spellWith z ((10 ^ 4, .large 0) :: sectionUnits) lo).length ≤ 14) := by
  rw [spellWith]
  by_cases h : lo < 10 ^ 4
  · rw [if_pos h]
    have := gap_section hz hs h
    omega
  · have h0 : lo ≠ 0 := by omega
    rw [if_neg h, hz.large s lo hs h0, gapTok, topPlace_pow (k := 4) (by omega), Nat.add_mod_right, List.length_append, List.length_cons,
      List.length_append]
    obtain ⟨a1, a2⟩ := gap_section hz (s := 10 ^ 4) (lo := lo % 10 ^ 4) (by omega) (by omega)
    obtain ⟨b1, b2, b3, _⟩ := section_length hz.sec (x := lo / 10 ^ 4) (by omega)
    have hg := topPlace_group (n := lo / 10 ^ 4) (by omega)
    by_cases hk : 1000 ≤ lo / 10 ^ 4
    · rw [if_pos (hg.mpr hk)]
      simp only [List.length_nil]
      by_cases hm : lo / 10 ^ 4 < 1111
      · have := b2 hm
        omega
      · refine ⟨by omega, fun h' => ?_⟩
        have := a2 (by omega)
        omega
    · rw [if_neg (fun h' => hk (hg.mp h'))]
      have := b3 (by omega)
      simp only [List.length_cons, List.length_nil]
      omega

theorem grouped_length {scale : ChineseScale} (hs : scale ≠ .short) {n : Nat} (hn : n < 11111111111) :
    (spellWith (needsZero scale) (scaleUnits scale) n).length ≤ 20 := by
  have hz := groupRule hs
  have e : spellWith (needsZero scale) (scaleUnits scale) n =
      spellWith (needsZero scale) ((10 ^ 8, .large 1) :: (10 ^ 4, .large 0) :: sectionUnits) n := by
    have key : ∀ (e : Nat → Nat) (k : Nat), e 0 = 4 → e 1 = 8 → (∀ i, 2 ≤ i → 12 ≤ e i) →
        spellWith (needsZero scale) (unitsOf e (2 + k)) n =
          spellWith (needsZero scale) ((10 ^ 8, .large 1) :: (10 ^ 4, .large 0) :: sectionUnits) n := by
      intro e k h0 h1 h2
      rw [spell_more k (fun i hi _ => Nat.lt_of_lt_of_le (by omega : n < 10 ^ 12) (Nat.pow_le_pow_right (by omega) (h2 i hi)))]
      simp only [unitsOf, h0, h1]
    cases scale with
    | short => exact absurd rfl hs
    | myriad => exact key (fun i => 4 * (i + 1)) 7 rfl rfl (by intro i hi; omega)
    | mid => exact key (fun i => if i = 0 then 4 else 8 * i) 3 rfl rfl (by intro i hi; rw [if_neg (by omega)]; omega)
    | long =>
      refine key (fun i => 4 * 2 ^ i) 2 rfl rfl (fun i hi => ?_)
      have : 2 ^ 2 ≤ 2 ^ i := Nat.pow_le_pow_right (by omega) hi
      omega
  rw [e, spellWith]
  by_cases h : n < 10 ^ 8
  · rw [if_pos h]
    have := (gap_double hz (s := 10 ^ 4) (by omega) h).1
    omega
  · rw [if_neg h, spellWith, if_pos (by omega), List.length_append, List.length_cons, List.length_append]
    obtain ⟨a1, a2⟩ := gap_double hz (s := 10 ^ 8) (lo := n % 10 ^ 8) (by omega) (by omega)
    obtain ⟨_, _, b3, b4⟩ := section_length hz.sec (x := n / 10 ^ 8) (by omega)
    have := b3 (by omega)
    by_cases h' : n / 10 ^ 8 < 111
    · have := b4 h'
      omega
    · have := a2 (by omega)
      omega

/-! ## The short scale -/

/-- 1, 11, 111, … -/
def ones : Nat → Nat
  | 0 => 0
  | k + 1 => 10 * ones k + 1

theorem ones_top (k : Nat) : ones (k + 1) = 10 ^ k + ones k := by
  induction k with
  | zero => rfl
  | succ k ih =>
    have : ones (k + 1) = 10 * ones k + 1 := rfl
    rw [ones, Nat.pow_succ]
    omega

theorem short_length (j : Nat) : ∀ x, x < 10 ^ (j + 4) →
    (spellWith (needsZero .short) (unitsOf (fun i => 4 + i) j) x).length ≤ 2 * (j + 3) + 1 ∧
    (x < ones (j + 4) → (spellWith (needsZero .short) (unitsOf (fun i => 4 + i) j) x).length ≤ 2 * (j + 3)) ∧
    (x < 10 ^ (j + 3) → (spellWith (needsZero .short) (unitsOf (fun i => 4 + i) j) x).length ≤ 2 * (j + 3) - 1) := by
  induction j with
  | zero =>
    intro x hx
    have := section_length (sectionRule .short) hx
    simp only [unitsOf]
    exact ⟨by omega, fun h => this.2.1 h, fun h => this.2.2.1 h⟩
  | succ j ih =>
    intro x hx
    rw [unitsOf, spellWith]
    have e : 10 ^ (j + 1 + 4) = 10 * 10 ^ (j + 4) := by rw [show j + 1 + 4 = (j + 4) + 1 by omega, Nat.pow_succ]; omega
    have e' : 10 ^ (j + 4) = 10 * 10 ^ (j + 3) := by rw [show j + 4 = (j + 3) + 1 by omega, Nat.pow_succ]; omega
    rw [show 4 + j = j + 4 by omega]
    by_cases h : x < 10 ^ (j + 4)
    · rw [if_pos h]
      have := (ih x h).1
      omega
    · rw [if_neg h, List.length_append, List.length_cons, List.length_append]
      have h3 : ¬ x < 10 ^ (j + 1 + 3) := by rw [show j + 1 + 3 = j + 4 by omega]; exact h
      have hp : 0 < 10 ^ (j + 4) := Nat.pow_pos (by omega)
      have hq : x / 10 ^ (j + 4) < 10 := (Nat.div_lt_iff_lt_mul hp).mpr (by omega)
      have hq1 : 1 ≤ x / 10 ^ (j + 4) := (Nat.le_div_iff_mul_le hp).mpr (by omega)
      have hlo : x % 10 ^ (j + 4) < 10 ^ (j + 4) := Nat.mod_lt _ hp
      have hx' : x = 10 ^ (j + 4) * (x / 10 ^ (j + 4)) + x % 10 ^ (j + 4) := (Nat.div_add_mod _ _).symm
      rw [spell_digit _ _ (unitsOf_ge10 _ (by intro i; omega) j) hq, if_neg (by omega)]
      obtain ⟨a1, a2, a3⟩ := ih _ hlo
      have hot := ones_top (j + 4)
      have hlt : x < ones (j + 1 + 4) → x % 10 ^ (j + 4) < ones (j + 4) := by
        intro h'
        rw [show j + 1 + 4 = j + 4 + 1 by omega, hot] at h'
        have : 10 ^ (j + 4) * 1 ≤ 10 ^ (j + 4) * (x / 10 ^ (j + 4)) := Nat.mul_le_mul_left _ hq1
        omega
      have hgap : needsZero .short (10 ^ (j + 4)) (x % 10 ^ (j + 4)) = decide (x % 10 ^ (j + 4) ≠ 0 ∧ 10 * (x % 10 ^ (j + 4)) < 10 ^ (j + 4)) := rfl
      rw [hgap]
      by_cases hz : x % 10 ^ (j + 4) ≠ 0 ∧ 10 * (x % 10 ^ (j + 4)) < 10 ^ (j + 4)
      · rw [decide_eq_true hz]
        simp only [↓reduceIte, List.length_cons, List.length_nil]
        have hsm : x % 10 ^ (j + 4) < 10 ^ (j + 3) := by omega
        have := a3 hsm
        exact ⟨by omega, fun _ => by omega, fun h' => absurd h' h3⟩
      · rw [decide_eq_false hz]
        simp only [Bool.false_eq_true, ↓reduceIte, List.length_cons, List.length_nil]
        refine ⟨by omega, fun h' => by have := a2 (hlt h'); omega, fun h' => absurd h' h3⟩

theorem short_scale_length {n : Nat} (hn : n < 11111111111) :
    (spellWith (needsZero .short) (scaleUnits .short) n).length ≤ 20 := by
  rw [scaleUnits, show (11 : Nat) = 7 + 4 from rfl,
    spell_more 4 (fun i hi _ => Nat.lt_of_lt_of_le (by omega : n < 10 ^ 11) (Nat.pow_le_pow_right (by omega) (by omega)))]
  exact (short_length 7 n (by omega)).2.1 hn

theorem scale_length (scale : ChineseScale) {n : Nat} (hn : n < 11111111111) :
    (spellWith (needsZero scale) (scaleUnits scale) n).length ≤ 20 := by
  by_cases h : scale = .short
  · subst h; exact short_scale_length hn
  · exact grouped_length h hn

theorem dropLeadingOne_length (ts : List CTok) : (dropLeadingOne ts).length ≤ ts.length := by
  unfold dropLeadingOne
  split <;> simp

theorem chineseTokens_length (formal : Bool) (scale : ChineseScale) {n : Nat} (hn : n < 11111111111) :
    (chineseTokens formal scale n).length ≤ 20 := by
  have h := scale_length scale hn
  have h' := dropLeadingOne_length (spellWith (needsZero scale) (scaleUnits scale) n)
  unfold chineseTokens
  by_cases h0 : n = 0
  · simp [h0]
  · cases formal <;> simp [h0] <;> omega

theorem chinese_glyph_size (trad fin : Bool) (t : CTok) : (chineseGlyph trad fin t).utf8Size ≤ 3 := by
  cases t with
  | zero => cases trad <;> cases fin <;> decide
  | ten => cases trad <;> cases fin <;> decide
  | hundred => cases trad <;> cases fin <;> decide
  | thousand => cases trad <;> cases fin <;> decide
  | num d =>
    rcases Nat.lt_or_ge (d - 1) 9 with h | h
    · have : ∀ i, i < 9 → ((if fin then
          if trad then ['壹', '貳', '參', '肆', '伍', '陸', '柒', '捌', '玖']
          else ['壹', '贰', '叁', '肆', '伍', '陆', '柒', '捌', '玖']
        else ['一', '二', '三', '四', '五', '六', '七', '八', '九']).getD i '?').utf8Size ≤ 3 := by
        cases trad <;> cases fin <;> decide
      exact this _ h
    · rw [chineseGlyph, List.getD_eq_getElem?_getD, List.getElem?_eq_none (by cases trad <;> cases fin <;> exact h)]
      decide
  | large i =>
    rcases Nat.lt_or_ge i 11 with h | h
    · have : ∀ i, i < 11 → ((if trad then ['萬', '億', '兆', '京', '垓', '秭', '穰', '溝', '澗', '正', '載']
        else ['万', '亿', '兆', '京', '垓', '秭', '穰', '沟', '涧', '正', '载']).getD i '?').utf8Size ≤ 3 := by
        cases trad <;> decide
      exact this _ h
    · rw [chineseGlyph, List.getD_eq_getElem?_getD, List.getElem?_eq_none (by cases trad <;> exact h)]
      decide

theorem chinese_short (k : ChineseKind) (o : ChineseOptions) {n : Nat} (hn : n < 11111111111) : utf8Len (chineseText k o n) ≤ 62 := by
  have key : ∀ ts : List CTok, utf8Len (ts.map (chineseGlyph (isTraditional k) (o.usage = .financial))) ≤ 3 * ts.length := by
    intro ts
    induction ts with
    | nil => simp
    | cons t ts ih =>
      rw [List.map_cons, utf8Len_cons, List.length_cons]
      have := chinese_glyph_size (isTraditional k) (o.usage = .financial) t
      omega
  have h1 := key (chineseTokens (isFormal k) o.scale n)
  have h2 := chineseTokens_length (isFormal k) o.scale hn
  rw [chineseText]
  omega

theorem chinese_long (k : ChineseKind) (o : ChineseOptions) : 62 < utf8Len (chineseText k o 11111111111) := by
  obtain ⟨u, sc⟩ := o
  have h : chineseTokens (isFormal k) sc 11111111111 = chineseTokens true sc 11111111111 := by
    cases k <;> cases sc <;> simp [chineseTokens, scaleUnits, unitsOf, sectionUnits, spellWith, needsZero, topPlace, isFormal, dropLeadingOne]
  rw [chineseText, h]
  cases k <;> cases sc <;> cases u <;>
    simp [chineseTokens, scaleUnits, unitsOf, sectionUnits, spellWith, needsZero, topPlace, chineseGlyph, isTraditional, Char.utf8Size]

end Nominals
