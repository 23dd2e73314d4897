import Verif.Proofs.Digits
import Verif.Spec.Chinese

/-! # Chinese: pushes with a flag, and `format_chinese_inner` -/

namespace Nominals

open Nominals.Spec

/-- `Del` for functions that also return `last_char_is_zero`. -/
inductive DelP {ε : Type} (alloc : Bool) (e : ε) : Res ε (NStr × Bool) → List Char → Bool → Prop
  | ok (s : NStr) (t : List Char) (b : Bool) : s.Is t → (alloc = true ∨ utf8Len t ≤ 62) → DelP alloc e (.ok (s, b)) t b
  | err (t : List Char) (b : Bool) : alloc = false → 62 < utf8Len t → DelP alloc e (.err e) t b

theorem DelP.bind {ε : Type} {alloc : Bool} {e : ε} {r : Res ε (NStr × Bool)} {t t' : List Char} {b b' : Bool}
    {f : NStr × Bool → Res ε (NStr × Bool)} (h : DelP alloc e r t b) (hlen : utf8Len t ≤ utf8Len t')
    (hf : ∀ s, s.Is t → (alloc = true ∨ utf8Len t ≤ 62) → DelP alloc e (f (s, b)) t' b') : DelP alloc e (r.bind f) t' b' := by
  cases h with
  | ok s t b h1 h2 => exact hf s h1 h2
  | err t b h1 h2 => exact .err _ _ h1 (by omega)

theorem DelP.bindDel {ε : Type} {alloc : Bool} {e : ε} {r : Res ε (NStr × Bool)} {t t' : List Char} {b : Bool}
    {f : NStr × Bool → Res ε NStr} (h : DelP alloc e r t b) (hlen : utf8Len t ≤ utf8Len t')
    (hf : ∀ s, s.Is t → (alloc = true ∨ utf8Len t ≤ 62) → Del alloc e (f (s, b)) t') : Del alloc e (r.bind f) t' := by
  cases h with
  | ok s t b h1 h2 => exact hf s h1 h2
  | err t b h1 h2 => exact .err _ h1 (by omega)

theorem Del.bindP {ε : Type} {alloc : Bool} {e : ε} {r : Res ε NStr} {t t' : List Char} {b : Bool}
    {f : NStr → Res ε (NStr × Bool)} (h : Del alloc e r t) (hlen : utf8Len t ≤ utf8Len t')
    (hf : ∀ s, s.Is t → (alloc = true ∨ utf8Len t ≤ 62) → DelP alloc e (f s) t' b) : DelP alloc e (r.bind f) t' b := by
  cases h with
  | ok s t h1 h2 => exact hf s h1 h2
  | err t h1 h2 => exact .err _ _ h1 (by omega)

theorem DelP.mapErr {ε ε' : Type} {alloc : Bool} {e : ε} {r : Res ε (NStr × Bool)} {t : List Char} {b : Bool}
    (f : ε → ε') (h : DelP alloc e r t b) : DelP alloc (f e) (r.mapErr f) t b := by
  cases h with
  | ok s t b h1 h2 => exact .ok _ _ _ h1 h2
  | err t b h1 h2 => exact .err _ _ h1 h2

theorem DelP.fst {ε : Type} {alloc : Bool} {e : ε} {r : Res ε (NStr × Bool)} {t : List Char} {b : Bool}
    (h : DelP alloc e r t b) : Del alloc e (r.map Prod.fst) t := by
  cases h with
  | ok s t b h1 h2 => exact .ok _ _ h1 h2
  | err t b h1 h2 => exact .err _ h1 h2

/-- The arrays hold the characters of the tokens. -/
structure GlyphsOf (chars large : List Char) (gl : CTok → Char) : Prop where
  zero : chars[0]? = some (gl .zero)
  num : ∀ d, d ≠ 0 → d < 10 → chars[d]? = some (gl (.num d))
  ten : chars[10]? = some (gl .ten)
  hundred : chars[11]? = some (gl .hundred)
  thousand : chars[12]? = some (gl .thousand)
  large : ∀ i, i < 11 → large[i]? = some (gl (.large i))

theorem pushAt_del {cfg : Cfg} {chars : List Char} {i : Nat} {c : Char} (h : chars[i]? = some c) {s : NStr} {t : List Char}
    (hs : s.Is t) (ha : cfg.alloc = true ∨ utf8Len t ≤ 62) : Del cfg.alloc OutOfMemoryError.mk (pushAt cfg chars i s) (t ++ [c]) := by
  simp only [pushAt, h, Res.ofIndex, Res.bind_ok]
  exact hs.push ha c

theorem small_usize {cfg : Cfg} {d : Nat} (h : d < 100) : asUsize cfg d = d := by
  apply asUsize_of_lt
  have : 2 ^ 16 ≤ 2 ^ cfg.ptr.bits := Nat.pow_le_pow_right (by omega) (by cases cfg.ptr <;> decide)
  omega

/-! ## `format_chinese_inner`, purely -/

/-- One step of `format_chinese_inner`: place with digit `d`, unit `u`, next digit `nx`. -/
def placeTok (u : CTok) (d nx : Nat) (guard : Bool) (t : List CTok) (last : Bool) : List CTok × Bool :=
  if d = 0 then if guard && !last && nx != 0 then (t ++ [.zero], true) else (t, last)
  else (t ++ [.num d, u], false)

/-- The tokens pushed by `format_chinese_inner` for the digits `a b c d`. -/
def innerTok (formal : Bool) (a b c d : Nat) (noPrefix last : Bool) : List CTok × Bool :=
  let r1 := placeTok .thousand a b (!noPrefix) [] last
  let r2 := placeTok .hundred b c (!r1.1.isEmpty || !noPrefix) r1.1 r1.2
  let r3 :=
    if c = 0 then if (!r2.1.isEmpty || !noPrefix) && !r2.2 && d != 0 then (r2.1 ++ [.zero], true) else r2
    else
      let omitDigit := !(formal || (!r2.1.isEmpty || !noPrefix) || r2.2 || c != 1)
      (r2.1 ++ (if omitDigit then [.ten] else [.num c, .ten]), false)
  if d ≠ 0 then (r3.1 ++ [.num d], false) else r3

theorem place_del {cfg : Cfg} {chars large : List Char} {gl : CTok → Char} (hg : GlyphsOf chars large gl) {u : CTok} {iu d nx : Nat}
    {guard last : Bool} {ts : List CTok} {s : NStr} (hu : chars[iu]? = some (gl u)) (hd : d < 10) (hs : s.Is (ts.map gl))
    (ha : cfg.alloc = true ∨ utf8Len (ts.map gl) ≤ 62) :
    DelP cfg.alloc OutOfMemoryError.mk
      (if d = 0 then
        if (guard && !last && nx != 0) = true then (pushAt cfg chars 0 s).bind fun f => .ok (f, true)
        else Res.ok (s, last)
      else
        (pushAt cfg chars (asUsize cfg d) s).bind fun f => (pushAt cfg chars iu f).bind fun f => .ok (f, false))
      ((placeTok u d nx guard ts last).1.map gl) (placeTok u d nx guard ts last).2 := by
  unfold placeTok
  by_cases h0 : d = 0
  · simp only [h0, ↓reduceIte]
    cases hgd : (guard && !last && nx != 0)
    · exact .ok _ _ _ hs ha
    · simp only [↓reduceIte, List.map_append, List.map_cons, List.map_nil]
      exact (pushAt_del hg.zero hs ha).bindP (Nat.le_refl _) fun s hs ha => .ok _ _ _ hs ha
  · simp only [h0, ↓reduceIte, List.map_append, List.map_cons, List.map_nil]
    rw [small_usize (by omega)]
    refine (pushAt_del (hg.num d h0 hd) hs ha).bindP (by simp) fun s hs ha => ?_
    refine (pushAt_del hu hs ha).bindP (by simp) fun s hs ha => ?_
    rw [List.append_assoc] at hs ha
    exact .ok _ _ _ hs ha

theorem is_isEmpty {s : NStr} {ts : List CTok} {gl : CTok → Char} (hs : s.Is (ts.map gl)) : s.isEmpty = ts.isEmpty := by
  rw [hs.isEmpty]; cases ts <;> rfl

theorem placeTok_len (gl : CTok → Char) (u : CTok) (d nx : Nat) (guard last : Bool) (ts : List CTok) :
    utf8Len (ts.map gl) ≤ utf8Len ((placeTok u d nx guard ts last).1.map gl) := by
  unfold placeTok
  repeat' split
  all_goals simp

theorem inner_del {cfg : Cfg} {chars large : List Char} {gl : CTok → Char} (hg : GlyphsOf chars large gl) (formal : Bool) {n : Nat}
    (hn : n < 10000) (noPrefix last : Bool) :
    DelP cfg.alloc OutOfMemoryError.mk (chineseInner cfg formal chars n noPrefix last)
      ((innerTok formal (n / 1000) (n / 100 % 10) (n / 10 % 10) (n % 10) noPrefix last).1.map gl)
      (innerTok formal (n / 1000) (n / 100 % 10) (n / 10 % 10) (n % 10) noPrefix last).2 := by
  unfold chineseInner
  simp only
  rw [show n / 10 / 10 / 10 = n / 1000 by omega, show n / 10 / 10 % 10 = n / 100 % 10 by omega]
  have ha : n / 1000 < 10 := by omega
  have hb : n / 100 % 10 < 10 := by omega
  have hc : n / 10 % 10 < 10 := by omega
  have hd : n % 10 < 10 := by omega
  generalize n / 1000 = a at *
  generalize n / 100 % 10 = b at *
  generalize n / 10 % 10 = c at *
  generalize n % 10 = d at *
  unfold innerTok
  simp only
  have h1 := place_del hg (cfg := cfg) (d := a) (nx := b) (guard := !noPrefix) (last := last) (ts := []) hg.thousand ha NStr.new_is
    (.inr (by simp))
  have l1 := placeTok_len gl .hundred b c (!(placeTok .thousand a b (!noPrefix) [] last).1.isEmpty || !noPrefix)
    (placeTok .thousand a b (!noPrefix) [] last).2 (placeTok .thousand a b (!noPrefix) [] last).1
  generalize placeTok .thousand a b (!noPrefix) [] last = r1 at *
  generalize hr2 : placeTok .hundred b c (!r1.1.isEmpty || !noPrefix) r1.1 r1.2 = r2 at *
  have l3 : utf8Len (r2.1.map gl) ≤ utf8Len ((if c = 0 then if (!r2.1.isEmpty || !noPrefix) && !r2.2 && d != 0 then (r2.1 ++ [CTok.zero], true) else r2
      else (r2.1 ++ (if (!(formal || (!r2.1.isEmpty || !noPrefix) || r2.2 || c != 1)) = true then [.ten] else [.num c, .ten]), false)).1.map gl) := by
    repeat' split
    all_goals simp
  generalize hr3 : (if c = 0 then if (!r2.1.isEmpty || !noPrefix) && !r2.2 && d != 0 then (r2.1 ++ [CTok.zero], true) else r2
      else (r2.1 ++ (if (!(formal || (!r2.1.isEmpty || !noPrefix) || r2.2 || c != 1)) = true then [.ten] else [.num c, .ten]), false)) = r3 at *
  have l4 : utf8Len (r3.1.map gl) ≤ utf8Len ((if d ≠ 0 then (r3.1 ++ [CTok.num d], false) else r3).1.map gl) := by
    split
    all_goals simp
  refine h1.bind (Nat.le_trans l1 (Nat.le_trans l3 l4)) fun s1 hs1 ha1 => ?_
  simp only [is_isEmpty hs1]
  have h2 := place_del hg (cfg := cfg) (d := b) (nx := c) (guard := !r1.1.isEmpty || !noPrefix) (last := r1.2) (ts := r1.1) hg.hundred
    hb hs1 ha1
  rw [hr2] at h2
  refine h2.bind (Nat.le_trans l3 l4) fun s2 hs2 ha2 => ?_
  simp only [is_isEmpty hs2]
  have h3 : DelP cfg.alloc OutOfMemoryError.mk
      (if c = 0 then
        if ((!r2.1.isEmpty || !noPrefix) && !r2.2 && d != 0) = true then (pushAt cfg chars 0 s2).bind fun f => .ok (f, true)
        else Res.ok (s2, r2.2)
      else
        (if (!!(formal || (!r2.1.isEmpty || !noPrefix) || r2.2 || c != 1)) = true then pushAt cfg chars (asUsize cfg c) s2
         else Res.ok s2).bind fun f =>
        (pushAt cfg chars 10 f).bind fun f => .ok (f, false)) (r3.1.map gl) r3.2 := by
    rw [← hr3]
    by_cases h0 : c = 0
    · simp only [h0, ↓reduceIte]
      cases hgd : ((!r2.1.isEmpty || !noPrefix) && !r2.2 && d != 0)
      · exact .ok _ _ _ hs2 ha2
      · simp only [↓reduceIte, List.map_append, List.map_cons, List.map_nil]
        exact (pushAt_del hg.zero hs2 ha2).bindP (Nat.le_refl _) fun s hs ha => .ok _ _ _ hs ha
    · simp only [h0, ↓reduceIte]
      cases hgd : (formal || (!r2.1.isEmpty || !noPrefix) || r2.2 || c != 1)
      · simp only [Bool.not_false, Bool.not_true, Bool.false_eq_true, ↓reduceIte, List.map_append, List.map_cons, List.map_nil, Res.bind_ok]
        exact (pushAt_del hg.ten hs2 ha2).bindP (Nat.le_refl _) fun s hs ha => .ok _ _ _ hs ha
      · simp only [Bool.not_false, Bool.not_true, Bool.false_eq_true, ↓reduceIte, List.map_append, List.map_cons, List.map_nil]
        rw [small_usize (by omega)]
        refine (pushAt_del (hg.num c h0 hc) hs2 ha2).bindP (by simp) fun s hs ha => ?_
        refine (pushAt_del hg.ten hs ha).bindP (by simp) fun s hs ha => ?_
        rw [List.append_assoc] at hs ha
        exact .ok _ _ _ hs ha
  refine h3.bind l4 fun s3 hs3 ha3 => ?_
  by_cases h0 : d = 0
  · simp only [h0, ne_eq, not_true_eq_false, ↓reduceIte]
    exact .ok _ _ _ hs3 ha3
  · simp only [h0, ne_eq, not_false_eq_true, ↓reduceIte, List.map_append, List.map_cons, List.map_nil]
    rw [small_usize (by omega)]
    exact (pushAt_del (hg.num d h0 hd) hs3 ha3).bindP (Nat.le_refl _) fun s hs ha => .ok _ _ _ hs ha

/-! ## … against the specification -/

/-- Tokens of a group of four digits. -/
def secTok (a b c d : Nat) : List CTok :=
  (if a = 0 then [] else [.num a, .thousand] ++ (if b = 0 ∧ (c ≠ 0 ∨ d ≠ 0) then [.zero] else [])) ++
  ((if b = 0 then [] else [.num b, .hundred] ++ (if c = 0 ∧ d ≠ 0 then [.zero] else [])) ++
  ((if c = 0 then [] else [.num c, .ten]) ++ (if d = 0 then [] else [.num d])))

theorem inner_first (formal : Bool) (a b c d : Nat) (h : ¬ (a = 0 ∧ b = 0 ∧ c = 0 ∧ d = 0)) :
    innerTok formal a b c d true false = (if formal then secTok a b c d else dropLeadingOne (secTok a b c d), false) := by
  by_cases ha : a = 0 <;> by_cases hb : b = 0 <;> by_cases hc : c = 0 <;> by_cases hd : d = 0 <;>
    first
    | (exfalso; omega)
    | (by_cases hc1 : c = 1 <;> cases formal <;> simp [innerTok, placeTok, secTok, ha, hb, hc, hd, hc1, dropLeadingOne])

theorem inner_rest (formal : Bool) (a b c d : Nat) (last : Bool) (h : ¬ (a = 0 ∧ b = 0 ∧ c = 0 ∧ d = 0)) :
    innerTok formal a b c d false last = ((if a = 0 ∧ last = false then [.zero] else []) ++ secTok a b c d, false) := by
  by_cases ha : a = 0 <;> by_cases hb : b = 0 <;> by_cases hc : c = 0 <;> by_cases hd : d = 0 <;>
    first
    | (exfalso; omega)
    | (cases last <;> cases formal <;> simp [innerTok, placeTok, secTok, ha, hb, hc, hd])

/-- Within a group of four digits all scales agree. -/
def SectionRule (z : Nat → Nat → Bool) : Prop := ∀ s lo, s ≤ 1000 → z s lo = decide (lo ≠ 0 ∧ 10 * lo < s)

theorem sectionRule (scale : ChineseScale) : SectionRule (needsZero scale) := by
  intro s lo h
  cases scale <;> simp [needsZero, h]

theorem spell_digit (z : Nat → Nat → Bool) (units : Units) (h : ∀ p ∈ units, 10 ≤ p.1) {d : Nat} (hd : d < 10) :
    spellWith z units d = if d = 0 then [] else [.num d] := by
  induction units with
  | nil => rfl
  | cons p rest ih =>
    have := h p (by simp)
    rw [spellWith, if_pos (by omega), ih fun q hq => h q (by simp [hq])]

theorem spell_section {z : Nat → Nat → Bool} (hz : SectionRule z) {n : Nat} (hn : n < 10000) :
    spellWith z sectionUnits n = secTok (n / 1000) (n / 100 % 10) (n / 10 % 10) (n % 10) := by
  have e1 : ∀ m, m < 100 → spellWith z [(10, .ten)] m =
      (if m / 10 % 10 = 0 then [] else [.num (m / 10 % 10), .ten]) ++ (if m % 10 = 0 then [] else [.num (m % 10)]) := by
    intro m hm
    rw [spellWith]
    by_cases h : m < 10
    · have h1 : m / 10 % 10 = 0 := by omega
      rw [if_pos h, if_pos h1, spellWith, Nat.mod_eq_of_lt h]; rfl
    · have h1 : ¬ m / 10 % 10 = 0 := by omega
      have h2 : m / 10 = m / 10 % 10 := by omega
      have h3 : ¬ m / 10 = 0 := by omega
      have h4 : ¬ (m % 10 ≠ 0 ∧ 10 * (m % 10) < 10) := by omega
      rw [if_neg h, if_neg h1, spellWith, if_neg h3, hz 10 _ (by omega), decide_eq_false h4, spellWith, ← h2]; rfl
  have e2 : ∀ m, m < 1000 → spellWith z [(100, .hundred), (10, .ten)] m =
      (if m / 100 % 10 = 0 then [] else [.num (m / 100 % 10), .hundred] ++ (if m / 10 % 10 = 0 ∧ m % 10 ≠ 0 then [.zero] else [])) ++
      ((if m / 10 % 10 = 0 then [] else [.num (m / 10 % 10), .ten]) ++ (if m % 10 = 0 then [] else [.num (m % 10)])) := by
    intro m hm
    rw [spellWith]
    by_cases h : m < 100
    · have h1 : m / 100 % 10 = 0 := by omega
      rw [if_pos h, if_pos h1, e1 m h]; rfl
    · have h1 : ¬ m / 100 % 10 = 0 := by omega
      have h2 : m / 100 = m / 100 % 10 := by omega
      have h3 : ¬ m / 100 = 0 := by omega
      have h4 : (m % 100 ≠ 0 ∧ 10 * (m % 100) < 100) ↔ (m / 10 % 10 = 0 ∧ m % 10 ≠ 0) := by omega
      have h5 : m % 100 / 10 % 10 = m / 10 % 10 := by omega
      have h6 : m % 100 % 10 = m % 10 := by omega
      rw [if_neg h, if_neg h1, spell_digit z _ (by simp) (by omega), if_neg h3, hz 100 _ (by omega), e1 _ (by omega), h5, h6, ← h2]
      simp only [decide_eq_true_eq, h4]
      simp
  rw [sectionUnits, spellWith, secTok]
  by_cases h : n < 1000
  · have h1 : n / 1000 = 0 := by omega
    rw [if_pos h, if_pos h1, e2 n h]; rfl
  · have h1 : ¬ n / 1000 = 0 := by omega
    have h4 : (n % 1000 ≠ 0 ∧ 10 * (n % 1000) < 1000) ↔ (n / 100 % 10 = 0 ∧ (n / 10 % 10 ≠ 0 ∨ n % 10 ≠ 0)) := by omega
    have h5 : n % 1000 / 100 % 10 = n / 100 % 10 := by omega
    have h6 : n % 1000 / 10 % 10 = n / 10 % 10 := by omega
    have h7 : n % 1000 % 10 = n % 10 := by omega
    rw [if_neg h, if_neg h1, spell_digit z _ (by simp) (by omega), if_neg h1, hz 1000 _ (by omega), e2 _ (by omega), h5, h6, h7]
    simp only [decide_eq_true_eq, h4]
    simp

/-- `format_chinese_inner` at the start of a numeral. -/
theorem inner_first_del {cfg : Cfg} {chars large : List Char} {gl : CTok → Char} (hg : GlyphsOf chars large gl) (formal : Bool)
    {z : Nat → Nat → Bool} (hz : SectionRule z) {n : Nat} (h0 : n ≠ 0) (hn : n < 10000) :
    DelP cfg.alloc OutOfMemoryError.mk (chineseInner cfg formal chars n true false)
      ((if formal then spellWith z sectionUnits n else dropLeadingOne (spellWith z sectionUnits n)).map gl) false := by
  have := inner_del (cfg := cfg) hg formal hn true false
  rw [inner_first formal _ _ _ _ (by omega), ← spell_section hz hn] at this
  exact this

/-- `format_chinese_inner` after something else. -/
theorem inner_rest_del {cfg : Cfg} {chars large : List Char} {gl : CTok → Char} (hg : GlyphsOf chars large gl) (formal last : Bool)
    {z : Nat → Nat → Bool} (hz : SectionRule z) {n : Nat} (h0 : n ≠ 0) (hn : n < 10000) :
    DelP cfg.alloc OutOfMemoryError.mk (chineseInner cfg formal chars n false last)
      (((if n < 1000 ∧ last = false then [CTok.zero] else []) ++ spellWith z sectionUnits n).map gl) false := by
  have := inner_del (cfg := cfg) hg formal hn false last
  have e : (n / 1000 = 0 ∧ last = false) = (n < 1000 ∧ last = false) := by
    apply propext
    constructor <;> rintro ⟨h1, h2⟩ <;> exact ⟨by omega, h2⟩
  rw [inner_rest formal _ _ _ _ _ (by omega), ← spell_section hz hn] at this
  simp only [e] at this
  exact this

end Nominals
