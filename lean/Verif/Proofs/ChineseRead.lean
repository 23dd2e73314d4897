import Verif.Proofs.ChineseFormat

/-! # Chinese: reading numerals back, and the placement of 零 -/

namespace Nominals

open Nominals.Spec

/-! ## Tokens -/

/-- A token that stands for a unit. -/
def Spec.CTok.isUnit : CTok → Bool
  | .zero | .num _ => false
  | _ => true

theorem spell_tokens (z : Nat → Nat → Bool) (units : Units) (n : Nat) {t : CTok} (ht : t ∈ spellWith z units n) (hu : t.isUnit = true) :
    t ∈ units.map Prod.snd := by
  induction units generalizing n with
  | nil =>
    rw [spellWith] at ht
    split at ht
    · simp at ht
    · simp at ht; subst ht; simp [CTok.isUnit] at hu
  | cons p rest ih =>
    rw [spellWith] at ht
    split at ht
    · simp [ih n ht]
    · simp only [List.mem_append, List.mem_cons] at ht
      rcases ht with ht | rfl | ht | ht
      · simp [ih _ ht]
      · simp
      · split at ht
        · simp at ht; subst ht; simp [CTok.isUnit] at hu
        · simp at ht
      · simp [ih _ ht]

theorem takeWhile_append_unit {u : CTok} (a b : List CTok) (h : u ∉ a) : (a ++ u :: b).takeWhile (· ≠ u) = a := by
  induction a with
  | nil => simp
  | cons x a ih =>
    have hx : x ≠ u := fun e => h (by simp [e])
    have := ih fun hh => h (by simp [hh])
    simp only [List.cons_append, List.takeWhile_cons, ne_eq, hx, not_false_eq_true, decide_true, ↓reduceIte]
    rw [this]

theorem dropWhile_append_unit {u : CTok} (a b : List CTok) (h : u ∉ a) : (a ++ u :: b).dropWhile (· ≠ u) = u :: b := by
  induction a with
  | nil => simp
  | cons x a ih =>
    have hx : x ≠ u := fun e => h (by simp [e])
    have := ih fun hh => h (by simp [hh])
    simp only [List.cons_append, List.dropWhile_cons, ne_eq, hx, not_false_eq_true, decide_true, ↓reduceIte]
    rw [this]

theorem read_cons_zero (units : Units) (h : ∀ p ∈ units, p.2.isUnit = true) (ts : List CTok) :
    readTokens units (.zero :: ts) = readTokens units ts := by
  induction units generalizing ts with
  | nil => simp [readTokens, digitValue]
  | cons p rest ih =>
    obtain ⟨s, u⟩ := p
    have hu := h (s, u) (by simp)
    have ih := ih fun q hq => h q (by simp [hq])
    have hz : ¬ CTok.zero = u := by rintro rfl; simp [CTok.isUnit] at hu
    have hz' : ¬ u = CTok.zero := fun e => hz e.symm
    simp only [readTokens, List.mem_cons, hz', false_or, List.takeWhile_cons, List.dropWhile_cons, ne_eq, hz, not_false_eq_true,
      decide_true, ↓reduceIte, ih]

/-- Units that can be told apart. -/
structure GoodUnits (units : Units) : Prop where
  pos : ∀ p ∈ units, 1 ≤ p.1
  unit : ∀ p ∈ units, p.2.isUnit = true
  nodup : (units.map Prod.snd).Nodup

theorem GoodUnits.tail {p : Nat × CTok} {units : Units} (h : GoodUnits (p :: units)) : GoodUnits units :=
  ⟨fun q hq => h.pos q (by simp [hq]), fun q hq => h.unit q (by simp [hq]), (List.nodup_cons.mp (by simpa using h.nodup)).2⟩

theorem read_spell {z : Nat → Nat → Bool} {units : Units} (h : GoodUnits units) (n : Nat) :
    readTokens units (spellWith z units n) = n := by
  induction units generalizing n with
  | nil =>
    rw [spellWith]
    split
    · next h => simp [readTokens, h]
    · simp [readTokens, digitValue]
  | cons p rest ih =>
    obtain ⟨s, u⟩ := p
    have ih := fun n => ih h.tail n
    have hs := h.pos (s, u) (by simp)
    have hu := h.unit (s, u) (by simp)
    have hnd := h.nodup
    simp only [List.map_cons, List.nodup_cons] at hnd
    have hnot : ∀ n, u ∉ spellWith z rest n := fun n hh => hnd.1 (spell_tokens z rest n hh hu)
    rw [spellWith]
    split
    · rw [readTokens, if_neg (hnot n), ih]
    · next hlt =>
      have hs : 1 ≤ s := hs
      have hlt : ¬ n < s := hlt
      rw [readTokens, if_pos (by simp), takeWhile_append_unit _ _ (hnot _), dropWhile_append_unit _ _ (hnot _)]
      have h0 : ¬ n / s = 0 := by
        intro h
        have := (Nat.div_eq_zero_iff (a := n) (b := s)).mp h
        omega
      simp only [ih, h0, ↓reduceIte, List.drop_succ_cons, List.drop_zero]
      have : readTokens rest ((if z s (n % s) = true then [CTok.zero] else []) ++ spellWith z rest (n % s)) = n % s := by
        split
        · rw [List.singleton_append, read_cons_zero _ (fun q hq => h.unit q (by simp [hq])), ih]
        · rw [List.nil_append, ih]
      rw [this, Nat.mul_comm]
      exact Nat.div_add_mod n s

theorem read_drop (pre : Units) (h : ∀ p ∈ pre, p.2 ≠ .ten ∧ p.2.isUnit = true) (ts : List CTok) :
    readTokens (pre ++ [(10, .ten)]) (.num 1 :: .ten :: ts) = readTokens (pre ++ [(10, .ten)]) (.ten :: ts) := by
  induction pre generalizing ts with
  | nil => simp [readTokens, digitValue]
  | cons p rest ih =>
    obtain ⟨s, u⟩ := p
    have hu := h (s, u) (by simp)
    have ih := ih fun q hq => h q (by simp [hq])
    have h1 : ¬ CTok.num 1 = u := by rintro rfl; simp [CTok.isUnit] at hu
    have h1' : ¬ u = CTok.num 1 := fun e => h1 e.symm
    have h2 : ¬ CTok.ten = u := fun e => hu.1 e.symm
    simp only [List.cons_append, readTokens, List.mem_cons, h1', hu.1, false_or, List.takeWhile_cons, List.dropWhile_cons, ne_eq, h1, h2,
      not_false_eq_true, decide_true, ↓reduceIte, ih]

theorem read_dropLeadingOne (pre : Units) (h : ∀ p ∈ pre, p.2 ≠ .ten ∧ p.2.isUnit = true) (ts : List CTok) :
    readTokens (pre ++ [(10, .ten)]) (dropLeadingOne ts) = readTokens (pre ++ [(10, .ten)]) ts := by
  unfold dropLeadingOne
  split
  · rw [read_drop pre h]
  · rfl

theorem goodUnits (scale : ChineseScale) : GoodUnits (scaleUnits scale) := by
  cases scale <;> exact ⟨by decide, by decide, by decide⟩

theorem scaleUnits_ten (scale : ChineseScale) :
    ∃ pre : Units, scaleUnits scale = pre ++ [(10, .ten)] ∧ ∀ p ∈ pre, p.2 ≠ .ten ∧ p.2.isUnit = true := by
  refine ⟨(scaleUnits scale).dropLast, ?_, ?_⟩ <;> cases scale <;> decide

theorem read_chineseTokens (formal : Bool) (scale : ChineseScale) (n : Nat) :
    readTokens (scaleUnits scale) (chineseTokens formal scale n) = n := by
  unfold chineseTokens
  split
  · next h =>
    subst h
    rw [read_cons_zero _ (goodUnits scale).unit]
    exact read_spell (z := needsZero scale) (goodUnits scale) 0 |>.symm ▸ (by cases scale <;> decide)
  · simp only
    split
    · exact read_spell (goodUnits scale) n
    · obtain ⟨pre, e, hp⟩ := scaleUnits_ten scale
      have := read_spell (z := needsZero scale) (goodUnits scale) n
      rw [e] at this ⊢
      rw [read_dropLeadingOne pre hp, this]

/-! ## Characters -/

/-- Tokens with a character of their own. -/
def Spec.CTok.Valid : CTok → Prop
  | .num d => 1 ≤ d ∧ d < 10
  | .large i => i < 11
  | _ => True

theorem spell_valid {z : Nat → Nat → Bool} {e : Nat → Nat} (h0 : e 0 = 4) : ∀ (k : Nat), k ≤ 11 → (∀ i, i < k → e (i + 1) ≤ 2 * e i) →
    ∀ n, n < 10 ^ e k → ∀ t ∈ spellWith z (unitsOf e k) n, t.Valid := by
  intro k
  induction k with
  | zero =>
    intro _ _ n hn t ht
    rw [h0] at hn
    have key : ∀ (units : Units) (b : Nat), (∀ p ∈ units, p.2.Valid) →
        (∀ n, n < b → ∀ t ∈ spellWith z units n, t.Valid) → ∀ (s : Nat) (u : CTok), u.Valid → s ≤ b → 1 ≤ s →
        ∀ n, n < s * 10 → 10 ≤ b → ∀ t ∈ spellWith z ((s, u) :: units) n, t.Valid := by
      intro units b _ hb s u hu hs hs1 n hn hb10 t ht
      rw [spellWith] at ht
      split at ht
      · exact hb n (by omega) t ht
      · simp only [List.mem_append, List.mem_cons] at ht
        rcases ht with ht | rfl | ht | ht
        · refine hb _ ?_ t ht
          have : n / s < 10 := by rw [Nat.div_lt_iff_lt_mul (by omega)]; omega
          omega
        · exact hu
        · split at ht
          · simp at ht; subst ht; trivial
          · simp at ht
        · exact hb _ (Nat.lt_of_lt_of_le (Nat.mod_lt _ (by omega)) hs) t ht
    have b0 : ∀ n, n < 10 → ∀ t ∈ spellWith z [] n, t.Valid := by
      intro n hn t ht
      rw [spellWith] at ht
      split at ht
      · simp at ht
      · simp at ht; subst ht; exact ⟨by omega, by omega⟩
    have b1 := fun n (h : n < 100) => key [] 10 (by simp) b0 10 .ten trivial (by omega) (by omega) n (by omega) (by omega)
    have b2 := fun n (h : n < 1000) => key [(10, .ten)] 100 (by simp [CTok.Valid]) b1 100 .hundred trivial (by omega) (by omega) n
      (by omega) (by omega)
    have b3 := fun n (h : n < 10000) => key [(100, .hundred), (10, .ten)] 1000 (by simp [CTok.Valid]) b2 1000 .thousand trivial (by omega)
      (by omega) n (by omega) (by omega)
    exact b3 n hn t ht
  | succ k ih =>
    intro hk he n hn t ht
    have ih := ih (by omega) fun i hi => he i (by omega)
    have hp : 0 < 10 ^ e k := Nat.pow_pos (by omega)
    rw [unitsOf, spellWith] at ht
    split at ht
    · next h => exact ih n h t ht
    · simp only [List.mem_append, List.mem_cons] at ht
      rcases ht with ht | rfl | ht | ht
      · refine ih _ ?_ t ht
        rw [Nat.div_lt_iff_lt_mul hp, ← Nat.pow_add]
        exact Nat.lt_of_lt_of_le hn (Nat.pow_le_pow_right (by omega) (by have := he k (by omega); omega))
      · show k < 11; omega
      · split at ht
        · simp at ht; subst ht; trivial
        · simp at ht
      · exact ih _ (Nat.mod_lt _ hp) t ht

theorem dropLeadingOne_subset {ts : List CTok} {t : CTok} (h : t ∈ dropLeadingOne ts) : t ∈ ts := by
  unfold dropLeadingOne at h
  split at h
  · simp at h ⊢; exact Or.inr h
  · exact h

/-- The largest number the formatter accepts in a scale. -/
def inRange (scale : ChineseScale) (n : Nat) : Prop := n < 2 ^ 128 ∧ (scale = .short → n < 10 ^ 15)

theorem tokens_valid (formal : Bool) {scale : ChineseScale} {n : Nat} (h : inRange scale n) :
    ∀ t ∈ chineseTokens formal scale n, t.Valid := by
  have hsp : ∀ t ∈ spellWith (needsZero scale) (scaleUnits scale) n, t.Valid := by
    obtain ⟨h1, h2⟩ := h
    cases scale
    · exact spell_valid (e := fun i => 4 + i) rfl 11 (by omega) (by intro i _; omega) n (h2 rfl)
    · exact spell_valid (e := fun i => 4 * (i + 1)) rfl 9 (by omega) (by intro i _; omega) n (Nat.lt_trans h1 (by decide))
    · exact spell_valid (e := fun i => if i = 0 then 4 else 8 * i) rfl 5 (by omega) (by intro i _; split <;> split <;> omega) n (Nat.lt_trans h1 (by decide))
    · exact spell_valid (e := fun i => 4 * 2 ^ i) rfl 4 (by omega) (by intro i _; simp only [Nat.pow_succ]; omega) n (Nat.lt_trans h1 (by decide))
  unfold chineseTokens
  split
  · intro t ht; simp at ht; subst ht; trivial
  · simp only
    split
    · exact hsp
    · intro t ht
      exact hsp t (dropLeadingOne_subset ht)

theorem tokenOf_glyph (tr fin : Bool) {t : CTok} (h : t.Valid) : tokenOf (chineseGlyph tr fin t) = some t := by
  cases t with
  | num d =>
    obtain ⟨h1, h2⟩ := h
    have : d = 1 ∨ d = 2 ∨ d = 3 ∨ d = 4 ∨ d = 5 ∨ d = 6 ∨ d = 7 ∨ d = 8 ∨ d = 9 := by omega
    rcases this with rfl | rfl | rfl | rfl | rfl | rfl | rfl | rfl | rfl <;> cases tr <;> cases fin <;> decide
  | large i =>
    have h : i < 11 := h
    have : i = 0 ∨ i = 1 ∨ i = 2 ∨ i = 3 ∨ i = 4 ∨ i = 5 ∨ i = 6 ∨ i = 7 ∨ i = 8 ∨ i = 9 ∨ i = 10 := by omega
    rcases this with rfl | rfl | rfl | rfl | rfl | rfl | rfl | rfl | rfl | rfl | rfl <;> cases tr <;> cases fin <;> decide
  | _ => cases tr <;> cases fin <;> decide

theorem filterMap_glyphs (tr fin : Bool) {ts : List CTok} (h : ∀ t ∈ ts, t.Valid) : (ts.map (chineseGlyph tr fin)).filterMap tokenOf = ts := by
  induction ts with
  | nil => rfl
  | cons t ts ih =>
    rw [List.map_cons, List.filterMap_cons, tokenOf_glyph tr fin (h t (by simp))]
    simp only
    rw [ih fun t ht => h t (by simp [ht])]

theorem read_chineseText (k : ChineseKind) (o : ChineseOptions) {n : Nat} (h : inRange o.scale n) :
    readChinese o.scale (chineseText k o n) = n := by
  rw [readChinese, chineseText, filterMap_glyphs _ _ (tokens_valid _ h), read_chineseTokens]

/-! ## Placement of 零 -/

/-- No two 零 in a row, none at the end; none at the start if `prev`. -/
def okZ : Bool → List CTok → Bool
  | prev, [] => !prev
  | prev, .zero :: r => !prev && okZ true r
  | _, _ :: r => okZ false r

theorem okZ_append {a b : List CTok} {p : Bool} (h : okZ p a = true) (ha : a ≠ []) : okZ p (a ++ b) = okZ false b := by
  induction a generalizing p with
  | nil => exact absurd rfl ha
  | cons x a ih =>
    cases a with
    | nil => cases x <;> cases p <;> simp_all [okZ]
    | cons y a =>
      have ne : y :: a ≠ [] := by simp
      cases x with
      | zero =>
        simp only [okZ, Bool.and_eq_true] at h
        simp only [List.cons_append, okZ, h.1, Bool.true_and]
        exact ih h.2 ne
      | _ =>
        simp only [okZ] at h
        simp only [List.cons_append, okZ]
        exact ih h ne

theorem okZ_mono {a : List CTok} (h : okZ true a = true) : okZ false a = true := by
  cases a with
  | nil => simp [okZ] at h
  | cons x a => cases x <;> simp_all [okZ]

theorem spell_okZ {z : Nat → Nat → Bool} (hz : ∀ s, z s 0 = false) {units : Units} (h : GoodUnits units) {n : Nat} (hn : n ≠ 0) :
    okZ true (spellWith z units n) = true := by
  induction units generalizing n with
  | nil => simp [spellWith, hn, okZ]
  | cons p rest ih =>
    obtain ⟨s, u⟩ := p
    have hs : 1 ≤ s := h.pos (s, u) (by simp)
    have hu : u.isUnit = true := h.unit (s, u) (by simp)
    rw [spellWith]
    split
    · exact ih h.tail hn
    · next hlt =>
      have h0 : n / s ≠ 0 := by
        intro h
        have := (Nat.div_eq_zero_iff (a := n) (b := s)).mp h
        omega
      rw [okZ_append (ih h.tail h0) (spell_ne_nil z rest h.tail.pos h0)]
      have hunit : ∀ r, okZ false (u :: r) = okZ false r := by
        intro r; cases u <;> simp_all [CTok.isUnit, okZ]
      rw [hunit]
      by_cases hm : n % s = 0
      · rw [hm, hz, spell_zero _ _ h.tail.pos]; rfl
      · have := ih h.tail hm
        split
        · simpa [okZ] using this
        · exact okZ_mono this

theorem okZ_drop {ts : List CTok} (h : okZ true ts = true) : okZ true (dropLeadingOne ts) = true := by
  unfold dropLeadingOne
  split
  · simpa [okZ] using h
  · exact h

theorem tokens_okZ (formal : Bool) (scale : ChineseScale) {n : Nat} (hn : n ≠ 0) : okZ true (chineseTokens formal scale n) = true := by
  have hz : ∀ s, needsZero scale s 0 = false := by intro s; cases scale <;> simp [needsZero]
  have := spell_okZ hz (goodUnits scale) hn
  rw [chineseTokens, if_neg hn]
  simp only
  split
  · exact this
  · exact okZ_drop this

theorem okZ_spec {ts : List CTok} {p : Bool} (h : okZ p ts = true) :
    (p = true → ∀ r, ts ≠ .zero :: r) ∧ (∀ r, ts ≠ r ++ [.zero]) ∧ ¬ [.zero, .zero] <:+: ts := by
  induction ts generalizing p with
  | nil => refine ⟨by simp, by simp, by simp⟩
  | cons x ts ih =>
    cases x with
    | zero =>
      simp only [okZ, Bool.and_eq_true, Bool.not_eq_true'] at h
      obtain ⟨i1, i2, i3⟩ := ih h.2
      refine ⟨by simp [h.1], ?_, ?_⟩
      · intro r e
        cases r with
        | nil => simp only [List.nil_append, List.cons.injEq, true_and] at e; subst e; simp [okZ] at h
        | cons y r => simp only [List.cons_append, List.cons.injEq] at e; exact i2 r e.2
      · rw [List.infix_cons_iff]
        rintro (hp | hi)
        · rw [List.cons_prefix_cons] at hp
          obtain ⟨r, hr⟩ := hp.2
          exact i1 rfl r (by simpa using hr.symm)
        · exact i3 hi
    | _ =>
      simp only [okZ] at h
      obtain ⟨_, i2, i3⟩ := ih h
      refine ⟨by simp, ?_, ?_⟩
      · intro r e
        cases r with
        | nil => simp at e
        | cons y r => simp only [List.cons_append, List.cons.injEq] at e; exact i2 r e.2
      · rw [List.infix_cons_iff]
        rintro (hp | hi)
        · rw [List.cons_prefix_cons] at hp
          exact absurd hp.1 (by simp)
        · exact i3 hi

end Nominals
