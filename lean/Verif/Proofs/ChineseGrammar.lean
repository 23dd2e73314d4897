import Verif.Spec.ChineseGrammar
import Verif.Proofs.ChineseDigits

/-! # Chinese: the grammar generates the numerals -/

namespace Nominals

open Nominals.Spec

theorem places_step {p n : Nat} (h1 : 10 ^ p ≤ n) (h2 : n < 10 ^ (p + 1)) :
    placesFrom n (p + 1) none = .num (n / 10 ^ p) :: (placeUnit p ++ placesFrom (n % 10 ^ p) p (some p)) := by
  have hp : 0 < 10 ^ p := Nat.pow_pos (by omega)
  have h3 : n / 10 ^ p < 10 := (Nat.div_lt_iff_lt_mul hp).mpr (by rw [Nat.pow_succ] at h2; omega)
  have h4 : 0 < n / 10 ^ p := Nat.div_pos h1 hp
  rw [placesFrom, Nat.mod_eq_of_lt h3]
  simp only [show ¬ n / 10 ^ p = 0 by omega, if_false, true_or, if_true, List.nil_append, List.cons_append]
  rw [places_mod (n := n) p (some p) (Nat.le_refl _)]

theorem places_short {q n : Nat} (h : n < 10 ^ q) : ∀ p, q ≤ p → placesFrom n p none = placesFrom n q none := by
  intro p
  induction p with
  | zero => intro hq; rw [show q = 0 by omega]
  | succ p ih =>
    intro hq
    by_cases e : q = p + 1
    · rw [e]
    · have h1 : n < 10 ^ p := Nat.lt_of_lt_of_le h (Nat.pow_le_pow_right (by omega) (by omega))
      rw [placesFrom, Nat.div_eq_of_lt h1]
      exact ih (by omega)

/-- The place of the first digit. -/
theorem exists_place {n p : Nat} (h0 : n ≠ 0) (h : n < 10 ^ p) : ∃ q, q < p ∧ 10 ^ q ≤ n ∧ n < 10 ^ (q + 1) := by
  induction p with
  | zero => simp at h; omega
  | succ p ih =>
    by_cases h1 : n < 10 ^ p
    · obtain ⟨q, hq, h2⟩ := ih h1; exact ⟨q, by omega, h2⟩
    · exact ⟨p, by omega, by omega, h⟩

theorem lead_iff {p : Nat} {t : List CTok} : Lead p t ↔ ∃ n, 10 ^ p ≤ n ∧ n < 10 ^ (p + 1) ∧ t = placesFrom n (p + 1) none := by
  constructor
  · intro h
    have build : ∀ {p d m : Nat}, 1 ≤ d → d ≤ 9 → m < 10 ^ p → 10 ^ p ≤ d * 10 ^ p + m ∧ d * 10 ^ p + m < 10 ^ (p + 1) ∧
        placesFrom (d * 10 ^ p + m) (p + 1) none = .num d :: (placeUnit p ++ placesFrom m p (some p)) := by
      intro p d m h1 h2 hm
      have hp : 0 < 10 ^ p := Nat.pow_pos (by omega)
      have a : 10 ^ p ≤ d * 10 ^ p := Nat.le_mul_of_pos_left _ h1
      have b : d * 10 ^ p ≤ 9 * 10 ^ p := Nat.mul_le_mul_right _ h2
      have c : d * 10 ^ p + m < 10 ^ (p + 1) := by rw [Nat.pow_succ]; omega
      refine ⟨by omega, c, ?_⟩
      rw [places_step (by omega) c, Nat.add_comm, Nat.add_mul_div_right _ _ hp, Nat.add_mul_mod_self_right, Nat.div_eq_of_lt hm,
        Nat.mod_eq_of_lt hm, Nat.zero_add]
    induction h with
    | bare p d h1 h2 =>
      obtain ⟨a, b, c⟩ := build h1 h2 (m := 0) (Nat.pow_pos (by omega) : 0 < 10 ^ p)
      refine ⟨_, a, b, ?_⟩
      rw [c, places_prev (Nat.le_refl _) (Nat.pow_pos (by omega))]
      simp [places_short (q := 0) (n := 0) (by simp) p (by omega), placesFrom]
    | next p d t h1 h2 _ ih =>
      obtain ⟨m, m1, m2, rfl⟩ := ih
      obtain ⟨a, b, c⟩ := build h1 h2 m2
      refine ⟨_, a, b, ?_⟩
      rw [c, places_prev (Nat.le_refl _) m2, if_neg (by rw [Nat.pow_succ]; omega)]
      rfl
    | gap p q d t h1 h2 hq _ ih =>
      obtain ⟨m, m1, m2, rfl⟩ := ih
      have hp : 0 < 10 ^ q := Nat.pow_pos (by omega)
      have e : 10 ^ (q + 2) ≤ 10 ^ p := Nat.pow_le_pow_right (by omega) (by omega)
      have m3 : 10 * m < 10 ^ p := by rw [Nat.pow_succ] at e; omega
      have m4 : m < 10 ^ p := by omega
      obtain ⟨a, b, c⟩ := build h1 h2 m4
      refine ⟨_, a, b, ?_⟩
      rw [c, places_prev (Nat.le_refl _) m4, if_pos ⟨by omega, m3⟩, places_short m2 p (by omega)]
      rfl
  · rintro ⟨n, h1, h2, rfl⟩
    induction p using Nat.strongRecOn generalizing n with
    | _ p ih =>
      have hp : 0 < 10 ^ p := Nat.pow_pos (by omega)
      have h3 : n / 10 ^ p < 10 := (Nat.div_lt_iff_lt_mul hp).mpr (by rw [Nat.pow_succ] at h2; omega)
      have h4 : 0 < n / 10 ^ p := Nat.div_pos h1 hp
      have hm := Nat.mod_lt n hp
      rw [places_step h1 h2, places_prev (Nat.le_refl _) hm]
      generalize n % 10 ^ p = m at hm
      by_cases h0 : m = 0
      · subst h0
        have := Lead.bare p _ h4 (by omega)
        simpa [places_short (q := 0) (n := 0) (by simp) p (by omega), placesFrom] using this
      · obtain ⟨q, hq, q1, q2⟩ := exists_place h0 hm
        have hl := ih q hq m q1 q2
        rw [places_short q2 p (by omega)]
        by_cases e : p = q + 1
        · subst e
          rw [if_neg (by rw [Nat.pow_succ]; omega)]
          exact .next q _ _ h4 (by omega) hl
        · have e2 : 10 ^ (q + 2) ≤ 10 ^ p := Nat.pow_le_pow_right (by omega) (by omega)
          rw [if_pos ⟨h0, by rw [Nat.pow_succ] at e2; omega⟩]
          exact .gap p q _ _ h4 (by omega) (by omega) hl

/-- The exponents of the large units of a grouped scale. -/
structure Tower (e m : Nat → Nat) : Prop where
  first : e 0 = 4
  four : ∀ k, e k % 4 = 0
  step : ∀ k, e (k + 1) = e k + e (m k)
  lower : ∀ k, m k ≤ k

theorem Tower.mono {e m : Nat → Nat} (h : Tower e m) {j k : Nat} (hjk : j ≤ k) : e j ≤ e k := by
  induction k with
  | zero => rw [show j = 0 by omega]; exact Nat.le_refl _
  | succ k ih =>
    by_cases e' : j = k + 1
    · rw [e']; exact Nat.le_refl _
    · have := ih (by omega); rw [h.step]; omega

theorem Tower.pos {e m : Nat → Nat} (h : Tower e m) (k : Nat) : 4 ≤ e k := by
  have := h.mono (Nat.zero_le k); rw [h.first] at this; exact this

theorem spell_drop {z : Nat → Nat → Bool} {e m : Nat → Nat} (h : Tower e m) {j n : Nat} (hn : n < 10 ^ e j) : ∀ k, j ≤ k →
    spellWith z (unitsOf e k) n = spellWith z (unitsOf e j) n := by
  intro k
  induction k with
  | zero => intro hj; rw [show j = 0 by omega]
  | succ k ih =>
    intro hj
    by_cases e' : j = k + 1
    · rw [e']
    · rw [unitsOf, spellWith, if_pos (Nat.lt_of_lt_of_le hn (Nat.pow_le_pow_right (by omega) (h.mono (by omega))))]
      exact ih (by omega)

theorem grouped_iff {z : Nat → Nat → Bool} (hz : GroupRule z) {e m : Nat → Nat} (h : Tower e m) {k : Nat} {b : Bool} {t : List CTok} :
    Grouped m k b t ↔ ∃ n, n ≠ 0 ∧ n < 10 ^ e k ∧ b = decide (topPlace n % 4 = 3) ∧ t = spellWith z (unitsOf e k) n := by
  have base : ∀ {p n : Nat}, p < 4 → 10 ^ p ≤ n → n < 10 ^ (p + 1) → n < 10000 ∧ placesFrom n (p + 1) none = spellWith z sectionUnits n ∧
      (p = 3 ↔ topPlace n % 4 = 3) := by
    intro p n hp h1 h2
    have h3 : n < 10 ^ 4 := Nat.lt_of_lt_of_le h2 (Nat.pow_le_pow_right (by omega) (by omega))
    refine ⟨by omega, by rw [section_flat hz.sec (by omega), places_short h2 4 (by omega)], ?_⟩
    rw [topPlace_group (by omega)]
    constructor
    · rintro rfl; omega
    · intro h4
      have h5 : 10 ^ 3 < 10 ^ (p + 1) := by omega
      have := (Nat.pow_lt_pow_iff_right (a := 10) (by omega)).mp h5
      omega
  have build : ∀ {k hi lo : Nat}, hi ≠ 0 → hi < 10 ^ e (m k) → lo < 10 ^ e k →
      hi * 10 ^ e k + lo ≠ 0 ∧ hi * 10 ^ e k + lo < 10 ^ e (k + 1) ∧
      (topPlace (hi * 10 ^ e k + lo) % 4 = 3 ↔ topPlace hi % 4 = 3) ∧
      spellWith z (unitsOf e (k + 1)) (hi * 10 ^ e k + lo) = spellWith z (unitsOf e (m k)) hi ++
        .large k :: ((if lo ≠ 0 ∧ topPlace lo % 4 ≠ 3 then [CTok.zero] else []) ++ spellWith z (unitsOf e k) lo) := by
    intro k hi lo h0 hhi hlo
    have hp : 0 < 10 ^ e k := Nat.pow_pos (by omega)
    have a : 10 ^ e k ≤ hi * 10 ^ e k := Nat.le_mul_of_pos_left _ (by omega)
    have d1 : (hi * 10 ^ e k + lo) / 10 ^ e k = hi := by
      rw [Nat.add_comm, Nat.add_mul_div_right _ _ hp, Nat.div_eq_of_lt hlo, Nat.zero_add]
    have d2 : (hi * 10 ^ e k + lo) % 10 ^ e k = lo := by
      rw [Nat.add_comm, Nat.add_mul_mod_self_right, Nat.mod_eq_of_lt hlo]
    refine ⟨by omega, ?_, ?_, ?_⟩
    · rw [h.step, Nat.pow_add]
      have : (hi + 1) * 10 ^ e k ≤ 10 ^ e (m k) * 10 ^ e k := Nat.mul_le_mul_right _ hhi
      rw [Nat.add_mul, Nat.one_mul] at this
      rw [Nat.mul_comm (10 ^ e (m k))] at this
      omega
    · rw [topPlace_pow (k := e k) (by omega), d1]
      have := h.four k
      omega
    · have h4 : 1000 < 10 ^ e k := by
        have : 10 ^ 4 ≤ 10 ^ e k := Nat.pow_le_pow_right (by omega) (h.pos k)
        omega
      rw [unitsOf, spellWith, if_neg (by omega), d1, d2, spell_drop h hhi k (h.lower k)]
      by_cases h5 : lo = 0
      · rw [h5, hz.zero]; simp
      · simp [hz.large _ _ h4 h5, gapTok, h5]
  constructor
  · intro hg
    induction hg with
    | group p t hp hl =>
      obtain ⟨n, h1, h2, rfl⟩ := lead_iff.mp hl
      obtain ⟨b1, b2, b3⟩ := base hp h1 h2
      have : 0 < 10 ^ p := Nat.pow_pos (by omega)
      refine ⟨n, by omega, by rw [h.first]; omega, by simp only [b3], b2⟩
    | small k b t _ ih =>
      obtain ⟨n, h0, hn, hb, ht⟩ := ih
      refine ⟨n, h0, Nat.lt_of_lt_of_le hn (Nat.pow_le_pow_right (by omega) (h.mono (by omega))), hb, ?_⟩
      rw [ht, spell_drop h hn (k + 1) (by omega)]
    | unit k b t _ ih =>
      obtain ⟨hi, h0, hn, rfl, rfl⟩ := ih
      obtain ⟨a1, a2, a3, a4⟩ := build h0 hn (lo := 0) (Nat.pow_pos (by omega))
      refine ⟨_, a1, a2, by simp only [a3], ?_⟩
      rw [a4]
      have hs : ∀ k, spellWith z (unitsOf e k) 0 = [] := by
        intro k
        rw [spell_drop h (j := 0) (Nat.pow_pos (by omega)) k (by omega)]
        simp [unitsOf, sectionUnits, spellWith]
      simp [hs]
    | next k b t u _ _ ih1 ih2 =>
      obtain ⟨hi, h0, hn, rfl, rfl⟩ := ih1
      obtain ⟨lo, l0, ln, lb, rfl⟩ := ih2
      obtain ⟨a1, a2, a3, a4⟩ := build h0 hn ln
      have lb : topPlace lo % 4 = 3 := by simpa using lb.symm
      refine ⟨_, a1, a2, by simp only [a3], ?_⟩
      rw [a4, if_neg (by omega)]
      rfl
    | gap k b t u _ _ ih1 ih2 =>
      obtain ⟨hi, h0, hn, rfl, rfl⟩ := ih1
      obtain ⟨lo, l0, ln, lb, rfl⟩ := ih2
      obtain ⟨a1, a2, a3, a4⟩ := build h0 hn ln
      have lb : ¬ topPlace lo % 4 = 3 := by simpa using lb.symm
      refine ⟨_, a1, a2, by simp only [a3], ?_⟩
      rw [a4, if_pos ⟨l0, lb⟩]
      rfl
  · rintro ⟨n, h0, hn, rfl, rfl⟩
    induction k using Nat.strongRecOn generalizing n with
    | _ k ih =>
      cases k with
      | zero =>
        rw [h.first] at hn
        obtain ⟨p, hp, h1, h2⟩ := exists_place h0 hn
        obtain ⟨b1, b2, b3⟩ := base hp h1 h2
        have := Grouped.group (m := m) p _ hp (lead_iff.mpr ⟨n, h1, h2, rfl⟩)
        rw [b2] at this
        simp only [b3] at this
        exact this
      | succ k =>
        by_cases h1 : n < 10 ^ e k
        · rw [spell_drop h h1 (k + 1) (by omega)]
          exact .small _ _ _ (ih k (by omega) n h0 h1)
        · have hp : 0 < 10 ^ e k := Nat.pow_pos (by omega)
          have hi0 : n / 10 ^ e k ≠ 0 := by have := Nat.div_pos (Nat.le_of_not_lt h1) hp; omega
          have hhi : n / 10 ^ e k < 10 ^ e (m k) := by
            rw [Nat.div_lt_iff_lt_mul hp, ← Nat.pow_add, Nat.add_comm, ← h.step]; exact hn
          have hlo := Nat.mod_lt n hp
          have e1 : n / 10 ^ e k * 10 ^ e k + n % 10 ^ e k = n := Nat.div_add_mod' _ _
          obtain ⟨-, -, a3, a4⟩ := build hi0 hhi hlo
          rw [e1] at a3 a4
          have g1 := ih (m k) (by have := h.lower k; omega) _ hi0 hhi
          simp only [a4, a3]
          by_cases l0 : n % 10 ^ e k = 0
          · have hs : spellWith z (unitsOf e k) 0 = [] := by
              rw [spell_drop h (j := 0) (Nat.pow_pos (by omega)) k (by omega)]
              simp [unitsOf, sectionUnits, spellWith]
            simp only [l0, ne_eq, not_true_eq_false, false_and, if_false, hs]
            exact .unit _ _ _ g1
          · have g2 := ih k (by omega) _ l0 hlo
            by_cases l1 : topPlace (n % 10 ^ e k) % 4 = 3
            · rw [if_neg (by omega)]
              simp only [l1, decide_true] at g2
              exact .next _ _ _ _ g1 g2
            · rw [if_pos ⟨l0, l1⟩]
              simp only [l1, decide_false] at g2
              exact .gap _ _ _ _ g1 g2

theorem myriad_tower : Tower (fun i => 4 * (i + 1)) (multiplier .myriad) :=
  ⟨rfl, by intro k; omega, by intro k; show 4 * (k + 1 + 1) = 4 * (k + 1) + 4 * (0 + 1); omega, fun k => Nat.zero_le k⟩

theorem mid_tower : Tower (fun i => if i = 0 then 4 else 8 * i) (multiplier .mid) := by
  refine ⟨rfl, by intro k; split <;> omega, ?_, fun k => Nat.min_le_left _ _⟩
  intro k
  cases k with
  | zero => rfl
  | succ k =>
    have : multiplier .mid (k + 1) = 1 := Nat.min_eq_right (by omega)
    rw [this]
    simp
    omega

theorem long_tower : Tower (fun i => 4 * 2 ^ i) (multiplier .long) :=
  ⟨rfl, by intro k; omega, by intro k; show 4 * 2 ^ (k + 1) = 4 * 2 ^ k + 4 * 2 ^ k; rw [Nat.pow_succ]; omega, fun k => Nat.le_refl k⟩

/-- The grammar generates the formal numerals of the numbers below the bound. -/
theorem wellFormed_iff {scale : ChineseScale} {size : Nat} (hs : sizeBound scale size ≤ 2 ^ 128) (hs' : scale = .short → size ≤ 15)
    {ts : List CTok} : WellFormed scale size ts ↔ ∃ n, n ≠ 0 ∧ n < sizeBound scale size ∧ ts = chineseTokens true scale n := by
  have tok : ∀ n, n ≠ 0 → chineseTokens true scale n = spellWith (needsZero scale) (scaleUnits scale) n := by
    intro n h; unfold chineseTokens; rw [if_neg h]; rfl
  have small : ∀ {x c : Nat}, 10 ^ x ≤ 2 ^ 128 → x < 39 := by
    intro x _ hx
    refine Nat.lt_of_not_le fun hc => ?_
    have : 10 ^ 39 ≤ 10 ^ x := Nat.pow_le_pow_right (by omega) hc
    have : ¬ 10 ^ 39 ≤ 2 ^ 128 := by decide
    omega
  cases scale with
  | short =>
    have hs' := hs' rfl
    constructor
    · rintro ⟨p, hp, h⟩
      obtain ⟨n, h1, h2, rfl⟩ := lead_iff.mp h
      have h0 : 0 < 10 ^ p := Nat.pow_pos (by omega)
      have h3 : n < 10 ^ 15 := Nat.lt_of_lt_of_le h2 (Nat.pow_le_pow_right (by omega) (by omega))
      refine ⟨n, by omega, Nat.lt_of_lt_of_le h2 (Nat.pow_le_pow_right (by omega) (by omega)), ?_⟩
      rw [tok n (by omega), short_flat h3, places_short h2 15 (by omega)]
    · rintro ⟨n, h0, hn, rfl⟩
      obtain ⟨p, hp, h1, h2⟩ := exists_place h0 hn
      have h3 : n < 10 ^ 15 := Nat.lt_of_lt_of_le h2 (Nat.pow_le_pow_right (by omega) (by omega))
      refine ⟨p, hp, lead_iff.mpr ⟨n, h1, h2, ?_⟩⟩
      rw [tok n (by omega), short_flat h3, places_short h2 15 (by omega)]
  | myriad =>
    have hk : 4 * (size + 1) < 39 := small (c := 0) hs
    show (∃ b, Grouped _ _ b ts) ↔ _
    simp only [grouped_iff (groupRule (scale := .myriad) (by decide)) myriad_tower]
    constructor
    · rintro ⟨_, n, h0, hn, -, rfl⟩
      exact ⟨n, h0, hn, by rw [tok n h0]; exact (spell_drop myriad_tower hn 9 (by omega)).symm⟩
    · rintro ⟨n, h0, hn, rfl⟩
      exact ⟨_, n, h0, hn, rfl, by rw [tok n h0]; exact spell_drop myriad_tower hn 9 (by omega)⟩
  | mid =>
    have hk : (if size = 0 then 4 else 8 * size) < 39 := small (c := 0) hs
    have hk : size ≤ 5 := by split at hk <;> omega
    show (∃ b, Grouped _ _ b ts) ↔ _
    simp only [grouped_iff (groupRule (scale := .mid) (by decide)) mid_tower]
    constructor
    · rintro ⟨_, n, h0, hn, -, rfl⟩
      exact ⟨n, h0, hn, by rw [tok n h0]; exact (spell_drop mid_tower hn 5 hk).symm⟩
    · rintro ⟨n, h0, hn, rfl⟩
      exact ⟨_, n, h0, hn, rfl, by rw [tok n h0]; exact spell_drop mid_tower hn 5 hk⟩
  | long =>
    have hk : 4 * 2 ^ size < 39 := small (c := 0) hs
    have hk : size ≤ 4 := by
      refine Nat.le_of_not_lt fun hc => ?_
      have : 2 ^ 5 ≤ 2 ^ size := Nat.pow_le_pow_right (by omega) hc
      omega
    show (∃ b, Grouped _ _ b ts) ↔ _
    simp only [grouped_iff (groupRule (scale := .long) (by decide)) long_tower]
    constructor
    · rintro ⟨_, n, h0, hn, -, rfl⟩
      exact ⟨n, h0, hn, by rw [tok n h0]; exact (spell_drop long_tower hn 4 hk).symm⟩
    · rintro ⟨n, h0, hn, rfl⟩
      exact ⟨_, n, h0, hn, rfl, by rw [tok n h0]; exact spell_drop long_tower hn 4 hk⟩

end Nominals
