import Verif.Props.Chinese

/-!
# Property C63: the scales of the Chinese systems compared

Vocabulary: `Verif/Spec/Outcome.lean`, `Verif/Spec/Chinese.lean`.
-/

namespace Nominals.Props

open Nominals.Spec

/-- Two different scales agree below this number. -/
def agreement : ChineseScale → ChineseScale → Nat
  | .mid, .long | .long, .mid => 10 ^ 24
  | .short, _ | _, .short => 10 ^ 5
  | _, _ => 10 ^ 12

theorem spell_large_sound {z : Nat → Nat → Bool} {e : Nat → Nat} {i : Nat} : ∀ (K n : Nat), CTok.large i ∈ spellWith z (unitsOf e K) n →
    i < K ∧ 10 ^ e i ≤ n := by
  intro K
  induction K with
  | zero =>
    intro n h
    have := spell_tokens z (unitsOf e 0) n h rfl
    simp [unitsOf, sectionUnits] at this
  | succ K ih =>
    intro n h
    rw [unitsOf, spellWith] at h
    split at h
    · have := ih n h; exact ⟨by omega, this.2⟩
    · next hlt =>
      rcases List.mem_append.mp h with h | h
      · have := ih _ h
        exact ⟨by omega, Nat.le_trans this.2 (Nat.div_le_self _ _)⟩
      · rcases List.mem_cons.mp h with h | h
        · injection h with h
          subst h
          exact ⟨by omega, by omega⟩
        · rcases List.mem_append.mp h with h | h
          · split at h <;> simp at h
          · have := ih _ h
            exact ⟨by omega, Nat.le_trans this.2 (Nat.mod_le _ _)⟩

theorem spell_large_top {z : Nat → Nat → Bool} {e : Nat → Nat} {j n : Nat} : ∀ K, j < K → 10 ^ e j ≤ n →
    ∃ i, j ≤ i ∧ i < K ∧ CTok.large i ∈ spellWith z (unitsOf e K) n ∧ ∀ k, i < k → k < K → n < 10 ^ e k := by
  intro K
  induction K with
  | zero => intro h; omega
  | succ K ih =>
    intro hj hle
    rw [unitsOf, spellWith]
    split
    · next hlt =>
      have : j ≠ K := by rintro rfl; omega
      obtain ⟨i, h1, h2, h3, h4⟩ := ih (by omega) hle
      refine ⟨i, h1, by omega, h3, fun k hk hk' => ?_⟩
      by_cases h : k = K
      · subst h; exact hlt
      · exact h4 k hk (by omega)
    · exact ⟨K, by omega, by omega, by simp, fun k h1 h2 => by omega⟩

theorem large_mem_drop {i : Nat} {ts : List CTok} : CTok.large i ∈ dropLeadingOne ts ↔ CTok.large i ∈ ts := by
  unfold dropLeadingOne
  split <;> simp

theorem large_mem_tokens {formal : Bool} {scale : ChineseScale} {n i : Nat} (h0 : n ≠ 0) :
    CTok.large i ∈ chineseTokens formal scale n ↔ CTok.large i ∈ spellWith (needsZero scale) (scaleUnits scale) n := by
  unfold chineseTokens
  rw [if_neg h0]
  cases formal <;> simp [large_mem_drop]

/-- If every large unit of `A` above the `j`-th is passed by the next one before the same unit of `B` is reached, the numerals differ
from the `j`-th unit of `A` on. -/
theorem scales_differ {formal : Bool} {a b : ChineseScale} {eA eB : Nat → Nat} {KA KB j n : Nat} (ha : scaleUnits a = unitsOf eA KA)
    (hb : scaleUnits b = unitsOf eB KB) (hj : j < KA) (hn : 10 ^ eA j ≤ n)
    (h : ∀ i, j ≤ i → i < KA → i < KB → i + 1 < KA ∧ eA (i + 1) ≤ eB i) :
    chineseTokens formal a n ≠ chineseTokens formal b n := by
  have h0 : n ≠ 0 := by
    have : 0 < 10 ^ eA j := Nat.pow_pos (by omega)
    omega
  obtain ⟨i, h1, h2, h3, h4⟩ := spell_large_top (z := needsZero a) KA hj hn
  intro he
  rw [← ha, ← large_mem_tokens (formal := formal) h0, he, large_mem_tokens h0, hb] at h3
  obtain ⟨h5, h6⟩ := spell_large_sound _ _ h3
  obtain ⟨h7, h8⟩ := h i h1 h2 h5
  have h9 := h4 (i + 1) (by omega) h7
  have : 10 ^ eA (i + 1) ≤ 10 ^ eB i := Nat.pow_le_pow_right (by omega) h8
  omega

theorem spell_congr {z z' : Nat → Nat → Bool} : ∀ (units : Units) (n : Nat), (∀ p ∈ units, 1 ≤ p.1 ∧ ∀ lo, lo < p.1 → z p.1 lo = z' p.1 lo) →
    spellWith z units n = spellWith z' units n := by
  intro units
  induction units with
  | nil => intros; rfl
  | cons p rest ih =>
    intro n h
    obtain ⟨s, u⟩ := p
    have hs := h (s, u) (by simp)
    have hr := fun m => ih m fun q hq => h q (by simp [hq])
    rw [spellWith, spellWith, hr, hr, hr, hs.2 _ (Nat.mod_lt _ hs.1)]

theorem unitsOf_congr {e e' : Nat → Nat} : ∀ k, (∀ i, i < k → e i = e' i) → unitsOf e k = unitsOf e' k := by
  intro k
  induction k with
  | zero => intro; rfl
  | succ k ih => intro h; rw [unitsOf, unitsOf, h k (by omega), ih fun i hi => h i (by omega)]

/-- Scales with the same first `k` units agree below the next unit of both. -/
theorem scales_agree {formal : Bool} {a b : ChineseScale} {eA eB : Nat → Nat} {m kA kB n : Nat} (ha : scaleUnits a = unitsOf eA (m + kA))
    (hb : scaleUnits b = unitsOf eB (m + kB)) (he : ∀ i, i < m → eA i = eB i) (hA : ∀ i, m ≤ i → i < m + kA → n < 10 ^ eA i)
    (hB : ∀ i, m ≤ i → i < m + kB → n < 10 ^ eB i)
    (hz : ∀ p ∈ unitsOf eA m, 1 ≤ p.1 ∧ ∀ lo, lo < p.1 → needsZero a p.1 lo = needsZero b p.1 lo) :
    chineseTokens formal a n = chineseTokens formal b n := by
  unfold chineseTokens
  rw [ha, hb, spell_more kA hA, spell_more kB hB, ← unitsOf_congr m he, spell_congr _ _ hz]

theorem units_pos {e : Nat → Nat} : ∀ k, ∀ p ∈ unitsOf e k, 1 ≤ p.1 := by
  intro k
  induction k with
  | zero => exact fun p hp => (show ∀ p ∈ sectionUnits, 1 ≤ p.1 by decide) p hp
  | succ k ih =>
    intro p hp
    rcases List.mem_cons.mp hp with rfl | h
    · exact Nat.pow_pos (by omega)
    · exact ih p h

theorem lt_pow_of {n x k : Nat} (h : n < 10 ^ x) (hk : x ≤ k) : n < 10 ^ k :=
  Nat.lt_of_lt_of_le h (Nat.pow_le_pow_right (by omega) hk)

theorem zero_same {a b : ChineseScale} (ha : a ≠ .short) (hb : b ≠ .short) : needsZero a = needsZero b := by
  cases a <;> cases b <;> first | rfl | exact absurd rfl ha | exact absurd rfl hb

theorem zero_short {b : ChineseScale} : ∀ p ∈ unitsOf (fun i => 4 + i) 1, 1 ≤ p.1 ∧
    ∀ lo, lo < p.1 → needsZero .short p.1 lo = needsZero b p.1 lo := by
  intro p hp
  refine ⟨units_pos 1 p hp, fun lo hlo => ?_⟩
  cases b
  · rfl
  all_goals
    simp only [needsZero]
    apply decide_eq_decide.mpr
    by_cases h : p.1 ≤ 1000
    · rw [if_pos h]
    · have : p.1 = 10000 := by
        simp only [unitsOf, sectionUnits, List.mem_cons, List.not_mem_nil, or_false] at hp
        rcases hp with rfl | rfl | rfl | rfl <;> first | rfl | (exfalso; revert h; decide)
      rw [if_neg h]
      rw [this] at hlo ⊢
      have := topPlace_group hlo
      omega

theorem tokens_scales {formal : Bool} {a b : ChineseScale} (hab : a ≠ b) (n : Nat) :
    chineseTokens formal a n = chineseTokens formal b n ↔ n < agreement a b := by
  have us : scaleUnits .short = unitsOf (fun i => 4 + i) 11 := rfl
  have um : scaleUnits .myriad = unitsOf (fun i => 4 * (i + 1)) 9 := rfl
  have ud : scaleUnits .mid = unitsOf (fun i => if i = 0 then 4 else 8 * i) 5 := rfl
  have ul : scaleUnits .long = unitsOf (fun i => 4 * 2 ^ i) 4 := rfl
  have pw : ∀ i, 1 ≤ i → 8 ≤ 4 * 2 ^ i := fun i h => by
    have : 2 ^ 1 ≤ 2 ^ i := Nat.pow_le_pow_right (by omega) h
    omega
  have key : ∀ a b : ChineseScale, ∀ A : Nat, (n < A → chineseTokens formal a n = chineseTokens formal b n) →
      (A ≤ n → chineseTokens formal a n ≠ chineseTokens formal b n) → (chineseTokens formal a n = chineseTokens formal b n ↔ n < A) :=
    fun a b A h1 h2 => ⟨fun h => Nat.lt_of_not_le fun h' => h2 h' h, h1⟩
  have sm : chineseTokens formal .short n = chineseTokens formal .myriad n ↔ n < 10 ^ 5 := by
    apply key
    · intro h
      exact scales_agree (m := 1) (kA := 10) (kB := 8) us um (fun i hi => by have : i = 0 := by omega
                                                                             subst this; rfl)
        (fun i h1 _ => lt_pow_of h (by omega)) (fun i h1 _ => lt_pow_of h (by omega)) zero_short
    · intro h
      exact scales_differ (j := 1) us um (by omega) h (fun i h1 h2 h3 => by omega)
  have sd : chineseTokens formal .short n = chineseTokens formal .mid n ↔ n < 10 ^ 5 := by
    apply key
    · intro h
      exact scales_agree (m := 1) (kA := 10) (kB := 4) us ud (fun i hi => by have : i = 0 := by omega
                                                                             subst this; rfl)
        (fun i h1 _ => lt_pow_of h (by omega)) (fun i h1 _ => lt_pow_of h (by split <;> omega)) zero_short
    · intro h
      exact scales_differ (j := 1) us ud (by omega) h (fun i h1 h2 h3 => by split <;> omega)
  have sl : chineseTokens formal .short n = chineseTokens formal .long n ↔ n < 10 ^ 5 := by
    apply key
    · intro h
      exact scales_agree (m := 1) (kA := 10) (kB := 3) us ul (fun i hi => by have : i = 0 := by omega
                                                                             subst this; rfl)
        (fun i h1 _ => lt_pow_of h (by omega)) (fun i h1 _ => lt_pow_of h (by have := pw i h1; omega)) zero_short
    · intro h
      exact scales_differ (j := 1) us ul (by omega) h (fun i h1 h2 h3 => by have := pw i h1; omega)
  have md : chineseTokens formal .myriad n = chineseTokens formal .mid n ↔ n < 10 ^ 12 := by
    apply key
    · intro h
      exact scales_agree (m := 2) (kA := 7) (kB := 3) um ud (fun i hi => by split <;> omega)
        (fun i h1 _ => lt_pow_of h (by omega)) (fun i h1 _ => lt_pow_of h (by split <;> omega))
        fun p hp => ⟨units_pos _ p hp, fun _ _ => rfl⟩
    · intro h
      exact scales_differ (j := 2) um ud (by omega) h (fun i h1 h2 h3 => by split <;> omega)
  have ml : chineseTokens formal .myriad n = chineseTokens formal .long n ↔ n < 10 ^ 12 := by
    apply key
    · intro h
      exact scales_agree (m := 2) (kA := 7) (kB := 2) um ul (fun i hi => by
          have : i = 0 ∨ i = 1 := by omega
          rcases this with rfl | rfl <;> rfl)
        (fun i h1 _ => lt_pow_of h (by omega)) (fun i h1 h2 => lt_pow_of h (by
          have : i = 2 ∨ i = 3 := by omega
          rcases this with rfl | rfl <;> decide))
        fun p hp => ⟨units_pos _ p hp, fun _ _ => rfl⟩
    · intro h
      exact scales_differ (j := 2) um ul (by omega) h (fun i h1 h2 h3 => by
        have : i = 2 ∨ i = 3 := by omega
        rcases this with rfl | rfl <;> decide)
  have dl : chineseTokens formal .mid n = chineseTokens formal .long n ↔ n < 10 ^ 24 := by
    apply key
    · intro h
      exact scales_agree (m := 3) (kA := 2) (kB := 1) ud ul (fun i hi => by
          have : i = 0 ∨ i = 1 ∨ i = 2 := by omega
          rcases this with rfl | rfl | rfl <;> rfl)
        (fun i h1 _ => lt_pow_of h (by split <;> omega)) (fun i h1 h2 => lt_pow_of h (by
          have : i = 3 := by omega
          subst this; decide))
        fun p hp => ⟨units_pos _ p hp, fun _ _ => rfl⟩
    · intro h
      exact scales_differ (j := 3) ud ul (by omega) h (fun i h1 h2 h3 => by
        have : i = 3 := by omega
        subst this; decide)
  cases a <;> cases b <;> first | exact absurd rfl hab | assumption | exact Eq.comm.trans (by assumption)

/-- C63. Two scales write a number alike exactly below the first unit at which they part: 10^5 if one of them is the short scale, 10^12
between myriad and mid or long, 10^24 between mid and long. -/
theorem C63_scales {cfg cfg' : Cfg} {T T' : IntTy} {n : Nat} {k : ChineseKind} {usage : ChineseUsage} {a b : ChineseScale} (hab : a ≠ b)
    (hn : T.Fits cfg n) (hn' : T'.Fits cfg' n) {t u : List Char} {x y : Bool}
    (h : view (chineseTryFormat k ⟨usage, a⟩ cfg T n) = .ok (t, x)) (h' : view (chineseTryFormat k ⟨usage, b⟩ cfg' T' n) = .ok (u, y)) :
    t = u ↔ n < agreement a b := by
  obtain ⟨rfl, hr⟩ := chinese_ok hn h
  obtain ⟨rfl, hr'⟩ := chinese_ok hn' h'
  rw [← tokens_scales (formal := isFormal k) hab n]
  constructor
  · intro he
    rw [← filterMap_glyphs (isTraditional k) (usage = .financial) (tokens_valid (isFormal k) hr),
      ← filterMap_glyphs (isTraditional k) (usage = .financial) (tokens_valid (isFormal k) hr')]
    exact congrArg _ he
  · intro he
    simp only [chineseText, he]

/-- 10^8: the short scale differs from the mid scale. -/
example : view (chineseTryFormat .simplifiedFormal ⟨.ordinary, .short⟩ ⟨true, .w64, true⟩ .u32 100000000) ≠
    view (chineseTryFormat .simplifiedFormal ⟨.ordinary, .mid⟩ ⟨true, .w64, true⟩ .u32 100000000) := by decide +kernel

/-- C63. Below that point the outcomes are the same altogether (text, storage or error); with `alloc` they are the same nowhere else. -/
theorem C63_outcomes {cfg : Cfg} {T : IntTy} {n : Nat} (k : ChineseKind) (usage : ChineseUsage) {a b : ChineseScale} (hab : a ≠ b)
    (hn : T.Fits cfg n) :
    (n < agreement a b → view (chineseTryFormat k ⟨usage, a⟩ cfg T n) = view (chineseTryFormat k ⟨usage, b⟩ cfg T n)) ∧
    (cfg.alloc = true → view (chineseTryFormat k ⟨usage, a⟩ cfg T n) = view (chineseTryFormat k ⟨usage, b⟩ cfg T n) →
      n < agreement a b) := by
  have ag : agreement a b ≤ 10 ^ 12 ∨ (a ≠ .short ∧ b ≠ .short) := by
    cases a <;> cases b <;> simp [agreement] at hab ⊢
  constructor
  · intro h
    have hs : ∀ s, s = a ∨ s = b → ¬ (s = .short ∧ 10 ^ 15 ≤ n) := by
      rintro s hs ⟨rfl, h15⟩
      rcases ag with ag | ag
      · omega
      · rcases hs with hs | hs
        · exact ag.1 hs.symm
        · exact ag.2 hs.symm
    rw [C36_exact_range k _ hn, C36_exact_range k _ hn, if_neg (hs a (.inl rfl)), if_neg (hs b (.inr rfl))]
    have := (tokens_scales (formal := isFormal k) hab n).2 h
    simp only [chineseText, this]
  · intro hc h
    have ex : ∀ s, ¬ (s = .short ∧ 10 ^ 15 ≤ n) → ∃ x, view (chineseTryFormat k ⟨usage, s⟩ cfg T n) = .ok x := by
      intro s hs
      rw [C36_exact_range k _ hn, if_neg hs]
      simp only [deliver, hc]
      split <;> exact ⟨_, rfl⟩
    by_cases h15 : (a = .short ∨ b = .short) ∧ 10 ^ 15 ≤ n
    · exfalso
      rcases h15 with ⟨rfl | rfl, h15⟩
      · obtain ⟨x, hx⟩ := ex b fun hh => hab hh.1.symm
        rw [hx, C36_exact_range k _ hn, if_pos ⟨rfl, h15⟩] at h
        cases h
      · obtain ⟨x, hx⟩ := ex a fun hh => hab hh.1
        rw [hx, C36_exact_range k ⟨usage, .short⟩ hn, if_pos ⟨rfl, h15⟩] at h
        cases h
    · obtain ⟨x, hx⟩ := ex a fun hh => h15 ⟨.inl hh.1, hh.2⟩
      exact (C63_scales hab hn hn hx (h ▸ hx)).1 rfl

/-- Below, at and above the boundary between mid and long scale. -/
example : chineseText .simplifiedFormal ⟨.ordinary, .mid⟩ (10 ^ 24) = ['一', '京'] ∧
    chineseText .simplifiedFormal ⟨.ordinary, .long⟩ (10 ^ 24) = ['一', '亿', '兆'] ∧
    chineseText .simplifiedFormal ⟨.ordinary, .mid⟩ (10 ^ 23) = ['一', '千', '万', '兆'] ∧
    chineseText .simplifiedFormal ⟨.ordinary, .long⟩ (10 ^ 23) = ['一', '千', '万', '兆'] := by decide +kernel

end Nominals.Props
