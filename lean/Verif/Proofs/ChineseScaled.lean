import Verif.Proofs.Chinese

/-! # Chinese: the myriad, mid and long scales -/

namespace Nominals

open Nominals.Spec

theorem topPlace_small {n : Nat} (h : n < 10) : topPlace n = 0 := by rw [topPlace, if_pos h]
theorem topPlace_step {n : Nat} (h : 10 ≤ n) : topPlace n = topPlace (n / 10) + 1 := by rw [topPlace, if_neg (by omega)]

theorem topPlace_pow {k n : Nat} (h : 10 ^ k ≤ n) : topPlace n = topPlace (n / 10 ^ k) + k := by
  induction k generalizing n with
  | zero => simp
  | succ k ih =>
    have h1 : 10 ^ (k + 1) = 10 * 10 ^ k := by rw [Nat.pow_succ]; omega
    have h2 : 1 ≤ 10 ^ k := Nat.pow_pos (by omega)
    have h3 : 10 ^ k ≤ n / 10 := by omega
    rw [topPlace_step (by omega), ih h3, h1, ← Nat.div_div_eq_div_mul]
    omega

theorem topPlace_group {n : Nat} (h : n < 10000) : topPlace n % 4 = 3 ↔ 1000 ≤ n := by
  by_cases h1 : n < 10
  · rw [topPlace_small h1]; omega
  · rw [topPlace_step (by omega)]
    by_cases h2 : n < 100
    · rw [topPlace_small (by omega)]; omega
    · rw [topPlace_step (by omega)]
      by_cases h3 : n < 1000
      · rw [topPlace_small (by omega)]; omega
      · rw [topPlace_step (by omega), topPlace_small (by omega)]; omega

/-- 零 before something that is not at the start. -/
def gapTok (x : Nat) : List CTok := if topPlace x % 4 = 3 then [] else [.zero]

/-- The zero rule of the myriad, mid and long scales. -/
structure GroupRule (z : Nat → Nat → Bool) : Prop where
  sec : SectionRule z
  zero : ∀ s, z s 0 = false
  large : ∀ s lo, 1000 < s → lo ≠ 0 → (if z s lo then [CTok.zero] else []) = gapTok lo

theorem groupRule {scale : ChineseScale} (h : scale ≠ .short) : GroupRule (needsZero scale) := by
  refine ⟨sectionRule scale, ?_, ?_⟩
  · intro s; cases scale <;> simp [needsZero]
  · intro s lo hs hl
    have h2 : ¬ s ≤ 1000 := by omega
    cases scale <;> simp [needsZero, gapTok, h2, hl] at h ⊢

/-- Tokens written for `x`: at the start of the numeral (`noPrefix`) or after something else. -/
def resTok (z : Nat → Nat → Bool) (formal noPrefix : Bool) (units : Units) (x : Nat) : List CTok :=
  if noPrefix then (if formal then spellWith z units x else dropLeadingOne (spellWith z units x))
  else gapTok x ++ spellWith z units x

theorem dropLeadingOne_append (a b : List CTok) (i : Nat) :
    dropLeadingOne (a ++ .large i :: b) = dropLeadingOne a ++ .large i :: b := by
  unfold dropLeadingOne
  match a with
  | [] => rfl
  | [x] =>
    match x with
    | .zero | .ten | .hundred | .thousand | .large _ | .num 0 | .num 1 | .num (n + 2) => rfl
  | x :: y :: r =>
    match x, y with
    | .zero, _ | .ten, _ | .hundred, _ | .thousand, _ | .large _, _ | .num 0, _ | .num (n + 2), _ => rfl
    | .num 1, .ten | .num 1, .zero | .num 1, .hundred | .num 1, .thousand | .num 1, .large _ | .num 1, .num _ => rfl

theorem spell_ne_nil (z : Nat → Nat → Bool) (units : Units) (hu : ∀ p ∈ units, 1 ≤ p.1) {n : Nat} (h : n ≠ 0) :
    spellWith z units n ≠ [] := by
  induction units generalizing n with
  | nil => simp [spellWith, h]
  | cons p rest ih =>
    rw [spellWith]
    split
    · exact ih (fun q hq => hu q (by simp [hq])) h
    · simp

theorem dropLeadingOne_ne_nil {ts : List CTok} (h : ts ≠ []) : dropLeadingOne ts ≠ [] := by
  unfold dropLeadingOne
  split
  · simp
  · exact h

theorem resTok_ne_nil (z : Nat → Nat → Bool) (formal np : Bool) (units : Units) (hu : ∀ p ∈ units, 1 ≤ p.1) {n : Nat} (h : n ≠ 0) :
    resTok z formal np units n ≠ [] := by
  have := spell_ne_nil z units hu h
  unfold resTok
  repeat' split
  · exact this
  · exact dropLeadingOne_ne_nil this
  · simp [this]

theorem unitsOf_pos (e : Nat → Nat) (k : Nat) : ∀ p ∈ unitsOf e k, 1 ≤ p.1 := by
  induction k with
  | zero => simp [unitsOf, sectionUnits]
  | succ k ih =>
    intro p hp
    simp only [unitsOf, List.mem_cons] at hp
    rcases hp with rfl | hp
    · exact Nat.pow_pos (by omega)
    · exact ih p hp

theorem resTok_skip {z : Nat → Nat → Bool} {formal np : Bool} {e : Nat → Nat} {r x : Nat} (h : x < 10 ^ e r) :
    resTok z formal np (unitsOf e (r + 1)) x = resTok z formal np (unitsOf e r) x := by
  unfold resTok
  rw [unitsOf, spellWith, if_pos h]

theorem resTok_step {z : Nat → Nat → Bool} (hz : GroupRule z) {formal np : Bool} {e : Nat → Nat} {r x : Nat} (h : ¬ x < 10 ^ e r)
    (h4 : e r % 4 = 0) (h3 : 1000 < 10 ^ e r) :
    resTok z formal np (unitsOf e (r + 1)) x = resTok z formal np (unitsOf e r) (x / 10 ^ e r) ++ [.large r] ++
      (if x % 10 ^ e r = 0 then [] else resTok z formal false (unitsOf e r) (x % 10 ^ e r)) := by
  have hs : spellWith z (unitsOf e (r + 1)) x = spellWith z (unitsOf e r) (x / 10 ^ e r) ++ .large r ::
      (if x % 10 ^ e r = 0 then [] else resTok z formal false (unitsOf e r) (x % 10 ^ e r)) := by
    rw [unitsOf, spellWith, if_neg h]
    congr 2
    by_cases h0 : x % 10 ^ e r = 0
    · rw [if_pos h0, h0, hz.zero]
      have := spell_digit z (unitsOf e r)
      have hnil : ∀ (u : Units), (∀ p ∈ u, 1 ≤ p.1) → spellWith z u 0 = [] := by
        intro u hu
        induction u with
        | nil => rfl
        | cons p rest ih =>
          have := hu p (by simp)
          rw [spellWith, if_pos (by omega), ih fun q hq => hu q (by simp [hq])]
      rw [hnil _ (unitsOf_pos e r)]; rfl
    · rw [if_neg h0, hz.large _ _ h3 h0]
      simp [resTok]
  have hgap : gapTok x = gapTok (x / 10 ^ e r) := by
    unfold gapTok
    rw [topPlace_pow (k := e r) (n := x) (by omega), Nat.add_mod, h4]
    simp
  have hassoc : ∀ (a b : List CTok) (c : CTok), a ++ [c] ++ b = a ++ c :: b := by simp
  rw [hassoc]
  generalize (if x % 10 ^ e r = 0 then [] else resTok z formal false (unitsOf e r) (x % 10 ^ e r)) = w at *
  unfold resTok
  rw [hs, hgap]
  cases np <;> cases formal <;> simp [dropLeadingOne_append]

/-- The scales in use: exactly the first `m` are available. -/
structure ScalesOf (scales : List (Option Nat)) (e : Nat → Nat) (m : Nat) : Prop where
  have_ : ∀ i, i < m → scales[i]?.join = some (10 ^ e i)
  none_ : ∀ i, m ≤ i → scales[i]?.join = none
  first : e 0 = 4
  four : ∀ i, i < m → e i % 4 = 0
  step : ∀ i, i + 1 < m → e i < e (i + 1) ∧ e (i + 1) ≤ 2 * e i
  few : m ≤ 11

theorem ScalesOf.ge4 {scales : List (Option Nat)} {e : Nat → Nat} {m : Nat} (h : ScalesOf scales e m) : ∀ i, i < m → 4 ≤ e i := by
  intro i
  induction i with
  | zero => intro _; rw [h.first]; omega
  | succ i ih =>
    intro hi
    have := ih (by omega)
    have := (h.step i hi).1
    omega

theorem pushStr_ch {cfg : Cfg} {s rem : NStr} {t u : List Char} (hs : s.Is t) (ha : cfg.alloc = true ∨ utf8Len t ≤ 62) (hr : rem.Is u) :
    Del cfg.alloc ChineseFormatError.outOfMemory
      (match rem.asStr with | some t => (s.pushStr cfg t).toChinese | none => .ub) (t ++ u) := by
  rw [hr.1.asStr]
  exact (hs.pushStr ha u).mapErr fun _ => ChineseFormatError.outOfMemory

theorem DelP.of_ok {ε α : Type} {alloc : Bool} {e : ε} {r : Res ε α} {a : α} {f : α → Res ε (NStr × Bool)} {t : List Char} {b : Bool}
    (h : r = .ok a) (h' : DelP alloc e (f a) t b) : DelP alloc e (r.bind f) t b := by
  subst h; exact h'

theorem scaled_step {cfg : Cfg} {chars large : List Char} {gl : CTok → Char} (hg : GlyphsOf chars large gl) {formal : Bool}
    {z : Nat → Nat → Bool} (hz : GroupRule z) {scales : List (Option Nat)} {e : Nat → Nat} {m : Nat} (hsc : ScalesOf scales e m)
    {r : Nat} (hr : r < m) {next : ScaledFn}
    (ih : ∀ x np, x ≠ 0 → x < 10 ^ e r →
      DelP cfg.alloc ChineseFormatError.outOfMemory (next x np false) ((resTok z formal np (unitsOf e r) x).map gl) false)
    {x : Nat} (np : Bool) (h0 : x ≠ 0) (hx : x / 10 ^ e r < 10 ^ e r)
    (hc1 : r + 1 < m → x < 10 ^ e (r + 1)) (hc2 : r + 1 = m → 0 < r → x / 10 ^ e r < 10 ^ e r / 10 ^ e (r - 1)) :
    DelP cfg.alloc ChineseFormatError.outOfMemory (scaledRankBody cfg large scales r next x np false)
      ((resTok z formal np (unitsOf e (r + 1)) x).map gl) false := by
  unfold scaledRankBody
  rw [hsc.have_ r hr]
  simp only
  have hp : 1 ≤ 10 ^ e r := Nat.pow_pos (by omega)
  have hp0 : ¬ 10 ^ e r = 0 := by omega
  simp only [remT, divT, if_neg hp0, Res.bind_ok]
  -- the range check passes
  refine DelP.of_ok (a := ()) ?_ ?_
  · by_cases h1 : r + 1 < m
    · rw [hsc.have_ _ h1]
      simp only
      have hlt : x / 10 ^ e r < 10 ^ e (r + 1) / 10 ^ e r := by
        have hle := Nat.le_of_lt (hsc.step r h1).1
        have hd : 10 ^ e (r + 1) = 10 ^ (e (r + 1) - e r) * 10 ^ e r := by
          rw [← Nat.pow_add]; congr 1; omega
        rw [hd, Nat.mul_div_cancel _ hp]
        rw [Nat.div_lt_iff_lt_mul hp, ← hd]
        exact hc1 h1
      rw [if_neg (by omega)]
    · rw [hsc.none_ _ (by omega)]
      simp only
      by_cases hr0 : r > 0
      · have hpp : ¬ 10 ^ e (r - 1) = 0 := by
          have : 1 ≤ 10 ^ e (r - 1) := Nat.pow_pos (by omega)
          omega
        rw [if_pos hr0, hsc.have_ _ (by omega)]
        simp only [Res.ofIndex, Res.bind_ok, if_neg hpp]
        have := hc2 (by omega) hr0
        rw [if_neg (by omega)]
      · rw [if_neg hr0]

  have hg4 := hsc.ge4 r hr
  have h1000 : 1000 < 10 ^ e r := by
    have : 10 ^ 4 ≤ 10 ^ e r := Nat.pow_le_pow_right (by omega) hg4
    omega
  have hmod : x % 10 ^ e r < 10 ^ e r := Nat.mod_lt _ hp
  by_cases hlt : x < 10 ^ e r
  · rw [resTok_skip hlt, Nat.div_eq_of_lt hlt, Nat.mod_eq_of_lt hlt, if_pos rfl, Res.bind_ok]
    simp only [if_neg h0]
    have he : NStr.new.isEmpty = true := rfl
    rw [he, Bool.true_and]
    refine (ih x np h0 hlt).bind (Nat.le_refl _) fun s hs ha => ?_
    refine (pushStr_ch NStr.new_is (.inr (by simp)) hs).bindP (by simp) fun s hs ha => ?_
    exact .ok _ _ _ (by simpa using hs) (by simpa using ha)
  · have hrv : ¬ x / 10 ^ e r = 0 := by
      intro h
      have := (Nat.div_eq_zero_iff (a := x) (b := 10 ^ e r)).mp h
      omega
    rw [resTok_step hz hlt (hsc.four r hr) h1000, if_neg hrv]
    have hfirst : DelP cfg.alloc ChineseFormatError.outOfMemory
        ((next (x / 10 ^ e r) np false).bind fun (rankFormatted, lastCharIsZero) =>
          if (!rankFormatted.isEmpty) = true then
            (pushAt cfg large r rankFormatted).toChinese.bind fun f => .ok (f, false)
          else .ok (rankFormatted, lastCharIsZero))
        ((resTok z formal np (unitsOf e r) (x / 10 ^ e r) ++ [CTok.large r]).map gl) false := by
      refine (ih _ np hrv hx).bind (by simp) fun s hs ha => ?_
      have hne := resTok_ne_nil z formal np (unitsOf e r) (unitsOf_pos e r) hrv
      have hemp : s.isEmpty = false := by
        rw [is_isEmpty hs]
        cases h : resTok z formal np (unitsOf e r) (x / 10 ^ e r) with
        | nil => exact absurd h hne
        | cons => rfl
      simp only [hemp, Bool.not_false, ↓reduceIte]
      have hpush := (pushAt_del (cfg := cfg) (hg.large r (by have := hsc.few; omega)) hs ha).mapErr fun _ => ChineseFormatError.outOfMemory
      refine hpush.bindP (by simp) fun s hs ha => ?_
      exact .ok _ _ _ (by simpa using hs) (by simpa using ha)
    refine hfirst.bind (by rw [List.map_append]; simp) fun s hs ha => ?_
    simp only
    by_cases hm0 : x % 10 ^ e r = 0
    · simp only [hm0, ↓reduceIte]
      exact .ok _ _ _ (by simpa using hs) (by simpa using ha)
    · simp only [if_neg hm0]
      have hemp : s.isEmpty = false := by
        rw [is_isEmpty hs]
        cases resTok z formal np (unitsOf e r) (x / 10 ^ e r) <;> rfl
      rw [hemp, Bool.false_and]
      refine (ih _ false hm0 hmod).bind (by simp; omega) fun s' hs' ha' => ?_
      refine (pushStr_ch hs ha hs').bindP (by simp) fun s'' hs'' ha'' => ?_
      exact .ok _ _ _ (by simpa using hs'') (by simpa using ha'')

theorem scaled_next {cfg : Cfg} {chars large : List Char} {gl : CTok → Char} (hg : GlyphsOf chars large gl) {formal : Bool}
    {z : Nat → Nat → Bool} (hz : GroupRule z) {scales : List (Option Nat)} {e : Nat → Nat} {m : Nat} (hsc : ScalesOf scales e m) :
    ∀ r, r < m → ∀ x np, x ≠ 0 → x < 10 ^ e r →
      DelP cfg.alloc ChineseFormatError.outOfMemory (scaledNext cfg formal chars large scales r x np false)
        ((resTok z formal np (unitsOf e r) x).map gl) false := by
  intro r
  induction r with
  | zero =>
    intro _ x np h0 hx
    rw [hsc.first] at hx
    have hx : x < 10000 := hx
    unfold scaledNext resTok
    cases np with
    | true =>
      exact (inner_first_del hg formal hz.sec h0 hx).mapErr fun _ => ChineseFormatError.outOfMemory
    | false =>
      have h := (inner_rest_del (cfg := cfg) hg formal false hz.sec h0 hx).mapErr fun _ => ChineseFormatError.outOfMemory
      have he : (if x < 1000 ∧ false = false then [CTok.zero] else []) = gapTok x := by
        unfold gapTok
        have := topPlace_group hx
        by_cases h1 : x < 1000
        · rw [if_pos ⟨h1, rfl⟩, if_neg (by omega)]
        · rw [if_neg (by simp [h1]), if_pos (by omega)]
      rw [he] at h
      exact h
  | succ r ih =>
    intro hr x np h0 hx
    have hst := hsc.step r hr
    refine scaled_step hg hz hsc (by omega) (ih (by omega)) np h0 ?_ (fun _ => hx) (fun h => by omega)
    rw [Nat.div_lt_iff_lt_mul (Nat.pow_pos (by omega)), ← Nat.pow_add]
    exact Nat.lt_of_lt_of_le hx (Nat.pow_le_pow_right (by omega) (by omega))

theorem scaled_skip {cfg : Cfg} {formal : Bool} {chars large : List Char} {scales : List (Option Nat)} {e : Nat → Nat} {m : Nat}
    (hsc : ScalesOf scales e m) (k : Nat) :
    scaledRankBody cfg large scales (m + k) (scaledNext cfg formal chars large scales (m + k)) =
      scaledNext cfg formal chars large scales m := by
  have key : ∀ r, m ≤ r → scaledRankBody cfg large scales r (scaledNext cfg formal chars large scales r) =
      scaledNext cfg formal chars large scales r := by
    intro r hr
    funext x np l
    unfold scaledRankBody
    rw [hsc.none_ r hr]
  rw [key _ (by omega)]
  induction k with
  | zero => rfl
  | succ k ih =>
    rw [← Nat.add_assoc, scaledNext, key _ (by omega)]
    exact ih

/-- The scaled formatters write the specified tokens. -/
theorem formatScaled_del {cfg : Cfg} {T : IntTy} {chars large : List Char} {gl : CTok → Char} (hg : GlyphsOf chars large gl) {formal : Bool}
    {z : Nat → Nat → Bool} (hz : GroupRule z) {L : List Nat} {e : Nat → Nat} {m x : Nat}
    (hsc : ScalesOf (L.map (T.tryFrom cfg)) e m) (hm : 0 < m) (h0 : x ≠ 0) (hx : x / 10 ^ e (m - 1) < 10 ^ e (m - 1))
    (hc : 1 < m → x / 10 ^ e (m - 1) < 10 ^ e (m - 1) / 10 ^ e (m - 1 - 1)) (hm10 : m ≤ 10) :
    Del cfg.alloc ChineseFormatError.outOfMemory (formatScaled cfg T formal L chars large x)
      ((if formal then spellWith z (unitsOf e m) x else dropLeadingOne (spellWith z (unitsOf e m) x)).map gl) := by
  unfold formatScaled
  simp only
  have e10 : 10 = m + (10 - m) := by omega
  obtain ⟨k, hk⟩ : ∃ k, m = k + 1 := ⟨m - 1, by omega⟩
  have hskip := scaled_skip (cfg := cfg) (formal := formal) (chars := chars) (large := large) hsc (10 - m)
  rw [← e10] at hskip
  rw [hskip]
  subst hk
  rw [scaledNext]
  have := scaled_step (formal := formal) (cfg := cfg) hg hz hsc (r := k) (by omega) (scaled_next hg hz hsc k (by omega)) (x := x) true h0
    hx (fun h => by omega) (fun _ h => hc (by omega))
  have := this.fst
  simpa [resTok] using this

end Nominals
